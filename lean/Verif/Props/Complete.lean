import Verif.Proofs.Cover4
import Verif.Props.CheckParse
/-!
Property theorems about what is reported (C73): no character that is to be noticed and no broken encoding
is missed, wherever it is in the text.
-/
namespace CodeParser.Props
open CodeParser.Spec
open CodeParser.Chk (Env Ev Fail Report)
open CodeParser.Chk.Par (Result resultOf)

/-! ### C73: nothing is missed -/

theorem start_col (conv : Conv) : Chk.ColOK conv.start := (Chk.init_pos .default conv []).col

/-- C73: if issues are looked for, tokenizing reports every character that is to be noticed, and every
place where the encoding is broken, where it is. -/
theorem C73_tokens (E : Env) (hc : E.check = true) (hn : E.normal = true) (conv : Conv) (first : FirstLine) (bs : List UInt8)
    (ts : List Tok) (t : St) (es : List Ev) (h : Chk.tokens E conv first bs = .ok (ts, t, es)) :
    CharactersTold E.cfg bs conv.start (fun i => .issue i ∈ es) ∧ BreaksTold E.cfg bs conv.start (fun i => .issue i ∈ es) := by
  obtain ⟨l, hl, -⟩ := Chk.Par.Cov.tokens_p (Chk.Cov.seen_cover (L := (· ∈ es)) (bs := bs) (l0 := conv.start) hc hn) h
    ⟨.start, start_col conv⟩ fun _ he => he
  exact ⟨hl.characters, hl.breaks⟩

/-- What the result of parsing keeps of the events. -/
theorem parse_events {E : Env} {conv : Conv} {first : FirstLine} {bs : List UInt8} {r : Result}
    (h : Chk.Par.parseBytesCst E conv first bs = .ok r) :
    ∃ cs s es cs', Chk.Par.doParse ⟨E, Chk.Par.recoverGroup E bs⟩ conv first bs = .ok (cs, s, es) ∧ r = resultOf cs' s.st.flag es := by
  unfold Chk.Par.parseBytesCst at h
  rcases h1 : Chk.Par.doParse ⟨E, Chk.Par.recoverGroup E bs⟩ conv first bs with e | ⟨cs, s, es⟩ <;> rw [h1] at h
  · cases h
  · simp only at h
    refine ⟨cs, s, es, ?_⟩
    rcases h2 : fromUtf8 bs with _ | input <;> rw [h2] at h
    · cases h; exact ⟨_, rfl, rfl⟩
    · simp only at h
      rcases h3 : fixCsts E.cfg (Chk.Par.isStatement E) input cs with e | cs' <;> rw [h3] at h
      · cases h
      · cases h; exact ⟨_, rfl, rfl⟩

theorem nonFatal_of {cs : List Cst} {f : Option Unsafe} {es : List Ev} {i : Report} (h : .issue i ∈ es) (hs : i.sev ≠ .fatal) :
    i ∈ (resultOf cs f es).nonFatal := by
  obtain ⟨j, hj, h1⟩ := (C09_issue_log (issuesOf es)).2.2.2.2.2.1 _ (issue_mem h) hs
  show i ∈ (Chk.Par.logOf es).nonFatal.map (·.key)
  rw [log_same]
  exact List.mem_map.mpr ⟨j, hj, h1.1⟩

theorem fatal_of {cs : List Cst} {f : Option Unsafe} {es : List Ev} {i : Report} (h : .issue i ∈ es) (hs : i.sev = .fatal) :
    (resultOf cs f es).fatal.length = 10 ∨ i ∈ (resultOf cs f es).fatal := by
  rcases (C09_issue_log (issuesOf es)).2.2.2.2.2.2 _ (issue_mem h) hs with h1 | ⟨j, hj, h1⟩
  · left
    show ((Chk.Par.logOf es).fatal.map (·.key)).length = 10
    rw [List.length_map, log_same]
    exact h1
  · right
    show i ∈ (Chk.Par.logOf es).fatal.map (·.key)
    rw [log_same]
    exact List.mem_map.mpr ⟨j, hj, h1.1⟩

/-- C73 for parsing: every character that is to be noticed has its issue in the result; every place where
the encoding is broken has its fatal issue there, unless there are ten fatal issues. -/
theorem C73_parse (E : Env) (hc : E.check = true) (hn : E.normal = true) (conv : Conv) (first : FirstLine) (bs : List UInt8) (r : Result)
    (h : Chk.Par.parseBytesCst E conv first bs = .ok r) :
    CharactersTold E.cfg bs conv.start (· ∈ r.nonFatal) ∧ (r.fatal.length = 10 ∨ BreaksTold E.cfg bs conv.start (· ∈ r.fatal)) := by
  obtain ⟨cs, s, es, cs', h1, rfl⟩ := parse_events h
  obtain ⟨l, hl, -⟩ := Chk.Par.Cov.doParse_p (Chk.Cov.seen_cover (L := (· ∈ es)) (bs := bs) (l0 := conv.start) hc hn) h1
    ⟨.start, start_col conv⟩ fun _ he => he
  constructor
  · intro before c after l hb hm hu
    obtain ⟨i, hi, h2, h3⟩ := hl.characters before c after l hb hm hu
    exact ⟨i, nonFatal_of hi h2.2.1, h2, h3⟩
  · by_cases h10 : (resultOf cs' s.st.flag es).fatal.length = 10
    · exact .inl h10
    · right
      intro before rest l hb hne hm hu
      obtain ⟨i, hi, h2, h3⟩ := hl.breaks before rest l hb hne hm hu
      exact ⟨i, (fatal_of hi h2.2.1).resolve_left h10, h2, h3⟩

/-- A curly quote and a letter beyond ASCII inside a comment, a string and a symbol. -/
def foreign : List UInt8 := encode "(*é*)\"“\"+ü".toList

example : ((Chk.Par.parseBytesCst checking .lineColumn .notScript foreign).map fun r => (r.fatal, r.nonFatal.map fun i => (i.tag, i.span))) =
    .ok ([], [(.nonASCIICharacter, ⟨.lineCol 1 3, .lineCol 1 4⟩), (.unexpectedCharacter, ⟨.lineCol 1 7, .lineCol 1 8⟩),
      (.nonASCIICharacter, ⟨.lineCol 1 10, .lineCol 1 11⟩), (.unexpectedLetterlikeCharacter, ⟨.lineCol 1 10, .lineCol 1 11⟩)]) := by
  decide +kernel

/-- The exceptions are real: a form feed between symbols has no such issue (only one about a space), ... -/
theorem C73_spaces : ∃ r, Chk.Par.parseBytesCst checking .lineColumn .notScript [0x61, 0x0c, 0x62] = .ok r ∧
    ∀ i ∈ r.fatal ++ r.nonFatal, ¬ aboutCharacter i := by
  have h : ((Chk.Par.parseBytesCst checking .lineColumn .notScript [0x61, 0x0c, 0x62]).map fun r =>
      (r.fatal ++ r.nonFatal).map (·.maker)) = .ok [.syn] := by decide +kernel
  rcases hp : Chk.Par.parseBytesCst checking .lineColumn .notScript [0x61, 0x0c, 0x62] with e | r <;> rw [hp] at h
  · cases h
  · injection h with h
    refine ⟨r, rfl, fun i hi ha => ?_⟩
    have h1 := List.mem_map_of_mem (f := Report.maker) hi
    rw [show List.map Report.maker (r.fatal ++ r.nonFatal) = [.syn] from h, ha.1] at h1
    exact absurd h1 (by decide)

/-- ... and without `EncodingMode::Normal` characters beyond ASCII are not. -/
theorem C73_mode : ∃ r, Chk.Par.parseBytesCst { checking with normal := false } .lineColumn .notScript (encode ['(', '*', 'é', '*', ')']) = .ok r ∧
    r.fatal ++ r.nonFatal = [] := by
  have h : ((Chk.Par.parseBytesCst { checking with normal := false } .lineColumn .notScript (encode ['(', '*', 'é', '*', ')'])).map fun r =>
      r.fatal ++ r.nonFatal) = .ok [] := by decide +kernel
  rcases hp : Chk.Par.parseBytesCst { checking with normal := false } .lineColumn .notScript (encode ['(', '*', 'é', '*', ')']) with e | r <;>
    rw [hp] at h
  · cases h
  · injection h with h
    exact ⟨r, rfl, h⟩

/-- `CharactersTold` is about something: the place of the `é` in `foreign`. -/
example : ∃ before after l, foreign = before ++ (String.utf8EncodeChar 'é' ++ after) ∧
    Moves .default before (String.utf8EncodeChar 'é' ++ after) Conv.lineColumn.start l ∧ Noticed 'é' ∧ l = .lineCol 1 3 :=
  ⟨bytes ['(', '*'], encode "*)\"“\"+ü".toList, .lineCol 1 3, by decide +kernel, ⟨2, by decide +kernel⟩, ⟨.inr (by decide), by decide, by decide⟩, rfl⟩

/-- `BreaksTold` is about something: a byte that is not UTF-8 behind a symbol. -/
example : Moves .default [0x61] [0xff, 0x2b] Conv.lineColumn.start (.lineCol 1 2) := ⟨1, by decide +kernel⟩

end CodeParser.Props
