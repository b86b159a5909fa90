import Verif.Proofs.Check14
import Verif.Props.Check
import Verif.Props.Tokenize
import Verif.Props.Util
/-!
Property theorems about parsing with issues (C66-C69).

`Chk.Par.parseBytesCst E` is parsing with the options `check_issues` and `compute_oob` of `E`, with the
lists of issues and the tracked locations in its result; `CodeParser.parseBytesCst` is parsing without.
-/
namespace CodeParser.Props
open CodeParser.Spec
open CodeParser.Chk (Env Ev Fail Report)
open CodeParser.Chk.Par (Result resultOf)

/-! ### Helper lemmas -/

theorem isStatement_same (E : Env) (line : List Char) : Chk.Par.isStatement E line = isStatement E.cfg line := by
  have h := C62_tokens (Chk.Par.nested E) .lineColumn .notScript (line.flatMap String.utf8EncodeChar)
  have hc : (Chk.Par.nested E).cfg = E.cfg.nested := rfl
  rw [hc] at h
  have key : Chk.Par.tokenizeWith (fun _ => .error .fuel) (Chk.Par.nested E) .lineColumn .notScript line =
      tokenizeWith (fun _ => .error .fuel) E.cfg.nested .lineColumn .notScript line := by
    unfold Chk.Par.tokenizeWith tokenizeWith Chk.Par.tokenizeBytesWith tokenizeBytesWith
    rw [hc]
    rcases hb : tokens E.cfg.nested .lineColumn .notScript (line.flatMap String.utf8EncodeChar) with e | ⟨ts, t⟩
    · rw [h.2 e hb]
      rfl
    · obtain ⟨t', es, h1, -, -, h2⟩ := h.1 ts t hb
      rw [h1]
      simp only
      rcases hf : t.flag with _ | f <;> rcases hf' : t'.flag with _ | f'
      · rfl
      · exact absurd hf (h2.mp (by rw [hf']; simp))
      · exact absurd hf' (h2.mpr (by rw [hf]; simp))
      · rfl
  unfold Chk.Par.isStatement isStatement isStatementWith
  rw [key]
  rcases tokenizeWith (fun _ => .error .fuel) E.cfg.nested .lineColumn .notScript line with e | ts <;> rfl

theorem recoverGroup_same (E : Env) (bs : List UInt8) : Chk.Par.recoverGroup E bs = recoverGroup E.cfg bs := by
  funext op cs
  unfold Chk.Par.recoverGroup recoverGroup
  rw [show Chk.Par.isStatement E = isStatement E.cfg from funext (isStatement_same E)]
  rcases fromUtf8 bs with _ | input
  · rfl
  · rcases sourceOf cs with _ | src
    · rfl
    · simp only
      rcases goodLines E.cfg (isStatement E.cfg) input src with _ | ⟨_, _, better⟩ <;> rfl

/-- Parsing with issues beside parsing without. -/
theorem parse_beside (E : Env) (Q : St → St → List Ev → Prop) (L : Chk.Law E Q) (conv : Conv) (first : FirstLine) (bs : List UInt8) :
    match parseBytesCst E.cfg conv first bs, Chk.Par.parseBytesCst E conv first bs with
    | .ok r, .ok r' => ∃ t es, r' = resultOf r.syntax' t.flag es ∧ Q (St.init conv bs) t es ∧ Chk.Pos E.cfg (St.init conv bs) t ∧
        (r.unsafeEncoding ≠ none → t.flag ≠ none) ∧
        ∀ e ∈ es, Chk.Placed E.cfg (.all (Chk.Spot E.cfg (St.init conv bs))) (St.init conv bs) e
    | .error e, .error e' => e' = .base e ∨ (e' = .base (.panic .surrogate) ∧ HasSurrogateEscape bs)
    | .ok _, .error e' => e' = .base (.panic .surrogate) ∧ HasSurrogateEscape bs
    | .error _, .ok _ => False := by
  have h := Chk.Par.doParse_out L (rc := recoverGroup E.cfg bs) conv first bs
  unfold parseBytesCst Chk.Par.parseBytesCst
  rw [recoverGroup_same, show Chk.Par.isStatement E = isStatement E.cfg from funext (isStatement_same E)]
  rcases h1 : doParse ⟨E.cfg, recoverGroup E.cfg bs⟩ conv first bs with e | ⟨cs, s⟩ <;>
    rcases h2 : Chk.Par.doParse ⟨E, recoverGroup E.cfg bs⟩ conv first bs with e' | ⟨cs', s', es⟩ <;> rw [h1, h2] at h
  · exact h
  · exact h.elim
  · obtain ⟨rfl, h⟩ := h
    simp only
    rcases fromUtf8 bs with _ | input
    · exact ⟨rfl, h⟩
    · simp only
      rcases fixCsts E.cfg (isStatement E.cfg) input cs with e | cs'
      · exact .inr ⟨rfl, h⟩
      · exact ⟨rfl, h⟩
  · obtain ⟨rfl, h3, h4, h5, h6⟩ := h
    simp only
    rcases fromUtf8 bs with _ | input
    · exact ⟨s'.st, es, rfl, h5, h4.pos, h3.st.flag, h6⟩
    · simp only
      rcases fixCsts E.cfg (isStatement E.cfg) input cs with e | cs'
      · exact .inl rfl
      · exact ⟨s'.st, es, rfl, h5, h4.pos, h3.st.flag, h6⟩

theorem parse_inv {E : Env} {Q : St → St → List Ev → Prop} (L : Chk.Law E Q) {conv : Conv} {first : FirstLine} {bs : List UInt8}
    {r' : Result} (h : Chk.Par.parseBytesCst E conv first bs = .ok r') :
    ∃ r t es, parseBytesCst E.cfg conv first bs = .ok r ∧ r' = resultOf r.syntax' t.flag es ∧ Q (St.init conv bs) t es ∧
      Chk.Pos E.cfg (St.init conv bs) t ∧ (r.unsafeEncoding ≠ none → t.flag ≠ none) ∧
      ∀ e ∈ es, Chk.Placed E.cfg (.all (Chk.Spot E.cfg (St.init conv bs))) (St.init conv bs) e := by
  have h1 := parse_beside E Q L conv first bs
  rw [h] at h1
  rcases h2 : parseBytesCst E.cfg conv first bs with e | r <;> rw [h2] at h1
  · exact h1.elim
  · obtain ⟨t, es, h1⟩ := h1
    exact ⟨r, t, es, rfl, h1⟩

/-- The issues among the events. -/
def issuesOf (es : List Ev) : List (Issue Report Unit) := es.filterMap fun | .issue i => some (Chk.Par.Report.entry i) | _ => none

theorem mem_issuesOf {es : List Ev} {i : Issue Report Unit} (h : i ∈ issuesOf es) : .issue i.key ∈ es ∧ i.sev = i.key.sev := by
  unfold issuesOf at h
  obtain ⟨e, he, h1⟩ := List.mem_filterMap.mp h
  cases e with
  | issue j => cases h1; exact ⟨he, rfl⟩
  | _ => cases h1

theorem issue_mem {es : List Ev} {i : Report} (h : .issue i ∈ es) : Chk.Par.Report.entry i ∈ issuesOf es :=
  List.mem_filterMap.mpr ⟨_, h, rfl⟩

theorem log_same (es : List Ev) : Chk.Par.logOf es = logOf (issuesOf es) := by
  unfold Chk.Par.logOf logOf
  generalize IssueLog.empty = log
  induction es generalizing log with
  | nil => rfl
  | cons e es ih =>
    cases e with
    | issue i => exact ih _
    | _ => exact ih _

theorem fatal_mem {cs : List Cst} {f : Option Unsafe} {es : List Ev} {i : Report} (h : i ∈ (resultOf cs f es).fatal) :
    .issue i ∈ es ∧ i.sev = .fatal := by
  obtain ⟨j, hj, rfl⟩ := List.mem_map.mp h
  rw [log_same] at hj
  have := (C09_issue_log (issuesOf es)).2.2.2.1.subset hj
  obtain ⟨h1, h2⟩ := List.mem_filter.mp this
  have h3 := mem_issuesOf h1
  exact ⟨h3.1, h3.2.symm.trans (of_decide_eq_true h2)⟩

theorem nonFatal_mem {cs : List Cst} {f : Option Unsafe} {es : List Ev} {i : Report} (h : i ∈ (resultOf cs f es).nonFatal) :
    .issue i ∈ es ∧ i.sev ≠ .fatal := by
  obtain ⟨j, hj, rfl⟩ := List.mem_map.mp h
  rw [log_same] at hj
  have := (C09_issue_log (issuesOf es)).2.2.2.2.1.subset hj
  obtain ⟨h1, h2⟩ := List.mem_filter.mp this
  have h3 := mem_issuesOf h1
  exact ⟨h3.1, fun h => of_decide_eq_true h2 (h3.2.trans h)⟩

theorem nodup_eraseDups (n : Nat) : ∀ ls : List Loc, ls.length ≤ n → ls.eraseDups.Nodup := by
  induction n with
  | zero =>
    intro ls h
    rw [List.eq_nil_of_length_eq_zero (Nat.le_zero.mp h)]
    exact List.nodup_nil
  | succ n ih =>
    intro ls h
    cases ls with
    | nil => exact List.nodup_nil
    | cons a ls =>
      rw [List.eraseDups_cons]
      refine List.nodup_cons.mpr ⟨fun h1 => ?_, ih _ (Nat.le_trans (List.length_filter_le _ _) (Nat.le_of_succ_le_succ h))⟩
      have := (List.mem_filter.mp (List.mem_eraseDups.mp h1)).2
      simp at this

/-! ### C66: looking for issues does not change the tree -/

/-- C66: whatever the options, parsing with issues and tracked locations gives the tree that parsing
without them gives, with an encoding error in the same cases, and fails if parsing without them fails,
with the same failure; or else the text contains the escape of a surrogate, and parsing with issues
fails because of it. -/
theorem C66_parse (E : Env) (conv : Conv) (first : FirstLine) (bs : List UInt8) :
    (∀ r, parseBytesCst E.cfg conv first bs = .ok r →
      (∃ r', Chk.Par.parseBytesCst E conv first bs = .ok r' ∧ r'.syntax' = r.syntax' ∧
        (r'.unsafeEncoding ≠ none ↔ r.unsafeEncoding ≠ none)) ∨
      HasSurrogateEscape bs ∧ Chk.Par.parseBytesCst E conv first bs = .error (.base (.panic .surrogate))) ∧
    ∀ e, parseBytesCst E.cfg conv first bs = .error e →
      Chk.Par.parseBytesCst E conv first bs = .error (.base e) ∨
      HasSurrogateEscape bs ∧ Chk.Par.parseBytesCst E conv first bs = .error (.base (.panic .surrogate)) := by
  have h := parse_beside E _ (Chk.off_law E) conv first bs
  constructor
  · intro r hr
    rw [hr] at h
    rcases h2 : Chk.Par.parseBytesCst E conv first bs with e' | r' <;> rw [h2] at h
    · exact .inr ⟨h.2, congrArg _ h.1⟩
    · obtain ⟨t, es, rfl, -, h3, h4, -⟩ := h
      refine .inl ⟨_, rfl, rfl, fun hf => ?_, h4⟩
      rw [C44_parse hr]
      exact h3.flag hf
  · intro e hr
    rw [hr] at h
    rcases h2 : Chk.Par.parseBytesCst E conv first bs with e' | r' <;> rw [h2] at h
    · rcases h with rfl | ⟨rfl, h⟩
      · exact .inl rfl
      · exact .inr ⟨h, rfl⟩
    · exact h.elim

/-- C66 for texts without the escape of a surrogate: the same tree, the same failures. -/
theorem C66_same (E : Env) (conv : Conv) (first : FirstLine) (bs : List UInt8) (hs : ¬ HasSurrogateEscape bs) :
    (∀ r, parseBytesCst E.cfg conv first bs = .ok r → ∃ r', Chk.Par.parseBytesCst E conv first bs = .ok r' ∧
      r'.syntax' = r.syntax' ∧ (r'.unsafeEncoding ≠ none ↔ r.unsafeEncoding ≠ none)) ∧
    ∀ e, parseBytesCst E.cfg conv first bs = .error e → Chk.Par.parseBytesCst E conv first bs = .error (.base e) := by
  have h := C66_parse E conv first bs
  exact ⟨fun r hr => (h.1 r hr).resolve_right fun h1 => hs h1.1, fun e he => (h.2 e he).resolve_right fun h1 => hs h1.1⟩

/-- Whatever the options of two sessions with the same syntax settings, the trees they give are equal. -/
theorem C66_options (E E' : Env) (he : E.cfg = E'.cfg) (conv : Conv) (first : FirstLine) (bs : List UInt8) (r r' : Result)
    (h : Chk.Par.parseBytesCst E conv first bs = .ok r) (h' : Chk.Par.parseBytesCst E' conv first bs = .ok r') :
    r.syntax' = r'.syntax' := by
  obtain ⟨q, t, es, h1, rfl, -⟩ := parse_inv (Chk.off_law E) h
  obtain ⟨q', t', es', h1', rfl, -⟩ := parse_inv (Chk.off_law E') h'
  rw [← he, h1] at h1'
  cases h1'
  rfl

/-- C66: looking for issues adds no way to fail: parsing with issues only ends in the panics that parsing
without issues can end in, never in an arithmetic overflow or a failed assertion of the code that reports
issues, and it terminates. -/
theorem C66_no_new_panic (E : Env) (conv : Conv) (first : FirstLine) (bs : List UInt8) (f : Fail)
    (h : Chk.Par.parseBytesCst E conv first bs = .error f) :
    f ∈ [Err.panic .surrogate, .panic .utf8, .panic .recovery, .panic .encoding].map Fail.base := by
  have h1 := C66_parse E conv first bs
  rcases hb : parseBytesCst E.cfg conv first bs with e | r
  · rcases h1.2 e hb with h2 | ⟨-, h2⟩ <;> rw [h] at h2 <;> cases h2
    · exact List.mem_map_of_mem (parse_sites hb)
    · simp
  · rcases h1.1 r hb with ⟨r', h2, -⟩ | ⟨-, h2⟩ <;> rw [h] at h2 <;> cases h2
    simp

/-- C66: a text without escaped surrogates, byte order marks and blank lines can be parsed with issues,
for positions given by line and column (see C35 for the other texts). -/
theorem C66_returns (E : Env) (first : FirstLine) (input : List Char) (h1 : ¬ HasSurrogateEscape (encode input))
    (h2 : BOM ∉ input) (h3 : ¬ HasBlank input) : ∃ r, Chk.Par.parseBytesCst E .lineColumn first (encode input) = .ok r := by
  obtain ⟨r, hr⟩ := C35_no_panic_partial (cfg := E.cfg) (first := first) h1 h2 h3
  obtain ⟨r', hr', -⟩ := (C66_same E .lineColumn first _ h1).1 r hr
  exact ⟨r', hr'⟩

theorem no_numeral {bs : List UInt8} (h : byte ':' ∉ bs) (h' : byte '|' ∉ bs) : ¬ HasSurrogateEscape bs := by
  rintro ⟨pre, r, rfl, hr⟩
  cases hr with
  | hex4 _ _ _ => exact h (by simp)
  | hex6 _ _ _ => exact h' (by simp)

example : ¬ HasSurrogateEscape flawed ∧ (parseBytesCst Cfg.default .lineColumn .notScript flawed).toOption.isSome :=
  ⟨no_numeral (by decide +kernel) (by decide +kernel), by decide +kernel⟩

/-! ### C67: issues and tracked locations are in the text -/

/-- C67: the spans of all issues in the result, and of all code actions offered for them, cover pieces of
the text. -/
theorem C67_issues (E : Env) (conv : Conv) (first : FirstLine) (bs : List UInt8) (r : Result)
    (h : Chk.Par.parseBytesCst E conv first bs = .ok r) (i : Report) (hi : i ∈ r.fatal ++ r.nonFatal) :
    Piece E.cfg bs conv.start i.span ∧ ∀ a ∈ i.actions, Piece E.cfg bs conv.start a.span := by
  obtain ⟨q, t, es, -, rfl, -, -, -, h6⟩ := parse_inv (Chk.off_law E) h
  have hm : .issue i ∈ es := by
    rcases List.mem_append.mp hi with hi | hi
    · exact (fatal_mem hi).1
    · exact (nonFatal_mem hi).1
  have := h6 _ hm
  exact ⟨this.1.piece, fun a ha => (this.2.1 a ha).piece⟩

/-- C67: the tracked locations in the result are locations of the text, each is given once. -/
theorem C67_tracked (E : Env) (conv : Conv) (first : FirstLine) (bs : List UInt8) (r : Result)
    (h : Chk.Par.parseBytesCst E conv first bs = .ok r) :
    ∀ ls ∈ [r.simpleContinuations, r.complexContinuations, r.embeddedNewlines, r.embeddedTabs],
      ls.Nodup ∧ ∀ l ∈ ls, Within E.cfg bs conv.start l := by
  obtain ⟨q, t, es, -, rfl, -, -, -, h6⟩ := parse_inv (Chk.off_law E) h
  have key : ∀ f : Ev → Option Loc, (∀ e l, f e = some l → recorded e = some l) →
      (es.filterMap f).eraseDups.Nodup ∧ ∀ l ∈ (es.filterMap f).eraseDups, Within E.cfg bs conv.start l := by
    intro f hf
    refine ⟨nodup_eraseDups _ _ Nat.le.refl, fun l hl => ?_⟩
    obtain ⟨e, he, h1⟩ := List.mem_filterMap.mp (List.mem_eraseDups.mp hl)
    have h2 := hf e l h1
    have := h6 _ he
    cases e with
    | issue i => cases h2
    | _ => cases h2; exact Chk.Spot.within this
  intro ls hls
  simp only [List.mem_cons, List.not_mem_nil, or_false] at hls
  rcases hls with rfl | rfl | rfl | rfl <;> refine key _ ?_ <;> intro e l he <;> cases e <;> first | cases he; rfl | cases he

/-- C67: at most ten fatal issues are given, all of them are fatal and none of the others is; no issue is
given twice. -/
theorem C67_lists (E : Env) (conv : Conv) (first : FirstLine) (bs : List UInt8) (r : Result)
    (h : Chk.Par.parseBytesCst E conv first bs = .ok r) :
    r.fatal.length ≤ 10 ∧ (∀ i ∈ r.fatal, i.sev = .fatal) ∧ (∀ i ∈ r.nonFatal, i.sev ≠ .fatal) ∧
    (r.fatal ++ r.nonFatal).Nodup := by
  obtain ⟨q, t, es, -, rfl, -, -, -, -⟩ := parse_inv (Chk.off_law E) h
  have hl := C09_issue_log (issuesOf es)
  refine ⟨?_, fun i hi => (fatal_mem hi).2, fun i hi => (nonFatal_mem hi).2, ?_⟩
  · show ((Chk.Par.logOf es).fatal.map (·.key)).length ≤ 10
    rw [List.length_map, log_same]
    exact hl.1
  · rw [List.nodup_append]
    refine ⟨?_, ?_, ?_⟩
    · show ((Chk.Par.logOf es).fatal.map (·.key)).Nodup
      rw [log_same]
      rw [List.Nodup, List.pairwise_map]
      refine (hl.2.1.imp_of_mem ?_)
      intro a b ha hb hab hk
      have h1 := mem_issuesOf (List.mem_filter.mp (hl.2.2.2.1.subset ha)).1
      have h2 := mem_issuesOf (List.mem_filter.mp (hl.2.2.2.1.subset hb)).1
      exact hab ⟨hk, by rw [h1.2, h2.2, hk]⟩
    · show ((Chk.Par.logOf es).nonFatal.map (·.key)).Nodup
      rw [log_same]
      rw [List.Nodup, List.pairwise_map]
      refine (hl.2.2.1.imp_of_mem ?_)
      intro a b ha hb hab hk
      have h1 := mem_issuesOf (List.mem_filter.mp (hl.2.2.2.2.1.subset ha)).1
      have h2 := mem_issuesOf (List.mem_filter.mp (hl.2.2.2.2.1.subset hb)).1
      exact hab ⟨hk, by rw [h1.2, h2.2, hk]⟩
    · intro i hi j hj hij
      exact (nonFatal_mem hj).2 (hij ▸ (fatal_mem hi).2)

/-- What is reported about an operator that runs into another one and an escape that is
none. -/
example : ((Chk.Par.parseBytesCst checking .lineColumn .notScript (bytes "a++=\\q".toList)).map fun r => (r.fatal, r.nonFatal)) = .ok (
    [⟨.syn, .unhandledCharacter, .fatal, ⟨.lineCol 1 5, .lineCol 1 7⟩, 100, [.replace ⟨.lineCol 1 5, .lineCol 1 7⟩ [92, 92, 113]]⟩],
    [⟨.fmt, .ambiguous, .formatting, ⟨.lineCol 1 4, .lineCol 1 4⟩, 100, [.insert ⟨.lineCol 1 4, .lineCol 1 4⟩ [32]]⟩]) := by
  decide +kernel

/-- What is recorded about a symbol over two lines and a string over two lines. -/
example : ((Chk.Par.parseBytesCst checking .lineColumn .notScript (bytes "a\\\nb;\"s\nt\"".toList)).map fun r =>
    (r.complexContinuations, r.simpleContinuations, r.embeddedNewlines)) = .ok ([], [.lineCol 1 1], [.lineCol 2 3]) := by
  decide +kernel

/-! ### C68: broken encodings are reported -/

/-- C68: if issues are looked for, the result has an encoding error exactly if the text is not UTF-8 or
contains a byte order mark; then there is a fatal issue about the encoding in the result, unless there are
ten fatal issues already; a fatal issue about the encoding is only in the result if there is such an
error. -/
theorem C68_reported (E : Env) (hc : E.check = true) (conv : Conv) (first : FirstLine) (bs : List UInt8) (r : Result)
    (h : Chk.Par.parseBytesCst E conv first bs = .ok r) :
    (r.unsafeEncoding ≠ none ↔ (¬ ValidUTF8 bs ∨ ∃ cs, bs = encode cs ∧ BOM ∈ cs)) ∧
    (r.unsafeEncoding ≠ none → r.fatal.length = 10 ∨ ∃ i ∈ r.fatal, aboutEncoding (.issue i)) ∧
    ((∃ i ∈ r.fatal, aboutEncoding (.issue i)) → r.unsafeEncoding ≠ none) := by
  obtain ⟨q, t, es, h1, rfl, h2, h3, h4, -⟩ := parse_inv (Chk.encoding_law E) h
  refine ⟨⟨fun hf => h3.flag hf, fun hb => h4 ((C44_parse h1).mpr hb)⟩, fun hf => ?_, fun ⟨i, hi, ha⟩ => h2.2.1 ⟨_, (fatal_mem hi).1, ha⟩⟩
  obtain ⟨e, he, ha⟩ := h2.2.2 hc rfl hf
  cases e with
  | issue i =>
    rcases (C09_issue_log (issuesOf es)).2.2.2.2.2.2 _ (issue_mem he) ha.2.1 with h5 | ⟨j, hj, h5⟩
    · left
      show ((Chk.Par.logOf es).fatal.map (·.key)).length = 10
      rw [List.length_map, log_same]
      exact h5
    · right
      refine ⟨j.key, ?_, ?_⟩
      · show j.key ∈ (Chk.Par.logOf es).fatal.map (·.key)
        rw [log_same]
        exact List.mem_map_of_mem hj
      · rw [h5.1]; exact ha
  | _ => exact ha.elim

/-- C68: a result without fatal issues means that the text is UTF-8 and contains no byte order mark. -/
theorem C68_clean (E : Env) (hc : E.check = true) (conv : Conv) (first : FirstLine) (bs : List UInt8) (r : Result)
    (h : Chk.Par.parseBytesCst E conv first bs = .ok r) (hf : r.fatal = []) : ∃ cs, bs = encode cs ∧ BOM ∉ cs := by
  obtain ⟨h1, h2, -⟩ := C68_reported E hc conv first bs r h
  have h3 : ¬ (¬ ValidUTF8 bs ∨ ∃ cs, bs = encode cs ∧ BOM ∈ cs) := by
    rw [← h1]
    intro h4
    rcases h2 h4 with h5 | ⟨i, hi, -⟩
    · rw [hf] at h5; cases h5
    · rw [hf] at hi; cases hi
  obtain ⟨cs, rfl⟩ := Classical.not_not.mp fun h4 => h3 (.inl h4)
  exact ⟨cs, rfl, fun h4 => h3 (.inr ⟨cs, rfl, h4⟩)⟩

/-- Ten escapes that are none, and a byte that is not UTF-8. -/
def tenFlaws : List UInt8 := bytes "\\q\\q\\q\\q\\q\\q\\q\\q\\q\\q".toList ++ [0xff]

/-- The exception in `C68_reported`: behind ten other fatal issues the encoding error is in the result, but
no issue is about the encoding. -/
theorem C68_dropped : ∃ r, Chk.Par.parseBytesCst checking .lineColumn .notScript tenFlaws = .ok r ∧
    r.unsafeEncoding ≠ none ∧ ∀ i ∈ r.fatal ++ r.nonFatal, ¬ aboutEncoding (.issue i) := by
  have h : ((Chk.Par.parseBytesCst checking .lineColumn .notScript tenFlaws).map fun r =>
      (r.unsafeEncoding.isSome, r.fatal.map (·.maker), r.nonFatal.map (·.maker))) = .ok (true, List.replicate 10 .syn, []) := by
    decide +kernel
  rcases hp : Chk.Par.parseBytesCst checking .lineColumn .notScript tenFlaws with e | r <;> rw [hp] at h
  · cases h
  · injection h with h
    injection h with h1 h
    injection h with h2 h3
    refine ⟨r, rfl, Option.ne_none_iff_isSome.mpr h1, fun i hi ha => ?_⟩
    have h4 : i.maker = .syn := by
      rcases List.mem_append.mp hi with hi | hi
      · have h5 := List.mem_map_of_mem (f := Report.maker) hi
        rw [h2] at h5
        exact (List.mem_replicate.mp h5).2
      · rw [List.map_eq_nil_iff] at h3
        rw [h3] at hi
        cases hi
    rw [ha.1] at h4
    cases h4

example : ((Chk.Par.parseBytesCst checking .lineColumn .notScript flawed).map fun r =>
    (r.fatal.map (·.tag), r.unsafeEncoding.isSome)) = .ok ([.unhandledCharacter, .incompleteUTF8Sequence], true) := by
  decide +kernel

/-! ### C69: issues and tracked locations only if asked for -/

/-- C69: without `check_issues` the result has no issues, without `compute_oob` no tracked locations. -/
theorem C69_off (E : Env) (conv : Conv) (first : FirstLine) (bs : List UInt8) (r : Result)
    (h : Chk.Par.parseBytesCst E conv first bs = .ok r) :
    (E.check = false → r.fatal = [] ∧ r.nonFatal = []) ∧
    (E.oob = false → r.simpleContinuations = [] ∧ r.complexContinuations = [] ∧ r.embeddedNewlines = [] ∧ r.embeddedTabs = []) := by
  obtain ⟨q, t, es, -, rfl, h3, -⟩ := parse_inv (Chk.off_law E) h
  have key : E.oob = false → ∀ f : Ev → Option Loc, (∀ e l, f e = some l → recorded e = some l) →
      (es.filterMap f).eraseDups = [] := by
    intro ho f hf
    refine List.eq_nil_iff_forall_not_mem.mpr fun l hl => ?_
    obtain ⟨e, he, h1⟩ := List.mem_filterMap.mp (List.mem_eraseDups.mp hl)
    have := hf e l h1
    rw [(h3 e he).2 ho] at this
    cases this
  refine ⟨fun hc => ⟨?_, ?_⟩, fun ho => ⟨key ho _ ?_, key ho _ ?_, key ho _ ?_, key ho _ ?_⟩⟩
  · exact List.eq_nil_iff_forall_not_mem.mpr fun i hi => (h3 _ (fatal_mem hi).1).1 hc rfl
  · exact List.eq_nil_iff_forall_not_mem.mpr fun i hi => (h3 _ (nonFatal_mem hi).1).1 hc rfl
  all_goals intro e l he; cases e <;> first | (cases he; rfl) | cases he


example : ((Chk.Par.parseBytesCst { checking with check := false } .lineColumn .notScript flawed).map fun r =>
    (r.fatal.length, r.nonFatal.length, r.simpleContinuations, r.embeddedNewlines)) =
    .ok (0, 0, [.lineCol 1 8], [.lineCol 2 3]) := by decide +kernel

end CodeParser.Props
