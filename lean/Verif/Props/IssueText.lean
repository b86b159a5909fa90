import Verif.Props.CheckParse
import Verif.Props.Show
/-!
Property theorems about what issues say about the text and what their code actions do (C70-C72).
-/
namespace CodeParser.Props
open CodeParser.Spec
open CodeParser.Chk (Env Ev Fail Report Action)
open CodeParser.Chk.Par (Result)

/-! ### C70: every issue is justified by the text -/

/-- C70: every issue that tokenizing reports is justified by the text at its source. -/
theorem C70_tokens (E : Env) (conv : Conv) (first : FirstLine) (bs : List UInt8) (ts : List Tok) (t : St) (es : List Ev)
    (h : Chk.tokens E conv first bs = .ok (ts, t, es)) (i : Report) (hi : .issue i ∈ es) : Justified E.cfg bs conv.start i := by
  obtain ⟨u, hu⟩ := C62_only E conv first bs ts t es h
  have := Chk.tokens_out (E := E) conv first bs
  rw [hu] at this
  obtain ⟨t', es', h1, -, -, h2⟩ := this
  rw [h] at h1
  cases h1
  exact ((h2 _ hi).2.2 trivial).justified

/-- C70 for a single token, as the parser asks for it, at any place of any text and with any policy. -/
theorem C70_peek (E : Env) (pol : Pol) (g : Bool) (rest : List UInt8) (loc : Loc) (flag : Option Unsafe)
    (hl : ∀ l c, loc = .lineCol l c → 0 < c) (k : Tok) (t : St) (es : List Ev)
    (h : Chk.peekTokenWith E pol g ⟨rest, loc, false, flag⟩ = .ok (k, t, es)) (i : Report) (hi : .issue i ∈ es) :
    Justified E.cfg rest loc i := by
  have hp : Chk.Pos E.cfg ⟨rest, loc, false, flag⟩ ⟨rest, loc, false, flag⟩ := by
    refine .refl (by intro h; cases h) ?_
    show Chk.ColOK loc
    cases loc with
    | index i => trivial
    | lineCol l c => exact hl l c rfl
  have h1 := Chk.peek_out (pol := pol) (g := g) (.refl _) hp
  rw [h] at h1
  rcases h2 : peekTokenWith E.cfg pol g ⟨rest, loc, false, flag⟩ with f | ⟨k', t'⟩ <;> rw [h2] at h1
  · exact h1.elim
  · obtain ⟨rfl, h3, h4, h5⟩ := h1
    exact ((h5 _ hi).2.2 trivial).justified

/-- C70: every issue in the result of parsing is justified by the text at its source. -/
theorem C70_parse (E : Env) (conv : Conv) (first : FirstLine) (bs : List UInt8) (r : Result)
    (h : Chk.Par.parseBytesCst E conv first bs = .ok r) (i : Report) (hi : i ∈ r.fatal ++ r.nonFatal) :
    Justified E.cfg bs conv.start i := by
  obtain ⟨q, t, es, -, rfl, -, -, -, h6⟩ := parse_inv (Chk.off_law E) h
  have hm : .issue i ∈ es := by
    rcases List.mem_append.mp hi with hi | hi
    · exact (fatal_mem hi).1
    · exact (nonFatal_mem hi).1
  exact ((h6 _ hm).2.2 trivial).justified

/-- A character beyond ASCII and names without one of their brackets. -/
def odd : List UInt8 := encode "é+\\[Pi+\\Pi]".toList

/-- What is reported about `odd`: the character can be written as `\[EAcute]`, `e'` or `e`, one name gets
a closing bracket and the other one an opening bracket. -/
example : ((Chk.Par.parseBytesCst checking .lineColumn .notScript odd).map fun r => (r.fatal, r.nonFatal)) = .ok (
    [⟨.syn, .unhandledCharacter, .fatal, ⟨.lineCol 1 3, .lineCol 1 7⟩, 100, [.insert ⟨.lineCol 1 7, .lineCol 1 7⟩ [93]]⟩,
     ⟨.syn, .unhandledCharacter, .fatal, ⟨.lineCol 1 8, .lineCol 1 12⟩, 100, [.insert ⟨.lineCol 1 9, .lineCol 1 9⟩ [91]]⟩],
    [⟨.enc, .nonASCIICharacter, .remark, ⟨.lineCol 1 1, .lineCol 1 2⟩, 100,
      [.replace ⟨.lineCol 1 1, .lineCol 1 2⟩ [92, 91, 69, 65, 99, 117, 116, 101, 93],
       .replace ⟨.lineCol 1 1, .lineCol 1 2⟩ [101, 39], .replace ⟨.lineCol 1 1, .lineCol 1 2⟩ [101]]⟩,
     ⟨.syn, .unexpectedLetterlikeCharacter, .warning, ⟨.lineCol 1 1, .lineCol 1 2⟩, 80, []⟩]) := by decide +kernel

/-! ### C71: code actions -/

theorem named_escapes {name rest : List UInt8} (h : Named name) :
    ∃ p e, Escapes (byte '[' :: (name ++ byte ']' :: rest)) p e rest := by
  obtain ⟨cs, p, rfl, hm⟩ := h
  by_cases hr : cs ∈ rawSet
  · exact ⟨p, .raw, .raw hm hr⟩
  · exact ⟨p, .longName, .longName hm hr⟩

theorem justified_mends {cfg : Cfg} {text : List UInt8} {start : Loc} {i : Report} (h : Justified cfg text start i)
    (ht : i.tag = .unhandledCharacter) :
    ∃ before r after, text = before ++ byte '\\' :: r ++ after ∧
      Moves cfg before (byte '\\' :: r ++ after) start i.span.start ∧ Moves cfg (byte '\\' :: r) after i.span.start i.span.stop ∧
      NoEscape (r ++ after) ∧
      ∀ a ∈ i.actions, ∃ new, Becomes (byte '\\' :: r) i.span a new ∧
        (Template (byte '\\' :: r) new ∨ ∃ r' p e rest, new = byte '\\' :: r' ∧ Escapes (r' ++ after) p e rest) := by
  obtain ⟨before, piece, after, h1, h2, h3, h4⟩ := h
  cases h4 with
  | confusable h5 _ _ => subst ht; simp at h5
  | unhandled h5 h6 h7 =>
    rename_i r sp as
    subst h5
    refine ⟨before, r, after, h1, h2, h3, h6, fun a ha => ?_⟩
    cases h7 a ha with
    | doubled =>
      refine ⟨_, .replace, .inr ⟨byte '\\' :: r, .metaBackslash, .single, r ++ after, rfl, ?_⟩⟩
      exact .single (c := '\\') (p := .metaBackslash) (by decide)
    | closed hn hp =>
      rename_i name
      cases hp
      obtain ⟨p, e, he⟩ := named_escapes (rest := after) hn
      refine ⟨_, .behind, .inr ⟨byte '[' :: (name ++ [byte ']']), p, e, after, by simp, ?_⟩⟩
      simpa using he
    | opened hn hp hl =>
      rename_i name l
      cases hp
      obtain ⟨p, e, he⟩ := named_escapes (rest := after) hn
      refine ⟨_, .inside rfl hl, .inr ⟨byte '[' :: (name ++ [byte ']']), p, e, after, by simp, ?_⟩⟩
      simpa using he
    | @named old name hp _ hn =>
      obtain ⟨p, e, he⟩ := named_escapes (rest := after) hn
      refine ⟨_, .replace, .inr ⟨byte '[' :: (name ++ [byte ']']), p, e, after, rfl, ?_⟩⟩
      simpa using he
    | template hp hn => exact ⟨_, .replace, .inl ⟨_, hp, hn⟩⟩
  | _ => cases ht

/-- C71: an issue about a backslash that starts no escape is about a backslash that starts no escape; all
code actions that are offered, other than those that leave places to fill in, turn the text into one that
starts with an escape there. -/
theorem C71_mends (E : Env) (conv : Conv) (first : FirstLine) (bs : List UInt8) (r : Result)
    (h : Chk.Par.parseBytesCst E conv first bs = .ok r) (i : Report) (hi : i ∈ r.fatal ++ r.nonFatal)
    (ht : i.tag = .unhandledCharacter) :
    ∃ before r after, bs = before ++ byte '\\' :: r ++ after ∧
      Moves E.cfg before (byte '\\' :: r ++ after) conv.start i.span.start ∧ Moves E.cfg (byte '\\' :: r) after i.span.start i.span.stop ∧
      NoEscape (r ++ after) ∧
      ∀ a ∈ i.actions, ∃ new, Becomes (byte '\\' :: r) i.span a new ∧
        (Template (byte '\\' :: r) new ∨ ∃ r' p e rest, new = byte '\\' :: r' ∧ Escapes (r' ++ after) p e rest) :=
  justified_mends (C70_parse E conv first bs r h i hi) ht

theorem justified_respell {cfg : Cfg} {text : List UInt8} {start : Loc} {i : Report} (h : Justified cfg text start i)
    (ht : i.tag = .nonASCIICharacter) :
    ∃ before c after new as, text = before ++ String.utf8EncodeChar c ++ after ∧
      Moves cfg before (String.utf8EncodeChar c ++ after) start i.span.start ∧
      Moves cfg (String.utf8EncodeChar c) after i.span.start i.span.stop ∧ 0x80 ≤ c.toNat ∧
      i.actions = .replace i.span new :: as ∧ Printable new ∧
      ∀ cfg' conv bs s rest, Reachable cfg' conv bs s → s.rest = new ++ rest →
        ∃ p e t, nextWL cfg' s = .ok (⟨p, e⟩, t) ∧ t.rest = rest ∧ value p = some c.toNat := by
  obtain ⟨before, piece, after, h1, h2, h3, h4⟩ := h
  cases h4 with
  | nonASCII h5 h6 h7 h8 =>
    rename_i c g sp as
    subst h5
    obtain ⟨hp, r, p, e, rfl, hv, he⟩ := h7
    refine ⟨before, c, after, _, as, h1, h2, h3, h6, rfl, hp, fun cfg' conv bs s rest hs hr => ?_⟩
    obtain ⟨t, h9, h10⟩ := C10_escape hs hr (he rest)
    exact ⟨p, e, t, h9, h10, hv⟩
  | confusable h5 _ _ => subst ht; simp at h5
  | _ => cases ht

/-- C71: an issue about a character beyond ASCII is about one, and the first code action that is offered
replaces it by printable ASCII characters that are read as one character, namely this one, wherever they
are written. -/
theorem C71_respell (E : Env) (conv : Conv) (first : FirstLine) (bs : List UInt8) (r : Result)
    (h : Chk.Par.parseBytesCst E conv first bs = .ok r) (i : Report) (hi : i ∈ r.fatal ++ r.nonFatal)
    (ht : i.tag = .nonASCIICharacter) :
    ∃ before c after new as, bs = before ++ String.utf8EncodeChar c ++ after ∧
      Moves E.cfg before (String.utf8EncodeChar c ++ after) conv.start i.span.start ∧
      Moves E.cfg (String.utf8EncodeChar c) after i.span.start i.span.stop ∧ 0x80 ≤ c.toNat ∧
      i.actions = .replace i.span new :: as ∧ Printable new ∧
      ∀ cfg' conv bs s rest, Reachable cfg' conv bs s → s.rest = new ++ rest →
        ∃ p e t, nextWL cfg' s = .ok (⟨p, e⟩, t) ∧ t.rest = rest ∧ value p = some c.toNat :=
  justified_respell (C70_parse E conv first bs r h i hi) ht

/-! ### C72: fatal issues -/

theorem justified_fatal {cfg : Cfg} {text : List UInt8} {start : Loc} {i : Report} (h : Justified cfg text start i) :
    i.sev = .fatal ↔ i.tag ∈ [.unhandledCharacter, .incompleteUTF8Sequence, .straySurrogate, .bom] := by
  obtain ⟨before, piece, after, h1, h2, h3, h4⟩ := h
  cases h4 with
  | confusable h5 _ _ =>
    simp only [List.mem_cons, List.not_mem_nil, or_false] at h5
    rcases h5 with rfl | rfl | rfl <;> simp
  | strange _ _ _ _ h5 => rcases h5 with rfl | rfl <;> simp
  | escaped _ _ _ _ h5 _ => rcases h5 with rfl | rfl <;> simp
  | _ => simp

/-- C72: an issue is fatal exactly if it is about the encoding being broken or about a backslash that
starts no escape. -/
theorem C72_fatal (E : Env) (conv : Conv) (first : FirstLine) (bs : List UInt8) (r : Result)
    (h : Chk.Par.parseBytesCst E conv first bs = .ok r) (i : Report) (hi : i ∈ r.fatal ++ r.nonFatal) :
    i.sev = .fatal ↔ i.tag ∈ [.unhandledCharacter, .incompleteUTF8Sequence, .straySurrogate, .bom] :=
  justified_fatal (C70_parse E conv first bs r h i hi)

theorem byte_mem {cs : List Char} (h : byte '\\' ∈ encode cs) : '\\' ∈ cs := by
  unfold encode at h
  obtain ⟨c, hc, hb⟩ := List.mem_flatMap.mp h
  have : c = '\\' := by
    by_cases hlt : c.toNat < 128
    · rw [enc_ascii_byte hlt, List.mem_singleton] at hb
      refine Char.toNat_inj.mp ?_
      have := congrArg UInt8.toNat hb
      rw [byte_toNat hlt] at this
      exact this.symm
    · exfalso
      revert hb
      unfold String.utf8EncodeChar
      simp only [enc_val]
      repeat' split
      all_goals
        intro hb
        simp only [List.mem_cons, List.not_mem_nil, or_false] at hb
        first
          | omega
          | (rcases hb with hb | hb | hb | hb <;> have := congrArg UInt8.toNat hb <;> simp [byte] at this <;> omega)
          | (rcases hb with hb | hb | hb <;> have := congrArg UInt8.toNat hb <;> simp [byte] at this <;> omega)
          | (rcases hb with hb | hb <;> have := congrArg UInt8.toNat hb <;> simp [byte] at this <;> omega)
  exact this ▸ hc

/-- C72: a text of characters other than backslashes and byte order marks has no fatal issues. -/
theorem C72_none (E : Env) (conv : Conv) (first : FirstLine) (cs : List Char) (r : Result)
    (h : Chk.Par.parseBytesCst E conv first (encode cs) = .ok r) (h1 : '\\' ∉ cs) (h2 : BOM ∉ cs) : r.fatal = [] := by
  refine List.eq_nil_iff_forall_not_mem.mpr fun i hi => ?_
  have hj := C70_parse E conv first _ r h i (List.mem_append_left _ hi)
  have hf : i.sev = .fatal := (C67_lists E conv first _ r h).2.1 i hi
  have ht := (justified_fatal hj).mp hf
  have hu : i.tag ≠ .unhandledCharacter := by
    intro ht
    obtain ⟨before, q, after, h3, -⟩ := justified_mends hj ht
    exact h1 (byte_mem (by rw [h3]; simp))
  have henc : aboutEncoding (.issue i) := by
    obtain ⟨before, piece, after, h3, h4, h5, h6⟩ := hj
    cases h6 with
    | strange _ _ _ _ hv => rcases hv with rfl | rfl <;> cases hf
    | escaped _ _ _ _ hv _ => rcases hv with rfl | rfl <;> cases hf
    | unhandled => exact absurd rfl hu
    | incomplete => exact ⟨rfl, rfl, by simp⟩
    | surrogate => exact ⟨rfl, rfl, by simp⟩
    | bom => exact ⟨rfl, rfl, by simp⟩
    | _ => cases hf
  have hflag : ¬ ValidUTF8 (encode cs) ∨ ∃ ds, encode cs = encode ds ∧ BOM ∈ ds := by
    obtain ⟨q, t, es, -, rfl, h5, h6, -⟩ := parse_inv (Chk.encoding_law E) h
    exact h6.flag (h5.2.1 ⟨_, (fatal_mem hi).1, henc⟩)
  rcases hflag with h3 | ⟨ds, h3, h4⟩
  · exact h3 ⟨cs, rfl⟩
  · rw [encode_injective _ _ h3] at h2
    exact h2 h4

example : ∃ r, Chk.Par.parseBytesCst checking .lineColumn .notScript (encode "f[x_] := x -- é".toList) = .ok r ∧
    r.fatal = [] ∧ r.nonFatal ≠ [] := by
  have h : ((Chk.Par.parseBytesCst checking .lineColumn .notScript (encode "f[x_] := x -- é".toList)).map fun r =>
      (r.fatal, r.nonFatal.isEmpty)) = .ok ([], false) := by decide +kernel
  rcases hp : Chk.Par.parseBytesCst checking .lineColumn .notScript (encode "f[x_] := x -- é".toList) with e | r <;> rw [hp] at h
  · cases h
  · injection h with h
    injection h with h1 h2
    exact ⟨r, rfl, h1, by rintro h3; rw [h3] at h2; cases h2⟩

end CodeParser.Props
