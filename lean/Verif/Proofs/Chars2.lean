import Verif.Proofs.Chars1
import Verif.Spec.CharTokens
import Verif.Props.LexNext
import Verif.Props.TokenKind
/-!
Tokens made of characters that can be written in several ways (helper lemmas).
-/
namespace CodeParser
open Spec Props

section
variable {cfg : Cfg} {start s t m : St} {bs r r' q : List UInt8} {c d : WLC} {E : Err → Prop} {pol : Pol} {k : TK}

/-! ### Texts -/

theorem Spec.CharAt.suffix (h : CharAt bs c r) : ∃ pre, bs = pre ++ r := by
  cases h with
  | eof => exact ⟨[], rfl⟩
  | plain => exact ⟨_, rfl⟩
  | crlf => exact ⟨[13, 10], rfl⟩
  | escape h =>
    obtain ⟨pre, rfl, -⟩ := Escapes.suffix h
    exact ⟨byte '\\' :: pre, rfl⟩
  | malformed => exact ⟨[byte '\\'], rfl⟩

theorem suffix_trans (h : ∃ pre, bs = pre ++ q) (h' : ∃ pre, q = pre ++ r) : ∃ pre : List UInt8, bs = pre ++ r := by
  obtain ⟨a, rfl⟩ := h
  obtain ⟨b, rfl⟩ := h'
  exact ⟨a ++ b, by simp⟩

theorem Spec.Behind.suffix (h : Behind bs c r) : ∃ pre, bs = pre ++ r := by
  induction h with
  | here h => exact h.suffix
  | white h _ _ ih => exact suffix_trans h.suffix ih
  | again h _ _ ih => exact suffix_trans h.suffix ih

theorem Spec.NextChar.suffix (h : NextChar bs c r) : ∃ pre, bs = pre ++ r := by
  cases h with
  | here h => exact h.suffix
  | behind h _ h' => exact suffix_trans h.suffix h'.suffix

theorem suffix_len (h : ∃ pre : List UInt8, bs = pre ++ r) : r.length ≤ bs.length := by
  obtain ⟨a, rfl⟩ := h
  simp

theorem Spec.Behind.len (h : Behind bs c r) (hc : c.point ≠ .eof) : r.length < bs.length := by
  induction h with
  | here h => exact h.len hc
  | white h _ _ ih => exact Nat.lt_of_lt_of_le (ih hc) (suffix_len h.suffix)
  | again h _ _ ih => exact Nat.lt_of_lt_of_le (ih hc) (suffix_len h.suffix)

theorem Spec.NextChar.len (h : NextChar bs c r) (hc : c.point ≠ .eof) : r.length < bs.length := by
  cases h with
  | here h => exact h.len hc
  | behind h _ h' => exact Nat.lt_of_lt_of_le (h'.len hc) (suffix_len h.suffix)

/-- The next character is determined by the text. -/
theorem Spec.NextChar.det (h : NextChar bs c r) (h' : NextChar bs d q) : c = d ∧ r = q := by
  let s : St := ⟨bs, default, false, none⟩
  have hs : WF s := by intro h; cases h
  obtain ⟨t, h1, h2, -⟩ := nextC_char (cfg := Cfg.default) hs h rfl
  obtain ⟨u, h3, h4, -⟩ := nextC_char (cfg := Cfg.default) hs h' rfl
  rw [h1] at h3
  cases h3
  exact ⟨rfl, h2 ▸ h4⟩

/-! ### Dispatch -/

theorem dispatch_other (h1 : c.point.isAscii = false) (h2 : c.point ≠ .eof) (h3 : c.point.isMBUnsafe = false) :
    dispatch cfg pol start c = nextTokenOther cfg pol start c := by
  have hx : ∀ n, n ≤ 0x7f → c.point ≠ .char n := by
    intro n hn h
    rw [h] at h1
    simp [CP.isAscii] at h1
    omega
  have ha : c.point.isAlpha = false := by
    cases hp : c.point with
    | char n =>
      rw [hp] at h1
      simp [CP.isAscii] at h1
      simp [CP.isAlpha, inR]; omega
    | _ => rfl
  have hd : c.point.isDigit = false := by
    cases hp : c.point with
    | char n =>
      rw [hp] at h1
      simp [CP.isAscii] at h1
      simp [CP.isDigit, inR]; omega
    | _ => rfl
  have hsy : c.point.isSymbolStart = false := by
    cases hp : c.point with
    | char n =>
      rw [hp] at h1
      simp [CP.isAscii] at h1
      simp [CP.isSymbolStart, inR]; omega
    | _ => rfl
  have e : ∀ x : Char, x.toNat ≤ 0x7f → c.point ≠ ch x := fun x h => hx _ h
  unfold dispatch
  rw [if_neg (e _ (by decide)), if_neg (e _ (by decide)), if_neg (e _ (by decide)),
    if_neg (by rw [ha]; rintro (h | h); exact e _ (by decide) h; cases h), if_neg (e _ (by decide)), if_neg (e _ (by decide)),
    if_neg (by rw [hd]; decide), if_neg (e _ (by decide)), if_neg (e _ (by decide)), if_neg (e _ (by decide)),
    if_neg (e _ (by decide))]
  unfold nextTokenUncommon
  rw [if_neg h2, if_neg (by rw [h3]; decide), if_neg (by rw [hsy]; decide),
    if_neg (by rintro (h | h) <;> exact hx _ (by decide) h), if_neg (e _ (by decide)),
    if_neg (by rintro (h | h) <;> exact hx _ (by decide) h)]
  rw [if_neg (e _ (by decide)), if_neg (e _ (by decide)), if_neg (e _ (by decide)), if_neg (e _ (by decide)),
    if_neg (e _ (by decide)), if_neg (e _ (by decide)), if_neg (e _ (by decide)), if_neg (e _ (by decide)),
    if_neg (e _ (by decide)), if_neg (e _ (by decide)), if_neg (e _ (by decide)), if_neg (e _ (by decide)),
    if_neg (e _ (by decide)), if_neg (e _ (by decide)), if_neg (e _ (by decide)), if_neg (e _ (by decide)),
    if_neg (e _ (by decide)), if_neg (e _ (by decide)), if_neg (e _ (by decide)), if_neg (e _ (by decide)),
    if_neg (e _ (by decide)), if_neg (e _ (by decide)), if_neg (e _ (by decide)), if_neg (e _ (by decide))]

/-- What is to be known about a character outside of ASCII. -/
def otherOk (p : CP) : Bool :=
  !p.isAscii && p != .eof && !p.isMBUnsafe && p != .char 0xf7c1 && p != .char 0xf7c9 && !p.isMBLinearSyntax

theorem dispatch_otherOk (h : otherOk c.point = true) : dispatch cfg pol start c =
    if c.point.isMBUninterpretable then tok .Error_UnhandledCharacter start
    else if c.point.isMBWhitespace then tok .Whitespace start
    else if c.point.isMBNewline then tok pol.newline start
    else if c.point.isMBPunctuation then handlePunctuation start c
    else if c.point.isMBStringMeta then tok .Error_UnhandledCharacter start
    else (assertB c.point.isMBLetterlike >>= fun _ => handleSymbol cfg pol start c) := by
  simp only [otherOk, Bool.and_eq_true, Bool.not_eq_true', bne_iff_ne] at h
  obtain ⟨⟨⟨⟨⟨h1, h2⟩, h3⟩, h4⟩, h5⟩, h6⟩ := h
  rw [dispatch_other h1 h2 h3]
  unfold nextTokenOther
  rw [if_neg h4, if_neg h5, if_neg (by rw [h6]; decide)]

/-! ### Tables -/

theorem tables_uninterpretable : (mbUninterpretableTable.all fun n => otherOk (.char n)) = true := by decide +kernel

theorem tables_white : (mbWhitespaceTable.all fun n => otherOk (.char n) && !(CP.char n).isMBUninterpretable) = true := by
  decide +kernel

theorem tables_newline : (mbNewlineTable.all fun p => otherOk p && !p.isMBUninterpretable && !p.isMBWhitespace) = true := by
  decide +kernel

theorem tables_punctuation : (mbPunctuationTable.all fun n => otherOk (.char n) && !(CP.char n).isMBUninterpretable &&
    !(CP.char n).isMBWhitespace && !(CP.char n).isMBNewline) = true := by
  decide +kernel

theorem tables_meta : (stringMeta.all fun p => otherOk p && !p.isMBUninterpretable &&
    !p.isMBWhitespace && !p.isMBNewline && !p.isMBPunctuation && p.isMBStringMeta) = true := by
  decide +kernel

/-- The kind of the operator of a long name is named after it. -/
def namedAfter (e : List Char × CP) : Bool :=
  match e.2 with
  | .char n =>
    match longNameCodePointToOperator n with
    | some k => k.name == "LongName_".toList ++ e.1
    | none => true
  | _ => true

theorem tables_names : (longNameTable.all namedAfter) = true := by decide +kernel

theorem names_all : (TK.all.all fun k => TK.all.find? (fun j => j.name == k.name) == some k) = true := by decide +kernel

theorem TK.name_inj {j k : TK} (h : j.name = k.name) : j = k := by
  have h1 := List.all_eq_true.mp names_all j (mem_all j)
  have h2 := List.all_eq_true.mp names_all k (mem_all k)
  rw [h] at h1
  simp only [beq_iff_eq] at h1 h2
  rw [h1] at h2
  exact Option.some.inj h2

end
end CodeParser
