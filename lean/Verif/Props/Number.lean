import Verif.Proofs.Lex9
import Verif.Props.Lex
/-!
Property C22: number literals are one token, of the kind their parts say.
-/
namespace CodeParser.Props
open CodeParser Spec

section
variable {cfg : Cfg} {pol : Pol} {start s t : St} {E : Err → Prop} {r q X : List UInt8} {c : WLC} {x : NumCtx}
  {text : List UInt8}

theorem kind_eq {l : Literal} {z : NumCtx} (h1 : (z.invalidBase || z.unrecognizedDigit) = true ↔ l.badDigits)
    (h2 : z.real = true ↔ l.isReal) (h3 : (z.negativeExponent && z.nonZeroExponentDigits != 0) = true ↔ l.isRational) :
    z.kind = l.kind := by
  unfold NumCtx.kind Literal.kind
  by_cases hb : l.badDigits
  · rw [if_pos hb]
    have := h1.mpr hb
    cases hi : z.invalidBase
    · rw [hi] at this; simp at this; simp [this]
    · simp
  · rw [if_neg hb]
    have : (z.invalidBase || z.unrecognizedDigit) = false := by
      rw [Bool.eq_false_iff]; exact fun h => hb (h1.mp h)
    rw [Bool.or_eq_false_iff] at this
    rw [this.1, this.2]
    simp only [Bool.false_eq_true, if_false]
    by_cases hr : l.isReal
    · rw [if_pos hr, if_pos (h2.mpr hr)]
    · rw [if_neg hr, if_neg (fun h => hr (h2.mp h))]
      by_cases hq : l.isRational
      · rw [if_pos hq, if_pos (h3.mpr hq)]
      · rw [if_neg hq, if_neg (fun h => hq (h3.mp h))]

theorem mantKind {l : Literal} (hf : Fresh x) (hr : x.real = false)
    (h : (x.invalidBase || (x.unrecognizedDigit || tooLarge x.base (l.mantissa.frac.getD []))) = true ↔ l.badDigits) :
    MantKind x l.mantissa.frac l.precision l.exponent l.kind := by
  have main : ∀ (z : NumCtx), Fresh z → ((z.invalidBase || z.unrecognizedDigit) = true ↔ l.badDigits) → (z.real = true ↔ l.isReal) →
      ExpKind z l.exponent l.kind := by
    intro z hz h1 h2
    unfold ExpKind
    cases he : l.exponent with
    | none =>
      refine kind_eq h1 h2 ?_
      rw [hz.digits]
      simp only [bne_self_eq_false, Bool.and_false, Bool.false_eq_true, false_iff]
      rintro ⟨e, h, -⟩
      rw [he] at h; cases h
    | some e =>
      intro n hn
      refine kind_eq h1 h2 ?_
      dsimp only
      constructor
      · intro hh
        rw [Bool.and_eq_true] at hh
        refine ⟨e, he, ?_, ?_⟩
        · revert hh
          rcases e.sign with _ | _ | _ <;> simp [isMinus]
        · have h0 : n ≠ 0 := by simpa using hh.2
          have := fun h => h0 (hn.mpr h)
          simpa using this
      · rintro ⟨e', h', h1, d, h2, h3⟩
        rw [he] at h'; cases h'
        rw [h1]
        have : n ≠ 0 := fun h => h3 (hn.mp h d h2)
        simp [isMinus, this]
  unfold MantKind
  cases hfr : l.mantissa.frac with
  | none =>
    rw [hfr] at h
    have ht : tooLarge x.base ((none : Option (List Char)).getD []) = false := by simp [tooLarge]
    rw [ht, Bool.or_false] at h
    unfold PrecKind
    cases hp : l.precision with
    | none =>
      refine main _ hf h ?_
      simp [hr, Literal.isReal, hfr, hp]
    | some p =>
      refine main _ ⟨hf.digits, hf.neg⟩ h ?_
      simp [Literal.isReal, hp]
  | some f =>
    rw [hfr] at h
    refine main _ ⟨hf.digits, hf.neg⟩ h ?_
    simp [Literal.isReal, hfr]

theorem text_eq (l : Literal) (r : List UInt8) : bytes l.text ++ r =
    bytes (baseText l.base) ++ (bytes l.mantissa.int ++ tailBytes l.mantissa.frac l.precision l.exponent r) := by
  unfold Literal.text tailBytes
  rw [digits_text]
  simp [bytes]

theorem after_of {l : Literal} {base : Nat} (h : l.Ends r) (hb : base = 0 ∨ l.base ≠ none) : After cfg base r where
  quiet := ⟨sees_clear h.escape, h.dot, fun y hy => by
    rcases hb with rfl | hb
    · exact h.digit y (by simpa [digitOf] using hy)
    · exact h.letter y hb (digitOf_alnum hy)⟩
  quote := h.quote
  star q hq := ⟨(h.star q hq).1, sees_clear (h.star q hq).2⟩

theorem signOk_of {l : Literal} (h : l.Ends r) : SignOk l.precision l.exponent r :=
  fun h1 h2 => h.sign ⟨⟨.machine, h1, rfl⟩, h2⟩

theorem dispatch_digit {y : Char} (hy : isDec y = true) : dispatch cfg pol s ⟨.char y.toNat, .none⟩ =
    handleNumber cfg pol s ⟨.char y.toNat, .none⟩ := by
  have hd : (CP.char y.toNat).isDigit = true := hy
  have : y.toNat ≠ 10 ∧ y.toNat ≠ 32 ∧ y.toNat ≠ 34 ∧ y.toNat ≠ 36 ∧ y.toNat ≠ 44 ∧ y.toNat ≠ 45 ∧ (CP.char y.toNat).isAlpha = false := by
    simp only [isDec, Bool.and_eq_true, decide_eq_true_eq] at hy
    simp [CP.isAlpha, inR]
    omega
  obtain ⟨e1, e2, e3, e4, e5, e6, e7⟩ := this
  unfold dispatch
  rw [if_neg (by simpa [ch] using e1), if_neg (by simpa [ch] using e2), if_neg (by simpa [ch] using e3),
    if_neg (by rw [e7]; simpa [ch] using e4), if_neg (by simpa [ch] using e5), if_neg (by simpa [ch] using e6), if_pos hd]

theorem lex_number {l : Literal} (hs : WF s) (hv : l.Valid) (h : s.rest = bytes l.text ++ r) (hr : l.Ends r)
    (hpol : pol.intShort = false) :
    wp E (nextToken cfg pol) s (Gives s l.kind (bytes l.text) r) := by
  have ht := h
  rw [text_eq] at h
  have hp : PrecOk l.precision := hv.precision
  have he : ExpOk l.exponent := hv.exponent
  have hsg := signOk_of hr
  obtain ⟨hne, hall⟩ := hv.mantissa
  have hi : ∀ y ∈ l.mantissa.int, (isDec y || (l.letters && isAlnum y)) = true := fun y hy => hall y (by simp [Digits.all, hy])
  have hf : ∀ y ∈ l.mantissa.frac.getD [], (isDec y || (l.letters && isAlnum y)) = true :=
    fun y hy => hall y (by simp only [Digits.all, List.mem_append]; exact Or.inr hy)
  cases hb : l.base with
  | none =>
    have hlet : l.letters = false := by simp [Literal.letters, hb]
    simp only [hlet, Bool.false_and, Bool.or_false] at hi hf
    rw [hb, show bytes (baseText none) = [] from rfl, List.nil_append] at h
    have hnb : ¬ l.badDigits := by rintro ⟨b, h, -⟩; rw [hb] at h; cases h
    have hK : MantKind {} l.mantissa.frac l.precision l.exponent l.kind :=
      mantKind ⟨rfl, rfl⟩ rfl (by simp [tooLarge, hnb])
    cases hint : l.mantissa.int with
    | cons y ds =>
      rw [hint] at h hi
      have hy := hi y List.mem_cons_self
      have hpl := plainly_alnum (isDec_alnum hy)
      have hbt := byte_toNat' hpl.lt
      have := hpl.lt; have := hpl.cr
      refine lex_start (b := byte y) (r := bytes ds ++ tailBytes l.mantissa.frac l.precision l.exponent r) hs h (by omega) hpl.esc
        (by omega) fun t ht1 => ?_
      rw [hbt, dispatch_digit hy]
      exact lex_handleNumber h ht1 hpol hi hf hp hsg he (after_of hr (Or.inl rfl))
        (fun q hq => ⟨(hr.caret q hq).1, sees_clear (hr.caret q hq).2⟩) hK ht
    | nil =>
      cases hfr : l.mantissa.frac with
      | none => simp [Digits.all, hint, hfr] at hne
      | some f =>
        rw [hint, hfr] at h
        rw [hfr] at hf hK
        have hf0 : f ≠ [] := by simpa [Digits.all, hint, hfr] using hne
        have hq : bytes [] ++ tailBytes (some f) l.precision l.exponent r =
          byte '.' :: (bytes f ++ (bytes (precisionText l.precision) ++ (bytes (exponentText l.exponent) ++ r))) := rfl
        rw [hq] at h
        have haf : After cfg 0 r := after_of hr (Or.inl rfl)
        refine lex_start hs h (by decide) (by decide) (by decide) fun t ht1 => ?_
        change wp E (handleDot cfg pol s ⟨ch '.', .none⟩) _ _
        unfold handleDot
        refine lex_assert rfl (lex_see ht1 (esc_digits (fun y hy => isDec_alnum (hf y hy)) (prec_after haf).esc)
          fun c t2 ht2 hl => ?_)
        rw [if_pos]
        · unfold handleNumber
          refine lex_assert rfl ?_
          rw [if_neg (by decide)]
          exact lex_numDot ht2 rfl (fun y hy => digitOf_zero (hf y hy)) (fun _ => hf0) hp hsg he haf ⟨rfl, rfl⟩ hK ht
        · cases f with
          | nil => exact absurd rfl hf0
          | cons y f =>
            have hy := hf y List.mem_cons_self
            rw [look_char (x := y) hl (plainly_alnum (isDec_alnum hy)), isDec_digit, hy]
  | some b =>
    obtain ⟨hb0, hbd⟩ := hv.base b hb
    cases b with
    | nil => exact absurd rfl hb0
    | cons y ds =>
      have hx := numBaseOf_eq hbd
      obtain ⟨x, hxx⟩ : ∃ x, x = numBaseOf (bytes (stripZeros (y :: ds))) {} := ⟨_, rfl⟩
      rw [← hxx] at hx
      have hxb : x.base = if decimalValue (y :: ds) ≤ 99 then decimalValue (y :: ds) else 0 := by rw [hx]
      have hxi : x.invalidBase = decide (¬ (2 ≤ decimalValue (y :: ds) ∧ decimalValue (y :: ds) ≤ 36)) := by rw [hx]
      have hxu : x.unrecognizedDigit = false := by rw [hx]
      have hxr : x.real = false := by rw [hx]
      have hxf : Fresh x := by rw [hx]; exact ⟨rfl, rfl⟩
      have hdig : ∀ z, (isDec z || (l.letters && isAlnum z)) = true → digitOf x.base z = true := by
        intro z hz
        unfold digitOf
        have hl : l.letters = (x.base != 0) := by
          rw [hxb]
          simp only [Literal.letters, hb]
          rw [Bool.eq_iff_iff]
          simp only [decide_eq_true_eq, bne_iff_ne, ne_eq]
          split <;> omega
        rw [← hl]; exact hz
      have hbt : bytes (baseText (some (y :: ds))) = bytes (y :: ds) ++ [byte '^', byte '^'] := by
        simp only [baseText, bytes, List.map_append, List.map_cons, List.map_nil]
      rw [hb, hbt, List.append_assoc] at h
      have hy := hbd y List.mem_cons_self
      have hpl := plainly_alnum (isDec_alnum hy)
      have hbt := byte_toNat' hpl.lt
      have := hpl.lt; have := hpl.cr
      refine lex_start (b := byte y) hs h (by omega) hpl.esc (by omega) fun t ht1 => ?_
      rw [hbt, dispatch_digit hy]
      refine lex_handleBase h ht1 hpol hbd hxx.symm (fun y hy => hdig y (hi y hy)) (fun y hy => hdig y (hf y hy)) ?_ hp hsg he
        (after_of hr (Or.inr (by rw [hb]; simp))) hxf ?_ ht
      · by_cases h0 : l.mantissa.int = []
        · right
          have : l.mantissa.int ++ l.mantissa.frac.getD [] ≠ [] := hne
          rw [h0] at this
          exact this
        · exact Or.inl h0
      · refine mantKind (x := { x with unrecognizedDigit := x.unrecognizedDigit || tooLarge x.base l.mantissa.int })
          ⟨hxf.digits, hxf.neg⟩ hxr ?_
        dsimp only
        rw [hxu, hxi, Bool.false_or]
        unfold Literal.badDigits
        simp only [hb, Option.some.injEq, exists_eq_left']
        by_cases hok : 2 ≤ decimalValue (y :: ds) ∧ decimalValue (y :: ds) ≤ 36
        · have hb' : x.base = decimalValue (y :: ds) := by rw [hxb, if_pos (by omega)]
          have hb0 : (decimalValue (y :: ds) != 0) = true := by simp; omega
          rw [hb']
          simp only [tooLarge, hb0, Bool.true_and]
          have h1 : ¬ decimalValue (y :: ds) < 2 := by omega
          have h2 : ¬ 36 < decimalValue (y :: ds) := by omega
          simp only [hok, and_self, not_true_eq_false, decide_false, Bool.false_or, h1, h2, false_or, Digits.all,
            Bool.or_eq_true, List.any_eq_true, decide_eq_true_eq, List.mem_append]
          constructor
          · rintro (⟨c, h1, h2⟩ | ⟨c, h1, h2⟩)
            · exact ⟨c, Or.inl h1, h2⟩
            · exact ⟨c, Or.inr h1, h2⟩
          · rintro ⟨c, h1 | h1, h2⟩
            · exact Or.inl ⟨c, h1, h2⟩
            · exact Or.inr ⟨c, h1, h2⟩
        · have : decimalValue (y :: ds) < 2 ∨ 36 < decimalValue (y :: ds) := by omega
          simp only [hok, not_false_eq_true, decide_true, Bool.true_or, true_iff]
          rcases this with h | h
          · exact Or.inl h
          · exact Or.inr (Or.inl h)

end

/-- C22: a number literal, followed by something that can not continue it, is exactly one token,
and its kind is the one its parts say: an error if the base does not exist or a digit is too
large for it, else a real if there is a radix point or a precision, else a rational if the
exponent is negative, else an integer. -/
theorem C22_number (cfg : Cfg) (pol : Pol) (insideGroup : Bool) (s : St) (l : Literal) (r : List UInt8)
    (h0 : s.eof = false) (hv : l.Valid) (hs : s.rest = bytes l.text ++ r) (hr : l.Ends r) (hpol : pol.intShort = false) :
    ∃ k t, peekTokenWith cfg pol insideGroup s = .ok (k, t) ∧
      k.kind = l.kind ∧ k.text = bytes l.text ∧ k.after = r ∧ k.start = s.loc := by
  have hwf : WF s := by intro h; rw [h0] at h; cases h
  obtain ⟨k, t, u, h3, h4⟩ := peek_of_wp (g := insideGroup) <| lex_number (E := fun _ => False) (cfg := cfg)
    (pol := { pol with toplevel := pol.toplevel && !insideGroup }) hwf hv hs hr hpol
  exact ⟨k, t, h3, h4.kind, h4.text_eq, h4.after, h4.start⟩

/-- C22, behind `#` and `%`, where only the leading digits are read. -/
theorem C22_short (cfg : Cfg) (pol : Pol) (insideGroup : Bool) (s : St) (ds : List Char) (r : List UInt8)
    (h0 : s.eof = false) (hne : ds ≠ []) (hds : ∀ c ∈ ds, isDec c = true) (hs : s.rest = bytes ds ++ r)
    (hr : Clear r) (hr' : ∀ c, isDec c = true → ¬ Starts c r) (hpol : pol.intShort = true) :
    ∃ k t, peekTokenWith cfg pol insideGroup s = .ok (k, t) ∧
      k.kind = .Integer ∧ k.text = bytes ds ∧ k.after = r ∧ k.start = s.loc := by
  have hwf : WF s := by intro h; rw [h0] at h; cases h
  obtain ⟨k, t, u, h3, h4⟩ := peek_of_wp (cfg := cfg) (pol := pol) (g := insideGroup) (s := s) (Q := Gives s .Integer (bytes ds) r) <| by
    cases ds with
    | nil => exact absurd rfl hne
    | cons y ds =>
      have hy := hds y List.mem_cons_self
      have hpl := plainly_alnum (isDec_alnum hy)
      have hbt := byte_toNat' hpl.lt
      have := hpl.lt; have := hpl.cr
      refine lex_start (b := byte y) (r := bytes ds ++ r) hwf hs (by omega) hpl.esc (by omega) fun t ht1 => ?_
      rw [hbt, dispatch_digit hy, handleNumber_eq hy]
      refine lex_leading (f := numRest cfg _ s) hs ht1 rfl hds (sees_clear hr) hr' ?_
      intro n nz m lead c t hnm hnz ht1 hl
      unfold numRest
      rw [if_pos (by exact hpol)]
      exact lex_tok ht1 hs
  exact ⟨k, t, h3, h4.kind, h4.text_eq, h4.after, h4.start⟩

/-- Ahead of a space every number ends. -/
theorem ends_space (l : Literal) (q : List UInt8) : l.Ends (byte ' ' :: q) := by
  have hp : Plainly ' ' := ⟨by decide, by decide, by decide⟩
  have key : ∀ c : Char, c.toNat < 128 → c ≠ ' ' → ¬ Starts c (byte ' ' :: q) := fun c h1 h2 h => h2 (starts_byte hp h h1)
  refine ⟨.inl (not_starts_head (key _ (by decide) (by decide))), fun c hc => ?_, fun c _ hc => ?_, key _ (by decide) (by decide),
    key _ (by decide) (by decide), fun _ h => absurd (List.cons.inj h).1 (by decide),
    fun _ h => absurd (List.cons.inj h).1 (by decide), fun _ => ⟨key _ (by decide) (by decide), key _ (by decide) (by decide)⟩⟩
  · exact key c (plainly_alnum (isDec_alnum hc)).lt (by rintro rfl; cases hc)
  · exact key c (plainly_alnum hc).lt (by rintro rfl; cases hc)

/-- And so it does at the end of the input. -/
theorem ends_nil (l : Literal) : l.Ends [] := by
  have key : ∀ c : Char, ¬ Starts c [] := fun c ⟨q, h⟩ => by cases h
  exact ⟨.inl (by simp), fun _ _ => key _, fun _ _ _ => key _, key _, key _, fun _ h => (by cases h), fun _ h => (by cases h),
    fun _ => ⟨key _, key _⟩⟩

/-- The number ``16^^fF.a``-3.5*^-07``, in front of a space. -/
def sampleNumber : Literal where
  base := some ['1', '6']
  mantissa := ⟨['f', 'F'], some ['a']⟩
  precision := some (.given true (some .minus) ⟨['3'], some ['5']⟩)
  exponent := some ⟨some .minus, ['0', '7']⟩

example : sampleNumber.Valid ∧ sampleNumber.text = "16^^fF.a``-3.5*^-07".toList ∧ sampleNumber.kind = .Real := by
  refine ⟨⟨?_, ⟨by decide, by decide⟩, ?_, ?_⟩, by decide, ?_⟩
  · rintro b h; cases h; decide
  · rintro a s v h; cases h; exact ⟨by decide, by decide⟩
  · rintro e h; cases h; decide
  · have h1 : ¬ sampleNumber.badDigits := by rintro ⟨b, h, h'⟩; cases h; revert h'; decide
    have h2 : sampleNumber.isReal := Or.inl rfl
    simp only [Literal.kind, h1, h2, if_true, if_false]

/-- The same conditions hold of numbers of all kinds. -/
example : ({ mantissa := ⟨['1'], none⟩, exponent := some ⟨some .minus, ['3']⟩ } : Literal).kind = .Rational ∧
    ({ mantissa := ⟨['1'], none⟩, exponent := some ⟨some .minus, ['0']⟩ } : Literal).kind = .Integer ∧
    ({ base := some ['2'], mantissa := ⟨['1', '2'], none⟩ } : Literal).kind = .Error_Number := by
  refine ⟨?_, ?_, ?_⟩
  · have h1 : ¬ ({ mantissa := ⟨['1'], none⟩, exponent := some ⟨some .minus, ['3']⟩ } : Literal).badDigits := by
      rintro ⟨b, h, h'⟩; cases h
    have h2 : ¬ ({ mantissa := ⟨['1'], none⟩, exponent := some ⟨some .minus, ['3']⟩ } : Literal).isReal := by simp [Literal.isReal]
    have h3 : ({ mantissa := ⟨['1'], none⟩, exponent := some ⟨some .minus, ['3']⟩ } : Literal).isRational :=
      ⟨_, rfl, rfl, '3', by simp, by decide⟩
    simp only [Literal.kind, h1, h2, h3, if_true, if_false]
  · have h1 : ¬ ({ mantissa := ⟨['1'], none⟩, exponent := some ⟨some .minus, ['0']⟩ } : Literal).badDigits := by
      rintro ⟨b, h, h'⟩; cases h
    have h2 : ¬ ({ mantissa := ⟨['1'], none⟩, exponent := some ⟨some .minus, ['0']⟩ } : Literal).isReal := by simp [Literal.isReal]
    have h3 : ¬ ({ mantissa := ⟨['1'], none⟩, exponent := some ⟨some .minus, ['0']⟩ } : Literal).isRational := by
      rintro ⟨e, h, h1, c, h2, h3⟩; cases h; simp at h2; exact h3 h2
    simp only [Literal.kind, h1, h2, h3, if_false]
  · have h1 : ({ base := some ['2'], mantissa := ⟨['1', '2'], none⟩ } : Literal).badDigits :=
      ⟨_, rfl, Or.inr (Or.inr ⟨'2', by simp [Digits.all], by decide⟩)⟩
    simp only [Literal.kind, h1, if_true]

end CodeParser.Props
