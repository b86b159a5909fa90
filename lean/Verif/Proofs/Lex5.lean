import Verif.Proofs.Lex4
import Verif.Spec.Number
/-!
Reading a number (helper lemmas).
-/
namespace CodeParser
open Spec

section
variable {cfg : Cfg} {pol : Pol} {start s t : St} {E : Err → Prop} {r q : List UInt8} {b : UInt8} {c : WLC}

theorem starts_iff {x : Char} : Starts x r ↔ r.head? = some (byte x) := by
  constructor
  · rintro ⟨q, rfl⟩; rfl
  · exact head_some

theorem look_starts {x : Char} (h : Look r c) (hx : x.toNat < 0x80) (h13 : x.toNat ≠ 13)
    (h92 : byte x ≠ byte '\\' := by decide) : c.point = ch x ↔ Starts x r := by
  rw [starts_iff]; exact h.ch hx h13 h92

/-- An ASCII character that stands for itself. -/
structure Plainly (x : Char) : Prop where
  lt : x.toNat < 128
  cr : x.toNat ≠ 13
  esc : byte x ≠ byte '\\'

theorem plainly_alnum {x : Char} (h : isAlnum x = true) : Plainly x := by
  have : x.toNat < 128 ∧ x.toNat ≠ 13 ∧ x.toNat ≠ 92 := by
    simp [isAlnum, isDec] at h; omega
  refine ⟨this.1, this.2.1, fun h => this.2.2 ?_⟩
  have h := congrArg UInt8.toNat h
  rw [byte_toNat' this.1] at h
  exact h

theorem isDec_alnum {x : Char} (h : isDec x = true) : isAlnum x = true := by simp [isAlnum, h]

theorem isDec_digit {x : Char} : (CP.char x.toNat).isDigit = isDec x := rfl

theorem isAlnum_eq {x : Char} : (CP.char x.toNat).isAlphaOrDigit = isAlnum x := by
  simp only [CP.isAlphaOrDigit, isAlnum, isDec, inR]
  rw [Bool.eq_iff_iff]; simp; omega

theorem look_char {x : Char} (h : Look (byte x :: r) c) (hx : Plainly x) : c.point = .char x.toNat := by
  have := hx.lt; have := hx.cr
  have hb := byte_toNat' hx.lt
  rw [h.char (by omega) (by omega) hx.esc, hb]

theorem not_starts_head {x : Char} (h : ¬ Starts x r) : r.head? ≠ some (byte x) := fun e => h (head_some e)

/-- Reading on over one character. -/
theorem lex_step {β} {f : WLC → M β} {Q : β → St → Prop} {x : Char} (hx : Plainly x) (h : Lex cfg start (byte x :: q) s)
    (hq : Sees cfg q) (hf : ∀ c t, Lex cfg start q t → Look q c → wp E (f c) t Q) :
    wp E (nextC cfg >>= fun _ => curC cfg >>= f) s Q := by
  have := hx.lt; have := hx.cr
  have hb := byte_toNat' hx.lt
  exact lex_next h (by omega) hx.esc (by omega) fun t ht => lex_see ht hq hf

theorem starts_append {ds : List Char} {x : Char} (hx : Plainly x) (hds : ∀ y ∈ ds, Plainly y ∧ y ≠ x) (hr : ¬ Starts x r) :
    ¬ Starts x (bytes ds ++ r) := by
  cases ds with
  | nil => exact hr
  | cons y ds =>
    rintro ⟨q, hq⟩
    simp only [bytes, List.map_cons, List.cons_append, List.cons.injEq] at hq
    have h := congrArg UInt8.toNat hq.1
    obtain ⟨h1, h2⟩ := hds y List.mem_cons_self
    rw [byte_toNat' h1.lt, byte_toNat' hx.lt] at h
    exact h2 (Char.toNat_inj.mp h)

theorem esc_digits {ds : List Char} (hds : ∀ y ∈ ds, isAlnum y = true) (hr : Sees cfg r) : Sees cfg (bytes ds ++ r) := by
  cases ds with
  | nil => exact hr
  | cons y ds => exact sees_plain fun h => (plainly_alnum (hds y List.mem_cons_self)).esc (Option.some.inj h)

theorem ofNat_toNat {n : Nat} (h : n < 128) : (Char.ofNat n).toNat = n := by
  have : Nat.isValidChar n := by unfold Nat.isValidChar; omega
  unfold Char.ofNat
  rw [dif_pos this]
  rfl

theorem look_digit (h : Look r c) (hr : ∀ x, isDec x = true → ¬ Starts x r) : c.point.isDigit = false := by
  rw [Bool.eq_false_iff]
  intro hd
  obtain ⟨b, q, rfl, hb⟩ := h.digit.mp hd
  refine hr (Char.ofNat b.toNat) ?_ ⟨q, ?_⟩
  · simp [isDigitByte] at hb
    have : (Char.ofNat b.toNat).toNat = b.toNat := ofNat_toNat (by omega)
    simp [isDec, this]; omega
  · simp [isDigitByte] at hb
    have : (Char.ofNat b.toNat).toNat = b.toNat := ofNat_toNat (by omega)
    simp [byte, this]

theorem look_alnum (h : Look r c) (hr : ∀ x, isAlnum x = true → ¬ Starts x r) : c.point.isAlphaOrDigit = false := by
  rw [h.pred asciiPred_alnum]
  cases r with
  | nil => rfl
  | cons b q =>
    rw [Bool.eq_false_iff]
    intro hd
    have hb : b.toNat < 128 := by simp [headIs, CP.isAlphaOrDigit, inR] at hd; omega
    have ht : (Char.ofNat b.toNat).toNat = b.toNat := ofNat_toNat (by omega)
    refine hr (Char.ofNat b.toNat) ?_ ⟨q, ?_⟩
    · rw [← isAlnum_eq, ht]; exact hd
    · simp [byte, ht]

theorem zero_plain : Plainly '0' := ⟨by decide, by decide, by decide⟩

/-- `Tokenizer_handleZeros` behind a zero. -/
theorem lex_zeros {ds : List Char} (h : Lex cfg start (bytes ds ++ r) s) (hds : ∀ y ∈ ds, y = '0') (hr : Sees cfg r)
    (h0 : ¬ Starts '0' r) (hc : c.point = ch '0') :
    wp E (handleZeros cfg c) s (fun d u => d.1 ≠ 0 ∧ Lex cfg start r u ∧ Look r d.2) := by
  have esc : ∀ ds : List Char, (∀ y ∈ ds, y = '0') → Sees cfg (bytes ds ++ r) := fun ds hds =>
    esc_digits (fun y hy => by rw [hds y hy]; rfl) hr
  unfold handleZeros
  refine lex_assert (by simp [hc]) (lex_see h ((esc ds hds)) fun c t ht hl => ?_)
  refine wp_loop (fun d u => d.1 ≠ 0 ∧ ∃ ds : List Char, (∀ x ∈ ds, x = '0') ∧ Lex cfg start (bytes ds ++ r) u ∧
    Look (bytes ds ++ r) d.2) (fun _ u => u.rest.length) ⟨by simp, ds, hds, ht, hl⟩ (by omega) ?_
  rintro ⟨n, c⟩ u ⟨hn, ds, hds, hu, hl⟩
  cases ds with
  | nil =>
    rw [if_pos (fun h => h0 ((look_starts hl (by decide) (by decide)).mp h))]
    exact wp_pure ⟨hn, hu, hl⟩
  | cons x ds =>
    have hds' : ∀ y ∈ ds, y = '0' := fun y hy => hds y (List.mem_cons_of_mem _ hy)
    cases hds x List.mem_cons_self
    rw [if_neg (by rw [look_char (x := '0') hl zero_plain]; simp [ch])]
    refine lex_step zero_plain (q := bytes ds ++ r) hu (esc ds hds') fun c w hw hl => ?_
    refine wp_pure ⟨⟨by simp, ds, hds', hw, hl⟩, ?_⟩
    rw [hw.rest, hu.rest]; simp [bytes]

/-- `Tokenizer_handleDigits` in front of digits. -/
theorem lex_digits {ds : List Char} (h : Lex cfg start (bytes ds ++ r) s) (hds : ∀ y ∈ ds, isDec y = true) (hr : Sees cfg r)
    (h0 : ∀ x, isDec x = true → ¬ Starts x r) (hc : c.point.isDigit = true) :
    wp E (handleDigits cfg c) s (fun d u => d.1 ≠ 0 ∧ Lex cfg start r u ∧ Look r d.2) := by
  have esc : ∀ ds : List Char, (∀ y ∈ ds, isDec y = true) → Sees cfg (bytes ds ++ r) := fun ds hds =>
    esc_digits (fun y hy => isDec_alnum (hds y hy)) hr
  unfold handleDigits
  refine lex_assert hc (lex_see h ((esc ds hds)) fun c t ht hl => ?_)
  refine wp_loop (fun d u => d.1 ≠ 0 ∧ ∃ ds : List Char, (∀ x ∈ ds, isDec x = true) ∧ Lex cfg start (bytes ds ++ r) u ∧
    Look (bytes ds ++ r) d.2) (fun _ u => u.rest.length) ⟨by simp, ds, hds, ht, hl⟩ (by omega) ?_
  rintro ⟨n, c⟩ u ⟨hn, ds, hds, hu, hl⟩
  cases ds with
  | nil =>
    rw [if_pos (by rw [look_digit (r := r) hl h0]; rfl)]
    exact wp_pure ⟨hn, hu, hl⟩
  | cons x ds =>
    have hds' : ∀ y ∈ ds, isDec y = true := fun y hy => hds y (List.mem_cons_of_mem _ hy)
    have hx := hds x List.mem_cons_self
    have hpx := plainly_alnum (isDec_alnum hx)
    rw [if_neg (by rw [look_char (x := x) hl hpx, isDec_digit, hx]; simp)]
    refine lex_step hpx (q := bytes ds ++ r) hu (esc ds hds') fun c w hw hl => ?_
    refine wp_pure ⟨⟨by simp, ds, hds', hw, hl⟩, ?_⟩
    rw [hw.rest, hu.rest]; simp [bytes]

/-- The model's digit value. -/
theorem digitValue_eq {x : Char} (h : isAlnum x = true) : (CP.char x.toNat).digitValue = digit x := by
  have hlt := (plainly_alnum h).lt
  have e : (UInt8.ofNat x.toNat).toNat = x.toNat := by simp; omega
  simp only [CP.digitValue, toDigit, e, inR, digit]
  simp [isAlnum, isDec] at h ⊢
  repeat' split
  all_goals omega

/-- What is read as a digit. -/
def digitOf (base : Nat) (x : Char) : Bool := isDec x || (base != 0 && isAlnum x)

theorem digitOf_alnum {base : Nat} {x : Char} (h : digitOf base x = true) : isAlnum x = true := by
  unfold digitOf at h
  cases hx : isDec x with
  | true => exact isDec_alnum hx
  | false => rw [hx] at h; simp at h; exact h.2

/-- `Tokenizer_handleAlphaOrDigits` in front of digits. -/
theorem lex_alnums {ds : List Char} {base : Nat} (h : Lex cfg start (bytes ds ++ r) s) (hl : Look (bytes ds ++ r) c)
    (hds : ∀ y ∈ ds, digitOf base y = true) (hr : Sees cfg r)
    (h0 : ∀ x, digitOf base x = true → ¬ Starts x r) (hc : c.point.isAlphaOrDigit = true) :
    wp E (handleAlphaOrDigits cfg c base) s (fun d u => (d.1 = 0 ↔ ds = []) ∧
      d.2.2 = (base != 0 && ds.any fun y => decide (base ≤ digit y)) ∧ Lex cfg start r u ∧ Look r d.2.1) := by
  have esc : ∀ ds : List Char, (∀ y ∈ ds, digitOf base y = true) → Sees cfg (bytes ds ++ r) := fun ds hds =>
    esc_digits (fun y hy => digitOf_alnum (hds y hy)) hr
  unfold handleAlphaOrDigits
  refine lex_assert hc ?_
  refine wp_loop (fun d u => ∃ pre ds' : List Char, ds = pre ++ ds' ∧ d.1 = pre.length ∧
    d.2.2 = (base != 0 && pre.any fun y => decide (base ≤ digit y)) ∧ Lex cfg start (bytes ds' ++ r) u ∧
    Look (bytes ds' ++ r) d.2.1) (fun _ u => u.rest.length) ⟨[], ds, rfl, rfl, by simp, h, hl⟩ (by omega) ?_
  rintro ⟨n, c, bad⟩ u ⟨pre, ds', rfl, hn, hb, hu, hl⟩
  dsimp only at hn hb hl
  cases ds' with
  | nil =>
    have key : wp E (pure (Sum.inr (n, c, bad)) : M ((Nat × WLC × Bool) ⊕ (Nat × WLC × Bool))) u (fun r' u' => match r' with
      | .inl b' => (∃ pre_1 ds' : List Char, pre ++ [] = pre_1 ++ ds' ∧ b'.1 = pre_1.length ∧
          b'.2.2 = (base != 0 && pre_1.any fun y => decide (base ≤ digit y)) ∧ Lex cfg start (bytes ds' ++ r) u' ∧
          Look (bytes ds' ++ r) b'.2.1) ∧ u'.rest.length < u.rest.length
      | .inr d => (d.1 = 0 ↔ pre ++ [] = []) ∧
          d.2.2 = (base != 0 && (pre ++ []).any fun y => decide (base ≤ digit y)) ∧ Lex cfg start r u' ∧ Look r d.2.1) :=
      wp_pure ⟨by simp [hn], by simpa using hb, hu, hl⟩
    refine wp_ite (fun _ => wp_mono key (fun _ h => h) (fun r u h => by cases r <;> exact h)) (fun ha => ?_)
    by_cases hb0 : base = 0
    · rw [if_pos hb0, if_pos]
      · exact wp_mono key (fun _ h => h) (fun r u h => by cases r <;> exact h)
      · rw [look_digit (r := r) hl (fun x hx => h0 x (by simp [digitOf, hx]))]; rfl
    · exfalso
      apply ha
      rw [look_alnum (r := r) hl (fun x hx => h0 x (by simp [digitOf, hx, hb0]))]; rfl
  | cons x ds' =>
    have hx := hds x (by simp)
    have hax := digitOf_alnum hx
    have hpx := plainly_alnum hax
    have hds' : ∀ y ∈ ds', digitOf base y = true := fun y hy => hds y (by simp [hy])
    have hcp := look_char (x := x) hl hpx
    rw [if_neg (by dsimp only; rw [hcp, isAlnum_eq, hax]; simp)]
    refine wp_ite (fun hb0 => ?_) (fun hb0 => ?_)
    · rw [if_neg (by
        subst hb0
        have : isDec x = true := by simpa [digitOf] using hx
        dsimp only; rw [hcp, isDec_digit, this]; simp)]
      refine lex_step hpx (q := bytes ds' ++ r) hu (esc ds' hds') fun c w hw hl => ?_
      refine wp_pure ⟨⟨pre ++ [x], ds', by simp, by simp [hn], ?_, hw, hl⟩, ?_⟩
      · subst hb0; simpa using hb
      · rw [hw.rest, hu.rest]; simp [bytes]
    · refine lex_step hpx (q := bytes ds' ++ r) hu (esc ds' hds') fun c w hw hl => ?_
      refine wp_pure ⟨⟨pre ++ [x], ds', by simp, by simp [hn], ?_, hw, hl⟩, ?_⟩
      · have : (base != 0) = true := by simpa using hb0
        dsimp only
        rw [hcp, digitValue_eq hax, hb, this]
        simp
      · rw [hw.rest, hu.rest]; simp [bytes]

end

end CodeParser
