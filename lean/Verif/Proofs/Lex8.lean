import Verif.Proofs.Lex7
/-!
Reading a number: mantissa and base (helper lemmas).
-/
namespace CodeParser
open Spec

section
variable {cfg : Cfg} {pol : Pol} {start s t : St} {E : Err → Prop} {r q X : List UInt8} {b : UInt8} {c : WLC} {x : NumCtx}
  {text : List UInt8} {K : TK} {base : Nat}

theorem prec_after {e : Option Exponent} {p : Option Precision} (hr : After cfg base r) :
    Quiet cfg base (bytes (precisionText p) ++ (bytes (exponentText e) ++ r)) := by
  rcases p with _ | _ | ⟨_ | _, sg, v⟩
  · exact (exp_after hr).1
  all_goals exact quiet_byte quote_plain (by decide) (by decide)

/-- Digits too large for the base. -/
def tooLarge (base : Nat) (ds : List Char) : Bool := base != 0 && ds.any fun y => decide (base ≤ digit y)

/-- The kind after fraction, precision and exponent. -/
def MantKind (x : NumCtx) (fr : Option (List Char)) (p : Option Precision) (e : Option Exponent) (K : TK) : Prop :=
  match fr with
  | none => PrecKind x p e K
  | some f => ExpKind { x with unrecognizedDigit := x.unrecognizedDigit || tooLarge x.base f, real := true } e K

/-- From the radix point on. -/
theorem lex_numDot {e : Option Exponent} {p : Option Precision} {f : List Char} {star : Option St} {lead : St} {n : Nat}
    (h : Lex cfg start (bytes f ++ (bytes (precisionText p) ++ (bytes (exponentText e) ++ r))) s) (hc : c.point = ch '.')
    (hf : ∀ y ∈ f, digitOf x.base y = true) (hn : n = 0 → f ≠ []) (hp : PrecOk p) (hsg : SignOk p e r)
    (he : ExpOk e) (hr : After cfg x.base r) (hx : Fresh x) (hK : MantKind x (some f) p e K) (ht : start.rest = text ++ r) :
    wp E (numFraction cfg start lead n star x c) s (Gives start K text r) := by
  have hq := prec_after (e := e) (p := p) hr
  unfold numFraction
  rw [if_pos hc]
  unfold possibleFraction
  refine wp_bind (lex_assert (by rw [hc]; rfl) ?_)
  refine lex_see h ((esc_digits (fun y hy => digitOf_alnum (hf y hy)) hq.esc)) fun c t ht' hl => ?_
  refine wp_mono (lex_fraction ht' hl hf hq) (fun _ h => h) ?_
  rintro ⟨_, c, _⟩ u ⟨m, rfl, h1, rfl, h2, h3⟩
  dsimp only
  have fin := lex_afterFraction (E := E) (star := star) (x := { x with unrecognizedDigit := x.unrecognizedDigit || tooLarge x.base f })
    h2 h3 hp hsg he hr ⟨hx.digits, hx.neg⟩ hK ht
  cases m with
  | zero =>
    have : n ≠ 0 := fun h => hn h (h1.mp rfl)
    simp only
    rw [if_neg this]
    exact fin
  | succ m => exact fin

/-- Behind the leading digits. -/
theorem lex_mantissa {e : Option Exponent} {p : Option Precision} {fr : Option (List Char)} {lead : St} {n : Nat}
    (h : Lex cfg start (bytes (fracText fr) ++ (bytes (precisionText p) ++ (bytes (exponentText e) ++ r))) s)
    (hl : Look (bytes (fracText fr) ++ (bytes (precisionText p) ++ (bytes (exponentText e) ++ r))) c)
    (hf : ∀ y ∈ fr.getD [], digitOf x.base y = true) (hn : n ≠ 0) (hp : PrecOk p) (hsg : SignOk p e r)
    (he : ExpOk e) (hr : After cfg x.base r) (hx : Fresh x) (hK : MantKind x fr p e K) (ht : start.rest = text ++ r) :
    wp E (numAfterBaseDigits cfg start lead n x c) s (Gives start K text r) := by
  unfold numAfterBaseDigits
  cases fr with
  | some f =>
    have hq : bytes (fracText (some f)) ++ (bytes (precisionText p) ++ (bytes (exponentText e) ++ r)) =
      byte '.' :: (bytes f ++ (bytes (precisionText p) ++ (bytes (exponentText e) ++ r))) := rfl
    rw [hq] at h hl
    have hc := look_char (x := '.') hl dot_plain
    rw [if_neg (by rw [hc]; decide), if_pos (Or.inl hc)]
    refine lex_next h (by decide) (by decide) (by decide) fun t ht' => ?_
    exact lex_numDot ht' hc hf (fun h => absurd h hn) hp hsg he hr hx hK ht
  | none =>
    change Lex cfg start (bytes (precisionText p) ++ (bytes (exponentText e) ++ r)) s at h
    change Look (bytes (precisionText p) ++ (bytes (exponentText e) ++ r)) c at hl
    have hdot := (prec_after (e := e) (p := p) hr).dot
    have hdot' : c.point ≠ ch '.' := fun h => hdot ((look_starts hl (by decide) (by decide)).mp h)
    refine wp_ite (fun hc => ?_) (fun hc => ?_)
    · obtain ⟨q, hq⟩ := (look_starts hl (by decide) (by decide)).mp hc
      rw [hq] at h
      refine lex_mark (lex_assertAscii h.rest ?_)
      refine lex_next h (by decide) (by decide) (by decide) fun t ht' => ?_
      have hpn : p = none := by
        rcases p with _ | _ | ⟨_ | _, sg, v⟩
        · rfl
        all_goals exact absurd (List.cons.inj hq).1 (by decide)
      subst hpn
      unfold numFraction
      rw [if_neg hdot']
      unfold numPrecision
      refine lex_assert (by rw [hc]; rfl) ?_
      rw [if_neg (by rw [hc]; decide)]
      exact lex_numStar hq h ht' hc he hr hx.digits hx.neg hK ht
    · refine wp_ite (fun hc' => ?_) (fun hc' => ?_)
      · have hc' := hc'.resolve_left hdot'
        obtain ⟨q, hq⟩ := (look_starts hl (by decide) (by decide)).mp hc'
        rw [hq] at h
        refine lex_next h (by decide) (by decide) (by decide) fun t ht' => ?_
        unfold numFraction
        rw [if_neg hdot']
        exact lex_precision hq ht' hc' hp hsg he hr hx hK ht
      · have hpn : p = none := by
          rcases p with _ | _ | ⟨_ | _, sg, v⟩
          · rfl
          all_goals exact absurd (Or.inr (look_char (x := '`') hl quote_plain)) hc'
        subst hpn
        have := exp_star (e := e) (r := r) (fun h => hc ((look_starts hl (by decide) (by decide)).mpr h))
        subst this
        rw [show x.kind = K from hK]
        exact lex_tok h ht

/-! ### Leading digits -/

/-- The leading digits: the position behind the zeros, and where reading has got to. -/
theorem lex_leading {β} {f : Nat → St → Nat → St → WLC → M β} {Q : β → St → Prop} {y : Char} {ds : List Char} {Z : List UInt8}
    (hs : start.rest = bytes (y :: ds) ++ Z) (h : Lex cfg start (bytes ds ++ Z) s) (hc : c = ⟨.char y.toNat, .none⟩)
    (hds : ∀ z ∈ y :: ds, isDec z = true) (hZ : Sees cfg Z) (hd : ∀ y, isDec y = true → ¬ Starts y Z)
    (hf : ∀ n nz m lead c t, n + m ≠ 0 → nz.rest = bytes (stripZeros (y :: ds)) ++ Z → Lex cfg start Z t → Look Z c →
      wp E (f n nz m lead c) t Q) :
    wp E (numZeros cfg start c >>= fun p => numDigits cfg p.2.2 >>= fun p' => f p.1 p.2.1 p'.1 p'.2.1 p'.2.2) s Q := by
  have hds' : ∀ z ∈ ds, isDec z = true := fun z hz => hds z (List.mem_cons_of_mem _ hz)
  subst hc
  refine wp_bind ?_
  unfold numZeros
  refine wp_ite (fun h0 => ?_) (fun h0 => ?_)
  · have hy : y = '0' := Char.toNat_inj.mp (by simpa [ch] using h0)
    subst hy
    obtain ⟨zs, hzs, hz⟩ := stripZeros_split ds
    have hs0 := stripZeros_starts hds' (hd '0' rfl)
    have hesc : Sees cfg (bytes (stripZeros ds) ++ Z) :=
      esc_digits (fun y hy => isDec_alnum (stripZeros_mem hds' y hy)) hZ
    have hb : bytes ds = bytes zs ++ bytes (stripZeros ds) := by
      conv_lhs => rw [hzs]
      simp [bytes]
    rw [hb, List.append_assoc] at h
    refine wp_bind (wp_mono (lex_zeros h hz hesc hs0 h0) (fun _ h => h) ?_)
    rintro ⟨n, c⟩ u ⟨hn, hu, hl⟩
    dsimp only at hn hl
    refine lex_mark (wp_pure ?_)
    dsimp only
    refine wp_bind ?_
    unfold numDigits
    refine lex_mark (wp_ite (fun hcd => ?_) (fun hcd => ?_))
    · refine wp_bind (wp_mono (lex_digits hu (stripZeros_mem hds') hZ hd hcd) (fun _ h => h) ?_)
      rintro ⟨m, c⟩ v ⟨hm, hv, hl⟩
      refine lex_mark (wp_pure ?_)
      exact hf _ _ _ _ _ _ (by dsimp only at hm ⊢; omega) hu.rest hv hl
    · have hnil : stripZeros ds = [] := by
        have hm := stripZeros_mem hds'
        cases hsz : stripZeros ds with
        | nil => rfl
        | cons z zs =>
          rw [hsz] at hl hm
          have hz := hm z List.mem_cons_self
          rw [look_char (x := z) hl (plainly_alnum (isDec_alnum hz)), isDec_digit] at hcd
          exact absurd hz hcd
      refine wp_pure (hf _ _ _ _ _ _ (by omega) hu.rest ?_ ?_)
      · rw [hnil] at hu; exact hu
      · rw [hnil] at hl; exact hl
  · refine wp_pure ?_
    dsimp only
    refine wp_bind ?_
    unfold numDigits
    have hy := hds y List.mem_cons_self
    refine lex_mark ?_
    rw [if_pos (by dsimp only; rw [isDec_digit, hy])]
    refine wp_bind (wp_mono (lex_digits h hds' hZ hd (by dsimp only; rw [isDec_digit, hy])) (fun _ h => h) ?_)
    rintro ⟨m, c⟩ v ⟨hm, hv, hl⟩
    refine lex_mark (wp_pure ?_)
    refine hf _ _ _ _ _ _ (by dsimp only at hm ⊢; simpa using hm) ?_ hv hl
    have hne : y ≠ '0' := fun h => h0 (by rw [h])
    rw [hs]
    simp [stripZeros, hne]

/-! ### The base -/

theorem decimalValue_append (a b : List Char) : decimalValue (a ++ b) = decimalValue a * 10 ^ b.length + decimalValue b := by
  have key : ∀ (b : List Char) n, b.foldl (fun n c => 10 * n + digit c) n = n * 10 ^ b.length + b.foldl (fun n c => 10 * n + digit c) 0 := by
    intro b
    induction b with
    | nil => simp
    | cons y b ih =>
      intro n
      rw [List.foldl_cons, List.foldl_cons, ih, ih (10 * 0 + digit y), List.length_cons, Nat.pow_succ]
      generalize 10 ^ b.length = P
      have h1 : n * (P * 10) = 10 * (n * P) := by rw [Nat.mul_comm P, Nat.mul_left_comm]
      have h2 : 10 * n * P = 10 * (n * P) := Nat.mul_assoc ..
      rw [Nat.add_mul, h1, h2]
      simp
      omega
  unfold decimalValue
  rw [List.foldl_append, key]

theorem decimalValue_zeros {zs : List Char} (h : ∀ y ∈ zs, y = '0') : decimalValue zs = 0 := by
  induction zs with
  | nil => rfl
  | cons y zs ih =>
    have := h y List.mem_cons_self
    subst this
    have := ih fun y hy => h y (List.mem_cons_of_mem _ hy)
    rw [show '0' :: zs = ['0'] ++ zs from rfl, decimalValue_append, this]
    simp [decimalValue, digit, isDec]

theorem decimalValue_strip (ds : List Char) : decimalValue (stripZeros ds) = decimalValue ds := by
  obtain ⟨zs, h1, h2⟩ := stripZeros_split ds
  conv_rhs => rw [h1, decimalValue_append, decimalValue_zeros h2]
  simp

theorem digit_dec {y : Char} (h : isDec y = true) : toDigit (byte y) = digit y ∧ digit y ≤ 9 ∧ (y ≠ '0' → 1 ≤ digit y) := by
  have hlt := (plainly_alnum (isDec_alnum h)).lt
  have hb := byte_toNat' hlt
  have h0 : y ≠ '0' → y.toNat ≠ 48 := fun hne h => hne (Char.toNat_inj.mp h)
  simp only [toDigit, hb, inR, digit, h]
  simp [isDec] at h
  simp [h]
  intro hne
  have := h0 hne
  omega

/-- What the base is. -/
theorem numBaseOf_eq {ds : List Char} (hds : ∀ y ∈ ds, isDec y = true) :
    numBaseOf (bytes (stripZeros ds)) {} =
      { invalidBase := decide (¬ (2 ≤ decimalValue ds ∧ decimalValue ds ≤ 36)),
        base := if decimalValue ds ≤ 99 then decimalValue ds else 0 } := by
  rw [← decimalValue_strip]
  have hm := stripZeros_mem hds
  have hh := fun y z => stripZeros_head (ds := ds) (y := y) (z := z)
  generalize stripZeros ds = w at hm hh
  have chk : ∀ v, numBaseOf.checkBase { ({} : NumCtx) with base := v } = { invalidBase := decide (¬ (2 ≤ v ∧ v ≤ 36)), base := v } := by
    intro v
    unfold numBaseOf.checkBase
    split
    · next h => simp only at h; simp [h]
    · next h => simp only at h; simp [h]
  match w, hm, hh with
  | [], _, _ => rfl
  | [a], hm, _ =>
    obtain ⟨h1, h2, -⟩ := digit_dec (hm a (by simp))
    have hv : decimalValue [a] = digit a := by simp [decimalValue]
    simp only [bytes, List.map_cons, List.map_nil, numBaseOf]
    rw [chk, h1, hv, if_pos (by omega)]
  | [a, b], hm, _ =>
    obtain ⟨h1, h2, -⟩ := digit_dec (hm a (by simp))
    obtain ⟨h3, h4, -⟩ := digit_dec (hm b (by simp))
    have hv : decimalValue [a, b] = digit a * 10 + digit b := by simp [decimalValue]; omega
    simp only [bytes, List.map_cons, List.map_nil, numBaseOf]
    rw [chk, h1, h3, hv, if_pos (by omega)]
  | a :: b :: d :: w, hm, hh =>
    obtain ⟨h1, h2, h3⟩ := digit_dec (hm a (by simp))
    have h3 := h3 (hh a _ rfl)
    have hv : 100 ≤ decimalValue (a :: b :: d :: w) := by
      rw [show a :: b :: d :: w = [a] ++ (b :: d :: w) from rfl, decimalValue_append]
      have : decimalValue [a] = digit a := by simp [decimalValue]
      rw [this]
      have : 100 ≤ 10 ^ (b :: d :: w).length := by
        simp only [List.length_cons]
        have := Nat.one_le_pow w.length 10 (by omega)
        rw [Nat.pow_succ, Nat.pow_succ]; omega
      have := Nat.mul_le_mul h3 this
      omega
    simp only [bytes, List.map_cons, numBaseOf]
    rw [if_neg (by omega)]
    have : ¬ (2 ≤ decimalValue (a :: b :: d :: w) ∧ decimalValue (a :: b :: d :: w) ≤ 36) := by omega
    simp [this]

end

end CodeParser
