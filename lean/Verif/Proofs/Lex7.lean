import Verif.Proofs.Lex6
/-!
Reading a number: precision and fraction (helper lemmas).
-/
namespace CodeParser
open Spec

section
variable {cfg : Cfg} {pol : Pol} {start s t : St} {E : Err → Prop} {r q X : List UInt8} {b : UInt8} {c : WLC} {x : NumCtx}
  {text : List UInt8} {K : TK} {base : Nat}

/-- No exponent was read yet. -/
structure Fresh (x : NumCtx) : Prop where
  digits : x.nonZeroExponentDigits = 0
  neg : x.negativeExponent = false

theorem exp_star {e : Option Exponent} (h : ¬ Starts '*' (bytes (exponentText e) ++ r)) : e = none := by
  cases e with
  | none => rfl
  | some e => exact absurd ⟨_, rfl⟩ h

theorem lex_precEnd {e : Option Exponent} {acc sup : Bool} (hs : acc = true → sup = true)
    (h : Lex cfg start (bytes (exponentText e) ++ r) s) (hl : Look (bytes (exponentText e) ++ r) c)
    (he : ExpOk e) (hr : After cfg base r) (hx : Fresh x) (hK : ExpKind x e K) (ht : start.rest = text ++ r) :
    wp E (numPrecisionEnd cfg start x acc sup c) s (Gives start K text r) := by
  unfold numPrecisionEnd
  rw [if_neg (by cases acc <;> cases sup <;> simp_all)]
  refine wp_ite (fun hc => ?_) (fun hc => ?_)
  · obtain ⟨q, hq⟩ := (look_starts hl (by decide) (by decide)).mp hc
    refine lex_mark ?_
    rw [hq] at h
    refine lex_assertAscii h.rest ?_
    exact lex_next h (by decide) (by decide) (by decide) fun t ht' =>
      lex_numStar hq h ht' hc he hr hx.digits hx.neg hK ht
  · have := exp_star (fun h => hc ((look_starts hl (by decide) (by decide)).mpr h))
    subst this
    rw [show x.kind = K from hK] at *
    exact lex_tok h ht

/-- Behind a dot. -/
theorem lex_fraction {f : List Char} {dot : St} (h : Lex cfg start (bytes f ++ X) s) (hl : Look (bytes f ++ X) c)
    (hf : ∀ y ∈ f, digitOf base y = true) (hX : Quiet cfg base X) :
    wp E (fractionPastDot cfg dot c base x) s (fun p u => ∃ n, p.1 = .count n ∧ (n = 0 ↔ f = []) ∧
      p.2.2 = { x with unrecognizedDigit := x.unrecognizedDigit || (base != 0 && f.any fun y => decide (base ≤ digit y)) } ∧
      Lex cfg start X u ∧ Look X p.2.1) := by
  unfold fractionPastDot
  have hd : ¬ Starts '.' (bytes f ++ X) := by
    cases hf' : f with
    | nil => exact hX.dot
    | cons y z =>
      rw [← hf']
      exact starts_digits (fun y hy => digitOf_alnum (hf y hy)) (by rw [hf']; simp) (by decide) (by decide)
  rw [if_neg (fun h => hd ((look_starts hl (by decide) (by decide)).mp h))]
  refine wp_ite (fun ha => ?_) (fun ha => ?_)
  · refine wp_bind (wp_mono (lex_alnums h hl hf hX.esc hX.digit ha) (fun _ h => h) ?_)
    rintro ⟨n, c, bad⟩ u ⟨h1, h2, h3, h4⟩
    dsimp only at h2
    subst h2
    exact wp_pure ⟨n, rfl, h1, rfl, h3, h4⟩
  · have : f = [] := by
      cases f with
      | nil => rfl
      | cons y z =>
        have hy := digitOf_alnum (hf y List.mem_cons_self)
        rw [look_char (x := y) hl (plainly_alnum hy), isAlnum_eq] at ha
        exact absurd hy ha
    subst this
    exact wp_pure ⟨0, rfl, by simp, by simp, h, hl⟩

theorem digitOf_zero {x : Char} (h : isDec x = true) : digitOf 0 x = true := by simp [digitOf, h]

theorem lex_precFraction {e : Option Exponent} {f : List Char} {acc sup : Bool} {sign : Option St} {dot : St}
    (h : Lex cfg start (bytes f ++ (bytes (exponentText e) ++ r)) s) (hl : Look (bytes f ++ (bytes (exponentText e) ++ r)) c)
    (hf : ∀ y ∈ f, isDec y = true) (hs : sup = true ∨ f ≠ [])
    (he : ExpOk e) (hr : After cfg base r) (hx : Fresh x) (hK : ExpKind x e K) (ht : start.rest = text ++ r) :
    wp E (numPrecisionFraction cfg start x acc sign sup dot c) s (Gives start K text r) := by
  unfold numPrecisionFraction
  refine wp_bind (wp_mono (lex_fraction h hl (fun y hy => digitOf_zero (hf y hy)) (exp_after hr).1.zero) (fun _ h => h) ?_)
  rintro ⟨_, c, _⟩ u ⟨n, rfl, h1, rfl, h2, h3⟩
  dsimp only
  rw [if_neg]
  · refine lex_precEnd (by simp) h2 h3 he hr ⟨hx.digits, hx.neg⟩ ?_ ht
    simpa using hK
  · rcases hs with hs | hs
    · simp [hs]
    · have : n ≠ 0 := fun h => hs (h1.mp h)
      simp [this]

/-- The fraction, if there is one. -/
def fracText : Option (List Char) → List Char
  | none => []
  | some f => '.' :: f

theorem digits_text (v : Digits) : v.text = v.int ++ fracText v.frac := by
  obtain ⟨i, _ | f⟩ := v <;> rfl

theorem lex_precDot {e : Option Exponent} {fr : Option (List Char)} {acc sup : Bool} {sign : Option St}
    (h : Lex cfg start (bytes (fracText fr) ++ (bytes (exponentText e) ++ r)) s)
    (hl : Look (bytes (fracText fr) ++ (bytes (exponentText e) ++ r)) c)
    (hf : ∀ y ∈ fr.getD [], isDec y = true) (hs : sup = true ∨ fr.getD [] ≠ [])
    (he : ExpOk e) (hr : After cfg base r) (hx : Fresh x) (hK : ExpKind x e K) (ht : start.rest = text ++ r) :
    wp E (numPrecisionDot cfg start x acc sign sup c) s (Gives start K text r) := by
  unfold numPrecisionDot
  cases fr with
  | none =>
    have hs : sup = true := by simpa using hs
    rw [if_neg (fun h => (exp_after hr).1.dot ((look_starts hl (by decide) (by decide)).mp h))]
    exact lex_precEnd (fun _ => hs) h hl he hr hx hK ht
  | some f =>
    change ∀ y ∈ f, _ at hf
    change _ ∨ f ≠ [] at hs
    have hq : bytes (fracText (some f)) ++ (bytes (exponentText e) ++ r) = byte '.' :: (bytes f ++ (bytes (exponentText e) ++ r)) := rfl
    rw [hq] at h hl
    rw [if_pos (look_char (x := '.') hl dot_plain)]
    refine lex_mark (lex_assertAscii h.rest ?_)
    refine lex_step dot_plain h (esc_digits (fun y hy => isDec_alnum (hf y hy)) (exp_after hr).1.esc) fun c' t ht' hl' => ?_
    refine wp_ite (fun _ => lex_precFraction ht' hl' hf hs he hr hx hK ht) (fun hc => ?_)
    rw [if_neg]
    · exact lex_precFraction ht' hl' hf hs he hr hx hK ht
    · have : f ≠ [] := by
        rcases hs with hs | hs
        · simp [hs] at hc
        · exact hs
      cases f with
      | nil => exact absurd rfl this
      | cons y z =>
        have hy := hf y List.mem_cons_self
        rw [look_char (x := y) hl' (plainly_alnum (isDec_alnum hy)), isDec_digit, hy]
        simp

/-- The first character of digits is a digit or a dot. -/
theorem starts_number {v : Digits} {p : Char → Bool} (hp : ∀ y, p y = true → isAlnum y = true) (hv : v.Ok p) {y : Char}
    (hy : isAlnum y = false) (hd : y ≠ '.') (hlt : y.toNat < 128) : ¬ Starts y (bytes v.text ++ q) := by
  obtain ⟨i, fr⟩ := v
  obtain ⟨hne, hall⟩ := hv
  rw [digits_text]
  cases i with
  | cons z i =>
    intro h
    have hz := hp z (hall z (by simp [Digits.all]))
    have := starts_byte (plainly_alnum hz) h hlt
    rw [this, hz] at hy
    cases hy
  | nil =>
    cases fr with
    | none => exact absurd rfl hne
    | some f => exact fun h => hd (starts_byte dot_plain h hlt)

theorem frac_esc {fr : Option (List Char)} (h : Quiet cfg base X) : Sees cfg (bytes (fracText fr) ++ X) := by
  cases fr with
  | none => exact h.esc
  | some f => exact sees_plain (not_starts_head fun h => absurd (starts_byte dot_plain h (by decide)) (by decide))

theorem frac_digit {fr : Option (List Char)} (h : Quiet cfg base X) : ∀ y, digitOf base y = true → ¬ Starts y (bytes (fracText fr) ++ X) := by
  cases fr with
  | none => exact h.digit
  | some f =>
    intro y hy h
    have hay := digitOf_alnum hy
    have := starts_byte dot_plain h (plainly_alnum hay).lt
    rw [this] at hay
    cases hay

theorem lex_precDigits {e : Option Exponent} {v : Digits} {acc : Bool} {sign : Option St}
    (h : Lex cfg start (bytes v.text ++ (bytes (exponentText e) ++ r)) s)
    (hl : Look (bytes v.text ++ (bytes (exponentText e) ++ r)) c) (hv : v.Ok isDec)
    (he : ExpOk e) (hr : After cfg base r) (hx : Fresh x) (hK : ExpKind x e K) (ht : start.rest = text ++ r) :
    wp E (numPrecisionDigits cfg start x acc sign c) s (Gives start K text r) := by
  obtain ⟨i, fr⟩ := v
  obtain ⟨hne, hall⟩ := hv
  have hi : ∀ y ∈ i, isDec y = true := fun y hy => hall y (by simp [Digits.all, hy])
  have hf : ∀ y ∈ fr.getD [], isDec y = true := fun y hy => hall y (by simp only [Digits.all, List.mem_append]; exact Or.inr hy)
  rw [digits_text, show bytes (i ++ fracText fr) = bytes i ++ bytes (fracText fr) by simp [bytes], List.append_assoc] at h hl
  have hqx := (exp_after (e := e) hr).1.zero
  unfold numPrecisionDigits
  cases i with
  | nil =>
    have hf0 : fr.getD [] ≠ [] := by simpa [Digits.all] using hne
    rw [if_neg]
    · exact lex_precDot h hl hf (Or.inr hf0) he hr hx hK ht
    · rw [look_digit (r := _) hl (fun y hy => frac_digit hqx y (digitOf_zero hy))]
      simp
  | cons y i =>
    have hy := hi y List.mem_cons_self
    have hd : c.point.isDigit = true := by rw [look_char (x := y) hl (plainly_alnum (isDec_alnum hy)), isDec_digit, hy]
    rw [if_pos hd]
    refine wp_bind (wp_mono (lex_digits h hi (frac_esc hqx) (fun y hy => frac_digit hqx y (digitOf_zero hy)) hd) (fun _ h => h) ?_)
    rintro ⟨n, c⟩ u ⟨hn, hu, hl⟩
    dsimp only at hn hl ⊢
    refine wp_ite (fun _ => ?_) (fun hc => ?_)
    · exact lex_precDot hu hl hf (Or.inl (by simp; omega)) he hr hx hK ht
    · have hfr : fr = none := by
        cases fr with
        | none => rfl
        | some f => exact absurd (Or.inl (look_char (x := '.') hl dot_plain)) hc
      subst hfr
      have := exp_star (e := e) (r := r) (fun h => hc (Or.inr ((look_starts hl (by decide) (by decide)).mpr h)))
      subst this
      rw [show x.kind = K from hK]
      exact lex_tok hu ht

theorem lex_precSign {e : Option Exponent} {v : Digits} {acc : Bool} {sg : Option Sign}
    (h : Lex cfg start (bytes (signText sg) ++ (bytes v.text ++ (bytes (exponentText e) ++ r))) s)
    (hl : Look (bytes (signText sg) ++ (bytes v.text ++ (bytes (exponentText e) ++ r))) c) (hv : v.Ok isDec)
    (he : ExpOk e) (hr : After cfg base r) (hx : Fresh x) (hK : ExpKind x e K) (ht : start.rest = text ++ r) :
    wp E (numPrecisionSign cfg start x acc c) s (Gives start K text r) := by
  unfold numPrecisionSign
  have hdot : ∀ (c : WLC), Look (bytes v.text ++ (bytes (exponentText e) ++ r)) c → (c.point.isDigit || c.point == ch '.') = true := by
    intro c hl
    obtain ⟨i, fr⟩ := v
    obtain ⟨hne, hall⟩ := hv
    rw [digits_text] at hl
    cases i with
    | cons y i =>
      have hy := hall y (by simp [Digits.all])
      rw [look_char (x := y) hl (plainly_alnum (isDec_alnum hy)), isDec_digit, hy]; rfl
    | nil =>
      cases fr with
      | none => exact absurd rfl hne
      | some f => rw [look_char (x := '.') hl dot_plain]; rfl
  have hesc : Sees cfg (bytes v.text ++ (bytes (exponentText e) ++ r)) :=
    sees_plain (not_starts_head (starts_number (fun _ h => isDec_alnum h) hv (by decide) (by decide) (by decide)))
  have go : ∀ {y : Char}, Plainly y → (ifAsciiWL (byte y) 0x2d || ifAsciiWL (byte y) 0x2b) = true →
      Lex cfg start (byte y :: (bytes v.text ++ (bytes (exponentText e) ++ r))) s → wp E (do
    let sign ← M.mark
    match sign.rest with
    | [] => M.panic .index
    | b :: _ =>
      assertB (ifAsciiWL b 0x2d || ifAsciiWL b 0x2b)
      let _ ← nextC cfg
      let c ← curC cfg
      if c.point.isDigit || c.point == ch '.' then
        numPrecisionDigits cfg start x acc (some sign) c
      else if acc then tok .Error_Number start
      else
        M.seek sign
        tok x.kind start : M Tok) s (Gives start K text r) := by
    intro y hy hb h
    refine lex_mark ?_
    rw [h.rest]
    refine lex_assert hb ?_
    refine lex_step hy h hesc fun c' t ht' hl' => ?_
    rw [if_pos (hdot c' hl')]
    exact lex_precDigits ht' hl' hv he hr hx hK ht
  rcases sg with _ | _ | _
  · rw [if_neg]
    · exact lex_precDigits h hl hv he hr hx hK ht
    · rintro (h | h)
      · exact starts_number (y := '-') (fun _ h => isDec_alnum h) hv (by decide) (by decide) (by decide)
          ((look_starts (r := bytes v.text ++ _) hl (by decide) (by decide)).mp h)
      · exact starts_number (y := '+') (fun _ h => isDec_alnum h) hv (by decide) (by decide) (by decide)
          ((look_starts (r := bytes v.text ++ _) hl (by decide) (by decide)).mp h)
  · have hp : Plainly '+' := ⟨by decide, by decide, by decide⟩
    rw [if_pos (Or.inr (look_char (x := '+') hl hp))]
    exact go hp (by decide) h
  · have hp : Plainly '-' := ⟨by decide, by decide, by decide⟩
    rw [if_pos (Or.inl (look_char (x := '-') hl hp))]
    exact go hp (by decide) h

/-- The precision can be read. -/
def PrecOk (p : Option Precision) : Prop := ∀ a s v, p = some (.given a s v) → v.Ok isDec

/-- No sign follows a number that ends with a backquote. -/
def SignOk (p : Option Precision) (e : Option Exponent) (r : List UInt8) : Prop :=
  p = some .machine → e = none → ¬ Starts '+' r ∧ ¬ Starts '-' r

/-- The kind after a precision and an exponent. -/
def PrecKind (x : NumCtx) (p : Option Precision) (e : Option Exponent) (K : TK) : Prop :=
  ExpKind (if p.isSome then { x with real := true } else x) e K

/-- From the backquote on. -/
theorem lex_precision {e : Option Exponent} {p : Option Precision} {star : Option St}
    (hY : bytes (precisionText p) ++ (bytes (exponentText e) ++ r) = byte '`' :: q)
    (h : Lex cfg start q s) (hc : c.point = ch '`') (hp : PrecOk p) (hsg : SignOk p e r)
    (he : ExpOk e) (hr : After cfg base r) (hx : Fresh x) (hK : PrecKind x p e K) (ht : start.rest = text ++ r) :
    wp E (numPrecision cfg start star x c) s (Gives start K text r) := by
  unfold numPrecision
  refine lex_assert (by rw [hc]; rfl) ?_
  rw [if_pos hc]
  have hxr : Fresh { x with real := true } := ⟨hx.digits, hx.neg⟩
  rcases p with _ | _ | ⟨_ | _, sg, v⟩
  · exact absurd ⟨q, hY⟩ (exp_after hr).2
  · -- a lone backquote
    have hq : q = bytes (exponentText e) ++ r := by
      change byte '`' :: (bytes (exponentText e) ++ r) = _ at hY
      exact (List.cons.inj hY).2.symm
    subst hq
    obtain ⟨hqx, hqq⟩ := exp_after (e := e) hr
    have hnosign : ¬ Starts '+' (bytes (exponentText e) ++ r) ∧ ¬ Starts '-' (bytes (exponentText e) ++ r) := by
      cases e with
      | none => exact hsg rfl rfl
      | some e => exact ⟨fun h => absurd (starts_byte star_plain h (by decide)) (by decide),
          fun h => absurd (starts_byte star_plain h (by decide)) (by decide)⟩
    refine lex_see h hqx.esc fun c t ht' hl => ?_
    rw [if_neg (fun h => hqq ((look_starts hl (by decide) (by decide)).mp h))]
    unfold numPrecisionSign
    rw [if_neg (by
      rintro (h | h)
      · exact hnosign.2 ((look_starts hl (by decide) (by decide)).mp h)
      · exact hnosign.1 ((look_starts hl (by decide) (by decide)).mp h))]
    unfold numPrecisionDigits
    rw [if_neg (by rw [look_digit hl hqx.dec]; simp)]
    unfold numPrecisionDot
    rw [if_neg (fun h => hqx.dot ((look_starts hl (by decide) (by decide)).mp h))]
    exact lex_precEnd (by simp) ht' hl he hr hxr hK ht
  · -- a precision
    have hv := hp _ _ _ rfl
    have hq : q = bytes (signText sg) ++ (bytes v.text ++ (bytes (exponentText e) ++ r)) := by
      have : bytes (precisionText (some (.given false sg v))) = byte '`' :: (bytes (signText sg) ++ bytes v.text) := by
        simp [precisionText, bytes]
      rw [this, List.cons_append, List.append_assoc] at hY
      exact (List.cons.inj hY).2.symm
    subst hq
    have hesc : Sees cfg (bytes v.text ++ (bytes (exponentText e) ++ r)) :=
      sees_plain (not_starts_head (starts_number (fun _ h => isDec_alnum h) hv (by decide) (by decide) (by decide)))
    have hquote : ¬ Starts '`' (bytes (signText sg) ++ (bytes v.text ++ (bytes (exponentText e) ++ r))) := by
      rcases sg with _ | _ | _
      · exact starts_number (fun _ h => isDec_alnum h) hv (by decide) (by decide) (by decide)
      · exact fun h => absurd (starts_byte (x := '+') ⟨by decide, by decide, by decide⟩ h (by decide)) (by decide)
      · exact fun h => absurd (starts_byte (x := '-') ⟨by decide, by decide, by decide⟩ h (by decide)) (by decide)
    refine lex_see h ((starts_append_sign hesc)) fun c t ht' hl => ?_
    rw [if_neg (fun h => hquote ((look_starts hl (by decide) (by decide)).mp h))]
    exact lex_precSign ht' hl hv he hr hxr hK ht
  · -- an accuracy
    have hv := hp _ _ _ rfl
    have hq : q = byte '`' :: (bytes (signText sg) ++ (bytes v.text ++ (bytes (exponentText e) ++ r))) := by
      have : bytes (precisionText (some (.given true sg v))) = byte '`' :: byte '`' :: (bytes (signText sg) ++ bytes v.text) := by
        simp [precisionText, bytes]
      rw [this, List.cons_append, List.cons_append, List.append_assoc] at hY
      exact (List.cons.inj hY).2.symm
    subst hq
    have hesc : Sees cfg (bytes v.text ++ (bytes (exponentText e) ++ r)) :=
      sees_plain (not_starts_head (starts_number (fun _ h => isDec_alnum h) hv (by decide) (by decide) (by decide)))
    refine lex_cur h (not_starts_head fun h => absurd (starts_byte quote_plain h (by decide)) (by decide)) fun c t ht' hl => ?_
    rw [if_pos (look_char (x := '`') hl quote_plain)]
    refine lex_step quote_plain ht' (starts_append_sign hesc) fun c t ht' hl => ?_
    exact lex_precSign ht' hl hv he hr hxr hK ht

/-- What follows the mantissa, once it is known that the number is real. -/
theorem lex_afterFraction {e : Option Exponent} {p : Option Precision} {star : Option St}
    (h : Lex cfg start (bytes (precisionText p) ++ (bytes (exponentText e) ++ r)) s)
    (hl : Look (bytes (precisionText p) ++ (bytes (exponentText e) ++ r)) c) (hp : PrecOk p) (hsg : SignOk p e r)
    (he : ExpOk e) (hr : After cfg base r) (hx : Fresh x) (hK : ExpKind { x with real := true } e K) (ht : start.rest = text ++ r) :
    wp E (numAfterFraction cfg start star x c) s (Gives start K text r) := by
  have hxr : Fresh { x with real := true } := ⟨hx.digits, hx.neg⟩
  unfold numAfterFraction
  refine wp_ite (fun hc => ?_) (fun hc => ?_)
  · obtain ⟨q, hq⟩ := (look_starts hl (by decide) (by decide)).mp hc
    rw [hq] at h
    refine lex_mark (lex_assertAscii h.rest ?_)
    refine lex_next h (by decide) (by decide) (by decide) fun t ht' => ?_
    have hpn : p = none := by
      rcases p with _ | _ | ⟨_ | _, sg, v⟩
      · rfl
      all_goals exact absurd (List.cons.inj hq).1 (by decide)
    subst hpn
    unfold numPrecision
    refine lex_assert (by rw [hc]; rfl) ?_
    rw [if_neg (by rw [hc]; decide)]
    exact lex_numStar hq h ht' hc he hr hx.digits hx.neg hK ht
  · refine wp_ite (fun hc' => ?_) (fun hc' => ?_)
    · obtain ⟨q, hq⟩ := (look_starts hl (by decide) (by decide)).mp hc'
      rw [hq] at h
      refine lex_next h (by decide) (by decide) (by decide) fun t ht' => ?_
      refine lex_precision hq ht' hc' hp hsg he hr hxr ?_ ht
      unfold PrecKind
      split <;> exact hK
    · have hpn : p = none := by
        rcases p with _ | _ | ⟨_ | _, sg, v⟩
        · rfl
        all_goals exact absurd (look_char (x := '`') hl quote_plain) hc'
      subst hpn
      have := exp_star (e := e) (r := r) (fun h => hc ((look_starts hl (by decide) (by decide)).mpr h))
      subst this
      rw [show ({ x with real := true } : NumCtx).kind = K from hK]
      exact lex_tok h ht

end

end CodeParser
