import Verif.Proofs.Lex5
/-!
Reading a number: exponent, precision, fraction (helper lemmas).
-/
namespace CodeParser
open Spec

section
variable {cfg : Cfg} {pol : Pol} {start s t : St} {E : Err → Prop} {r q X : List UInt8} {b : UInt8} {c : WLC} {x : NumCtx}
  {text : List UInt8} {K : TK} {base : Nat}

theorem plainly_sign {sg : Option Sign} : ∀ y ∈ signText sg, Plainly y := by
  rcases sg with _ | _ | _ <;> simp [signText] <;> exact ⟨by decide, by decide, by decide⟩

theorem lex_assertAscii {β} {f : Unit → M β} {Q : β → St → Prop} {at_ : St} {test : UInt8}
    (h : at_.rest = test :: q) (hf : wp E (f ()) s Q) : wp E (assertAscii at_ test >>= f) s Q := by
  have : assertAscii at_ test = assertB true := by
    unfold assertAscii
    rw [h]
    have : ifAsciiWL test test = true := by
      unfold ifAsciiWL
      repeat' split
      all_goals simp
    simp [this]
  rw [this]
  exact lex_assert rfl hf

/-- The text does not continue digits of the base, and has no escape and no dot in front. -/
structure Quiet (cfg : Cfg) (base : Nat) (r : List UInt8) : Prop where
  esc : Sees cfg r
  dot : ¬ Starts '.' r
  digit : ∀ x, digitOf base x = true → ¬ Starts x r

theorem Quiet.dec (h : Quiet cfg base r) : ∀ x, isDec x = true → ¬ Starts x r :=
  fun x hx => h.digit x (by simp [digitOf, hx])

theorem Quiet.zero (h : Quiet cfg base r) : Quiet cfg 0 r := ⟨h.esc, h.dot, fun x hx => h.dec x (by simpa [digitOf] using hx)⟩

theorem starts_byte {x y : Char} (hx : Plainly x) (h : Starts y (byte x :: r)) (hy : y.toNat < 128) : y = x := by
  obtain ⟨q, hq⟩ := h
  have h := congrArg UInt8.toNat (List.cons.inj hq).1
  rw [byte_toNat' hx.lt, byte_toNat' hy] at h
  exact (Char.toNat_inj.mp h).symm

theorem quiet_byte {x : Char} (hx : Plainly x) (hd : x ≠ '.') (ha : isAlnum x = false) : Quiet cfg base (byte x :: r) := by
  refine ⟨sees_plain fun h => hx.esc (Option.some.inj h), fun h => ?_, fun y hy h => ?_⟩
  · exact hd (starts_byte hx h (by decide)).symm
  · have hay := digitOf_alnum hy
    have := starts_byte hx h (plainly_alnum hay).lt
    rw [this, ha] at hay
    cases hay

theorem star_plain : Plainly '*' := ⟨by decide, by decide, by decide⟩
theorem caret_plain : Plainly '^' := ⟨by decide, by decide, by decide⟩
theorem quote_plain : Plainly '`' := ⟨by decide, by decide, by decide⟩
theorem dot_plain : Plainly '.' := ⟨by decide, by decide, by decide⟩

/-! ### Exponents -/

theorem lex_expEnd (h : Lex cfg start r s) (hl : Look r c) (hd : ¬ Starts '.' r) (ht : start.rest = text ++ r) :
    wp E (numExponentEnd cfg start x c) s (Gives start x.kind text r) := by
  unfold numExponentEnd
  rw [if_pos (fun h => hd ((look_starts hl (by decide) (by decide)).mp h))]
  exact lex_tok h ht

/-- The sign was a minus. -/
def isMinus : Option Sign → Bool
  | some .minus => true
  | _ => false

theorem starts_append_sign {sg : Option Sign} (h : Sees cfg q) : Sees cfg (bytes (signText sg) ++ q) := by
  rcases sg with _ | _ | _
  · exact h
  · exact sees_plain (by simp [signText, bytes]; decide)
  · exact sees_plain (by simp [signText, bytes]; decide)

theorem lex_expSign {sg : Option Sign} (h : Lex cfg start (bytes (signText sg) ++ q) s) (hl : Look (bytes (signText sg) ++ q) c)
    (hq : Sees cfg q) (h1 : ¬ Starts '+' q) (h2 : ¬ Starts '-' q) :
    wp E (expSign cfg x c) s (fun p u => p.1 = { x with negativeExponent := x.negativeExponent || isMinus sg } ∧
      Lex cfg start q u ∧ Look q p.2) := by
  unfold expSign
  rcases sg with _ | _ | _
  · change Look q c at hl
    rw [if_neg]
    · exact wp_pure ⟨by simp [isMinus], h, hl⟩
    · rintro (h | h)
      · exact h1 ((look_starts hl (by decide) (by decide)).mp h)
      · exact h2 ((look_starts hl (by decide) (by decide)).mp h)
  · have hp : Plainly '+' := ⟨by decide, by decide, by decide⟩
    have hc := look_char (x := '+') hl hp
    rw [if_pos (Or.inl hc)]
    refine lex_step hp (q := q) h hq fun c' u hu hl' => wp_pure ⟨?_, hu, hl'⟩
    rw [hc]; rfl
  · have hp : Plainly '-' := ⟨by decide, by decide, by decide⟩
    have hc := look_char (x := '-') hl hp
    rw [if_pos (Or.inr hc)]
    refine lex_step hp (q := q) h hq fun c' u hu hl' => wp_pure ⟨?_, hu, hl'⟩
    rw [hc]; rfl

/-- The digits without leading zeros. -/
def stripZeros : List Char → List Char
  | [] => []
  | y :: z => if y = '0' then stripZeros z else y :: z

theorem stripZeros_split (ds : List Char) : ∃ zs, ds = zs ++ stripZeros ds ∧ ∀ y ∈ zs, y = '0' := by
  induction ds with
  | nil => exact ⟨[], rfl, by simp⟩
  | cons y z ih =>
    unfold stripZeros
    split
    · next h =>
      obtain ⟨zs, h1, h2⟩ := ih
      exact ⟨y :: zs, by rw [List.cons_append, ← h1], by simpa [h] using h2⟩
    · exact ⟨[], rfl, by simp⟩

theorem stripZeros_nil {ds : List Char} : stripZeros ds = [] ↔ ∀ y ∈ ds, y = '0' := by
  induction ds with
  | nil => simp [stripZeros]
  | cons y z ih =>
    unfold stripZeros
    split
    · next h => simpa [h] using ih
    · next h => simp [h]

theorem stripZeros_mem {ds : List Char} {p : Char → Bool} (h : ∀ y ∈ ds, p y = true) : ∀ y ∈ stripZeros ds, p y = true := by
  obtain ⟨zs, h1, -⟩ := stripZeros_split ds
  intro y hy
  exact h y (by rw [h1]; simp [hy])

theorem stripZeros_head {ds : List Char} {y : Char} {z : List Char} (h : stripZeros ds = y :: z) : y ≠ '0' := by
  induction ds with
  | nil => cases h
  | cons a ds ih =>
    unfold stripZeros at h
    split at h
    · exact ih h
    · next hne => cases h; exact hne

theorem stripZeros_starts {ds : List Char} (hds : ∀ y ∈ ds, isDec y = true) (hr : ¬ Starts '0' r) : ¬ Starts '0' (bytes (stripZeros ds) ++ r) := by
  have h2 := stripZeros_mem hds
  have h3 := fun y z => stripZeros_head (ds := ds) (y := y) (z := z)
  cases hs : stripZeros ds with
  | nil => exact hr
  | cons y z =>
    intro h
    have hy := h2 y (by rw [hs]; exact List.mem_cons_self)
    exact h3 y z hs (starts_byte (plainly_alnum (isDec_alnum hy)) h (by decide)).symm

theorem starts_digits {ds : List Char} {y : Char} (hds : ∀ z ∈ ds, isAlnum z = true) (hne : ds ≠ []) (hy : isAlnum y = false)
    (hlt : y.toNat < 128) : ¬ Starts y (bytes ds ++ r) := by
  cases ds with
  | nil => exact absurd rfl hne
  | cons z ds =>
    intro h
    have hz := hds z List.mem_cons_self
    have := starts_byte (plainly_alnum hz) h hlt
    rw [this, hz] at hy
    cases hy

theorem lex_expZeros {ds : List Char} (h : Lex cfg start (bytes ds ++ r) s) (hl : Look (bytes ds ++ r) c)
    (hds : ∀ y ∈ ds, isDec y = true) (hr : Quiet cfg 0 r) :
    wp E (expZeros cfg c) s (fun c u => Lex cfg start (bytes (stripZeros ds) ++ r) u ∧ Look (bytes (stripZeros ds) ++ r) c) := by
  obtain ⟨zs, hzs, hz⟩ := stripZeros_split ds
  have hs0 := stripZeros_starts hds (hr.dec '0' rfl)
  have hesc : Sees cfg (bytes (stripZeros ds) ++ r) :=
    esc_digits (fun y hy => isDec_alnum (stripZeros_mem hds y hy)) hr.esc
  unfold expZeros
  refine wp_ite (fun hc => ?_) (fun hc => ?_)
  · refine wp_bind (wp_mono (lex_zeros (start := start) (ds := zs) (r := bytes (stripZeros ds) ++ r) ?_ hz hesc hs0 hc) (fun _ h => h) ?_)
    · rw [← List.append_assoc, show bytes zs ++ bytes (stripZeros ds) = bytes ds by
        conv_rhs => rw [hzs]
        simp [bytes]]
      exact h
    · rintro ⟨n, c⟩ u ⟨-, h1, h2⟩
      exact wp_pure ⟨h1, h2⟩
  · have : zs = [] := by
      cases zs with
      | nil => rfl
      | cons z zs =>
        have hz0 := hz z List.mem_cons_self
        subst hz0
        rw [hzs] at hl
        exact absurd (look_char (x := '0') hl zero_plain) hc
    subst this
    rw [List.nil_append] at hzs
    rw [← hzs]
    exact wp_pure ⟨h, hl⟩

/-- The kind after an exponent is `K`. -/
def ExpKind (x : NumCtx) (e : Option Exponent) (K : TK) : Prop :=
  match e with
  | none => x.kind = K
  | some e => ∀ n, (n = 0 ↔ ∀ c ∈ e.digits, c = '0') →
      ({ x with negativeExponent := isMinus e.sign, nonZeroExponentDigits := n } : NumCtx).kind = K

theorem lex_expDigits {ds : List Char} (h : Lex cfg start (bytes (stripZeros ds) ++ r) s) (hl : Look (bytes (stripZeros ds) ++ r) c)
    (hds : ∀ y ∈ ds, isDec y = true) (hr : Quiet cfg 0 r) (hx : x.nonZeroExponentDigits = 0) :
    wp E (expDigits cfg x c) s (fun p u => (∃ n, p.1 = { x with nonZeroExponentDigits := n } ∧ (n = 0 ↔ ∀ c ∈ ds, c = '0')) ∧
      Lex cfg start r u ∧ Look r p.2) := by
  have hds' := stripZeros_mem hds
  unfold expDigits
  cases hs : stripZeros ds with
  | nil =>
    rw [hs] at h hl
    rw [if_neg (by rw [look_digit (r := r) hl hr.dec]; simp)]
    refine wp_pure ⟨⟨0, by rw [← hx], ?_⟩, h, hl⟩
    simpa using stripZeros_nil.mp hs
  | cons y z =>
    rw [hs] at h hl hds'
    have hy := hds' y List.mem_cons_self
    have hc := look_char (x := y) hl (plainly_alnum (isDec_alnum hy))
    have hd : c.point.isDigit = true := by rw [hc, isDec_digit, hy]
    rw [if_pos hd]
    refine wp_bind (wp_mono (lex_digits h hds' hr.esc hr.dec hd) (fun _ h => h) ?_)
    rintro ⟨n, c⟩ u ⟨hn, h1, h2⟩
    refine wp_pure ⟨⟨n, rfl, ?_⟩, h1, h2⟩
    refine ⟨fun h => absurd h hn, fun h => ?_⟩
    rw [stripZeros_nil.mpr h] at hs
    cases hs

/-- The exponent can be read. -/
def ExpOk (e : Option Exponent) : Prop := ∀ e', e = some e' → e'.digits ≠ [] ∧ ∀ c ∈ e'.digits, isDec c = true

/-- What follows the number. -/
structure After (cfg : Cfg) (base : Nat) (r : List UInt8) : Prop where
  quiet : Quiet cfg base r
  quote : ¬ Starts '`' r
  star : ∀ q, r = byte '*' :: q → ¬ Starts '^' q ∧ Sees cfg q

theorem exp_after {e : Option Exponent} (hr : After cfg base r) : Quiet cfg base (bytes (exponentText e) ++ r) ∧
    ¬ Starts '`' (bytes (exponentText e) ++ r) := by
  cases e with
  | none => exact ⟨hr.quiet, hr.quote⟩
  | some e =>
    refine ⟨quiet_byte star_plain (by decide) (by decide), fun h => ?_⟩
    exact absurd (starts_byte star_plain h (by decide)) (by decide)

/-- From the star on. -/
theorem lex_numStar {e : Option Exponent} {star : St} (hX : bytes (exponentText e) ++ r = byte '*' :: q)
    (hstar : Lex cfg start (byte '*' :: q) star) (h : Lex cfg start q s) (hc : c.point = ch '*')
    (he : ExpOk e) (hr : After cfg base r) (hx : x.nonZeroExponentDigits = 0) (hn : x.negativeExponent = false)
    (hK : ExpKind x e K) (ht : start.rest = text ++ r) :
    wp E (numStar cfg start (some star) x c) s (Gives start K text r) := by
  unfold numStar
  refine lex_assert (by simp [hc]) ?_
  refine lex_assertAscii hstar.rest ?_
  cases e with
  | none =>
    change r = _ at hX
    obtain ⟨h1, h2⟩ := hr.star q hX
    refine lex_see h h2 fun c t ht' hl => ?_
    rw [if_pos (fun h => h1 ((look_starts hl (by decide) (by decide)).mp h))]
    rw [show x.kind = K from hK]
    subst hX
    exact lex_seek hstar fun t ht' => lex_tok ht' ht
  | some e =>
    obtain ⟨hne, hds⟩ := he e rfl
    obtain ⟨sg, ds⟩ := e
    dsimp only at hne hds
    have hq : q = byte '^' :: (bytes (signText sg) ++ (bytes ds ++ r)) := by
      simp only [exponentText, bytes, List.map_cons, List.cons_append, List.cons.injEq, true_and] at hX
      rw [← hX]
      simp [bytes]
    have hds' : ∀ y ∈ ds, isAlnum y = true := fun y hy => isDec_alnum (hds y hy)
    have hesc := esc_digits hds' hr.quiet.esc
    have hesc' : Sees cfg (bytes (signText sg) ++ (bytes ds ++ r)) :=
      starts_append_sign hesc
    subst hq
    refine lex_cur h (not_starts_head fun h => absurd (starts_byte caret_plain h (by decide)) (by decide)) fun c1 t1 ht1 hl1 => ?_
    rw [if_neg (fun h => h (look_char (x := '^') hl1 caret_plain))]
    refine lex_step caret_plain ht1 hesc' fun c2 t2 ht2 hl2 => ?_
    refine wp_bind (wp_mono (lex_expSign ht2 hl2 hesc (starts_digits hds' hne (by decide) (by decide))
      (starts_digits hds' hne (by decide) (by decide))) (fun _ h => h) ?_)
    rintro ⟨x', c3⟩ t3 ⟨rfl, ht3, hl3⟩
    have hd : c3.point.isDigit = true := by
      cases ds with
      | nil => exact absurd rfl hne
      | cons y ds =>
        have hy := hds y List.mem_cons_self
        rw [look_char (x := y) hl3 (plainly_alnum (isDec_alnum hy)), isDec_digit, hy]
    dsimp only
    rw [if_neg (by rw [hd]; simp)]
    refine wp_bind (wp_mono (lex_expZeros ht3 hl3 hds hr.quiet.zero) (fun _ h => h) ?_)
    rintro c4 t4 ⟨ht4, hl4⟩
    refine wp_bind (wp_mono (lex_expDigits ht4 hl4 hds hr.quiet.zero (by exact hx)) (fun _ h => h) ?_)
    rintro ⟨x', c5⟩ t5 ⟨⟨n, rfl, hn0⟩, ht5, hl5⟩
    have hk := hK n hn0
    rw [hn, Bool.false_or, ← hk]
    exact lex_expEnd ht5 hl5 hr.quiet.dot ht

end

end CodeParser
