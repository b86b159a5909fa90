import Verif.Proofs.Lex8
/-!
Reading a number: the whole literal (helper lemmas).
-/
namespace CodeParser
open Spec

section
variable {cfg : Cfg} {pol : Pol} {start s t : St} {E : Err → Prop} {r q X : List UInt8} {b : UInt8} {c : WLC} {x : NumCtx}
  {text : List UInt8} {K : TK} {base : Nat}

/-- The mantissa and what follows it. -/
def tailBytes (fr : Option (List Char)) (p : Option Precision) (e : Option Exponent) (r : List UInt8) : List UInt8 :=
  bytes (fracText fr) ++ (bytes (precisionText p) ++ (bytes (exponentText e) ++ r))

theorem tail_quiet {fr : Option (List Char)} {p : Option Precision} {e : Option Exponent} (hr : After cfg base r) :
    Sees cfg (tailBytes fr p e r) ∧ ∀ y, digitOf base y = true → ¬ Starts y (tailBytes fr p e r) :=
  ⟨frac_esc (prec_after hr), frac_digit (prec_after hr)⟩

theorem between_of {a z : St} {u v : List UInt8} (h1 : a.rest = u ++ v) (h2 : z.rest = v) : between a z = u := by
  unfold between
  rw [h1, h2]
  simp

/-- Behind the first caret of `^^`. -/
theorem lex_numBase {e : Option Exponent} {p : Option Precision} {fr : Option (List Char)} {int : List Char} {nz caret : St}
    {sig : List UInt8} (hcaret : caret.rest = byte '^' :: byte '^' :: (bytes int ++ tailBytes fr p e r)) (hnz : nz.rest = sig ++ caret.rest)
    (h : Lex cfg start (byte '^' :: (bytes int ++ tailBytes fr p e r)) s)
    (hx : numBaseOf sig {} = x) (hi : ∀ y ∈ int, digitOf x.base y = true) (hf : ∀ y ∈ fr.getD [], digitOf x.base y = true)
    (hne : int ≠ [] ∨ fr.getD [] ≠ []) (hp : PrecOk p) (hsg : SignOk p e r)
    (he : ExpOk e) (hr : After cfg x.base r) (hfx : Fresh x)
    (hK : MantKind { x with unrecognizedDigit := x.unrecognizedDigit || tooLarge x.base int } fr p e K) (ht : start.rest = text ++ r) :
    wp E (numBase cfg start nz caret {}) s (Gives start K text r) := by
  obtain ⟨hesc, hdig⟩ := tail_quiet (fr := fr) (p := p) (e := e) hr
  have hesc' := esc_digits (ds := int) (fun y hy => digitOf_alnum (hi y hy)) hesc
  unfold numBase
  refine lex_cur h (not_starts_head fun h => absurd (starts_byte caret_plain h (by decide)) (by decide)) fun c t ht1 hl => ?_
  rw [if_neg (fun h => h (look_char (x := '^') hl caret_plain))]
  refine lex_next ht1 (by decide) (by decide) (by decide) fun t2 ht2 => ?_
  rw [between_of hnz rfl, hx]
  refine lex_see ht2 hesc' fun c t3 ht3 hl => ?_
  cases int with
  | cons y int =>
    have hy := digitOf_alnum (hi y List.mem_cons_self)
    have ha : c.point.isAlphaOrDigit = true := by rw [look_char (x := y) hl (plainly_alnum hy), isAlnum_eq, hy]
    rw [if_pos ha]
    refine wp_bind (wp_mono (lex_alnums ht3 hl hi hesc hdig ha) (fun _ h => h) ?_)
    rintro ⟨n, c, bad⟩ u ⟨h1, h2, h3, h4⟩
    dsimp only at h2
    subst h2
    refine lex_mark ?_
    exact lex_mantissa (x := { x with unrecognizedDigit := x.unrecognizedDigit || tooLarge x.base (y :: int) }) h3 h4 hf
      (fun h => by have := h1.mp h; simp at this) hp hsg he hr ⟨hfx.digits, hfx.neg⟩ hK ht
  | nil =>
    cases fr with
    | none => simp at hne
    | some f =>
      have hq : bytes [] ++ tailBytes (some f) p e r = byte '.' :: (bytes f ++ (bytes (precisionText p) ++ (bytes (exponentText e) ++ r))) := rfl
      rw [hq] at ht3 hl
      have hc := look_char (x := '.') hl dot_plain
      rw [if_neg (by rw [hc]; decide), if_pos hc]
      refine lex_mark (lex_next ht3 (by decide) (by decide) (by decide) fun t4 ht4 => ?_)
      refine lex_numDot ht4 hc hf (fun _ => by simpa using hne) hp hsg he hr hfx ?_ ht
      have : ({ x with unrecognizedDigit := x.unrecognizedDigit || tooLarge x.base [] } : NumCtx) = x := by simp [tooLarge]
      rw [this] at hK
      exact hK

/-- What follows the leading digits. -/
def numRest (cfg : Cfg) (pol : Pol) (start : St) (n : Nat) (nz : St) (m : Nat) (lead : St) (c : WLC) : M Tok :=
  if pol.intShort then tok ({} : NumCtx).kind start
  else if c.point = ch '^' then do
    let caret ← M.mark
    assertAscii caret 0x5e
    let _ ← nextC cfg
    numBase cfg start nz caret {}
  else numAfterBaseDigits cfg start lead (n + m) {} c

theorem handleNumber_eq {y : Char} (hy : isDec y = true) : handleNumber cfg pol start ⟨.char y.toNat, .none⟩ =
    (numZeros cfg start ⟨.char y.toNat, .none⟩ >>= fun p => numDigits cfg p.2.2 >>= fun p' =>
      numRest cfg pol start p.1 p.2.1 p'.1 p'.2.1 p'.2.2) := by
  unfold handleNumber
  have : (CP.char y.toNat).isDigit = true := hy
  simp only [this, if_true, Bool.true_or]
  rfl

/-- The rest of a number, behind its first digit. -/
theorem lex_handleNumber {e : Option Exponent} {p : Option Precision} {fr : Option (List Char)} {y : Char} {ds : List Char}
    (hs : start.rest = bytes (y :: ds) ++ tailBytes fr p e r) (h : Lex cfg start (bytes ds ++ tailBytes fr p e r) s)
    (hpol : pol.intShort = false) (hds : ∀ z ∈ y :: ds, isDec z = true) (hf : ∀ y ∈ fr.getD [], isDec y = true)
    (hp : PrecOk p) (hsg : SignOk p e r) (he : ExpOk e) (hr : After cfg 0 r)
    (hcaret : ∀ q, r = byte '^' :: q → ¬ Starts '^' q ∧ Sees cfg q)
    (hK : MantKind {} fr p e K) (ht : start.rest = text ++ r) :
    wp E (handleNumber cfg pol start ⟨.char y.toNat, .none⟩) s (Gives start K text r) := by
  have hy := hds y List.mem_cons_self
  obtain ⟨hesc, hdig⟩ := tail_quiet (fr := fr) (p := p) (e := e) hr
  rw [handleNumber_eq hy]
  refine lex_leading (f := numRest cfg pol start) hs h rfl hds hesc (fun y hy => hdig y (digitOf_zero hy)) ?_
  intro n nz m lead c t hnm hnz ht1 hl
  unfold numRest
  rw [if_neg (by rw [hpol]; simp)]
  refine wp_ite (fun hc => ?_) (fun hc => ?_)
  · -- a caret that does not belong to the number
    obtain ⟨q, hq⟩ := (look_starts hl (by decide) (by decide)).mp hc
    have hr' : fr = none ∧ p = none ∧ e = none := by
      rcases fr with _ | f
      · rcases p with _ | _ | ⟨_ | _, sg, v⟩
        · rcases e with _ | e
          · exact ⟨rfl, rfl, rfl⟩
          · exact absurd (List.cons.inj hq).1 (by decide)
        all_goals exact absurd (List.cons.inj hq).1 (by decide)
      · exact absurd (List.cons.inj hq).1 (by decide)
    obtain ⟨rfl, rfl, rfl⟩ := hr'
    change r = _ at hq
    obtain ⟨hc1, hc2⟩ := hcaret q hq
    subst hq
    change Lex cfg start (byte '^' :: q) t at ht1
    refine lex_mark (lex_assertAscii ht1.rest ?_)
    refine lex_next ht1 (by decide) (by decide) (by decide) fun t2 ht2 => ?_
    unfold numBase
    refine lex_see ht2 hc2 fun c t3 ht3 hl => ?_
    rw [if_pos (fun h => hc1 ((look_starts hl (by decide) (by decide)).mp h))]
    rw [show ({} : NumCtx).kind = K from hK]
    exact lex_seek ht1 fun t4 ht4 => lex_tok ht4 ht
  · exact lex_mantissa ht1 hl (fun y hy => digitOf_zero (hf y hy)) hnm hp hsg he hr ⟨rfl, rfl⟩ hK ht

/-- The rest of a number with a base, behind its first digit. -/
theorem lex_handleBase {e : Option Exponent} {p : Option Precision} {fr : Option (List Char)} {int : List Char} {y : Char} {ds : List Char}
    (hs : start.rest = bytes (y :: ds) ++ (byte '^' :: byte '^' :: (bytes int ++ tailBytes fr p e r)))
    (h : Lex cfg start (bytes ds ++ (byte '^' :: byte '^' :: (bytes int ++ tailBytes fr p e r))) s)
    (hpol : pol.intShort = false) (hds : ∀ z ∈ y :: ds, isDec z = true)
    (hx : numBaseOf (bytes (stripZeros (y :: ds))) {} = x) (hi : ∀ y ∈ int, digitOf x.base y = true)
    (hf : ∀ y ∈ fr.getD [], digitOf x.base y = true)
    (hne : int ≠ [] ∨ fr.getD [] ≠ []) (hp : PrecOk p) (hsg : SignOk p e r)
    (he : ExpOk e) (hr : After cfg x.base r) (hfx : Fresh x)
    (hK : MantKind { x with unrecognizedDigit := x.unrecognizedDigit || tooLarge x.base int } fr p e K) (ht : start.rest = text ++ r) :
    wp E (handleNumber cfg pol start ⟨.char y.toNat, .none⟩) s (Gives start K text r) := by
  have hy := hds y List.mem_cons_self
  have hq : Quiet cfg 0 (byte '^' :: byte '^' :: (bytes int ++ tailBytes fr p e r)) := quiet_byte caret_plain (by decide) (by decide)
  rw [handleNumber_eq hy]
  refine lex_leading (f := numRest cfg pol start) hs h rfl hds hq.esc hq.dec ?_
  intro n nz m lead c t hnm hnz ht1 hl
  unfold numRest
  rw [if_neg (by rw [hpol]; simp), if_pos (look_char (x := '^') hl caret_plain)]
  refine lex_mark (lex_assertAscii ht1.rest ?_)
  refine lex_next ht1 (by decide) (by decide) (by decide) fun t2 ht2 => ?_
  exact lex_numBase ht1.rest (by rw [ht1.rest]; exact hnz) ht2 hx hi hf hne hp hsg he hr hfx hK ht

end

end CodeParser
