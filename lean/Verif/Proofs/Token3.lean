import Verif.Proofs.Token2
/-!
Helper lemmas: what the number handler and the dispatcher do.
-/
namespace CodeParser
open Spec

section
variable {cfg : Cfg} {pol : Pol} {start s : St} {n : Nat} {c : WLC}

theorem NumCtx.kind_KOK (x : NumCtx) : KOK pol x.kind = true := by
  unfold NumCtx.kind
  split
  · rfl
  split
  · rfl
  split
  · rfl
  split <;> rfl

theorem wp_asc {β} {E : Err → Prop} {b : UInt8} {x : Char} {f : Unit → M β}
    {Q : β → St → Prop} (hc : Cur s.rest c) (hp : c.point = ch x) (hx : b.toNat = x.toNat) (hb : b.toNat < 0x80)
    (hf : wp E (f ()) s Q) : wp E (assertAscii s b >>= f) s Q :=
  wp_assertAscii hc (by rw [hp, hx]) hb hf

/-- What a run of digits gives: a count, and the character behind. -/
def RunPost (cfg : Cfg) (start : St) (n : Nat) (s : St) (c : WLC) (t : St) : Prop :=
  At cfg start n t ∧ fl s ≤ fl t ∧ t.rest.length ≤ s.rest.length ∧ Cur t.rest c

theorem handleZeros_wp (h : At cfg start n s) (hc : c.point = ch '0') :
    wp (EE start.rest) (handleZeros cfg c) s (fun r t => RunPost cfg start n s r.2 t) := by
  unfold handleZeros
  tw1
  refine wp_curC h fun c1 t1 h1 hf1 hr1 hc1 => ?_
  refine wp_loop (fun d t => RunPost cfg start n s d.2 t)
    (fun _ t => t.rest.length) ⟨h1, hf1, Nat.le_of_eq (congrArg List.length hr1), hc1⟩ (by omega) ?_
  rintro d t ⟨h, hf, hl, hc⟩
  refine wp_ite (fun _ => wp_pure ⟨h, hf, hl, hc⟩) (fun hp => ?_)
  have hne := hc.ne_nil (ch_ne_eof (not_not.mp hp))
  refine wp_nextC h fun c2 t2 h2 _ hl hlt _ => wp_curC h2 fun c3 t3 h3 _ hr hc3 => ?_
  have := hlt hne
  exact wp_pure ⟨⟨h3, by omega, by rw [hr]; omega, hc3⟩, by rw [hr]; omega⟩

theorem handleDigits_wp (h : At cfg start n s) (hc : c.point.isDigit = true) :
    wp (EE start.rest) (handleDigits cfg c) s (fun r t => RunPost cfg start n s r.2 t ∧ 0 < r.1) := by
  unfold handleDigits
  tw1
  refine wp_curC h fun c1 t1 h1 hf1 hr1 hc1 => ?_
  refine wp_loop (fun d t => RunPost cfg start n s d.2 t ∧ 0 < d.1)
    (fun _ t => t.rest.length) ⟨⟨h1, hf1, Nat.le_of_eq (congrArg List.length hr1), hc1⟩, by simp⟩ (by omega) ?_
  rintro d t ⟨⟨h, hf, hl, hc⟩, hd⟩
  refine wp_ite (fun _ => wp_pure ⟨⟨h, hf, hl, hc⟩, hd⟩) (fun hp => ?_)
  have hne := hc.ne_nil (digit_ne_eof (p := d.2.point) (by simpa using hp))
  refine wp_nextC h fun c2 t2 h2 _ hl hlt _ => wp_curC h2 fun c3 t3 h3 _ hr hc3 => ?_
  have := hlt hne
  exact wp_pure ⟨⟨⟨h3, by omega, by rw [hr]; omega, hc3⟩, by simp⟩, by rw [hr]; omega⟩

theorem handleAlphaOrDigits_wp {base : Nat} (h : At cfg start n s) (hcur : Cur s.rest c)
    (hc : c.point.isAlphaOrDigit = true) :
    wp (EE start.rest) (handleAlphaOrDigits cfg c base) s (fun r t => RunPost cfg start n s r.2.1 t) := by
  unfold handleAlphaOrDigits
  tw1
  refine wp_loop (fun d t => RunPost cfg start n s d.2.1 t)
    (fun _ t => t.rest.length) ⟨h, Nat.le_refl _, Nat.le_refl _, hcur⟩ (by omega) ?_
  rintro d t ⟨h, hf, hl, hc⟩
  refine wp_ite (fun _ => wp_pure ⟨h, hf, hl, hc⟩) (fun hp => ?_)
  have hne := hc.ne_nil (alnum_ne_eof (p := d.2.1.point) (by simpa using hp))
  refine wp_ite (fun _ => wp_ite (fun _ => wp_pure ⟨h, hf, hl, hc⟩) (fun _ => ?_)) (fun _ => ?_)
  all_goals
    refine wp_nextC h fun c2 t2 h2 _ hl hlt _ => wp_curC h2 fun c3 t3 h3 _ hr hc3 => ?_
    have := hlt hne
    exact wp_pure ⟨⟨h3, by omega, by rw [hr]; omega, hc3⟩, by rw [hr]; omega⟩

/-- Steps for the number handler. -/
macro "nw1" : tactic => `(tactic| with_reducible first
  | exact wp_tok (by assumption) (NumCtx.kind_KOK _)
  | tw1
  | (refine wp_asc (by assumption) (by assumption) (by decide) (by decide) ?_))

macro "nw" : tactic => `(tactic| repeat' nw1)

theorem fractionPastDot_wp {dot : St} {base : Nat} {x : NumCtx} (hd : At cfg start n dot)
    (h : At cfg start n s) (hf : fl dot ≤ fl s) (hc : Cur s.rest c) :
    wp (EE start.rest) (fractionPastDot cfg dot c base x) s (fun r t => At cfg start n t ∧
      fl s ≤ fl t ∧ Cur t.rest r.2.1 ∧ (r.1 = .bailout ∨ t.rest.length ≤ s.rest.length)) := by
  unfold fractionPastDot
  refine wp_ite (fun _ => ?_) (fun _ => wp_ite (fun ha => ?_) (fun _ => wp_pure ⟨h, Nat.le_refl _, hc, Or.inr (Nat.le_refl _)⟩))
  · refine wp_seek1 hd h hf fun t ht _ _ => wp_curC ht fun c1 u hu _ _ hcu => wp_pure ⟨hu, by omega, hcu, Or.inl rfl⟩
  · refine wp_bind_same (handleAlphaOrDigits_wp h hc ha) ?_
    rintro ⟨k, c1, bad⟩ t ⟨h1, h2, h3, h4⟩
    exact wp_pure ⟨h1, h2, h4, Or.inr h3⟩

theorem numExponentEnd_wp {x : NumCtx} (h : At cfg start n s) (hc : Cur s.rest c) :
    wp (EE start.rest) (numExponentEnd cfg start x c) s (HPost cfg pol start n) := by
  unfold numExponentEnd
  refine wp_ite (fun _ => by nw) (fun hp => ?_)
  have hp' := not_not.mp hp
  nw1; nw1; nw1; nw1
  rename_i c2 t2 h2 hf2 hl2 _ _ c3 t3 h3 hf3 hr3 hc3
  refine wp_bind_same (fractionPastDot_wp h h3 (by omega) hc3) ?_
  rintro ⟨f, c4, x⟩ t4 ⟨h4, _, _, _⟩
  cases f <;> (simp only; nw)

theorem expZeros_wp (h : At cfg start n s) (hc : Cur s.rest c) :
    wp (EE start.rest) (expZeros cfg c) s (fun c t => RunPost cfg start n s c t) := by
  unfold expZeros
  refine wp_ite (fun hp => ?_) (fun _ => wp_pure ⟨h, Nat.le_refl _, Nat.le_refl _, hc⟩)
  refine wp_bind_same (handleZeros_wp h hp) ?_
  rintro ⟨k, c1⟩ t ht
  exact wp_pure ht

theorem expDigits_wp {x : NumCtx} (h : At cfg start n s) (hc : Cur s.rest c) :
    wp (EE start.rest) (expDigits cfg x c) s (fun r t => RunPost cfg start n s r.2 t) := by
  unfold expDigits
  refine wp_ite (fun hp => ?_) (fun _ => wp_pure ⟨h, Nat.le_refl _, Nat.le_refl _, hc⟩)
  refine wp_bind_same (handleDigits_wp h hp) ?_
  rintro ⟨k, c1⟩ t ht
  exact wp_pure ht.1

theorem expSign_wp {x : NumCtx} (h : At cfg start n s) (hc : Cur s.rest c) :
    wp (EE start.rest) (expSign cfg x c) s (fun r t => RunPost cfg start n s r.2 t) := by
  unfold expSign
  refine wp_ite (fun hp => ?_) (fun _ => wp_pure ⟨h, Nat.le_refl _, Nat.le_refl _, hc⟩)
  refine wp_nextC h fun c2 t2 h2 _ hl hlt _ => wp_curC h2 fun c3 t3 h3 _ hr hc3 => ?_
  exact wp_pure ⟨h3, by omega, by simp only [hr]; omega, hc3⟩

theorem numStar_wp {x : NumCtx} {star : St} {c0 : WLC} (hs : At cfg start n star) (h : At cfg start n s)
    (hf : fl star ≤ fl s) (hc0 : Cur star.rest c0) (hcs : c0.point = ch '*') (hc : c.point = ch '*') :
    wp (EE start.rest) (numStar cfg start (some star) x c) s (HPost cfg pol start n) := by
  unfold numStar
  nw1
  refine wp_assertAscii (b := 0x2a) hc0 hcs (by decide) ?_
  refine wp_curC h fun c1 t1 h1 hf1 hr1 hc1 => ?_
  refine wp_ite (fun _ => ?_) (fun hp => ?_)
  · refine wp_seek1 hs h1 (by omega) fun _ _ _ _ => by nw
  · nw1; nw1
    rename_i c2 t2 h2 hf2 hl2 _ _ c3 t3 h3 hf3 hr3 hc3
    refine wp_bind_same (expSign_wp h3 hc3) ?_
    rintro ⟨x, c4⟩ t4 ⟨h4, _, _, hc4⟩
    refine wp_ite (fun _ => by nw) (fun hd => ?_)
    refine wp_bind_same (expZeros_wp h4 hc4) ?_
    rintro c5 t5 ⟨h5, _, _, hc5⟩
    refine wp_bind_same (expDigits_wp h5 hc5) ?_
    rintro ⟨x, c6⟩ t6 ⟨h6, _, _, hc6⟩
    exact numExponentEnd_wp h6 hc6

theorem numPrecisionEnd_wp {x : NumCtx} {a b : Bool} (h : At cfg start n s) (hc : Cur s.rest c) :
    wp (EE start.rest) (numPrecisionEnd cfg start x a b c) s (HPost cfg pol start n) := by
  unfold numPrecisionEnd
  refine wp_ite (fun _ => by nw) (fun _ => wp_ite (fun hp => ?_) (fun _ => by nw))
  nw1; nw1
  refine wp_nextC h fun c2 t2 h2 hf _ _ _ => numStar_wp h h2 hf hc hp hp

theorem numPrecisionFraction_wp {x : NumCtx} {a b : Bool} {sign : Option St} {dot : St}
    (hd : At cfg start n dot) (h : At cfg start n s) (hf : fl dot ≤ fl s) (hc : Cur s.rest c)
    (hsign : ∀ m, sign = some m → At cfg start n m ∧ fl m ≤ fl s)
    (hb : b = false → sign = none → c.point.isDigit = true) :
    wp (EE start.rest) (numPrecisionFraction cfg start x a sign b dot c) s (HPost cfg pol start n) := by
  unfold numPrecisionFraction
  have key : wp (EE start.rest) (fractionPastDot cfg dot c 0 x) s (fun r t => (At cfg start n t ∧
      fl s ≤ fl t ∧ Cur t.rest r.2.1) ∧ (r.1 = .bailout → c.point = ch '.')) := by
    unfold fractionPastDot
    refine wp_ite (fun hp => ?_) (fun _ => wp_ite (fun ha => ?_) (fun _ => wp_pure ⟨⟨h, Nat.le_refl _, hc⟩, fun h => by cases h⟩))
    · refine wp_seek1 hd h hf fun t ht _ _ => wp_curC ht fun c1 u hu _ _ hcu => wp_pure ⟨⟨hu, by omega, hcu⟩, fun _ => hp⟩
    · refine wp_bind_same (handleAlphaOrDigits_wp h hc ha) ?_
      rintro ⟨k, c1, bad⟩ t ⟨h1, h2, h3, h4⟩
      exact wp_pure ⟨⟨h1, h2, h4⟩, fun h => by cases h⟩
  refine wp_bind_same key ?_
  rintro ⟨f, c1, x⟩ t ⟨⟨h1, hf1, hc1⟩, hbail⟩
  cases f with
  | bailout =>
    simp only
    refine wp_ite (fun _ => by nw) (fun hbf => ?_)
    cases hsg : sign with
    | some m =>
      simp only
      have := hsign m hsg
      refine wp_seek1 this.1 h1 (by omega) fun _ _ _ _ => by nw
    | none =>
      have hp := hb (by simpa using hbf) hsg
      rw [hbail rfl] at hp
      exact absurd hp (by decide)
  | count k =>
    simp only
    exact wp_ite (fun _ => by nw) (fun _ => numPrecisionEnd_wp h1 hc1)

theorem numPrecisionDot_wp {x : NumCtx} {a b : Bool} {sign : Option St}
    (h : At cfg start n s) (hc : Cur s.rest c)
    (hsign : ∀ m, sign = some m → At cfg start n m ∧ fl m ≤ fl s) :
    wp (EE start.rest) (numPrecisionDot cfg start x a sign b c) s (HPost cfg pol start n) := by
  unfold numPrecisionDot
  refine wp_ite (fun hp => ?_) (fun _ => numPrecisionEnd_wp h hc)
  nw1; nw1
  refine wp_nextC h fun c2 t2 h2 hf2 _ _ _ => wp_curC h2 fun c3 t3 h3 hf3 hr3 hc3 => ?_
  have hsign' : ∀ m, sign = some m → At cfg start n m ∧ fl m ≤ fl t3 := fun m hm =>
    ⟨(hsign m hm).1, by have := (hsign m hm).2; omega⟩
  refine wp_ite (fun hs => ?_) (fun hs => wp_ite (fun hd => ?_) (fun hd => ?_))
  · refine numPrecisionFraction_wp h h3 (by omega) hc3 hsign' (fun hb hn => ?_)
    subst hb; subst hn; simp at hs
  · nw
  · exact numPrecisionFraction_wp h h3 (by omega) hc3 hsign' (fun _ _ => by simpa using hd)

theorem numPrecisionDigits_wp {x : NumCtx} {a : Bool} {sign : Option St}
    (h : At cfg start n s) (hc : Cur s.rest c)
    (hsign : ∀ m, sign = some m → At cfg start n m ∧ fl m ≤ fl s) :
    wp (EE start.rest) (numPrecisionDigits cfg start x a sign c) s (HPost cfg pol start n) := by
  unfold numPrecisionDigits
  refine wp_ite (fun hp => ?_) (fun _ => numPrecisionDot_wp h hc hsign)
  refine wp_bind_same (handleDigits_wp h hp) ?_
  rintro ⟨k, c1⟩ t ⟨⟨h1, hf1, hl1, hc1⟩, hk⟩
  refine wp_ite (fun _ => ?_) (fun _ => by nw)
  exact numPrecisionDot_wp h1 hc1 fun m hm => ⟨(hsign m hm).1, by have := (hsign m hm).2; omega⟩

theorem numPrecisionSign_wp {x : NumCtx} {a : Bool} (h : At cfg start n s) (hc : Cur s.rest c) :
    wp (EE start.rest) (numPrecisionSign cfg start x a c) s (HPost cfg pol start n) := by
  unfold numPrecisionSign
  refine wp_ite (fun hp => ?_) (fun _ => numPrecisionDigits_wp h hc (fun m hm => by cases hm))
  nw1
  obtain ⟨r', hnx⟩ := hc.next
  have : ∃ b q, s.rest = b :: q ∧ (ifAsciiWL b 0x2d || ifAsciiWL b 0x2b) = true := by
    rcases hp with hp | hp
    · obtain ⟨b, q, h1, h2⟩ := hnx.ascii hp (by decide)
      refine ⟨b, q, h1, ?_⟩
      rcases h2 with h2 | rfl
      · have : b = 0x2d := UInt8.toNat_inj.mp h2
        subst this; decide
      · decide
    · obtain ⟨b, q, h1, h2⟩ := hnx.ascii hp (by decide)
      refine ⟨b, q, h1, ?_⟩
      rcases h2 with h2 | rfl
      · have : b = 0x2b := UInt8.toNat_inj.mp h2
        subst this; decide
      · decide
  obtain ⟨b, q, hr, hb⟩ := this
  rw [hr]
  simp only
  refine wp_assert hb ?_
  refine wp_nextC h fun c2 t2 h2 hf2 _ _ _ => wp_curC h2 fun c3 t3 h3 hf3 hr3 hc3 => ?_
  refine wp_ite (fun _ => ?_) (fun _ => by nw)
  exact numPrecisionDigits_wp h3 hc3 fun m hm => by cases hm; exact ⟨h, by omega⟩

/-- What is known about the mark of the star. -/
def StarOK (cfg : Cfg) (start : St) (n : Nat) (s : St) (star : Option St) : Prop :=
  ∃ m c0, star = some m ∧ At cfg start n m ∧ fl m ≤ fl s ∧ Cur m.rest c0 ∧ c0.point = ch '*'

theorem numPrecision_wp {x : NumCtx} {star : Option St} (h : At cfg start n s)
    (hc : c.point = ch '`' ∨ c.point = ch '*')
    (hstar : c.point = ch '*' → StarOK cfg start n s star) :
    wp (EE start.rest) (numPrecision cfg start star x c) s (HPost cfg pol start n) := by
  unfold numPrecision
  refine wp_assert (by rcases hc with h | h <;> simp [h]) ?_
  refine wp_ite (fun hp => ?_) (fun hp => ?_)
  · simp only
    refine wp_curC h fun c1 t1 h1 hf1 hr1 hc1 => wp_ite (fun _ => ?_) (fun _ => numPrecisionSign_wp h1 hc1)
    refine wp_nextC h1 fun c2 t2 h2 hf2 _ _ _ => wp_curC h2 fun c3 t3 h3 hf3 hr3 hc3 => numPrecisionSign_wp h3 hc3
  · have hst : c.point = ch '*' := hc.resolve_left hp
    obtain ⟨m, c0, rfl, hm, hf, hc0, hcs⟩ := hstar hst
    exact numStar_wp hm h hf hc0 hcs hst

theorem numAfterFraction_wp {x : NumCtx} {star : Option St} (h : At cfg start n s) (hc : Cur s.rest c) :
    wp (EE start.rest) (numAfterFraction cfg start star x c) s (HPost cfg pol start n) := by
  unfold numAfterFraction
  simp only
  refine wp_ite (fun hp => ?_) (fun _ => wp_ite (fun hp => ?_) (fun _ => by nw))
  · nw1; nw1
    refine wp_nextC h fun c2 t2 h2 hf2 _ _ _ => numPrecision_wp h2 (Or.inr hp) fun _ => ⟨s, c, rfl, h, hf2, hc, hp⟩
  · refine wp_nextC h fun c2 t2 h2 hf2 _ _ _ => numPrecision_wp h2 (Or.inl hp) fun h => ?_
    rw [hp] at h; exact absurd h (by decide)

theorem numFraction_wp {x : NumCtx} {lead : St} {k : Nat} {star : Option St} (h : At cfg start n s)
    (hl : At cfg start n lead) (hfl : fl lead ≤ fl s)
    (hc : c.point = ch '.' ∨ c.point = ch '`' ∨ c.point = ch '*')
    (hstar : c.point = ch '*' → StarOK cfg start n s star) :
    wp (EE start.rest) (numFraction cfg start lead k star x c) s (HPost cfg pol start n) := by
  unfold numFraction
  refine wp_ite (fun hp => ?_) (fun hp => numPrecision_wp h (hc.resolve_left hp) hstar)
  have key : wp (EE start.rest) (possibleFraction cfg lead c x) s (fun r t => At cfg start n t ∧ Cur t.rest r.2.1) := by
    unfold possibleFraction
    nw1
    refine wp_curC h fun c1 t1 h1 hf1 hr1 hc1 => ?_
    refine wp_mono (fractionPastDot_wp hl h1 (by omega) hc1) (fun _ h => h) fun _ _ h => ⟨h.1, h.2.2.1⟩
  refine wp_bind_same key ?_
  rintro ⟨f, c1, x⟩ t ⟨h1, hc1⟩
  cases f with
  | bailout => simp only; nw
  | count j =>
    cases j with
    | zero => simp only; exact wp_ite (fun _ => by nw) (fun _ => numAfterFraction_wp h1 hc1)
    | succ j => simp only; exact numAfterFraction_wp h1 hc1

theorem numAfterBaseDigits_wp {x : NumCtx} {k : Nat} (h : At cfg start n s) (hc : Cur s.rest c) :
    wp (EE start.rest) (numAfterBaseDigits cfg start s k x c) s (HPost cfg pol start n) := by
  unfold numAfterBaseDigits
  refine wp_ite (fun hp => ?_) (fun _ => wp_ite (fun hp => ?_) (fun _ => by nw))
  · nw1; nw1
    refine wp_nextC h fun c2 t2 h2 hf2 _ _ _ => numFraction_wp h2 h hf2 (Or.inr (Or.inr hp)) fun _ => ⟨s, c, rfl, h, hf2, hc, hp⟩
  · refine wp_nextC h fun c2 t2 h2 hf2 _ _ _ => numFraction_wp h2 h hf2 (hp.imp_right Or.inl) fun h => ?_
    rcases hp with hp | hp <;> (rw [hp] at h; exact absurd h (by decide))

theorem numBase_wp {x : NumCtx} {nz caret : St} (hcar : At cfg start n caret) (h : At cfg start n s)
    (hf : fl caret ≤ fl s) :
    wp (EE start.rest) (numBase cfg start nz caret x) s (HPost cfg pol start n) := by
  unfold numBase
  refine wp_curC h fun c1 t1 h1 hf1 hr1 hc1 => wp_ite (fun _ => ?_) (fun _ => ?_)
  · refine wp_seek1 hcar h1 (by omega) fun _ _ _ _ => by nw
  · refine wp_nextC h1 fun c2 t2 h2 hf2 _ _ _ => ?_
    simp only
    refine wp_curC h2 fun c3 t3 h3 hf3 hr3 hc3 => ?_
    refine wp_ite (fun ha => ?_) (fun _ => wp_ite (fun hp => ?_) (fun _ => by nw))
    · refine wp_bind_same (handleAlphaOrDigits_wp h3 hc3 ha) ?_
      rintro ⟨k, c4, bad⟩ t4 ⟨h4, _, _, hc4⟩
      nw1
      exact numAfterBaseDigits_wp h4 hc4
    · nw1
      refine wp_nextC h3 fun c4 t4 h4 hf4 _ _ _ => numFraction_wp h4 h3 hf4 (Or.inl hp) fun h => ?_
      rw [hp] at h; exact absurd h (by decide)

theorem numZeros_wp {m : St} (h : At cfg start n s) (hc : c.point.isDigit = true) :
    wp (EE start.rest) (numZeros cfg m c) s (fun r t => At cfg start n t ∧
      (Cur t.rest r.2.2 ∨ r.2.2.point.isDigit = true)) := by
  unfold numZeros
  refine wp_ite (fun hp => ?_) (fun _ => wp_pure ⟨h, Or.inr hc⟩)
  refine wp_bind_same (handleZeros_wp h hp) ?_
  rintro ⟨k, c1⟩ t ⟨h1, _, _, hc1⟩
  exact wp_mark1 (wp_pure ⟨h1, Or.inl hc1⟩)

theorem numDigits_wp (h : At cfg start n s) (hc : Cur s.rest c ∨ c.point.isDigit = true) :
    wp (EE start.rest) (numDigits cfg c) s (fun r t => At cfg start n t ∧ Cur t.rest r.2.2 ∧
      At cfg start n r.2.1 ∧ fl r.2.1 ≤ fl t) := by
  unfold numDigits
  refine wp_mark1 (wp_ite (fun hp => ?_) (fun hp => wp_pure ⟨h, hc.resolve_right hp, h, Nat.le_refl _⟩))
  refine wp_bind_same (handleDigits_wp h hp) ?_
  rintro ⟨k, c1⟩ t ⟨⟨h1, _, _, hc1⟩, _⟩
  exact wp_mark1 (wp_pure ⟨h1, hc1, h1, Nat.le_refl _⟩)

/-- Looking again gives the same character. -/
theorem curC_at {s0 : St} {c0 : WLC} (hs : WF s) (h : SameAt s0 s) (hc : CAt cfg s0 c0) :
    wp (EE s.rest) (curC cfg) s (fun c t => R cfg s t ∧ SameAt s t ∧ c = c0 ∧ ∃ r', NextB s.rest c r') := by
  refine wp_mono (curC_wp hs) (fun _ h => h) ?_
  rintro c t ⟨h1, h2, h3, h4⟩
  refine ⟨h1, h2, ?_, h4⟩
  obtain ⟨u, hu⟩ := hc s h
  obtain ⟨v, hv⟩ := h3 s (SameAt.refl s)
  rw [hu] at hv
  cases hv; rfl

theorem numFraction_digit_wp {x : NumCtx} {k : Nat} {c0 : WLC} (h : At cfg start n s)
    (hc : c.point = ch '.') (hc0 : CAt cfg s c0) (hd : c0.point.isDigit = true) :
    wp (EE start.rest) (numFraction cfg start start k none x c) s (HPost cfg pol start n) := by
  unfold numFraction
  refine wp_ite (fun hp => ?_) (fun hp => absurd hc hp)
  have key : wp (EE start.rest) (possibleFraction cfg start c x) s (fun r t => r.1 ≠ .bailout ∧ At cfg start n t ∧ Cur t.rest r.2.1) := by
    unfold possibleFraction
    nw1
    refine wp_call (curC_at h.reach.wf (SameAt.refl s) hc0) (fun _ he => he.of_R h.wf h.reach) ?_
    rintro c1 t1 ⟨hR, hsame, rfl, hb⟩
    have h1 : At cfg start n t1 := ⟨h.wf, R.trans h.wf h.reach hR, by rw [← hsame.rest]; exact h.len⟩
    unfold fractionPastDot
    refine wp_ite (fun hp => ?_) (fun _ => wp_ite (fun ha => ?_) (fun _ => wp_pure ⟨(fun h => by cases h), h1, by rw [← hsame.rest]; exact ⟨hb⟩⟩))
    · rw [hp] at hd; exact absurd hd (by decide)
    · refine wp_bind_same (handleAlphaOrDigits_wp h1 (by rw [← hsame.rest]; exact ⟨hb⟩) ha) ?_
      rintro ⟨k, c2, bad⟩ t ⟨h1, h2, h3, h4⟩
      exact wp_pure ⟨(fun h => by cases h), h1, h4⟩
  refine wp_bind_same key ?_
  rintro ⟨f, c1, x⟩ t ⟨hb, h1, hc1⟩
  cases f with
  | bailout => exact absurd rfl hb
  | count j =>
    cases j with
    | zero => simp only; exact wp_ite (fun _ => by nw) (fun _ => numAfterFraction_wp h1 hc1)
    | succ j => simp only; exact numAfterFraction_wp h1 hc1

theorem handleNumber_wp (h : At cfg start n s) (hc : c.point.isDigit = true ∨
      c.point = ch '.' ∧ ∃ c0, CAt cfg s c0 ∧ c0.point.isDigit = true) :
    wp (EE start.rest) (handleNumber cfg pol start c) s (HPost cfg pol start n) := by
  unfold handleNumber
  refine wp_assert (by rcases hc with h | ⟨h, _⟩ <;> simp [h]) ?_
  refine wp_ite (fun hd => ?_) (fun hd => ?_)
  · refine wp_bind_same (numZeros_wp (m := start) h hd) ?_
    rintro ⟨k, nz, c1⟩ t1 ⟨h1, hc1⟩
    refine wp_bind_same (numDigits_wp h1 hc1) ?_
    rintro ⟨m, lead, c2⟩ t2 ⟨h2, hc2, hlead, hfl⟩
    simp only at hc2 hlead hfl ⊢
    refine wp_ite (fun _ => by nw) (fun _ => wp_ite (fun hp => ?_) (fun _ => wp_ite (fun hp => ?_) (fun _ => wp_ite (fun hp => ?_) (fun _ => by nw))))
    · nw1; nw1
      exact wp_nextC h2 fun c3 t3 h3 hf3 _ _ _ => numBase_wp h2 h3 hf3
    · nw1; nw1
      refine wp_nextC h2 fun c3 t3 h3 hf3 _ _ _ => numFraction_wp h3 hlead (by omega) (Or.inr (Or.inr hp)) fun _ => ⟨t2, c2, rfl, h2, hf3, hc2, hp⟩
    · refine wp_nextC h2 fun c3 t3 h3 hf3 _ _ _ => numFraction_wp h3 hlead (by omega) (hp.imp_right Or.inl) fun h => ?_
      rcases hp with hp | hp <;> (rw [hp] at h; exact absurd h (by decide))
  · obtain ⟨hp, c0, h0, hd0⟩ := hc.resolve_left hd
    exact numFraction_digit_wp h hp h0 hd0

theorem handleDot_wp (h : At cfg start n s) (hc : c.point = ch '.') :
    wp (EE start.rest) (handleDot cfg pol start c) s (HPost cfg pol start n) := by
  unfold handleDot
  nw1
  refine wp_call (curC_wp h.reach.wf) (fun _ he => he.of_R h.wf h.reach) ?_
  rintro c1 t1 ⟨hR, hsame, hcat, hb⟩
  have h1 : At cfg start n t1 := ⟨h.wf, R.trans h.wf h.reach hR, by rw [← hsame.rest]; exact h.len⟩
  refine wp_ite (fun hd => ?_) (fun _ => by nw)
  exact handleNumber_wp h1 (Or.inr ⟨hc, c1, fun s' hs' => hcat s' (hsame.trans hs'), hd⟩)

/-- The ASCII characters the dispatcher deals with. -/
def AsciiCase (p : CP) : Prop :=
    p = ch '\n' ∨ p = ch ' ' ∨ p = ch '"' ∨ (p = ch '$' ∨ p.isAlpha = true) ∨ p = ch ',' ∨ p = ch '-' ∨
    p.isDigit = true ∨ p = ch '[' ∨ p = ch ']' ∨ p = ch '{' ∨ p = ch '}' ∨ p.isSymbolStart = true ∨
    (p = .char 0x07 ∨ p = .char 0x7f) ∨ p = ch '\t' ∨ (p = .char 0x0b ∨ p = .char 0x0c) ∨ p = ch '\r' ∨
    p = ch '(' ∨ p = ch ')' ∨ p = ch '+' ∨ p = ch '^' ∨ p = ch '=' ∨ p = ch ';' ∨ p = ch ':' ∨
    p = ch '#' ∨ p = ch '&' ∨ p = ch '!' ∨ p = ch '%' ∨ p = ch '\'' ∨ p = ch '*' ∨ p = ch '.' ∨
    p = ch '/' ∨ p = ch '<' ∨ p = ch '>' ∨ p = ch '?' ∨ p = ch '@' ∨ p = ch '\\' ∨ p = ch '_' ∨
    p = ch '|' ∨ p = ch '~'

instance : DecidablePred AsciiCase := fun p => by unfold AsciiCase; infer_instance

theorem ascii_cases : ∀ m < 128, AsciiCase (.char m) := by decide +kernel

theorem isAlpha_letter {p : CP} (h : p = ch '$' ∨ p.isAlpha = true) : p.isLetterlike = true := by
  rcases h with rfl | h
  · decide
  · cases p <;> simp_all [CP.isAlpha, CP.isLetterlike, inR]

theorem isSymbolStart_letter {p : CP} (h : p.isSymbolStart = true) : p = ch '`' ∨ p.isLetterlike = true := by
  cases p <;> simp_all [CP.isSymbolStart, CP.isLetterlike, inR]
  omega

theorem crlf_newline : CP.crlf.isMBNewline = true := by decide +kernel

/-- What remains for `nextTokenOther`. -/
theorem nextTokenOther_wp (h : At cfg start n s) (ha : c.point.isAscii = false)
    (he : c.point ≠ .eof) (hl : c.point.isLineContinuation = false) (hu : c.point.isMBUnsafe = false) :
    wp (EE start.rest) (nextTokenOther cfg pol start c) s (HPost cfg pol start n) := by
  unfold nextTokenOther
  refine wp_ite (fun _ => by tw) (fun h1 => wp_ite (fun h9 => handleBlob_wp h h9) (fun h9 => ?_))
  refine wp_ite (fun hm => handleLinearSyntax_wp h hm h1 h9) (fun hls => ?_)
  refine wp_ite (fun _ => by tw) (fun hui => wp_ite (fun _ => by tw) (fun hws => ?_))
  refine wp_ite (fun _ => wp_tok h (KOK_newline pol)) (fun hnl => ?_)
  refine wp_ite (fun hp => handlePunctuation_wp h hp) (fun hpu => wp_ite (fun _ => by tw) (fun hsm => ?_))
  have hcr : c.point ≠ .crlf := by intro h; rw [h] at hnl; exact hnl crlf_newline
  have : c.point.isMBLetterlike = true := by
    unfold CP.isMBLetterlike; simp_all
  refine wp_assert this (handleSymbol_wp h (Or.inr ?_))
  unfold WLC.isLetter; simp [this]

theorem nextTokenUncommon_wp (h : At cfg start n s) (hl : c.point.isLineContinuation = false)
    (he : c.point ≠ .eof)
    (ha : c.point.isAscii = true → ¬ (c.point = ch '\n' ∨ c.point = ch ' ' ∨ c.point = ch '"' ∨
      (c.point = ch '$' ∨ c.point.isAlpha = true) ∨ c.point = ch ',' ∨ c.point = ch '-' ∨
      c.point.isDigit = true ∨ c.point = ch '[' ∨ c.point = ch ']' ∨ c.point = ch '{' ∨ c.point = ch '}')) :
    wp (EE start.rest) (nextTokenUncommon cfg pol start c) s (HPost cfg pol start n) := by
  unfold nextTokenUncommon
  refine wp_ite (fun h => absurd h he) (fun _ => ?_)
  refine wp_ite (fun _ => by tw) (fun hu => ?_)
  refine wp_ite (fun hs => handleSymbol_wp h ?_) (fun a1 => ?_)
  · rcases isSymbolStart_letter hs with h | h
    · exact Or.inl h
    · exact Or.inr (by unfold WLC.isLetter; simp [h])
  refine wp_ite (fun _ => by tw) (fun a2 => wp_ite (fun _ => by tw) (fun a3 => wp_ite (fun _ => by tw) (fun a4 => ?_)))
  refine wp_ite (fun _ => wp_tok h (KOK_newline pol)) (fun a5 => ?_)
  refine wp_ite (fun hp => handleOpenParen_wp h hp) (fun a6 => ?_)
  refine wp_ite (fun _ => by tw) (fun a7 => ?_)
  refine wp_ite (fun hp => handlePlus_wp h hp) (fun a8 => ?_)
  refine wp_ite (fun hp => handleCaret_wp h hp) (fun a9 => ?_)
  refine wp_ite (fun hp => handleEqual_wp h hp) (fun a10 => ?_)
  refine wp_ite (fun hp => handleDoubled_wp h hp rfl rfl) (fun a11 => ?_)
  refine wp_ite (fun hp => handleColon_wp h hp) (fun a12 => ?_)
  refine wp_ite (fun hp => handleDoubled_wp h hp rfl rfl) (fun a13 => ?_)
  refine wp_ite (fun hp => handleDoubled_wp h hp rfl rfl) (fun a14 => ?_)
  refine wp_ite (fun hp => handleBang_wp h hp) (fun a15 => ?_)
  refine wp_ite (fun hp => handlePercent_wp h hp) (fun a16 => ?_)
  refine wp_ite (fun _ => by tw) (fun a17 => ?_)
  refine wp_ite (fun hp => handleStar_wp h hp) (fun a18 => ?_)
  refine wp_ite (fun hp => handleDot_wp h hp) (fun a19 => ?_)
  refine wp_ite (fun hp => handleSlash_wp h hp) (fun a20 => ?_)
  refine wp_ite (fun hp => handleLess_wp h hp) (fun a21 => ?_)
  refine wp_ite (fun hp => handleGreater_wp h hp) (fun a22 => ?_)
  refine wp_ite (fun hp => handleDoubled_wp h hp rfl rfl) (fun a23 => ?_)
  refine wp_ite (fun hp => handleAt_wp h hp) (fun a24 => ?_)
  refine wp_ite (fun hp => handleBackslash_wp h hp) (fun a25 => ?_)
  refine wp_ite (fun hp => handleUnder_wp h hp) (fun a26 => ?_)
  refine wp_ite (fun hp => handleBar_wp h hp) (fun a27 => ?_)
  refine wp_ite (fun hp => handleDoubled_wp h hp rfl rfl) (fun a28 => ?_)
  refine nextTokenOther_wp h ?_ he hl (by simpa using hu)
  by_contra hasc
  have hasc : c.point.isAscii = true := by simpa using hasc
  have hna := ha hasc
  cases hp : c.point with
  | char m =>
    rw [hp] at hasc
    have hm : m < 128 := by simp [CP.isAscii] at hasc; omega
    have hcs := ascii_cases m hm
    rw [hp] at a1 a2 a3 a4 a5 a6 a7 a8 a9 a10 a11 a12 a13 a14 a15 a16 a17 a18 a19 a20 a21 a22 a23 a24 a25 a26 a27 a28 hna
    clear ha h hl he hu hp hasc hm
    unfold AsciiCase at hcs
    generalize CP.char m = p at *
    tauto
  | _ => rw [hp] at hasc; cases hasc

theorem dispatch_wp (h : At cfg start n s) (hl : c.point.isLineContinuation = false)
    (he : c.point ≠ .eof) :
    wp (EE start.rest) (dispatch cfg pol start c) s (HPost cfg pol start n) := by
  unfold dispatch
  refine wp_ite (fun _ => wp_tok h (KOK_newline pol)) (fun a1 => ?_)
  refine wp_ite (fun _ => by tw) (fun a2 => ?_)
  refine wp_ite (fun hp => handleString_wp h hp) (fun a3 => ?_)
  refine wp_ite (fun hp => handleSymbol_wp h (Or.inr ?_)) (fun a4 => ?_)
  · unfold WLC.isLetter; simp [isAlpha_letter hp]
  refine wp_ite (fun _ => by tw) (fun a5 => ?_)
  refine wp_ite (fun hp => handleMinus_wp h hp) (fun a6 => ?_)
  refine wp_ite (fun hp => handleNumber_wp h (Or.inl hp)) (fun a7 => ?_)
  refine wp_ite (fun _ => by tw) (fun a8 => ?_)
  refine wp_ite (fun _ => by tw) (fun a9 => ?_)
  refine wp_ite (fun _ => by tw) (fun a10 => ?_)
  refine wp_ite (fun _ => by tw) (fun a11 => ?_)
  refine nextTokenUncommon_wp h hl he (fun _ => ?_)
  tauto

/-- What reading a token does: it stops somewhere further on, with the text in between;
at the end of the file nothing but line continuations is left. -/
inductive TokPost (cfg : Cfg) (pol : Pol) (s : St) : Tok → St → Prop
  | token {k t} : HPost cfg pol s (s.rest.length - 1) k t → t.rest.length < s.rest.length →
      TokPost cfg pol s k t
  | eof {k t c} : R cfg s t → k = tokOf .EndOfFile s t → t.rest = [] →
      c.point = .eof → NextB s.rest c t.rest → TokPost cfg pol s k t

theorem NextB.eof_rest {r r' : List UInt8} (h : NextB r c r') (hc : c.point = .eof) : r' = [] := by
  induction h with
  | here h _ =>
    rcases h with ⟨q, rfl, h | ⟨rfl, _⟩⟩ | ⟨_, h, _⟩
    · exfalso
      rw [hc] at h
      generalize hp : CP.eof = p at h
      rename_i c' _ _
      generalize c'.escape = e at h
      have canon_ne : ∀ v, canon v ≠ .eof := by intro v; unfold canon; split <;> [skip; split] <;> simp
      cases h with
      | single hm =>
        subst hp
        have : ∀ e ∈ singleEscapes, e.2 ≠ .eof := by decide
        exact this _ hm rfl
      | lineFeed => cases hp
      | carriageReturn _ => cases hp
      | crlf => cases hp
      | hex2 _ _ => exact canon_ne _ hp.symm
      | hex4 _ _ _ => exact canon_ne _ hp.symm
      | hex6 _ _ _ => exact canon_ne _ hp.symm
      | octal _ _ => exact canon_ne _ hp.symm
      | raw hm _ => subst hp; exact longNameTable_no_eof _ hm rfl
      | longName hm _ => subst hp; exact longNameTable_no_eof _ hm rfl
    · cases hc
    · rw [hc] at h
      generalize hp : CP.eof = p at h
      cases h with
      | eof => rfl
      | ascii => cases hp
      | crlf => cases hp
      | high _ _ h3 =>
        subst hp
        rcases h3 with h3 | ⟨_, h3, _⟩
        · simp [CP.isUnsafe] at h3
        · cases h3
  | cont _ _ _ _ ih => exact ih hc
where
  longNameTable_no_eof : ∀ e ∈ longNameTable, e.2 ≠ .eof := by
    have : (longNameTable.all fun e => e.2 != .eof) = true := by decide +kernel
    intro e he
    simpa using List.all_eq_true.mp this e he

theorem nextToken_wp (hs : WF s) :
    wp (EE s.rest) (nextToken cfg pol) s (TokPost cfg pol s) := by
  unfold nextToken
  refine wp_mark1 ?_
  refine wp_nextC (n := s.rest.length) ⟨hs, R.refl hs, Nat.le_refl _⟩ fun c t h hf hl hlt hb => ?_
  by_cases he : c.point = .eof
  · have ht := hb.eof_rest he
    have : dispatch cfg pol s c = tok .EndOfFile s := by
      unfold dispatch nextTokenUncommon
      simp [he, CP.isAlpha, CP.isDigit]
    rw [this]
    exact wp_tok' hs h.reach (.eof h.reach rfl ht he hb)
  · have := hlt (hb.ne_nil he)
    refine wp_mono (dispatch_wp (n := t.rest.length) ⟨h.wf, h.reach, Nat.le_refl _⟩ hb.not_lc he) (fun _ h => h) ?_
    intro k u hk
    have hkl := hk.len
    exact .token ⟨hk.reach, hk.shape, hk.kind, by omega⟩ (by omega)

end
end CodeParser
