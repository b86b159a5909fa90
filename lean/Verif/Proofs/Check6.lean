import Verif.Proofs.Check5
/-!
Helper lemmas about the token handlers with issues: numbers and operators.
-/
namespace CodeParser.Chk
open CodeParser (Bad Path WF SameAt MSim R)

section
variable {E : Env} {T : Want} {z w : St} {pol : Pol} {start start' m m' : St} {c : WLC}

/-- The next character, with what is known about the bytes it is made of. -/
theorem curC_bytes {β β' : Type} (hE : Fit E T) {rb : β → β' → Prop} {D : β → St → Fail → Prop}
    {f : WLC → CodeParser.M β} {f' : WLC → M β'}
    (hf : ∀ c s s', Near s s' → Pos E.cfg z s' → (∃ r', NextB s'.rest c r') → Out E.cfg T D z rb (f c s) (f' c s')) :
    Sim E.cfg T D z rb (CodeParser.curC E.cfg >>= f) (curC E >>= f') := by
  intro s s' hs hp
  refine (curC_simE (T := T) hE s s' hs hp).bind fun a t a' t' es h1 h2 h3 ht hpt => ?_
  subst h3
  refine hf a t t' ht hpt ?_
  have hw := curC_wp (cfg := E.cfg) (hs.wf hp.wf)
  unfold wp at hw
  rw [h1] at hw
  obtain ⟨-, hsm, -, hb⟩ := hw
  rw [← ht.same.rest, ← hsm.rest]
  exact hb

/-- The bytes of an ASCII character that comes next. -/
theorem starts {r : List UInt8} {x : Char} (hx : x.toNat < 0x80) (h : ∃ r', NextB r c r') (hc : c.point = ch x) :
    Spec.StartsWith x r := by
  obtain ⟨r', h⟩ := h
  obtain ⟨b, q, rfl, h2⟩ := h.ascii hc hx
  rcases h2 with h2 | rfl
  · left
    simp only [List.head?_cons, Option.some.injEq]
    apply UInt8.toNat_inj.mp
    rw [h2]
    unfold Spec.byte
    simp only [UInt8.toNat_ofNat']
    omega
  · exact .inr rfl

variable (hE : Fit E T)
include hE

theorem handleZeros_s : Sim E.cfg T never w Eq (CodeParser.handleZeros E.cfg c) (handleZeros E c) := by
  unfold CodeParser.handleZeros handleZeros; cs

theorem handleDigits_s : Sim E.cfg T never w Eq (CodeParser.handleDigits E.cfg c) (handleDigits E c) := by
  unfold CodeParser.handleDigits handleDigits; cs

theorem handleAlphaOrDigits_s {b : Nat} :
    Sim E.cfg T never w Eq (CodeParser.handleAlphaOrDigits E.cfg c b) (handleAlphaOrDigits E c b) := by
  unfold CodeParser.handleAlphaOrDigits handleAlphaOrDigits; cs

theorem fractionPastDot_s {b : Nat} {x : NumCtx} (h : Marks E.cfg z m m') :
    Sim E.cfg T never z Eq (CodeParser.fractionPastDot E.cfg m c b x) (fractionPastDot E m' c b x) := by
  unfold CodeParser.fractionPastDot fractionPastDot
  cs
  refine (handleAlphaOrDigits_s hE).bindE ?_
  rintro ⟨n, c, bad⟩
  simp only
  refine (Quiet.when fun _ => Quiet.emit (by
    refine issue_placed h.2 h.2.self rfl (fun a ha => ?_) fun _ => .implicitTimes between_nil
    simp only [List.mem_singleton] at ha; subst ha
    rfl)).sim fun _ _ => Sim.pure rfl

theorem numExponentEnd_s {x : NumCtx} (h : Marks E.cfg z start start') :
    Sim E.cfg T never z Eq (CodeParser.numExponentEnd E.cfg start x c) (numExponentEnd E start' x c) := by
  unfold CodeParser.numExponentEnd numExponentEnd
  cs
  refine (fractionPastDot_s hE (by assumption)).bindE ?_
  rintro ⟨f, _, _⟩
  cases f <;> (simp only; cs)

theorem numStar_s {star star' : Option St} {x : NumCtx} (h : Marks E.cfg z start start')
    (hst : Option.Rel (Marks E.cfg z) star star') :
    Sim E.cfg T never z Eq (CodeParser.numStar E.cfg start star x c) (numStar E start' star' x c) := by
  unfold CodeParser.numStar numStar
  cs
  cases hst with
  | none => cs
  | some hm =>
    simp only
    cs
    refine Sim.bindE ?_ ?_
    · unfold CodeParser.expSign expSign; cs
    rintro ⟨x, c⟩
    simp only
    cs
    refine Sim.bindE ?_ fun c => ?_
    · unfold CodeParser.expZeros expZeros; cs; exact (handleZeros_s hE).bindE fun _ => by cs
    refine Sim.bindE ?_ ?_
    · unfold CodeParser.expDigits expDigits; cs; exact (handleDigits_s hE).bindE fun _ => by cs
    rintro ⟨x, c⟩
    exact numExponentEnd_s hE h

theorem numPrecisionEnd_s {a b : Bool} {x : NumCtx} (h : Marks E.cfg z start start') :
    Sim E.cfg T never z Eq (CodeParser.numPrecisionEnd E.cfg start x a b c) (numPrecisionEnd E start' x a b c) := by
  unfold CodeParser.numPrecisionEnd numPrecisionEnd
  cs
  exact numStar_s hE h (.some (by assumption))

theorem numPrecisionFraction_s {a b : Bool} {x : NumCtx} {sg sg' : Option St} (h : Marks E.cfg z start start')
    (hsg : Option.Rel (Marks E.cfg z) sg sg') (hm : Marks E.cfg z m m') :
    Sim E.cfg T never z Eq (CodeParser.numPrecisionFraction E.cfg start x a sg b m c) (numPrecisionFraction E start' x a sg' b m' c) := by
  unfold CodeParser.numPrecisionFraction numPrecisionFraction
  refine (fractionPastDot_s hE hm).bindE ?_
  rintro ⟨f, c, x⟩
  cases f with
  | bailout =>
    simp only
    cs
    cases hsg with
    | none => cs
    | some hm => simp only; cs
  | count k => simp only; cs; exact numPrecisionEnd_s hE h

omit hE in
theorem marks_isSome {sg sg' : Option St} (hsg : Option.Rel (Marks E.cfg z) sg sg') : sg.isSome = sg'.isSome := by
  cases hsg <;> rfl

theorem numPrecisionDot_s {a b : Bool} {x : NumCtx} {sg sg' : Option St} (h : Marks E.cfg z start start')
    (hsg : Option.Rel (Marks E.cfg z) sg sg') :
    Sim E.cfg T never z Eq (CodeParser.numPrecisionDot E.cfg start x a sg b c) (numPrecisionDot E start' x a sg' b c) := by
  unfold CodeParser.numPrecisionDot numPrecisionDot
  rw [marks_isSome hsg]
  cs
  · exact numPrecisionFraction_s hE h hsg (by assumption)
  · exact numPrecisionFraction_s hE h hsg (by assumption)
  · exact numPrecisionEnd_s hE h

theorem numPrecisionDigits_s {a : Bool} {x : NumCtx} {sg sg' : Option St} (h : Marks E.cfg z start start')
    (hsg : Option.Rel (Marks E.cfg z) sg sg') :
    Sim E.cfg T never z Eq (CodeParser.numPrecisionDigits E.cfg start x a sg c) (numPrecisionDigits E start' x a sg' c) := by
  unfold CodeParser.numPrecisionDigits numPrecisionDigits
  cs
  · refine (handleDigits_s hE).bindE ?_
    rintro ⟨k, c⟩
    simp only
    cs
    exact numPrecisionDot_s hE h hsg
  · exact numPrecisionDot_s hE h hsg

/-- A sign starts with an ASCII byte. -/
theorem numPrecisionSign_out {a : Bool} {x : NumCtx} {s s' : St} (h : Marks E.cfg z start start') (hs : Near s s')
    (hp : Pos E.cfg z s') (hb : ∃ r', NextB s'.rest c r') : Out E.cfg T never z Eq
      (CodeParser.numPrecisionSign E.cfg start x a c s) (numPrecisionSign E start' x a c s') := by
  unfold CodeParser.numPrecisionSign numPrecisionSign
  by_cases hc : c.point = ch '-' ∨ c.point = ch '+'
  · rw [if_pos hc, if_pos hc]
    have hst : Spec.StartsWith '-' s'.rest ∨ Spec.StartsWith '+' s'.rest :=
      hc.imp (starts (by decide) hb) (starts (by decide) hb)
    obtain ⟨r', hb⟩ := hb
    have : ∃ b q, s'.rest = b :: q ∧ ¬ b.toNat > 0x7f := by
      rcases hc with hc | hc
      · obtain ⟨b, q, h1, h2⟩ := hb.ascii hc (by decide)
        refine ⟨b, q, h1, ?_⟩
        rcases h2 with h2 | h2
        · rw [h2]; decide
        · subst h2; decide
      · obtain ⟨b, q, h1, h2⟩ := hb.ascii hc (by decide)
        refine ⟨b, q, h1, ?_⟩
        rcases h2 with h2 | h2
        · rw [h2]; decide
        · subst h2; decide
    obtain ⟨b, q, h1, h2⟩ := this
    refine (Sim.mark (T := T) s s' hs hp).bind fun m t m' t' es e1 e2 hm ht hpt => ?_
    cases e1; cases e2
    rw [hs.same.rest, h1]
    simp only
    refine Sim.bindE (T := T) (D := never) assertB_s (fun _ => ?_) s s' hs hp
    cs1
    cs1
    refine Sim.ite (fun _ => ?_) fun _ => by cs
    refine (Quiet.when fun _ => ?_).sim fun _ _ => numPrecisionDigits_s hE h (.some hm)
    unfold signIssue
    rw [if_neg h2]
    exact Quiet.emit (issue_placed hm.2 hm.2.self rfl (fun a ha => by cases ha) fun _ => .sign between_nil hst)
  · rw [if_neg hc, if_neg hc]
    exact numPrecisionDigits_s hE h .none s s' hs hp

theorem numPrecision_s {x : NumCtx} {st st' : Option St} (h : Marks E.cfg z start start')
    (hst : Option.Rel (Marks E.cfg z) st st') :
    Sim E.cfg T never z Eq (CodeParser.numPrecision E.cfg start st x c) (numPrecision E start' st' x c) := by
  unfold CodeParser.numPrecision numPrecision
  cs1
  refine Sim.ite (fun _ => ?_) fun _ => numStar_s hE h hst
  refine curC_bytes hE fun c s s' hs hp hb => ?_
  by_cases hc : c.point = ch '`'
  · rw [if_pos hc, if_pos hc]
    refine Sim.bindE (T := T) (D := never) (nextC_simE hE) (fun _ => ?_) s s' hs hp
    exact curC_bytes hE fun c s s' hs hp hb => numPrecisionSign_out hE h hs hp hb
  · rw [if_neg hc, if_neg hc]
    exact numPrecisionSign_out hE h hs hp hb

theorem numAfterFraction_s {x : NumCtx} {st st' : Option St} (h : Marks E.cfg z start start')
    (hst : Option.Rel (Marks E.cfg z) st st') :
    Sim E.cfg T never z Eq (CodeParser.numAfterFraction E.cfg start st x c) (numAfterFraction E start' st' x c) := by
  unfold CodeParser.numAfterFraction numAfterFraction
  simp only
  cs
  · exact numPrecision_s hE h (.some (by assumption))
  · exact numPrecision_s hE h hst

theorem numFraction_s {k : Nat} {x : NumCtx} {st st' : Option St} (h : Marks E.cfg z start start')
    (hm : Marks E.cfg z m m') (hst : Option.Rel (Marks E.cfg z) st st') :
    Sim E.cfg T never z Eq (CodeParser.numFraction E.cfg start m k st x c) (numFraction E start' m' k st' x c) := by
  unfold CodeParser.numFraction numFraction
  cs
  · refine Sim.bindE ?_ ?_
    · unfold CodeParser.possibleFraction possibleFraction; cs; exact fractionPastDot_s hE hm
    rintro ⟨f, c, x⟩
    cases f with
    | bailout => simp only; cs
    | count j =>
      cases j with
      | zero => simp only; cs; exact numAfterFraction_s hE h hst
      | succ j => exact numAfterFraction_s hE h hst
  · exact numPrecision_s hE h hst

theorem numBase_s {x : NumCtx} {nz nz' : St} (h : Marks E.cfg z start start') (hz : SameAt nz nz')
    (hm : Marks E.cfg z m m') : Sim E.cfg T never z Eq (CodeParser.numBase E.cfg start nz m x) (numBase E start' nz' m' x) := by
  unfold CodeParser.numBase numBase
  have : between nz m = between nz' m' := by unfold between; rw [hz.rest, hm.1.rest]
  rw [this]
  cs
  · refine (handleAlphaOrDigits_s hE).bindE ?_
    rintro ⟨k, c, b⟩
    simp only
    cs
    unfold CodeParser.numAfterBaseDigits numAfterBaseDigits
    cs
    · exact numFraction_s hE h (by assumption) (.some (by assumption))
    · exact numFraction_s hE h (by assumption) .none
  · exact numFraction_s hE h (by assumption) .none

omit hE in
theorem ambiguousHere_quiet : Quiet E.cfg T z (fun _ => True) ambiguousHere := by
  unfold ambiguousHere
  refine Quiet.here.bind ?_
  rintro _ ⟨p, hp, rfl⟩
  refine Quiet.emit (issue_placed hp hp.self rfl (fun a ha => ?_) fun _ => .ambiguous between_nil)
  simp only [List.mem_singleton] at ha; subst ha
  rfl

/-- Results that carry a mark. -/
def MarksRel (cfg : Cfg) (z : St) (a b : Nat × St × WLC) : Prop := a.1 = b.1 ∧ Marks cfg z a.2.1 b.2.1 ∧ a.2.2 = b.2.2

theorem handleNumber_s (h : Marks E.cfg z start start') :
    Sim E.cfg T never z Eq (CodeParser.handleNumber E.cfg pol start c) (handleNumber E pol start' c) := by
  unfold CodeParser.handleNumber handleNumber
  cs
  · refine Sim.bind (ra := MarksRel E.cfg z) ?_ ?_
    · unfold CodeParser.numZeros numZeros
      refine Sim.ite (fun _ => ?_) fun _ => Sim.pure ⟨rfl, h, rfl⟩
      exact (handleZeros_s hE).bindE fun _ => Sim.bind Sim.mark fun _ _ h => Sim.pure ⟨rfl, h, rfl⟩
    rintro ⟨k, nz, c⟩ ⟨k', nz', c'⟩ ⟨h1, h2, h3⟩
    simp only at h1 h2 h3
    subst h1; subst h3
    refine Sim.bind (ra := MarksRel E.cfg z) ?_ ?_
    · unfold CodeParser.numDigits numDigits
      refine Sim.bind Sim.mark fun _ _ h => Sim.ite (fun _ => ?_) fun _ => Sim.pure ⟨rfl, h, rfl⟩
      exact (handleDigits_s hE).bindE fun _ => Sim.bind Sim.mark fun _ _ h => Sim.pure ⟨rfl, h, rfl⟩
    rintro ⟨j, lead, c⟩ ⟨j', lead', c'⟩ ⟨h1, h4, h3⟩
    simp only at h1 h4 h3
    subst h1; subst h3
    simp only
    refine Sim.ite (fun _ => (Quiet.when fun _ => ambiguousHere_quiet).sim fun _ _ => by cs) fun _ => ?_
    cs
    · exact numBase_s hE h h2.1 (by assumption)
    · exact numFraction_s hE h h4 (.some (by assumption))
    · exact numFraction_s hE h h4 .none
  · exact numFraction_s hE h h .none

/-! ### Operators -/

theorem handleColon_s (h : Marks E.cfg z start start') : Sim E.cfg T never z Eq (CodeParser.handleColon E.cfg start c) (handleColon E start' c) := by
  unfold CodeParser.handleColon handleColon; cs
theorem handleOpenParen_s (h : Marks E.cfg z start start') : Sim E.cfg T never z Eq (CodeParser.handleOpenParen E.cfg start c) (handleOpenParen E start' c) := by
  unfold CodeParser.handleOpenParen handleOpenParen; cs; exact handleComment_s hE h
theorem handleDot_s (h : Marks E.cfg z start start') : Sim E.cfg T never z Eq (CodeParser.handleDot E.cfg pol start c) (handleDot E pol start' c) := by
  unfold CodeParser.handleDot handleDot; cs; exact handleNumber_s hE h
theorem handleEqual_s (h : Marks E.cfg z start start') : Sim E.cfg T never z Eq (CodeParser.handleEqual E.cfg start c) (handleEqual E start' c) := by
  unfold CodeParser.handleEqual handleEqual; cs
theorem handleLess_s (h : Marks E.cfg z start start') : Sim E.cfg T never z Eq (CodeParser.handleLess E.cfg start c) (handleLess E start' c) := by
  unfold CodeParser.handleLess handleLess; cs
theorem handleGreater_s (h : Marks E.cfg z start start') : Sim E.cfg T never z Eq (CodeParser.handleGreater E.cfg start c) (handleGreater E start' c) := by
  unfold CodeParser.handleGreater handleGreater; cs
theorem handleDoubled_s {x : Char} {a b : TK} (h : Marks E.cfg z start start') :
    Sim E.cfg T never z Eq (CodeParser.handleDoubled E.cfg x a b start c) (handleDoubled E x a b start' c) := by
  unfold CodeParser.handleDoubled handleDoubled; cs
theorem handleBang_s (h : Marks E.cfg z start start') : Sim E.cfg T never z Eq (CodeParser.handleBang E.cfg start c) (handleBang E start' c) := by
  unfold CodeParser.handleBang handleBang; cs
theorem handlePercent_s (h : Marks E.cfg z start start') : Sim E.cfg T never z Eq (CodeParser.handlePercent E.cfg start c) (handlePercent E start' c) := by
  unfold CodeParser.handlePercent handlePercent; cs
theorem handleSlash_s (h : Marks E.cfg z start start') : Sim E.cfg T never z Eq (CodeParser.handleSlash E.cfg start c) (handleSlash E start' c) := by
  unfold CodeParser.handleSlash handleSlash; cs
theorem handleAt_s (h : Marks E.cfg z start start') : Sim E.cfg T never z Eq (CodeParser.handleAt E.cfg start c) (handleAt E start' c) := by
  unfold CodeParser.handleAt handleAt; cs
theorem handleStar_s (h : Marks E.cfg z start start') : Sim E.cfg T never z Eq (CodeParser.handleStar E.cfg start c) (handleStar E start' c) := by
  unfold CodeParser.handleStar handleStar; cs
theorem handleCaret_s (h : Marks E.cfg z start start') : Sim E.cfg T never z Eq (CodeParser.handleCaret E.cfg start c) (handleCaret E start' c) := by
  unfold CodeParser.handleCaret handleCaret; cs

theorem backslashName_s (h : Marks E.cfg z m m') :
    Sim E.cfg T never z Eq (CodeParser.backslashName E.cfg m c) (backslashName E m' c) := by
  unfold CodeParser.backslashName backslashName
  refine Sim.loop (fun a b => Marks E.cfg z a.1 b.1 ∧ a.2 = b.2) ?_ ⟨h, rfl⟩
  rintro ⟨a, c⟩ ⟨b, c'⟩ ⟨h1, h2⟩
  simp only at h1 h2
  subst h2
  cs
  exact Sim.pure (.inl ⟨by assumption, rfl⟩)

theorem backslashDigits_s {p : CP → Bool} (k : Nat) : ∀ {m m' : St} {c : WLC}, Marks E.cfg z m m' →
    Sim E.cfg T never z Eq (CodeParser.backslashDigits E.cfg p k m c) (backslashDigits E p k m' c) := by
  induction k with
  | zero => intro m m' c _; exact Sim.pure rfl
  | succ k ih =>
    intro m m' c h
    unfold CodeParser.backslashDigits backslashDigits
    cs
    exact ih (by assumption)

theorem handleBackslash_s (h : Marks E.cfg z start start') : Sim E.cfg T never z Eq (CodeParser.handleBackslash E.cfg start c) (handleBackslash E start' c) := by
  unfold CodeParser.handleBackslash handleBackslash
  cs
  refine Sim.bindE ?_ fun _ => by cs
  unfold CodeParser.backslashScan backslashScan
  cs
  all_goals first
    | exact backslashName_s hE (by assumption)
    | exact backslashDigits_s hE _ (by assumption)

end
end CodeParser.Chk
