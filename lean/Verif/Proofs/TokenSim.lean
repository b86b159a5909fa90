import Verif.Proofs.Token3
/-!
The encoding flag does not influence tokenization (helper lemmas).
-/
namespace CodeParser

section
variable {cfg : Cfg} {pol : Pol} {start start' m m' : St} {c : WLC}

theorem tok_sim {k : TK} (h : SameAt start start') : MSim Eq (tok k start) (tok k start') := by
  intro s s' hs
  unfold tok
  have : between start s = between start' s' := by unfold between; rw [h.rest, hs.rest]
  rw [h.loc, hs.loc, this, hs.rest]
  cases Span.new start'.loc s'.loc with
  | none => rfl
  | some sp => exact ⟨rfl, hs⟩

theorem errorTokAt_sim {k : TK} (h : SameAt start start') :
    MSim Eq (errorTokAt k start) (errorTokAt k start') := by
  intro s s' hs
  unfold errorTokAt
  rw [h.loc, h.rest]
  exact ⟨rfl, hs⟩

theorem assertB_sim (b : Bool) : MSim Eq (assertB b) (assertB b) := by
  unfold assertB; msim

theorem tokNext_sim {k : TK} (h : SameAt start start') :
    MSim Eq (tokNext cfg k start) (tokNext cfg k start') := by
  unfold tokNext
  exact MSim.bindE (nextC_sim cfg) fun _ => tok_sim h

theorem assertAscii_sim {b : UInt8} (h : SameAt m m') :
    MSim Eq (assertAscii m b) (assertAscii m' b) := by
  unfold assertAscii
  rw [h.rest]
  cases m'.rest with
  | nil => msim
  | cons => exact assertB_sim _

/-- One step through a token handler. -/
macro "ts1" : tactic => `(tactic| with_reducible first
  | exact tok_sim (by assumption)
  | exact errorTokAt_sim (by assumption)
  | exact tokNext_sim (by assumption)
  | exact nextC_sim _
  | exact curC_sim _
  | (refine MSim.bindE (nextC_sim _) fun _ => ?_)
  | (refine MSim.bindE (curC_sim _) fun _ => ?_)
  | (refine MSim.bindE (assertB_sim _) fun _ => ?_)
  | (refine MSim.bindE (assertAscii_sim (by assumption)) fun _ => ?_)
  | msim1
  | (refine MSim.loopE fun _ => ?_)
  | (refine MSim.bindE (MSim.loopE fun _ => ?_) fun _ => ?_))

macro "ts" : tactic => `(tactic| repeat' ts1)

theorem handleComment_sim {c : CP} (h : SameAt start start') :
    MSim Eq (handleComment cfg start c) (handleComment cfg start' c) := by
  unfold handleComment; ts

theorem handleBlob_sim (h : SameAt start start') :
    MSim Eq (handleBlob cfg start c) (handleBlob cfg start' c) := by
  unfold handleBlob; ts

theorem symbolSegment_sim : MSim Eq (symbolSegment cfg c) (symbolSegment cfg c) := by
  unfold symbolSegment; ts

theorem handleSymbol_sim (h : SameAt start start') :
    MSim Eq (handleSymbol cfg pol start c) (handleSymbol cfg pol start' c) := by
  unfold handleSymbol symbolFirst
  ts
  refine MSim.bindE ?_ fun _ => ?_
  · ts; exact symbolSegment_sim
  · refine MSim.bindE (MSim.loopE fun _ => ?_) fun _ => ?_
    · ts
      refine MSim.bindE symbolSegment_sim fun _ => ?_
      ts
    · ts

theorem handleString_sim (h : SameAt start start') :
    MSim Eq (handleString cfg start c) (handleString cfg start' c) := by
  unfold handleString; ts

theorem handleZeros_sim : MSim Eq (handleZeros cfg c) (handleZeros cfg c) := by
  unfold handleZeros; ts

theorem handleDigits_sim : MSim Eq (handleDigits cfg c) (handleDigits cfg c) := by
  unfold handleDigits; ts

theorem handleAlphaOrDigits_sim {b : Nat} :
    MSim Eq (handleAlphaOrDigits cfg c b) (handleAlphaOrDigits cfg c b) := by
  unfold handleAlphaOrDigits; ts

theorem fractionPastDot_sim {b : Nat} {x : NumCtx} (h : SameAt m m') :
    MSim Eq (fractionPastDot cfg m c b x) (fractionPastDot cfg m' c b x) := by
  unfold fractionPastDot
  ts
  refine MSim.bindE handleAlphaOrDigits_sim fun _ => ?_
  ts

theorem numExponentEnd_sim {x : NumCtx} (h : SameAt start start') :
    MSim Eq (numExponentEnd cfg start x c) (numExponentEnd cfg start' x c) := by
  unfold numExponentEnd
  ts
  refine MSim.bindE (fractionPastDot_sim (by assumption)) ?_
  rintro ⟨f, _, _⟩
  cases f <;> (simp only; ts)

theorem optMark_sim {star star' : Option St} (h : Option.Rel SameAt star star') {α} {f f' : St → M α} {z : M α}
    (hf : ∀ m m', SameAt m m' → MSim Eq (f m) (f' m')) (hz : MSim Eq z z) :
    MSim Eq (match star with | none => z | some m => f m) (match star' with | none => z | some m => f' m) := by
  cases h with
  | none => exact hz
  | some h => exact hf _ _ h

theorem numStar_sim {star star' : Option St} {x : NumCtx} (h : SameAt start start')
    (hst : Option.Rel SameAt star star') :
    MSim Eq (numStar cfg start star x c) (numStar cfg start' star' x c) := by
  unfold numStar
  ts
  cases hst with
  | none => ts
  | some hm =>
    simp only
    ts
    refine MSim.bindE ?_ ?_
    · unfold expSign; ts
    rintro ⟨x, c⟩
    simp only
    ts
    refine MSim.bindE ?_ fun c => ?_
    · unfold expZeros; ts; exact MSim.bindE handleZeros_sim fun _ => by ts
    refine MSim.bindE ?_ ?_
    · unfold expDigits; ts; exact MSim.bindE handleDigits_sim fun _ => by ts
    rintro ⟨x, c⟩
    exact numExponentEnd_sim h

theorem numPrecisionEnd_sim {a b : Bool} {x : NumCtx} (h : SameAt start start') :
    MSim Eq (numPrecisionEnd cfg start x a b c) (numPrecisionEnd cfg start' x a b c) := by
  unfold numPrecisionEnd
  ts
  exact numStar_sim h (.some (by assumption))

theorem numPrecisionFraction_sim {a b : Bool} {x : NumCtx} {sg sg' : Option St} (h : SameAt start start')
    (hsg : Option.Rel SameAt sg sg') (hm : SameAt m m') :
    MSim Eq (numPrecisionFraction cfg start x a sg b m c) (numPrecisionFraction cfg start' x a sg' b m' c) := by
  unfold numPrecisionFraction
  refine MSim.bindE (fractionPastDot_sim hm) ?_
  rintro ⟨f, c, x⟩
  cases f with
  | bailout =>
    simp only
    ts
    cases hsg with
    | none => ts
    | some hm => simp only; ts
  | count k => simp only; ts; exact numPrecisionEnd_sim h

theorem rel_isSome {sg sg' : Option St} (hsg : Option.Rel SameAt sg sg') : sg.isSome = sg'.isSome := by
  cases hsg <;> rfl

theorem numPrecisionDot_sim {a b : Bool} {x : NumCtx} {sg sg' : Option St} (h : SameAt start start')
    (hsg : Option.Rel SameAt sg sg') :
    MSim Eq (numPrecisionDot cfg start x a sg b c) (numPrecisionDot cfg start' x a sg' b c) := by
  unfold numPrecisionDot
  rw [rel_isSome hsg]
  ts
  · exact numPrecisionFraction_sim h hsg (by assumption)
  · exact numPrecisionFraction_sim h hsg (by assumption)
  · exact numPrecisionEnd_sim h

theorem numPrecisionDigits_sim {a : Bool} {x : NumCtx} {sg sg' : Option St} (h : SameAt start start')
    (hsg : Option.Rel SameAt sg sg') :
    MSim Eq (numPrecisionDigits cfg start x a sg c) (numPrecisionDigits cfg start' x a sg' c) := by
  unfold numPrecisionDigits
  ts
  · refine MSim.bindE handleDigits_sim ?_
    rintro ⟨k, c⟩
    simp only
    ts
    exact numPrecisionDot_sim h hsg
  · exact numPrecisionDot_sim h hsg

theorem numPrecisionSign_sim {a : Bool} {x : NumCtx} (h : SameAt start start') :
    MSim Eq (numPrecisionSign cfg start x a c) (numPrecisionSign cfg start' x a c) := by
  unfold numPrecisionSign
  ts
  · rename_i m m' hm
    rw [hm.rest]
    cases m'.rest with
    | nil => ts
    | cons b r =>
      simp only
      ts
      exact numPrecisionDigits_sim h (.some hm)
  · exact numPrecisionDigits_sim h .none

theorem numPrecision_sim {x : NumCtx} {st st' : Option St} (h : SameAt start start')
    (hst : Option.Rel SameAt st st') :
    MSim Eq (numPrecision cfg start st x c) (numPrecision cfg start' st' x c) := by
  unfold numPrecision
  ts
  · exact numPrecisionSign_sim h
  · exact numPrecisionSign_sim h
  · exact numStar_sim h hst

theorem numAfterFraction_sim {x : NumCtx} {st st' : Option St} (h : SameAt start start')
    (hst : Option.Rel SameAt st st') :
    MSim Eq (numAfterFraction cfg start st x c) (numAfterFraction cfg start' st' x c) := by
  unfold numAfterFraction
  simp only
  ts
  · exact numPrecision_sim h (.some (by assumption))
  · exact numPrecision_sim h hst

theorem numFraction_sim {k : Nat} {x : NumCtx} {st st' : Option St} (h : SameAt start start')
    (hm : SameAt m m') (hst : Option.Rel SameAt st st') :
    MSim Eq (numFraction cfg start m k st x c) (numFraction cfg start' m' k st' x c) := by
  unfold numFraction
  ts
  · refine MSim.bindE ?_ ?_
    · unfold possibleFraction; ts; exact fractionPastDot_sim hm
    rintro ⟨f, c, x⟩
    cases f with
    | bailout => simp only; ts
    | count j =>
      cases j with
      | zero => simp only; ts; exact numAfterFraction_sim h hst
      | succ j => exact numAfterFraction_sim h hst
  · exact numPrecision_sim h hst

theorem numBase_sim {x : NumCtx} {nz nz' : St} (h : SameAt start start') (hz : SameAt nz nz')
    (hm : SameAt m m') : MSim Eq (numBase cfg start nz m x) (numBase cfg start' nz' m' x) := by
  unfold numBase
  have : between nz m = between nz' m' := by unfold between; rw [hz.rest, hm.rest]
  rw [this]
  ts
  · refine MSim.bindE handleAlphaOrDigits_sim ?_
    rintro ⟨k, c, b⟩
    simp only
    ts
    unfold numAfterBaseDigits
    ts
    · exact numFraction_sim h (by assumption) (.some (by assumption))
    · exact numFraction_sim h (by assumption) .none
  · exact numFraction_sim h (by assumption) .none

/-- Results that carry a mark. -/
def MarkRel (a b : Nat × St × WLC) : Prop := a.1 = b.1 ∧ SameAt a.2.1 b.2.1 ∧ a.2.2 = b.2.2

theorem handleNumber_sim (h : SameAt start start') :
    MSim Eq (handleNumber cfg pol start c) (handleNumber cfg pol start' c) := by
  unfold handleNumber
  ts
  · refine MSim.bind (ra := MarkRel) ?_ ?_
    · unfold numZeros
      ts
      · refine MSim.bindE handleZeros_sim fun _ => MSim.bind MSim.mark fun _ _ h => MSim.pure ⟨rfl, h, rfl⟩
      · exact MSim.pure ⟨rfl, h, rfl⟩
    rintro ⟨k, nz, c⟩ ⟨k', nz', c'⟩ ⟨h1, h2, h3⟩
    simp only at h1 h2 h3
    subst h1; subst h3
    refine MSim.bind (ra := MarkRel) ?_ ?_
    · unfold numDigits
      ts
      · refine MSim.bindE handleDigits_sim fun _ => MSim.bind MSim.mark fun _ _ h => MSim.pure ⟨rfl, h, rfl⟩
      · exact MSim.pure ⟨rfl, by assumption, rfl⟩
    rintro ⟨j, lead, c⟩ ⟨j', lead', c'⟩ ⟨h1, h4, h3⟩
    simp only at h1 h4 h3
    subst h1; subst h3
    simp only
    ts
    · exact numBase_sim h h2 (by assumption)
    · exact numFraction_sim h h4 (.some (by assumption))
    · exact numFraction_sim h h4 .none
  · exact numFraction_sim h h .none

theorem handleColon_sim (h : SameAt start start') : MSim Eq (handleColon cfg start c) (handleColon cfg start' c) := by
  unfold handleColon; ts
theorem handleOpenParen_sim (h : SameAt start start') : MSim Eq (handleOpenParen cfg start c) (handleOpenParen cfg start' c) := by
  unfold handleOpenParen; ts; exact handleComment_sim h
theorem handleDot_sim (h : SameAt start start') : MSim Eq (handleDot cfg pol start c) (handleDot cfg pol start' c) := by
  unfold handleDot; ts; exact handleNumber_sim h
theorem handleEqual_sim (h : SameAt start start') : MSim Eq (handleEqual cfg start c) (handleEqual cfg start' c) := by
  unfold handleEqual; ts
theorem handleUnder_sim (h : SameAt start start') : MSim Eq (handleUnder cfg start c) (handleUnder cfg start' c) := by
  unfold handleUnder; ts
theorem handleLess_sim (h : SameAt start start') : MSim Eq (handleLess cfg start c) (handleLess cfg start' c) := by
  unfold handleLess; ts
theorem handleGreater_sim (h : SameAt start start') : MSim Eq (handleGreater cfg start c) (handleGreater cfg start' c) := by
  unfold handleGreater; ts
theorem handleMinus_sim (h : SameAt start start') : MSim Eq (handleMinus cfg start c) (handleMinus cfg start' c) := by
  unfold handleMinus; ts
theorem handleBar_sim (h : SameAt start start') : MSim Eq (handleBar cfg start c) (handleBar cfg start' c) := by
  unfold handleBar; ts
theorem handleDoubled_sim {x : Char} {a b : TK} (h : SameAt start start') :
    MSim Eq (handleDoubled cfg x a b start c) (handleDoubled cfg x a b start' c) := by
  unfold handleDoubled; ts
theorem handleBang_sim (h : SameAt start start') : MSim Eq (handleBang cfg start c) (handleBang cfg start' c) := by
  unfold handleBang; ts
theorem handlePercent_sim (h : SameAt start start') : MSim Eq (handlePercent cfg start c) (handlePercent cfg start' c) := by
  unfold handlePercent; ts
theorem handleSlash_sim (h : SameAt start start') : MSim Eq (handleSlash cfg start c) (handleSlash cfg start' c) := by
  unfold handleSlash; ts
theorem handleAt_sim (h : SameAt start start') : MSim Eq (handleAt cfg start c) (handleAt cfg start' c) := by
  unfold handleAt; ts
theorem handlePlus_sim (h : SameAt start start') : MSim Eq (handlePlus cfg start c) (handlePlus cfg start' c) := by
  unfold handlePlus; ts
theorem handleStar_sim (h : SameAt start start') : MSim Eq (handleStar cfg start c) (handleStar cfg start' c) := by
  unfold handleStar; ts
theorem handleCaret_sim (h : SameAt start start') : MSim Eq (handleCaret cfg start c) (handleCaret cfg start' c) := by
  unfold handleCaret; ts

theorem backslashName_sim (h : SameAt m m') :
    MSim Eq (backslashName cfg m c) (backslashName cfg m' c) := by
  unfold backslashName
  refine MSim.loop (fun a b => SameAt a.1 b.1 ∧ a.2 = b.2) ?_ ⟨h, rfl⟩
  rintro ⟨a, c⟩ ⟨b, c'⟩ ⟨h1, h2⟩
  simp only at h1 h2
  subst h2
  ts
  exact MSim.pure (.inl ⟨by assumption, rfl⟩)

theorem backslashDigits_sim {p : CP → Bool} (k : Nat) : ∀ {m m' : St} {c : WLC}, SameAt m m' →
    MSim Eq (backslashDigits cfg p k m c) (backslashDigits cfg p k m' c) := by
  induction k with
  | zero => intro m m' c _; exact MSim.pure rfl
  | succ k ih =>
    intro m m' c h
    unfold backslashDigits
    ts
    exact ih (by assumption)

theorem handleBackslash_sim (h : SameAt start start') : MSim Eq (handleBackslash cfg start c) (handleBackslash cfg start' c) := by
  unfold handleBackslash
  ts
  refine MSim.bindE ?_ fun _ => by ts
  unfold backslashScan
  ts
  all_goals first
    | exact backslashName_sim (by assumption)
    | exact backslashDigits_sim _ (by assumption)

theorem handlePunctuation_sim (h : SameAt start start') : MSim Eq (handlePunctuation start c) (handlePunctuation start' c) := by
  unfold handlePunctuation
  cases c.point with
  | char k =>
    simp only
    cases longNameCodePointToOperator k <;> (simp only; ts)
  | _ => simp only; ts

theorem handleLinearSyntax_sim (h : SameAt start start') : MSim Eq (handleLinearSyntax start c) (handleLinearSyntax start' c) := by
  unfold handleLinearSyntax; ts

theorem nextTokenOther_sim (h : SameAt start start') : MSim Eq (nextTokenOther cfg pol start c) (nextTokenOther cfg pol start' c) := by
  unfold nextTokenOther
  ts
  · exact handleBlob_sim h
  · exact handleLinearSyntax_sim h
  · exact handlePunctuation_sim h
  · exact handleSymbol_sim h

theorem nextTokenUncommon_sim (h : SameAt start start') : MSim Eq (nextTokenUncommon cfg pol start c) (nextTokenUncommon cfg pol start' c) := by
  unfold nextTokenUncommon
  ts
  all_goals first
    | with_reducible exact handleSymbol_sim h
    | with_reducible exact handleOpenParen_sim h
    | with_reducible exact handlePlus_sim h
    | with_reducible exact handleCaret_sim h
    | with_reducible exact handleEqual_sim h
    | with_reducible exact handleDoubled_sim h
    | with_reducible exact handleColon_sim h
    | with_reducible exact handleBang_sim h
    | with_reducible exact handlePercent_sim h
    | with_reducible exact handleStar_sim h
    | with_reducible exact handleDot_sim h
    | with_reducible exact handleSlash_sim h
    | with_reducible exact handleLess_sim h
    | with_reducible exact handleGreater_sim h
    | with_reducible exact handleAt_sim h
    | with_reducible exact handleBackslash_sim h
    | with_reducible exact handleUnder_sim h
    | with_reducible exact handleBar_sim h
    | with_reducible exact nextTokenOther_sim h

theorem dispatch_sim (h : SameAt start start') : MSim Eq (dispatch cfg pol start c) (dispatch cfg pol start' c) := by
  unfold dispatch
  ts
  · exact handleString_sim h
  · exact handleSymbol_sim h
  · exact handleMinus_sim h
  · exact handleNumber_sim h
  · exact nextTokenUncommon_sim h

theorem nextToken_sim : MSim Eq (nextToken cfg pol) (nextToken cfg pol) := by
  unfold nextToken
  ts
  exact dispatch_sim (by assumption)

theorem fileBrackets_sim {c : CP} : MSim Eq (fileBrackets cfg c) (fileBrackets cfg c) := by
  unfold fileBrackets; ts

theorem fileLoop_sim {c : CP} : MSim Eq (fileLoop cfg c) (fileLoop cfg c) := by
  unfold fileLoop
  ts
  refine MSim.bindE fileBrackets_sim ?_
  rintro (_ | c) <;> (simp only; ts)

theorem stringifyAsFileRest_sim {c : CP} (h : SameAt start start') :
    MSim Eq (stringifyAsFileRest cfg start c) (stringifyAsFileRest cfg start' c) := by
  unfold stringifyAsFileRest
  ts
  · refine MSim.bindE fileBrackets_sim ?_
    rintro (_ | c) <;> (simp only; ts)
  · refine MSim.bindE fileBrackets_sim ?_
    rintro (_ | c)
    · simp only; ts
    · simp only; exact MSim.bindE fileLoop_sim fun _ => by ts

theorem nextTokenFile_sim : MSim Eq (nextTokenFile cfg) (nextTokenFile cfg) := by
  unfold nextTokenFile
  ts
  · exact handleString_sim (by assumption)
  · exact stringifyAsFileRest_sim (by assumption)

theorem nextTokenTag_sim : MSim Eq (nextTokenTag cfg) (nextTokenTag cfg) := by
  unfold nextTokenTag
  ts
  · exact handleString_sim (by assumption)
  · unfold stringifyAsTagRest
    ts
    exact MSim.bindE symbolSegment_sim fun _ => by ts

end
end CodeParser
