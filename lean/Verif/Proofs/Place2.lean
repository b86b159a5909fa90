import Mathlib.Data.List.Forall2
import Verif.Proofs.Place1
/-!
Positions do not influence tokenization (helper lemmas).
-/
namespace CodeParser.Place

/-- Two tokens that may differ in their position. -/
structure SameTok (t t' : Tok) : Prop where
  kind : t.kind = t'.kind
  text : t.text = t'.text
  after : t.after = t'.after

section
variable {cfg : Cfg} {w : Nat} {hw : 0 < w} {pol : Pol} {start start' m m' : St} {c : WLC}

theorem tok_sim {k : TK} (h : Alike start start') : PSim SameTok (tok k start) (tok k start') := by
  intro s s' hs
  unfold tok
  have : between start s = between start' s' := by unfold between; rw [h.rest, hs.rest]
  rw [this, hs.rest]
  cases Span.new start.loc s.loc with
  | none =>
    cases Span.new start'.loc s'.loc with
    | none => exact Or.inl rfl
    | some sp => rfl
  | some sp =>
    cases Span.new start'.loc s'.loc with
    | none => rfl
    | some sp => exact ⟨⟨rfl, rfl, rfl⟩, hs⟩

theorem errorTokAt_sim {k : TK} (h : Alike start start') :
    PSim SameTok (errorTokAt k start) (errorTokAt k start') := by
  intro s s' hs
  unfold errorTokAt
  rw [h.rest]
  exact ⟨⟨rfl, rfl, rfl⟩, hs⟩

theorem assertB_sim (b : Bool) : PSim Eq (assertB b) (assertB b) := by
  unfold assertB; psim

theorem tokNext_sim {k : TK} (h : Alike start start') :
    PSim SameTok (tokNext cfg k start) (tokNext (wide cfg w hw) k start') := by
  unfold tokNext
  exact PSim.bindE nextC_sim fun _ => tok_sim h

theorem assertAscii_sim {b : UInt8} (h : Alike m m') :
    PSim Eq (assertAscii m b) (assertAscii m' b) := by
  unfold assertAscii
  rw [h.rest]
  cases m'.rest with
  | nil => psim
  | cons => exact assertB_sim _

/-- One step through a token handler. -/
macro "pts1" : tactic => `(tactic| with_reducible first
  | exact tok_sim (by assumption)
  | exact errorTokAt_sim (by assumption)
  | exact tokNext_sim (by assumption)
  | exact nextC_sim
  | exact curC_sim
  | (refine PSim.bindE nextC_sim fun _ => ?_)
  | (refine PSim.bindE (curC_sim) fun _ => ?_)
  | (refine PSim.bindE (assertB_sim _) fun _ => ?_)
  | (refine PSim.bindE (assertAscii_sim (by assumption)) fun _ => ?_)
  | psim1
  | (refine PSim.loopE fun _ => ?_)
  | (refine PSim.bindE (PSim.loopE fun _ => ?_) fun _ => ?_))

macro "pts" : tactic => `(tactic| repeat' pts1)

theorem handleComment_sim {c : CP} (h : Alike start start') :
    PSim SameTok (handleComment cfg start c) (handleComment (wide cfg w hw) start' c) := by
  unfold handleComment; pts

theorem handleBlob_sim (h : Alike start start') :
    PSim SameTok (handleBlob cfg start c) (handleBlob (wide cfg w hw) start' c) := by
  unfold handleBlob; pts

theorem symbolSegment_sim : PSim Eq (symbolSegment cfg c) (symbolSegment (wide cfg w hw) c) := by
  unfold symbolSegment; pts

theorem handleSymbol_sim (h : Alike start start') :
    PSim SameTok (handleSymbol cfg pol start c) (handleSymbol (wide cfg w hw) pol start' c) := by
  unfold handleSymbol symbolFirst
  pts
  refine PSim.bindE ?_ fun _ => ?_
  · pts; exact symbolSegment_sim
  · refine PSim.bindE (PSim.loopE fun _ => ?_) fun _ => ?_
    · pts
      refine PSim.bindE symbolSegment_sim fun _ => ?_
      pts
    · pts

theorem handleString_sim (h : Alike start start') :
    PSim SameTok (handleString cfg start c) (handleString (wide cfg w hw) start' c) := by
  unfold handleString; pts

theorem handleZeros_sim : PSim Eq (handleZeros cfg c) (handleZeros (wide cfg w hw) c) := by
  unfold handleZeros; pts

theorem handleDigits_sim : PSim Eq (handleDigits cfg c) (handleDigits (wide cfg w hw) c) := by
  unfold handleDigits; pts

theorem handleAlphaOrDigits_sim {b : Nat} :
    PSim Eq (handleAlphaOrDigits cfg c b) (handleAlphaOrDigits (wide cfg w hw) c b) := by
  unfold handleAlphaOrDigits; pts

theorem fractionPastDot_sim {b : Nat} {x : NumCtx} (h : Alike m m') :
    PSim Eq (fractionPastDot cfg m c b x) (fractionPastDot (wide cfg w hw) m' c b x) := by
  unfold fractionPastDot
  pts
  refine PSim.bindE handleAlphaOrDigits_sim fun _ => ?_
  pts

theorem numExponentEnd_sim {x : NumCtx} (h : Alike start start') :
    PSim SameTok (numExponentEnd cfg start x c) (numExponentEnd (wide cfg w hw) start' x c) := by
  unfold numExponentEnd
  pts
  refine PSim.bindE (fractionPastDot_sim (by assumption)) ?_
  rintro ⟨f, _, _⟩
  cases f <;> (simp only; pts)

theorem numStar_sim {star star' : Option St} {x : NumCtx} (h : Alike start start')
    (hst : Option.Rel Alike star star') :
    PSim SameTok (numStar cfg start star x c) (numStar (wide cfg w hw) start' star' x c) := by
  unfold numStar
  pts
  cases hst with
  | none => pts
  | some hm =>
    simp only
    pts
    refine PSim.bindE ?_ ?_
    · unfold expSign; pts
    rintro ⟨x, c⟩
    simp only
    pts
    refine PSim.bindE ?_ fun c => ?_
    · unfold expZeros; pts; exact PSim.bindE handleZeros_sim fun _ => by pts
    refine PSim.bindE ?_ ?_
    · unfold expDigits; pts; exact PSim.bindE handleDigits_sim fun _ => by pts
    rintro ⟨x, c⟩
    exact numExponentEnd_sim h

theorem numPrecisionEnd_sim {a b : Bool} {x : NumCtx} (h : Alike start start') :
    PSim SameTok (numPrecisionEnd cfg start x a b c) (numPrecisionEnd (wide cfg w hw) start' x a b c) := by
  unfold numPrecisionEnd
  pts
  exact numStar_sim h (.some (by assumption))

theorem numPrecisionFraction_sim {a b : Bool} {x : NumCtx} {sg sg' : Option St} (h : Alike start start')
    (hsg : Option.Rel Alike sg sg') (hm : Alike m m') :
    PSim SameTok (numPrecisionFraction cfg start x a sg b m c) (numPrecisionFraction (wide cfg w hw) start' x a sg' b m' c) := by
  unfold numPrecisionFraction
  refine PSim.bindE (fractionPastDot_sim hm) ?_
  rintro ⟨f, c, x⟩
  cases f with
  | bailout =>
    simp only
    pts
    cases hsg with
    | none => pts
    | some hm => simp only; pts
  | count k => simp only; pts; exact numPrecisionEnd_sim h

theorem rel_isSome {sg sg' : Option St} (hsg : Option.Rel Alike sg sg') : sg.isSome = sg'.isSome := by
  cases hsg <;> rfl

theorem numPrecisionDot_sim {a b : Bool} {x : NumCtx} {sg sg' : Option St} (h : Alike start start')
    (hsg : Option.Rel Alike sg sg') :
    PSim SameTok (numPrecisionDot cfg start x a sg b c) (numPrecisionDot (wide cfg w hw) start' x a sg' b c) := by
  unfold numPrecisionDot
  rw [rel_isSome hsg]
  pts
  · exact numPrecisionFraction_sim h hsg (by assumption)
  · exact numPrecisionFraction_sim h hsg (by assumption)
  · exact numPrecisionEnd_sim h

theorem numPrecisionDigits_sim {a : Bool} {x : NumCtx} {sg sg' : Option St} (h : Alike start start')
    (hsg : Option.Rel Alike sg sg') :
    PSim SameTok (numPrecisionDigits cfg start x a sg c) (numPrecisionDigits (wide cfg w hw) start' x a sg' c) := by
  unfold numPrecisionDigits
  pts
  · refine PSim.bindE handleDigits_sim ?_
    rintro ⟨k, c⟩
    simp only
    pts
    exact numPrecisionDot_sim h hsg
  · exact numPrecisionDot_sim h hsg

theorem numPrecisionSign_sim {a : Bool} {x : NumCtx} (h : Alike start start') :
    PSim SameTok (numPrecisionSign cfg start x a c) (numPrecisionSign (wide cfg w hw) start' x a c) := by
  unfold numPrecisionSign
  pts
  · rename_i m m' hm
    rw [hm.rest]
    cases m'.rest with
    | nil => pts
    | cons b r =>
      simp only
      pts
      exact numPrecisionDigits_sim h (.some hm)
  · exact numPrecisionDigits_sim h .none

theorem numPrecision_sim {x : NumCtx} {st st' : Option St} (h : Alike start start')
    (hst : Option.Rel Alike st st') :
    PSim SameTok (numPrecision cfg start st x c) (numPrecision (wide cfg w hw) start' st' x c) := by
  unfold numPrecision
  pts
  · exact numPrecisionSign_sim h
  · exact numPrecisionSign_sim h
  · exact numStar_sim h hst

theorem numAfterFraction_sim {x : NumCtx} {st st' : Option St} (h : Alike start start')
    (hst : Option.Rel Alike st st') :
    PSim SameTok (numAfterFraction cfg start st x c) (numAfterFraction (wide cfg w hw) start' st' x c) := by
  unfold numAfterFraction
  simp only
  pts
  · exact numPrecision_sim h (.some (by assumption))
  · exact numPrecision_sim h hst

theorem numFraction_sim {k : Nat} {x : NumCtx} {st st' : Option St} (h : Alike start start')
    (hm : Alike m m') (hst : Option.Rel Alike st st') :
    PSim SameTok (numFraction cfg start m k st x c) (numFraction (wide cfg w hw) start' m' k st' x c) := by
  unfold numFraction
  pts
  · refine PSim.bindE ?_ ?_
    · unfold possibleFraction; pts; exact fractionPastDot_sim hm
    rintro ⟨f, c, x⟩
    cases f with
    | bailout => simp only; pts
    | count j =>
      cases j with
      | zero => simp only; pts; exact numAfterFraction_sim h hst
      | succ j => exact numAfterFraction_sim h hst
  · exact numPrecision_sim h hst

theorem numBase_sim {x : NumCtx} {nz nz' : St} (h : Alike start start') (hz : Alike nz nz')
    (hm : Alike m m') : PSim SameTok (numBase cfg start nz m x) (numBase (wide cfg w hw) start' nz' m' x) := by
  unfold numBase
  have : between nz m = between nz' m' := by unfold between; rw [hz.rest, hm.rest]
  rw [this]
  pts
  · refine PSim.bindE handleAlphaOrDigits_sim ?_
    rintro ⟨k, c, b⟩
    simp only
    pts
    unfold numAfterBaseDigits
    pts
    · exact numFraction_sim h (by assumption) (.some (by assumption))
    · exact numFraction_sim h (by assumption) .none
  · exact numFraction_sim h (by assumption) .none

/-- Results that carry a mark. -/
def MarkRel (a b : Nat × St × WLC) : Prop := a.1 = b.1 ∧ Alike a.2.1 b.2.1 ∧ a.2.2 = b.2.2

theorem handleNumber_sim (h : Alike start start') :
    PSim SameTok (handleNumber cfg pol start c) (handleNumber (wide cfg w hw) pol start' c) := by
  unfold handleNumber
  pts
  · refine PSim.bind (ra := MarkRel) ?_ ?_
    · unfold numZeros
      pts
      · refine PSim.bindE handleZeros_sim fun _ => PSim.bind PSim.mark fun _ _ h => PSim.pure ⟨rfl, h, rfl⟩
      · exact PSim.pure ⟨rfl, h, rfl⟩
    rintro ⟨k, nz, c⟩ ⟨k', nz', c'⟩ ⟨h1, h2, h3⟩
    simp only at h1 h2 h3
    subst h1; subst h3
    refine PSim.bind (ra := MarkRel) ?_ ?_
    · unfold numDigits
      pts
      · refine PSim.bindE handleDigits_sim fun _ => PSim.bind PSim.mark fun _ _ h => PSim.pure ⟨rfl, h, rfl⟩
      · exact PSim.pure ⟨rfl, by assumption, rfl⟩
    rintro ⟨j, lead, c⟩ ⟨j', lead', c'⟩ ⟨h1, h4, h3⟩
    simp only at h1 h4 h3
    subst h1; subst h3
    simp only
    pts
    · exact numBase_sim h h2 (by assumption)
    · exact numFraction_sim h h4 (.some (by assumption))
    · exact numFraction_sim h h4 .none
  · exact numFraction_sim h h .none

theorem handleColon_sim (h : Alike start start') : PSim SameTok (handleColon cfg start c) (handleColon (wide cfg w hw) start' c) := by
  unfold handleColon; pts
theorem handleOpenParen_sim (h : Alike start start') : PSim SameTok (handleOpenParen cfg start c) (handleOpenParen (wide cfg w hw) start' c) := by
  unfold handleOpenParen; pts; exact handleComment_sim h
theorem handleDot_sim (h : Alike start start') : PSim SameTok (handleDot cfg pol start c) (handleDot (wide cfg w hw) pol start' c) := by
  unfold handleDot; pts; exact handleNumber_sim h
theorem handleEqual_sim (h : Alike start start') : PSim SameTok (handleEqual cfg start c) (handleEqual (wide cfg w hw) start' c) := by
  unfold handleEqual; pts
theorem handleUnder_sim (h : Alike start start') : PSim SameTok (handleUnder cfg start c) (handleUnder (wide cfg w hw) start' c) := by
  unfold handleUnder; pts
theorem handleLess_sim (h : Alike start start') : PSim SameTok (handleLess cfg start c) (handleLess (wide cfg w hw) start' c) := by
  unfold handleLess; pts
theorem handleGreater_sim (h : Alike start start') : PSim SameTok (handleGreater cfg start c) (handleGreater (wide cfg w hw) start' c) := by
  unfold handleGreater; pts
theorem handleMinus_sim (h : Alike start start') : PSim SameTok (handleMinus cfg start c) (handleMinus (wide cfg w hw) start' c) := by
  unfold handleMinus; pts
theorem handleBar_sim (h : Alike start start') : PSim SameTok (handleBar cfg start c) (handleBar (wide cfg w hw) start' c) := by
  unfold handleBar; pts
theorem handleDoubled_sim {x : Char} {a b : TK} (h : Alike start start') :
    PSim SameTok (handleDoubled cfg x a b start c) (handleDoubled (wide cfg w hw) x a b start' c) := by
  unfold handleDoubled; pts
theorem handleBang_sim (h : Alike start start') : PSim SameTok (handleBang cfg start c) (handleBang (wide cfg w hw) start' c) := by
  unfold handleBang; pts
theorem handlePercent_sim (h : Alike start start') : PSim SameTok (handlePercent cfg start c) (handlePercent (wide cfg w hw) start' c) := by
  unfold handlePercent; pts
theorem handleSlash_sim (h : Alike start start') : PSim SameTok (handleSlash cfg start c) (handleSlash (wide cfg w hw) start' c) := by
  unfold handleSlash; pts
theorem handleAt_sim (h : Alike start start') : PSim SameTok (handleAt cfg start c) (handleAt (wide cfg w hw) start' c) := by
  unfold handleAt; pts
theorem handlePlus_sim (h : Alike start start') : PSim SameTok (handlePlus cfg start c) (handlePlus (wide cfg w hw) start' c) := by
  unfold handlePlus; pts
theorem handleStar_sim (h : Alike start start') : PSim SameTok (handleStar cfg start c) (handleStar (wide cfg w hw) start' c) := by
  unfold handleStar; pts
theorem handleCaret_sim (h : Alike start start') : PSim SameTok (handleCaret cfg start c) (handleCaret (wide cfg w hw) start' c) := by
  unfold handleCaret; pts

theorem backslashName_sim (h : Alike m m') :
    PSim Eq (backslashName cfg m c) (backslashName (wide cfg w hw) m' c) := by
  unfold backslashName
  refine PSim.loop (fun a b => Alike a.1 b.1 ∧ a.2 = b.2) ?_ ⟨h, rfl⟩
  rintro ⟨a, c⟩ ⟨b, c'⟩ ⟨h1, h2⟩
  simp only at h1 h2
  subst h2
  pts
  exact PSim.pure (.inl ⟨by assumption, rfl⟩)

theorem backslashDigits_sim {p : CP → Bool} (k : Nat) : ∀ {m m' : St} {c : WLC}, Alike m m' →
    PSim Eq (backslashDigits cfg p k m c) (backslashDigits (wide cfg w hw) p k m' c) := by
  induction k with
  | zero => intro m m' c _; exact PSim.pure rfl
  | succ k ih =>
    intro m m' c h
    unfold backslashDigits
    pts
    exact ih (by assumption)

theorem handleBackslash_sim (h : Alike start start') : PSim SameTok (handleBackslash cfg start c) (handleBackslash (wide cfg w hw) start' c) := by
  unfold handleBackslash
  pts
  refine PSim.bindE ?_ fun _ => by pts
  unfold backslashScan
  pts
  all_goals first
    | exact backslashName_sim (by assumption)
    | exact backslashDigits_sim _ (by assumption)

theorem handlePunctuation_sim (h : Alike start start') : PSim SameTok (handlePunctuation start c) (handlePunctuation start' c) := by
  unfold handlePunctuation
  cases c.point with
  | char k =>
    simp only
    cases longNameCodePointToOperator k <;> (simp only; pts)
  | _ => simp only; pts

theorem handleLinearSyntax_sim (h : Alike start start') : PSim SameTok (handleLinearSyntax start c) (handleLinearSyntax start' c) := by
  unfold handleLinearSyntax; pts

theorem nextTokenOther_sim (h : Alike start start') : PSim SameTok (nextTokenOther cfg pol start c) (nextTokenOther (wide cfg w hw) pol start' c) := by
  unfold nextTokenOther
  pts
  · exact handleBlob_sim h
  · exact handleLinearSyntax_sim h
  · exact handlePunctuation_sim h
  · exact handleSymbol_sim h

theorem nextTokenUncommon_sim (h : Alike start start') : PSim SameTok (nextTokenUncommon cfg pol start c) (nextTokenUncommon (wide cfg w hw) pol start' c) := by
  unfold nextTokenUncommon
  pts
  all_goals first
    | with_reducible exact handleSymbol_sim h
    | with_reducible exact handleOpenParen_sim h
    | with_reducible exact handlePlus_sim h
    | with_reducible exact handleCaret_sim h
    | with_reducible exact handleEqual_sim h
    | with_reducible exact handleDoubled_sim h
    | with_reducible exact handleColon_sim h
    | with_reducible exact handleBang_sim h
    | with_reducible exact handlePercent_sim h
    | with_reducible exact handleStar_sim h
    | with_reducible exact handleDot_sim h
    | with_reducible exact handleSlash_sim h
    | with_reducible exact handleLess_sim h
    | with_reducible exact handleGreater_sim h
    | with_reducible exact handleAt_sim h
    | with_reducible exact handleBackslash_sim h
    | with_reducible exact handleUnder_sim h
    | with_reducible exact handleBar_sim h
    | with_reducible exact nextTokenOther_sim h

theorem dispatch_sim (h : Alike start start') : PSim SameTok (dispatch cfg pol start c) (dispatch (wide cfg w hw) pol start' c) := by
  unfold dispatch
  pts
  · exact handleString_sim h
  · exact handleSymbol_sim h
  · exact handleMinus_sim h
  · exact handleNumber_sim h
  · exact nextTokenUncommon_sim h

theorem nextToken_sim : PSim SameTok (nextToken cfg pol) (nextToken (wide cfg w hw) pol) := by
  unfold nextToken
  pts
  exact dispatch_sim (by assumption)

theorem fileBrackets_sim {c : CP} : PSim Eq (fileBrackets cfg c) (fileBrackets (wide cfg w hw) c) := by
  unfold fileBrackets; pts

theorem fileLoop_sim {c : CP} : PSim Eq (fileLoop cfg c) (fileLoop (wide cfg w hw) c) := by
  unfold fileLoop
  pts
  refine PSim.bindE fileBrackets_sim ?_
  rintro (_ | c) <;> (simp only; pts)

theorem stringifyAsFileRest_sim {c : CP} (h : Alike start start') :
    PSim SameTok (stringifyAsFileRest cfg start c) (stringifyAsFileRest (wide cfg w hw) start' c) := by
  unfold stringifyAsFileRest
  pts
  · refine PSim.bindE fileBrackets_sim ?_
    rintro (_ | c) <;> (simp only; pts)
  · refine PSim.bindE fileBrackets_sim ?_
    rintro (_ | c)
    · simp only; pts
    · simp only; exact PSim.bindE fileLoop_sim fun _ => by pts

theorem nextTokenFile_sim : PSim SameTok (nextTokenFile cfg) (nextTokenFile (wide cfg w hw)) := by
  unfold nextTokenFile
  pts
  · exact handleString_sim (by assumption)
  · exact stringifyAsFileRest_sim (by assumption)

theorem nextTokenTag_sim : PSim SameTok (nextTokenTag cfg) (nextTokenTag (wide cfg w hw)) := by
  unfold nextTokenTag
  pts
  · exact handleString_sim (by assumption)
  · unfold stringifyAsTagRest
    pts
    exact PSim.bindE symbolSegment_sim fun _ => by pts

end


section
variable {cfg : Cfg} {w : Nat} {hw : 0 < w} {pol : Pol} {g : Bool}

theorem peekTokenWith_sim : PSim SameTok (peekTokenWith cfg pol g) (peekTokenWith (wide cfg w hw) pol g) := by
  unfold peekTokenWith
  refine PSim.bind PSim.mark fun _ _ h => PSim.bind nextToken_sim fun _ _ ht => PSim.bindE (PSim.seek h) fun _ => PSim.pure ht

theorem peekToken_sim : PSim SameTok (peekToken cfg g) (peekToken (wide cfg w hw) g) := peekTokenWith_sim

theorem peekTokenTag_sim : PSim SameTok (peekTokenTag cfg) (peekTokenTag (wide cfg w hw)) := by
  unfold peekTokenTag
  refine PSim.bind PSim.mark fun _ _ h => PSim.bind nextTokenTag_sim fun _ _ ht => PSim.bindE (PSim.seek h) fun _ => PSim.pure ht

theorem peekTokenFile_sim : PSim SameTok (peekTokenFile cfg) (peekTokenFile (wide cfg w hw)) := by
  unfold peekTokenFile
  refine PSim.bind PSim.mark fun _ _ h => PSim.bind nextTokenFile_sim fun _ _ ht => PSim.bindE (PSim.seek h) fun _ => PSim.pure ht

theorem reset_sim {t t' : Tok} (h : SameTok t t') : PSim Eq t.reset t'.reset := by
  intro s s' hs
  refine ⟨rfl, ?_, hs.eof, hs.flag⟩
  show t.text ++ t.after = t'.text ++ t'.after
  rw [h.text, h.after]

theorem skip_sim {t t' : Tok} (h : SameTok t t') : PSim Eq t.skip t'.skip := by
  intro s s' hs
  refine ⟨rfl, h.after, ?_, hs.flag⟩
  show (t.kind == _) = (t'.kind == _)
  rw [h.kind]

theorem handleFirstLine_sim {f : FirstLine} :
    PSim Eq (handleFirstLine cfg f) (handleFirstLine (wide cfg w hw) f) := by
  have key : PSim Eq (handleFirstLine cfg .check) (handleFirstLine (wide cfg w hw) .check) := by
    unfold handleFirstLine
    refine PSim.bind peekToken_sim fun t t' h => ?_
    rw [h.kind]
    refine PSim.ite (fun _ => PSim.pure rfl) fun _ => PSim.bindE (skip_sim h) fun _ => ?_
    refine PSim.bind peekToken_sim fun t t' h => ?_
    rw [h.kind]
    refine PSim.ite (fun _ => PSim.pure rfl) fun _ => PSim.bindE (skip_sim h) fun _ => ?_
    refine PSim.loopE fun _ => PSim.bind peekToken_sim fun t t' h => ?_
    rw [h.kind]
    refine PSim.ite (fun _ => PSim.inr) fun _ => PSim.ite (fun _ => ?_) fun _ => ?_
    · exact PSim.bindE (skip_sim h) fun _ => PSim.inr
    · exact PSim.bindE (skip_sim h) fun _ => PSim.inl
  cases f with
  | notScript => exact PSim.pure rfl
  | check => exact key
  | script => exact key

theorem tokenLoop_sim : PSim (List.Forall₂ SameTok) (tokenLoop cfg) (tokenLoop (wide cfg w hw)) := by
  unfold tokenLoop
  refine PSim.loop (List.Forall₂ SameTok) (fun ts ts' hts => ?_) .nil
  refine PSim.bind peekToken_sim fun t t' h => ?_
  rw [h.kind]
  refine PSim.ite (fun _ => PSim.pure (.inr ?_)) fun _ => ?_
  · exact List.forall₂_reverse_iff.mpr hts
  · exact PSim.bindE (skip_sim h) fun _ => PSim.pure (.inl (.cons h hts))

theorem tokens_same {conv conv' : Conv} {f : FirstLine} {bs : List UInt8} :
    Same (List.Forall₂ SameTok) (tokens cfg conv f bs) (tokens (wide cfg w hw) conv' f bs) := by
  unfold tokens
  exact PSim.bindE handleFirstLine_sim (fun _ => tokenLoop_sim) _ _ ⟨rfl, rfl, rfl⟩
end

end CodeParser.Place
