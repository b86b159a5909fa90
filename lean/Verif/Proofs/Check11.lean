import Verif.Proofs.Check10
/-!
Helper lemmas: every computation of the reader and of the tokenizer obeys a relation that holds for the
steps.
-/
namespace CodeParser.Chk
open CodeParser.Spec (aboutEncoding recorded)

/-- One step of a proof that a computation obeys a law. -/
syntax "obey1" : tactic
/-- The session is the same. -/
syntax "obeyKin" : tactic
/-- Issues are looked for. -/
syntax "obeyCheck" : tactic
/-- Locations are tracked. -/
syntax "obeyOob" : tactic
set_option hygiene false in
macro_rules
  | `(tactic| obeyKin) => `(tactic| exact hk.to rfl rfl rfl)
  | `(tactic| obeyCheck) => `(tactic| first | assumption | (rw [← hk.check]; simp_all))
  | `(tactic| obeyOob) => `(tactic| first | assumption | (rw [← hk.oob]; simp_all))
/-- A proof that a computation obeys a law. -/
macro "obey" : tactic => `(tactic| repeat' obey1)

section
variable {E0 E : Env} {P : St → St → List Ev → Prop} {α : Type}

theorem src_o (L : Law E0 P) (hk : Kin E0 E) : Obeys P (src E) := fun _ _ _ _ h => L.src hk h

theorem issue_o (L : Law E0 P) {i : Report} (h : E0.check = true) (ht : ¬ aboutEncoding (.issue i)) : Obeys P (emit (.issue i)) := by
  intro s a t es hr
  cases hr
  exact L.issue h ht

theorem track_o (L : Law E0 P) {e : Ev} (h : E0.oob = true) (ht : recorded e ≠ none) : Obeys P (emit e) := by
  intro s a t es hr
  cases hr
  exact L.track h ht

theorem still_tok {k : TK} {start : St} : Still (CodeParser.tok k start) := by
  intro s a t h
  unfold CodeParser.tok at h
  rcases hs : Span.new start.loc s.loc with _ | sp <;> rw [hs] at h <;> cases h
  rfl
theorem still_errorTokAt {k : TK} {start : St} : Still (CodeParser.errorTokAt k start) := by
  intro s a t h
  cases h
  rfl
theorem still_assertB {b : Bool} : Still (CodeParser.assertB b) := by
  unfold CodeParser.assertB
  exact .ite .pure .panic
theorem still_assertAscii {s : St} {b : UInt8} : Still (CodeParser.assertAscii s b) := by
  unfold CodeParser.assertAscii
  split
  · exact .panic
  · exact still_assertB
theorem still_assertStart {s : St} {p : Nat → Bool} : Still (CodeParser.assertStart s p) := by
  unfold CodeParser.assertStart
  split
  · exact .ite .pure .panic
  · exact .panic
theorem still_byteAt {buf : List UInt8} {n : Nat} : Still (CodeParser.byteAt buf n) := by
  unfold CodeParser.byteAt
  split
  · exact .pure
  · exact .panic
theorem still_digitsValue {base : Nat} {buf : List UInt8} {n : Nat} : Still (CodeParser.digitsValue base buf n) := by
  induction n with
  | zero => exact .pure
  | succ n ih => exact .bind ih fun _ => .bind still_byteAt fun _ => .pure
theorem still_fromU32 {n : Nat} : Still (CodeParser.fromU32 n) := by
  unfold CodeParser.fromU32
  exact .ite .pure .panic
theorem still_punctuation {s : St} {c : WLC} : Still (CodeParser.handlePunctuation s c) := by
  unfold CodeParser.handlePunctuation
  repeat' split
  all_goals first
    | exact still_tok
    | exact .panic
theorem still_linear {s : St} {c : WLC} : Still (CodeParser.handleLinearSyntax s c) := by
  unfold CodeParser.handleLinearSyntax
  repeat' refine .ite still_tok ?_
  exact .panic
theorem skip_o (L : Law E0 P) {k : Tok} : Obeys P (M.lift k.skip) := by
  refine .lift L fun s a t h => ?_
  cases h
  rfl

set_option hygiene false in
macro_rules
  | `(tactic| obey1) => `(tactic| first
    | with_reducible refine Obeys.bind L ?_ (fun _ => ?_)
    | with_reducible exact Obeys.pure L
    | with_reducible refine Obeys.ite (fun _ => ?_) (fun _ => ?_)
    | with_reducible refine Obeys.when L (fun _ => ?_)
    | with_reducible refine Obeys.loop L (fun _ => ?_)
    | with_reducible exact Obeys.mark L
    | with_reducible exact Obeys.here L
    | with_reducible exact Obeys.seek L
    | with_reducible exact Obeys.goBack L
    | with_reducible exact Obeys.textFrom L
    | with_reducible exact Obeys.shown L
    | with_reducible exact Obeys.previous L
    | with_reducible exact Obeys.spanOf L
    | with_reducible exact Obeys.panic
    | with_reducible exact Obeys.fail
    | with_reducible exact skip_o L
    | exact Obeys.still L still_tok
    | exact Obeys.still L still_errorTokAt
    | exact Obeys.still L still_assertB
    | exact Obeys.still L still_assertAscii
    | exact Obeys.still L still_assertStart
    | exact Obeys.still L still_digitsValue
    | exact Obeys.still L still_fromU32
    | exact Obeys.still L still_punctuation
    | exact Obeys.still L still_linear
    | ((with_reducible apply src_o L); obeyKin)
    | ((with_reducible apply issue_o L) <;> [obeyCheck; (simp [aboutEncoding])])
    | ((with_reducible apply track_o L) <;> [obeyOob; (first | (split <;> simp [recorded]) | simp [recorded])])
    | split
    | dsimp only)

theorem safeAndGraphical_o (L : Law E0 P) {c : WLC} : Obeys P (safeAndGraphical c) := by
  unfold safeAndGraphical
  obey

set_option hygiene false in
macro_rules | `(tactic| obey1) => `(tactic| (with_reducible apply safeAndGraphical_o L))

theorem certainActions_o (L : Law E0 P) {c : WLC} {sp : Span} : Obeys P (certainActions c sp) := by
  unfold certainActions
  obey

set_option hygiene false in
macro_rules | `(tactic| obey1) => `(tactic| (with_reducible apply certainActions_o L))

theorem peekSrc_o (L : Law E0 P) (hk : Kin E0 E)  : Obeys P (peekSrc E) := by
  unfold peekSrc
  obey

set_option hygiene false in
macro_rules | `(tactic| obey1) => `(tactic| ((with_reducible apply peekSrc_o L); obeyKin))

theorem strangeSyntaxIssue_o (L : Law E0 P) (hk : Kin E0 E) (hc : E0.check = true) {c : WLC} {start : Loc} {conf : Nat} : Obeys P (strangeSyntaxIssue E c start conf) := by
  unfold strangeSyntaxIssue
  obey

set_option hygiene false in
macro_rules | `(tactic| obey1) => `(tactic| ((with_reducible apply strangeSyntaxIssue_o L) <;> [obeyKin; obeyCheck]))

theorem checkStrangeSyntax_o (L : Law E0 P) (hk : Kin E0 E) {c : WLC} {start : Loc} : Obeys P (checkStrangeSyntax E c start) := by
  unfold checkStrangeSyntax
  obey

set_option hygiene false in
macro_rules | `(tactic| obey1) => `(tactic| ((with_reducible apply checkStrangeSyntax_o L); obeyKin))

theorem unhandled_o (L : Law E0 P) (hc : E0.check = true) {escaped : St} {actions : Span → List Action} : Obeys P (unhandled escaped actions) := by
  unfold unhandled
  obey

set_option hygiene false in
macro_rules | `(tactic| obey1) => `(tactic| ((with_reducible apply unhandled_o L); obeyCheck))

theorem malformedDigits_o (L : Law E0 P) (hk : Kin E0 E) {escaped : St} {digits : St} {intro : List Char} : Obeys P (malformedDigits E escaped digits intro) := by
  unfold malformedDigits
  obey

set_option hygiene false in
macro_rules | `(tactic| obey1) => `(tactic| ((with_reducible apply malformedDigits_o L); obeyKin))

theorem digitRun_o (L : Law E0 P) (hk : Kin E0 E) {isDig : CP → Bool} {n : Nat} : Obeys P (digitRun E isDig n) := by
  induction n with
  | zero => exact Obeys.pure L
  | succ n ih =>
    unfold digitRun
    repeat' first
      | exact ih
      | obey1

set_option hygiene false in
macro_rules | `(tactic| obey1) => `(tactic| ((with_reducible apply digitRun_o L); obeyKin))

theorem handle4Hex_o (L : Law E0 P) (hk : Kin E0 E) {colon : St} : Obeys P (handle4Hex E colon) := by
  unfold handle4Hex
  obey

set_option hygiene false in
macro_rules | `(tactic| obey1) => `(tactic| ((with_reducible apply handle4Hex_o L); obeyKin))

theorem handle2Hex_o (L : Law E0 P) (hk : Kin E0 E) {dot : St} : Obeys P (handle2Hex E dot) := by
  unfold handle2Hex
  obey

set_option hygiene false in
macro_rules | `(tactic| obey1) => `(tactic| ((with_reducible apply handle2Hex_o L); obeyKin))

theorem handleOctal_o (L : Law E0 P) (hk : Kin E0 E) {firstOctal : St} : Obeys P (handleOctal E firstOctal) := by
  unfold handleOctal
  obey

set_option hygiene false in
macro_rules | `(tactic| obey1) => `(tactic| ((with_reducible apply handleOctal_o L); obeyKin))

theorem handle6Hex_o (L : Law E0 P) (hk : Kin E0 E) {bar : St} : Obeys P (handle6Hex E bar) := by
  unfold handle6Hex
  obey

set_option hygiene false in
macro_rules | `(tactic| obey1) => `(tactic| ((with_reducible apply handle6Hex_o L); obeyKin))

theorem longNameTail_o (L : Law E0 P) (hk : Kin E0 E)  : Obeys P (longNameTail E) := by
  unfold longNameTail
  obey

set_option hygiene false in
macro_rules | `(tactic| obey1) => `(tactic| ((with_reducible apply longNameTail_o L); obeyKin))

theorem longNameScan_o (L : Law E0 P) (hk : Kin E0 E) {c : CP} : Obeys P (longNameScan E c) := by
  unfold longNameScan
  obey

set_option hygiene false in
macro_rules | `(tactic| obey1) => `(tactic| ((with_reducible apply longNameScan_o L); obeyKin))

theorem malformedLongName_o (L : Law E0 P) (hk : Kin E0 E) {openSquare : St} {start : St} {c : CP} : Obeys P (malformedLongName E openSquare start c) := by
  unfold malformedLongName
  obey

set_option hygiene false in
macro_rules | `(tactic| obey1) => `(tactic| ((with_reducible apply malformedLongName_o L); obeyKin))

theorem unknownLongName_o (L : Law E0 P) (hk : Kin E0 E) {openSquare : St} {name : List UInt8} : Obeys P (unknownLongName E openSquare name) := by
  unfold unknownLongName
  obey

set_option hygiene false in
macro_rules | `(tactic| obey1) => `(tactic| ((with_reducible apply unknownLongName_o L); obeyKin))

theorem handleLongName_o (L : Law E0 P) (hk : Kin E0 E) {openSquare : St} : Obeys P (handleLongName E openSquare) := by
  unfold handleLongName
  obey

set_option hygiene false in
macro_rules | `(tactic| obey1) => `(tactic| ((with_reducible apply handleLongName_o L); obeyKin))

theorem skippedName_o (L : Law E0 P) (hk : Kin E0 E) {c : CP} : Obeys P (skippedName E c) := by
  unfold skippedName
  obey

set_option hygiene false in
macro_rules | `(tactic| obey1) => `(tactic| ((with_reducible apply skippedName_o L); obeyKin))

theorem lookForLongName_o (L : Law E0 P) (hk : Kin E0 E) {reset : St} : Obeys P (lookForLongName E reset) := by
  unfold lookForLongName
  obey

set_option hygiene false in
macro_rules | `(tactic| obey1) => `(tactic| ((with_reducible apply lookForLongName_o L); obeyKin))

theorem escapedBackslash_o (L : Law E0 P) (hk : Kin E0 E)  : Obeys P (escapedBackslash E) := by
  unfold escapedBackslash
  obey

set_option hygiene false in
macro_rules | `(tactic| obey1) => `(tactic| ((with_reducible apply escapedBackslash_o L); obeyKin))

theorem escapedName_o (L : Law E0 P) (hk : Kin E0 E)  : Obeys P (escapedName E) := by
  unfold escapedName
  obey

set_option hygiene false in
macro_rules | `(tactic| obey1) => `(tactic| ((with_reducible apply escapedName_o L); obeyKin))

theorem escapedUpper_o (L : Law E0 P) (hk : Kin E0 E) (hc : E0.check = true) {escaped : St} {c : CP} {first : Loc} {stop : Loc} : Obeys P (escapedUpper E escaped c first stop) := by
  unfold escapedUpper
  obey

set_option hygiene false in
macro_rules | `(tactic| obey1) => `(tactic| ((with_reducible apply escapedUpper_o L) <;> [obeyKin; obeyCheck]))

theorem unhandledIssue_o (L : Law E0 P) (hk : Kin E0 E) (hc : E0.check = true) {escaped : St} {c : CP} : Obeys P (unhandledIssue E escaped c) := by
  unfold unhandledIssue
  obey

set_option hygiene false in
macro_rules | `(tactic| obey1) => `(tactic| ((with_reducible apply unhandledIssue_o L) <;> [obeyKin; obeyCheck]))

theorem unhandledEscape_o (L : Law E0 P) (hk : Kin E0 E) {escaped : St} : Obeys P (unhandledEscape E escaped) := by
  unfold unhandledEscape
  obey

set_option hygiene false in
macro_rules | `(tactic| obey1) => `(tactic| ((with_reducible apply unhandledEscape_o L); obeyKin))

theorem simpleIssue_o (L : Law E0 P) (hk : Kin E0 E) {escaped : St} {p : CP} : Obeys P (simpleIssue E escaped p) := by
  unfold simpleIssue
  obey

set_option hygiene false in
macro_rules | `(tactic| obey1) => `(tactic| ((with_reducible apply simpleIssue_o L); obeyKin))

theorem nextEscape_o (L : Law E0 P) (hk : Kin E0 E) {escaped : St} : Obeys P (nextEscape E escaped) := by
  unfold nextEscape
  obey

set_option hygiene false in
macro_rules | `(tactic| obey1) => `(tactic| ((with_reducible apply nextEscape_o L); obeyKin))

theorem nextWL_o (L : Law E0 P) (hk : Kin E0 E)  : Obeys P (nextWL E) := by
  unfold nextWL
  obey

set_option hygiene false in
macro_rules | `(tactic| obey1) => `(tactic| ((with_reducible apply nextWL_o L); obeyKin))

theorem peekWL_o (L : Law E0 P) (hk : Kin E0 E)  : Obeys P (peekWL E) := by
  unfold peekWL
  obey

set_option hygiene false in
macro_rules | `(tactic| obey1) => `(tactic| ((with_reducible apply peekWL_o L); obeyKin))

theorem skipWhite_o (L : Law E0 P) (hk : Kin E0 E) {c : WLC} : Obeys P (skipWhite E c) := by
  unfold skipWhite
  obey

set_option hygiene false in
macro_rules | `(tactic| obey1) => `(tactic| ((with_reducible apply skipWhite_o L); obeyKin))

theorem nextC_o (L : Law E0 P) (hk : Kin E0 E)  : Obeys P (nextC E) := by
  unfold nextC
  obey

set_option hygiene false in
macro_rules | `(tactic| obey1) => `(tactic| ((with_reducible apply nextC_o L); obeyKin))

theorem curC_o (L : Law E0 P) (hk : Kin E0 E)  : Obeys P (curC E) := by
  unfold curC
  obey

set_option hygiene false in
macro_rules | `(tactic| obey1) => `(tactic| ((with_reducible apply curC_o L); obeyKin))

theorem spanFrom_o (L : Law E0 P) {start : Loc} : Obeys P (spanFrom start) := by
  unfold spanFrom
  obey

set_option hygiene false in
macro_rules | `(tactic| obey1) => `(tactic| (with_reducible apply spanFrom_o L))

theorem slotIssue_o (L : Law E0 P) (hc : E0.check = true) {start : Loc} : Obeys P (slotIssue start) := by
  unfold slotIssue
  obey

set_option hygiene false in
macro_rules | `(tactic| obey1) => `(tactic| ((with_reducible apply slotIssue_o L); obeyCheck))

theorem shownFor_o (L : Law E0 P) {tag : Tag} {c : WLC} : Obeys P (shownFor tag c) := by
  unfold shownFor
  obey

set_option hygiene false in
macro_rules | `(tactic| obey1) => `(tactic| (with_reducible apply shownFor_o L))

theorem unexpectedChar_o (L : Law E0 P) (hc : E0.check = true) {start : Loc} {c : WLC} {tag : Tag} {conf : Nat}
    (ht : tag ≠ .incompleteUTF8Sequence ∧ tag ≠ .straySurrogate ∧ tag ≠ .bom) : Obeys P (unexpectedChar start c tag conf) := by
  have hi : ∀ sp as, ¬ aboutEncoding (.issue ⟨.syn, tag, .warning, sp, conf, as⟩) := by
    intro sp as h
    simp_all [aboutEncoding]
  unfold unexpectedChar
  repeat' first
    | exact issue_o L hc (hi _ _)
    | obey1

set_option hygiene false in
macro_rules | `(tactic| obey1) => `(tactic| ((with_reducible apply unexpectedChar_o L) <;> [obeyCheck; decide]))

theorem letterIssue_o (L : Law E0 P) (hk : Kin E0 E) {pol : Pol} {charLoc : Loc} {c : WLC} {plain : Bool} : Obeys P (letterIssue E pol charLoc c plain) := by
  unfold letterIssue
  obey

set_option hygiene false in
macro_rules | `(tactic| obey1) => `(tactic| ((with_reducible apply letterIssue_o L); obeyKin))

theorem embedded_o (L : Law E0 P) (hk : Kin E0 E) {p : CP} : Obeys P (embedded E p) := by
  unfold embedded
  obey

set_option hygiene false in
macro_rules | `(tactic| obey1) => `(tactic| ((with_reducible apply embedded_o L); obeyKin))

theorem backupAndWarn_o (L : Law E0 P) (hk : Kin E0 E) {reset : St} : Obeys P (backupAndWarn E reset) := by
  unfold backupAndWarn
  obey

set_option hygiene false in
macro_rules | `(tactic| obey1) => `(tactic| ((with_reducible apply backupAndWarn_o L); obeyKin))

theorem ambiguousHere_o (L : Law E0 P) (hc : E0.check = true)  : Obeys P (ambiguousHere ) := by
  unfold ambiguousHere
  obey

set_option hygiene false in
macro_rules | `(tactic| obey1) => `(tactic| ((with_reducible apply ambiguousHere_o L); obeyCheck))

theorem equalIssue_o (L : Law E0 P) (hk : Kin E0 E) (hc : E0.check = true)  : Obeys P (equalIssue E) := by
  unfold equalIssue
  obey

set_option hygiene false in
macro_rules | `(tactic| obey1) => `(tactic| ((with_reducible apply equalIssue_o L) <;> [obeyKin; obeyCheck]))

theorem underDotIssue_o (L : Law E0 P) (hk : Kin E0 E) (hc : E0.check = true)  : Obeys P (underDotIssue E) := by
  unfold underDotIssue
  obey

set_option hygiene false in
macro_rules | `(tactic| obey1) => `(tactic| ((with_reducible apply underDotIssue_o L) <;> [obeyKin; obeyCheck]))

theorem minusMinusIssue_o (L : Law E0 P) (hk : Kin E0 E) (hc : E0.check = true) {start : St} : Obeys P (minusMinusIssue E start) := by
  unfold minusMinusIssue
  obey

set_option hygiene false in
macro_rules | `(tactic| obey1) => `(tactic| ((with_reducible apply minusMinusIssue_o L) <;> [obeyKin; obeyCheck]))

theorem tokNext_o (L : Law E0 P) (hk : Kin E0 E) {k : TK} {start : St} : Obeys P (tokNext E k start) := by
  unfold tokNext
  obey

set_option hygiene false in
macro_rules | `(tactic| obey1) => `(tactic| ((with_reducible apply tokNext_o L); obeyKin))

theorem handleComment_o (L : Law E0 P) (hk : Kin E0 E) {start : St} {c : CP} : Obeys P (handleComment E start c) := by
  unfold handleComment
  obey

set_option hygiene false in
macro_rules | `(tactic| obey1) => `(tactic| ((with_reducible apply handleComment_o L); obeyKin))

theorem handleBlob_o (L : Law E0 P) (hk : Kin E0 E) {start : St} {c : WLC} : Obeys P (handleBlob E start c) := by
  unfold handleBlob
  obey

set_option hygiene false in
macro_rules | `(tactic| obey1) => `(tactic| ((with_reducible apply handleBlob_o L); obeyKin))

theorem letterRead_o (L : Law E0 P) (hk : Kin E0 E) {pol : Pol} {c : WLC} {plain : Bool} : Obeys P (letterRead E pol c plain) := by
  unfold letterRead
  obey

set_option hygiene false in
macro_rules | `(tactic| obey1) => `(tactic| ((with_reducible apply letterRead_o L); obeyKin))

theorem symbolSegment_o (L : Law E0 P) (hk : Kin E0 E) {pol : Pol} {c : WLC} : Obeys P (symbolSegment E pol c) := by
  unfold symbolSegment
  obey

set_option hygiene false in
macro_rules | `(tactic| obey1) => `(tactic| ((with_reducible apply symbolSegment_o L); obeyKin))

theorem symbolFirst_o (L : Law E0 P) (hk : Kin E0 E) {pol : Pol} {start : St} {c : WLC} : Obeys P (symbolFirst E pol start c) := by
  unfold symbolFirst
  obey

set_option hygiene false in
macro_rules | `(tactic| obey1) => `(tactic| ((with_reducible apply symbolFirst_o L); obeyKin))

theorem handleSymbol_o (L : Law E0 P) (hk : Kin E0 E) {pol : Pol} {start : St} {c : WLC} : Obeys P (handleSymbol E pol start c) := by
  unfold handleSymbol
  obey

set_option hygiene false in
macro_rules | `(tactic| obey1) => `(tactic| ((with_reducible apply handleSymbol_o L); obeyKin))

theorem handleString_o (L : Law E0 P) (hk : Kin E0 E) {pol : Pol} {start : St} {c : WLC} : Obeys P (handleString E pol start c) := by
  unfold handleString
  obey

set_option hygiene false in
macro_rules | `(tactic| obey1) => `(tactic| ((with_reducible apply handleString_o L); obeyKin))

theorem stringifyAsTagRest_o (L : Law E0 P) (hk : Kin E0 E) {start : St} {c : WLC} : Obeys P (stringifyAsTagRest E start c) := by
  unfold stringifyAsTagRest
  obey

set_option hygiene false in
macro_rules | `(tactic| obey1) => `(tactic| ((with_reducible apply stringifyAsTagRest_o L); obeyKin))

theorem nextTokenTagAt_o (L : Law E0 P) (hk : Kin E0 E) {start : St} : Obeys P (nextTokenTagAt E start) := by
  unfold nextTokenTagAt
  obey

set_option hygiene false in
macro_rules | `(tactic| obey1) => `(tactic| ((with_reducible apply nextTokenTagAt_o L); obeyKin))

theorem nextTokenTag_o (L : Law E0 P) (hk : Kin E0 E)  : Obeys P (nextTokenTag E) := by
  unfold nextTokenTag
  obey

set_option hygiene false in
macro_rules | `(tactic| obey1) => `(tactic| ((with_reducible apply nextTokenTag_o L); obeyKin))

theorem fileBrackets_o (L : Law E0 P) (hk : Kin E0 E) {c : CP} : Obeys P (fileBrackets E c) := by
  unfold fileBrackets
  obey

set_option hygiene false in
macro_rules | `(tactic| obey1) => `(tactic| ((with_reducible apply fileBrackets_o L); obeyKin))

theorem fileLoop_o (L : Law E0 P) (hk : Kin E0 E) {c : CP} : Obeys P (fileLoop E c) := by
  unfold fileLoop
  obey

set_option hygiene false in
macro_rules | `(tactic| obey1) => `(tactic| ((with_reducible apply fileLoop_o L); obeyKin))

theorem stringifyAsFileRest_o (L : Law E0 P) (hk : Kin E0 E) {start : St} {c : CP} : Obeys P (stringifyAsFileRest E start c) := by
  unfold stringifyAsFileRest
  obey

set_option hygiene false in
macro_rules | `(tactic| obey1) => `(tactic| ((with_reducible apply stringifyAsFileRest_o L); obeyKin))

theorem nextTokenFileAt_o (L : Law E0 P) (hk : Kin E0 E) {start : St} : Obeys P (nextTokenFileAt E start) := by
  unfold nextTokenFileAt
  obey

set_option hygiene false in
macro_rules | `(tactic| obey1) => `(tactic| ((with_reducible apply nextTokenFileAt_o L); obeyKin))

theorem nextTokenFile_o (L : Law E0 P) (hk : Kin E0 E)  : Obeys P (nextTokenFile E) := by
  unfold nextTokenFile
  obey

set_option hygiene false in
macro_rules | `(tactic| obey1) => `(tactic| ((with_reducible apply nextTokenFile_o L); obeyKin))

theorem handleZeros_o (L : Law E0 P) (hk : Kin E0 E) {c : WLC} : Obeys P (handleZeros E c) := by
  unfold handleZeros
  obey

set_option hygiene false in
macro_rules | `(tactic| obey1) => `(tactic| ((with_reducible apply handleZeros_o L); obeyKin))

theorem handleDigits_o (L : Law E0 P) (hk : Kin E0 E) {c : WLC} : Obeys P (handleDigits E c) := by
  unfold handleDigits
  obey

set_option hygiene false in
macro_rules | `(tactic| obey1) => `(tactic| ((with_reducible apply handleDigits_o L); obeyKin))

theorem handleAlphaOrDigits_o (L : Law E0 P) (hk : Kin E0 E) {c : WLC} {base : Nat} : Obeys P (handleAlphaOrDigits E c base) := by
  unfold handleAlphaOrDigits
  obey

set_option hygiene false in
macro_rules | `(tactic| obey1) => `(tactic| ((with_reducible apply handleAlphaOrDigits_o L); obeyKin))

theorem fractionPastDot_o (L : Law E0 P) (hk : Kin E0 E) {dot : St} {c : WLC} {base : Nat} {x : NumCtx} : Obeys P (fractionPastDot E dot c base x) := by
  unfold fractionPastDot
  obey

set_option hygiene false in
macro_rules | `(tactic| obey1) => `(tactic| ((with_reducible apply fractionPastDot_o L); obeyKin))

theorem possibleFraction_o (L : Law E0 P) (hk : Kin E0 E) {dot : St} {c : WLC} {x : NumCtx} : Obeys P (possibleFraction E dot c x) := by
  unfold possibleFraction
  obey

set_option hygiene false in
macro_rules | `(tactic| obey1) => `(tactic| ((with_reducible apply possibleFraction_o L); obeyKin))

theorem numExponentEnd_o (L : Law E0 P) (hk : Kin E0 E) {start : St} {x : NumCtx} {c : WLC} : Obeys P (numExponentEnd E start x c) := by
  unfold numExponentEnd
  obey

set_option hygiene false in
macro_rules | `(tactic| obey1) => `(tactic| ((with_reducible apply numExponentEnd_o L); obeyKin))

theorem expZeros_o (L : Law E0 P) (hk : Kin E0 E) {c : WLC} : Obeys P (expZeros E c) := by
  unfold expZeros
  obey

set_option hygiene false in
macro_rules | `(tactic| obey1) => `(tactic| ((with_reducible apply expZeros_o L); obeyKin))

theorem expDigits_o (L : Law E0 P) (hk : Kin E0 E) {x : NumCtx} {c : WLC} : Obeys P (expDigits E x c) := by
  unfold expDigits
  obey

set_option hygiene false in
macro_rules | `(tactic| obey1) => `(tactic| ((with_reducible apply expDigits_o L); obeyKin))

theorem expSign_o (L : Law E0 P) (hk : Kin E0 E) {x : NumCtx} {c : WLC} : Obeys P (expSign E x c) := by
  unfold expSign
  obey

set_option hygiene false in
macro_rules | `(tactic| obey1) => `(tactic| ((with_reducible apply expSign_o L); obeyKin))

theorem numStar_o (L : Law E0 P) (hk : Kin E0 E) {start : St} {star : Option St} {x : NumCtx} {c : WLC} : Obeys P (numStar E start star x c) := by
  unfold numStar
  obey

set_option hygiene false in
macro_rules | `(tactic| obey1) => `(tactic| ((with_reducible apply numStar_o L); obeyKin))

theorem numPrecisionEnd_o (L : Law E0 P) (hk : Kin E0 E) {start : St} {x : NumCtx} {accuracy : Bool} {supplied : Bool} {c : WLC} : Obeys P (numPrecisionEnd E start x accuracy supplied c) := by
  unfold numPrecisionEnd
  obey

set_option hygiene false in
macro_rules | `(tactic| obey1) => `(tactic| ((with_reducible apply numPrecisionEnd_o L); obeyKin))

theorem numPrecisionFraction_o (L : Law E0 P) (hk : Kin E0 E) {start : St} {x : NumCtx} {accuracy : Bool} {sign : Option St} {supplied : Bool} {dot : St} {c : WLC} : Obeys P (numPrecisionFraction E start x accuracy sign supplied dot c) := by
  unfold numPrecisionFraction
  obey

set_option hygiene false in
macro_rules | `(tactic| obey1) => `(tactic| ((with_reducible apply numPrecisionFraction_o L); obeyKin))

theorem numPrecisionDot_o (L : Law E0 P) (hk : Kin E0 E) {start : St} {x : NumCtx} {accuracy : Bool} {sign : Option St} {supplied : Bool} {c : WLC} : Obeys P (numPrecisionDot E start x accuracy sign supplied c) := by
  unfold numPrecisionDot
  obey

set_option hygiene false in
macro_rules | `(tactic| obey1) => `(tactic| ((with_reducible apply numPrecisionDot_o L); obeyKin))

theorem numPrecisionDigits_o (L : Law E0 P) (hk : Kin E0 E) {start : St} {x : NumCtx} {accuracy : Bool} {sign : Option St} {c : WLC} : Obeys P (numPrecisionDigits E start x accuracy sign c) := by
  unfold numPrecisionDigits
  obey

set_option hygiene false in
macro_rules | `(tactic| obey1) => `(tactic| ((with_reducible apply numPrecisionDigits_o L); obeyKin))

theorem signIssue_o (L : Law E0 P) (hc : E0.check = true) {sign : St} {b : UInt8} : Obeys P (signIssue sign b) := by
  unfold signIssue
  obey

set_option hygiene false in
macro_rules | `(tactic| obey1) => `(tactic| ((with_reducible apply signIssue_o L); obeyCheck))

theorem numPrecisionSign_o (L : Law E0 P) (hk : Kin E0 E) {start : St} {x : NumCtx} {accuracy : Bool} {c : WLC} : Obeys P (numPrecisionSign E start x accuracy c) := by
  unfold numPrecisionSign
  obey

set_option hygiene false in
macro_rules | `(tactic| obey1) => `(tactic| ((with_reducible apply numPrecisionSign_o L); obeyKin))

theorem numPrecision_o (L : Law E0 P) (hk : Kin E0 E) {start : St} {star : Option St} {x : NumCtx} {c : WLC} : Obeys P (numPrecision E start star x c) := by
  unfold numPrecision
  obey

set_option hygiene false in
macro_rules | `(tactic| obey1) => `(tactic| ((with_reducible apply numPrecision_o L); obeyKin))

theorem numAfterFraction_o (L : Law E0 P) (hk : Kin E0 E) {start : St} {star : Option St} {x : NumCtx} {c : WLC} : Obeys P (numAfterFraction E start star x c) := by
  unfold numAfterFraction
  obey

set_option hygiene false in
macro_rules | `(tactic| obey1) => `(tactic| ((with_reducible apply numAfterFraction_o L); obeyKin))

theorem numFraction_o (L : Law E0 P) (hk : Kin E0 E) {start : St} {lead : St} {leadCount : Nat} {star : Option St} {x : NumCtx} {c : WLC} : Obeys P (numFraction E start lead leadCount star x c) := by
  unfold numFraction
  obey

set_option hygiene false in
macro_rules | `(tactic| obey1) => `(tactic| ((with_reducible apply numFraction_o L); obeyKin))

theorem numAfterBaseDigits_o (L : Law E0 P) (hk : Kin E0 E) {start : St} {lead : St} {n : Nat} {x : NumCtx} {c : WLC} : Obeys P (numAfterBaseDigits E start lead n x c) := by
  unfold numAfterBaseDigits
  obey

set_option hygiene false in
macro_rules | `(tactic| obey1) => `(tactic| ((with_reducible apply numAfterBaseDigits_o L); obeyKin))

theorem numBase_o (L : Law E0 P) (hk : Kin E0 E) {start : St} {nz : St} {caret : St} {x : NumCtx} : Obeys P (numBase E start nz caret x) := by
  unfold numBase
  obey

set_option hygiene false in
macro_rules | `(tactic| obey1) => `(tactic| ((with_reducible apply numBase_o L); obeyKin))

theorem numZeros_o (L : Law E0 P) (hk : Kin E0 E) {start : St} {c : WLC} : Obeys P (numZeros E start c) := by
  unfold numZeros
  obey

set_option hygiene false in
macro_rules | `(tactic| obey1) => `(tactic| ((with_reducible apply numZeros_o L); obeyKin))

theorem numDigits_o (L : Law E0 P) (hk : Kin E0 E) {c : WLC} : Obeys P (numDigits E c) := by
  unfold numDigits
  obey

set_option hygiene false in
macro_rules | `(tactic| obey1) => `(tactic| ((with_reducible apply numDigits_o L); obeyKin))

theorem handleNumber_o (L : Law E0 P) (hk : Kin E0 E) {pol : Pol} {start : St} {c : WLC} : Obeys P (handleNumber E pol start c) := by
  unfold handleNumber
  obey

set_option hygiene false in
macro_rules | `(tactic| obey1) => `(tactic| ((with_reducible apply handleNumber_o L); obeyKin))

theorem handleColon_o (L : Law E0 P) (hk : Kin E0 E) {start : St} {c : WLC} : Obeys P (handleColon E start c) := by
  unfold handleColon
  obey

set_option hygiene false in
macro_rules | `(tactic| obey1) => `(tactic| ((with_reducible apply handleColon_o L); obeyKin))

theorem handleOpenParen_o (L : Law E0 P) (hk : Kin E0 E) {start : St} {c : WLC} : Obeys P (handleOpenParen E start c) := by
  unfold handleOpenParen
  obey

set_option hygiene false in
macro_rules | `(tactic| obey1) => `(tactic| ((with_reducible apply handleOpenParen_o L); obeyKin))

theorem handleDot_o (L : Law E0 P) (hk : Kin E0 E) {pol : Pol} {start : St} {first : WLC} : Obeys P (handleDot E pol start first) := by
  unfold handleDot
  obey

set_option hygiene false in
macro_rules | `(tactic| obey1) => `(tactic| ((with_reducible apply handleDot_o L); obeyKin))

theorem handleEqual_o (L : Law E0 P) (hk : Kin E0 E) {start : St} {c : WLC} : Obeys P (handleEqual E start c) := by
  unfold handleEqual
  obey

set_option hygiene false in
macro_rules | `(tactic| obey1) => `(tactic| ((with_reducible apply handleEqual_o L); obeyKin))

theorem handleUnder_o (L : Law E0 P) (hk : Kin E0 E) {start : St} {c : WLC} : Obeys P (handleUnder E start c) := by
  unfold handleUnder
  obey

set_option hygiene false in
macro_rules | `(tactic| obey1) => `(tactic| ((with_reducible apply handleUnder_o L); obeyKin))

theorem handleLess_o (L : Law E0 P) (hk : Kin E0 E) {start : St} {c : WLC} : Obeys P (handleLess E start c) := by
  unfold handleLess
  obey

set_option hygiene false in
macro_rules | `(tactic| obey1) => `(tactic| ((with_reducible apply handleLess_o L); obeyKin))

theorem handleGreater_o (L : Law E0 P) (hk : Kin E0 E) {start : St} {c : WLC} : Obeys P (handleGreater E start c) := by
  unfold handleGreater
  obey

set_option hygiene false in
macro_rules | `(tactic| obey1) => `(tactic| ((with_reducible apply handleGreater_o L); obeyKin))

theorem handleMinus_o (L : Law E0 P) (hk : Kin E0 E) {start : St} {c : WLC} : Obeys P (handleMinus E start c) := by
  unfold handleMinus
  obey

set_option hygiene false in
macro_rules | `(tactic| obey1) => `(tactic| ((with_reducible apply handleMinus_o L); obeyKin))

theorem handleBar_o (L : Law E0 P) (hk : Kin E0 E) {start : St} {c : WLC} : Obeys P (handleBar E start c) := by
  unfold handleBar
  obey

set_option hygiene false in
macro_rules | `(tactic| obey1) => `(tactic| ((with_reducible apply handleBar_o L); obeyKin))

theorem handleDoubled_o (L : Law E0 P) (hk : Kin E0 E) {x : Char} {single : TK} {double : TK} {start : St} {c : WLC} : Obeys P (handleDoubled E x single double start c) := by
  unfold handleDoubled
  obey

set_option hygiene false in
macro_rules | `(tactic| obey1) => `(tactic| ((with_reducible apply handleDoubled_o L); obeyKin))

theorem handleBang_o (L : Law E0 P) (hk : Kin E0 E) {start : St} {c : WLC} : Obeys P (handleBang E start c) := by
  unfold handleBang
  obey

set_option hygiene false in
macro_rules | `(tactic| obey1) => `(tactic| ((with_reducible apply handleBang_o L); obeyKin))

theorem handlePercent_o (L : Law E0 P) (hk : Kin E0 E) {start : St} {c : WLC} : Obeys P (handlePercent E start c) := by
  unfold handlePercent
  obey

set_option hygiene false in
macro_rules | `(tactic| obey1) => `(tactic| ((with_reducible apply handlePercent_o L); obeyKin))

theorem handleSlash_o (L : Law E0 P) (hk : Kin E0 E) {start : St} {c : WLC} : Obeys P (handleSlash E start c) := by
  unfold handleSlash
  obey

set_option hygiene false in
macro_rules | `(tactic| obey1) => `(tactic| ((with_reducible apply handleSlash_o L); obeyKin))

theorem handleAt_o (L : Law E0 P) (hk : Kin E0 E) {start : St} {c : WLC} : Obeys P (handleAt E start c) := by
  unfold handleAt
  obey

set_option hygiene false in
macro_rules | `(tactic| obey1) => `(tactic| ((with_reducible apply handleAt_o L); obeyKin))

theorem handlePlus_o (L : Law E0 P) (hk : Kin E0 E) {start : St} {c : WLC} : Obeys P (handlePlus E start c) := by
  unfold handlePlus
  obey

set_option hygiene false in
macro_rules | `(tactic| obey1) => `(tactic| ((with_reducible apply handlePlus_o L); obeyKin))

theorem handleStar_o (L : Law E0 P) (hk : Kin E0 E) {start : St} {c : WLC} : Obeys P (handleStar E start c) := by
  unfold handleStar
  obey

set_option hygiene false in
macro_rules | `(tactic| obey1) => `(tactic| ((with_reducible apply handleStar_o L); obeyKin))

theorem handleCaret_o (L : Law E0 P) (hk : Kin E0 E) {start : St} {c : WLC} : Obeys P (handleCaret E start c) := by
  unfold handleCaret
  obey

set_option hygiene false in
macro_rules | `(tactic| obey1) => `(tactic| ((with_reducible apply handleCaret_o L); obeyKin))

theorem backslashName_o (L : Law E0 P) (hk : Kin E0 E) {reset : St} {c : WLC} : Obeys P (backslashName E reset c) := by
  unfold backslashName
  obey

set_option hygiene false in
macro_rules | `(tactic| obey1) => `(tactic| ((with_reducible apply backslashName_o L); obeyKin))

theorem backslashDigits_o (L : Law E0 P) (hk : Kin E0 E) {isDig : CP → Bool} {n : Nat} :
    ∀ {reset : St} {c : WLC}, Obeys P (backslashDigits E isDig n reset c) := by
  induction n with
  | zero => exact Obeys.pure L
  | succ n ih =>
    intro reset c
    unfold backslashDigits
    repeat' first
      | exact ih
      | obey1

set_option hygiene false in
macro_rules | `(tactic| obey1) => `(tactic| ((with_reducible apply backslashDigits_o L); obeyKin))

theorem backslashScan_o (L : Law E0 P) (hk : Kin E0 E)  : Obeys P (backslashScan E) := by
  unfold backslashScan
  obey

set_option hygiene false in
macro_rules | `(tactic| obey1) => `(tactic| ((with_reducible apply backslashScan_o L); obeyKin))

theorem handleBackslash_o (L : Law E0 P) (hk : Kin E0 E) {start : St} {c : WLC} : Obeys P (handleBackslash E start c) := by
  unfold handleBackslash
  obey

set_option hygiene false in
macro_rules | `(tactic| obey1) => `(tactic| ((with_reducible apply handleBackslash_o L); obeyKin))

theorem nextTokenOther_o (L : Law E0 P) (hk : Kin E0 E) {pol : Pol} {start : St} {c : WLC} : Obeys P (nextTokenOther E pol start c) := by
  unfold nextTokenOther
  obey

set_option hygiene false in
macro_rules | `(tactic| obey1) => `(tactic| ((with_reducible apply nextTokenOther_o L); obeyKin))

theorem nextTokenUncommon_o (L : Law E0 P) (hk : Kin E0 E) {pol : Pol} {start : St} {c : WLC} : Obeys P (nextTokenUncommon E pol start c) := by
  unfold nextTokenUncommon
  obey

set_option hygiene false in
macro_rules | `(tactic| obey1) => `(tactic| ((with_reducible apply nextTokenUncommon_o L); obeyKin))

theorem dispatch_o (L : Law E0 P) (hk : Kin E0 E) {pol : Pol} {start : St} {c : WLC} : Obeys P (dispatch E pol start c) := by
  unfold dispatch
  obey

set_option hygiene false in
macro_rules | `(tactic| obey1) => `(tactic| ((with_reducible apply dispatch_o L); obeyKin))

theorem nextTokenAt_o (L : Law E0 P) (hk : Kin E0 E) {pol : Pol} {start : St} : Obeys P (nextTokenAt E pol start) := by
  unfold nextTokenAt
  obey

set_option hygiene false in
macro_rules | `(tactic| obey1) => `(tactic| ((with_reducible apply nextTokenAt_o L); obeyKin))

theorem nextToken_o (L : Law E0 P) (hk : Kin E0 E) {pol : Pol} : Obeys P (nextToken E pol) := by
  unfold nextToken
  obey

set_option hygiene false in
macro_rules | `(tactic| obey1) => `(tactic| ((with_reducible apply nextToken_o L); obeyKin))

theorem peekTokenWith_o (L : Law E0 P) (hk : Kin E0 E) {pol : Pol} {insideGroup : Bool} : Obeys P (peekTokenWith E pol insideGroup) := by
  unfold peekTokenWith
  obey

set_option hygiene false in
macro_rules | `(tactic| obey1) => `(tactic| ((with_reducible apply peekTokenWith_o L); obeyKin))

theorem peekToken_o (L : Law E0 P) (hk : Kin E0 E) {insideGroup : Bool} : Obeys P (peekToken E insideGroup) := by
  unfold peekToken
  obey

set_option hygiene false in
macro_rules | `(tactic| obey1) => `(tactic| ((with_reducible apply peekToken_o L); obeyKin))

theorem peekTokenTag_o (L : Law E0 P) (hk : Kin E0 E)  : Obeys P (peekTokenTag E) := by
  unfold peekTokenTag
  obey

set_option hygiene false in
macro_rules | `(tactic| obey1) => `(tactic| ((with_reducible apply peekTokenTag_o L); obeyKin))

theorem peekTokenFile_o (L : Law E0 P) (hk : Kin E0 E)  : Obeys P (peekTokenFile E) := by
  unfold peekTokenFile
  obey

set_option hygiene false in
macro_rules | `(tactic| obey1) => `(tactic| ((with_reducible apply peekTokenFile_o L); obeyKin))

theorem handleFirstLine_o (L : Law E0 P) (hk : Kin E0 E) {first : FirstLine} : Obeys P (handleFirstLine E first) := by
  cases first <;> unfold handleFirstLine <;> obey

set_option hygiene false in
macro_rules | `(tactic| obey1) => `(tactic| ((with_reducible apply handleFirstLine_o L); obeyKin))

theorem tokenLoop_o (L : Law E0 P) (hk : Kin E0 E)  : Obeys P (tokenLoop E) := by
  unfold tokenLoop
  obey

set_option hygiene false in
macro_rules | `(tactic| obey1) => `(tactic| ((with_reducible apply tokenLoop_o L); obeyKin))

theorem tokens_o (L : Law E0 P) {conv : Conv} {first : FirstLine} {bs : List UInt8} {ts : List Tok} {t : St} {es : List Ev}
    (h : tokens E0 conv first bs = .ok (ts, t, es)) : P (St.init conv bs) t es := by
  have hk := Kin.refl E0
  have : Obeys P (do handleFirstLine E0 first; tokenLoop E0 : M (List Tok)) := by obey
  exact this _ _ _ _ h

end
end CodeParser.Chk
