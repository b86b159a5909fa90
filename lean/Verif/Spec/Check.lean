import Verif.Model.CheckTokens
import Verif.Spec.Token
/-!
Independent specification of where issues and tracked locations should be.
-/
namespace CodeParser.Spec
open CodeParser.Chk (Ev)

/-- The span covers a piece of the text: reading the text from `start` on, one comes to its first location
and, after the piece, to its second. -/
def Piece (cfg : Cfg) (text : List UInt8) (start : Loc) (sp : Span) : Prop :=
  ∃ before piece after, text = before ++ piece ++ after ∧
    Moves cfg before (piece ++ after) start sp.start ∧ Moves cfg piece after sp.start sp.stop

/-- The location is one to which reading the text from `start` on comes. -/
def Within (cfg : Cfg) (text : List UInt8) (start l : Loc) : Prop :=
  ∃ before after, text = before ++ after ∧ Moves cfg before after start l

/-- The location that is recorded, if the event is not an issue. -/
def recorded : Ev → Option Loc
  | .issue _ => none
  | .simpleContinuation l | .complexContinuation l | .embeddedNewline l | .embeddedTab l => some l

/-- The event is a fatal issue about the encoding: bytes that are not UTF-8, a surrogate, a byte order
mark. -/
def aboutEncoding : Ev → Prop
  | .issue i => i.maker = .enc ∧ i.sev = .fatal ∧
      (i.tag = .incompleteUTF8Sequence ∨ i.tag = .straySurrogate ∨ i.tag = .bom)
  | _ => False

instance (e : Ev) : Decidable (aboutEncoding e) := by
  cases e <;> unfold aboutEncoding <;> infer_instance

end CodeParser.Spec
