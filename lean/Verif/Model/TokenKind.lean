import Verif.Model.Gen.TokenKind
/-
Bit-level classification of token kinds.
Paths are relative to /repo/crates/wolfram-parser/src.
-/
namespace CodeParser.TK

/-- `Group1`, tokenize/token_kind.rs:14-19, as numbers. -/
def group1PossibleBeginning : Nat := 0b01 <<< 9
def group1Closer : Nat := 0b10 <<< 9
def group1Error : Nat := 0b11 <<< 9
def group1None : Nat := 0b00 <<< 9
/-- `Group1::MASK`, tokenize/token_kind.rs:30. -/
def group1Mask : Nat := 0b11 <<< 9

/-- `Group2`, tokenize/token_kind.rs:22-26, as numbers. -/
def group2Empty : Nat := 0b01 <<< 11
def group2Unterminated : Nat := 0b10 <<< 11
def group2None : Nat := 0b00 <<< 11
/-- `Group2::MASK`, tokenize/token_kind.rs:35. -/
def group2Mask : Nat := 0b11 <<< 11

/-- `variant`, tokenize/token_kind.rs:217-250, = `TokenKind::bits`, 872-875. -/
def bits (k : TK) : Nat :=
  let group1 :=
    if possibleBeginningList.contains k then group1PossibleBeginning
    else if closersList.contains k then group1Closer
    else if errorList.contains k then group1Error
    else group1None
  let group2 :=
    if emptyList.contains k then group2Empty
    else if unterminatedList.contains k then group2Unterminated
    else group2None
  k.id ||| group1 ||| group2

/-- `TokenKind::id`, tokenize/token_kind.rs:878-881. -/
def idOfBits (k : TK) : Nat := k.bits &&& 0x1ff

/-- `TokenKind::isTrivia`, tokenize/token_kind.rs:898-900. -/
def isTrivia (k : TK) : Bool := k.bits &&& 0x1f8 == 0x08

/-- `TokenKind::isTriviaButNotToplevelNewline`, tokenize/token_kind.rs:908-910. -/
def isTriviaButNotToplevelNewline (k : TK) : Bool := k.bits &&& 0x1fc == 0x08

/-- `TokenKind::isPossibleBeginning`, tokenize/token_kind.rs:912-914. -/
def isPossibleBeginning (k : TK) : Bool := k.bits &&& group1Mask == group1PossibleBeginning

/-- `TokenKind::isCloser`, tokenize/token_kind.rs:916-918. -/
def isCloser (k : TK) : Bool := k.bits &&& group1Mask == group1Closer

/-- `TokenKind::isError`, tokenize/token_kind.rs:920-922. -/
def isError (k : TK) : Bool := k.bits &&& group1Mask == group1Error

/-- `TokenKind::isUnterminated`, tokenize/token_kind.rs:924-926. -/
def isUnterminated (k : TK) : Bool := k.bits &&& group2Mask == group2Unterminated

/-- `TokenKind::isEmpty`, tokenize/token_kind.rs:928-930. -/
def isEmpty (k : TK) : Bool := k.bits &&& group2Mask == group2Empty

end CodeParser.TK
