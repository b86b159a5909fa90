import Verif.Model.Gen.TokenKind
/- Generated by tools/gen_tables.py from /repo. Do not edit.
Paths are relative to /repo/crates/wolfram-parser/src. -/
namespace CodeParser

/-- The symbols of symbols.rs:22-907, one constructor per distinct full name
(``Context`Name`` is written `Context_Name`). -/
inductive Sym where
  | CodeParser_AbstractSyntaxErrorNode | CodeParser_BinaryAt | CodeParser_BinaryNode
  | CodeParser_BinarySlashSlash | CodeParser_BoxNode | CodeParser_CallMissingCloserNode
  | CodeParser_CallNode | CodeParser_CodeAction | CodeParser_CodeActions | CodeParser_CodeNode
  | CodeParser_Comma | CodeParser_Comment | CodeParser_CompoundNode | CodeParser_ContainerNode
  | CodeParser_DeleteText | CodeParser_EncodingIssue | CodeParser_ErrorNode
  | CodeParser_FormatIssue | CodeParser_GroupDoubleBracket | CodeParser_GroupMissingCloserNode
  | CodeParser_GroupMissingOpenerNode | CodeParser_GroupNode | CodeParser_GroupParen
  | CodeParser_GroupSquare | CodeParser_GroupTypeSpecifier | CodeParser_InfixInequality
  | CodeParser_InfixNode | CodeParser_InfixTilde | CodeParser_InsertText
  | CodeParser_InternalInvalid | CodeParser_LeafNode | CodeParser_Library_LongNameSuggestion
  | CodeParser_Library_SetConcreteParseProgress | CodeParser_PatternBlank
  | CodeParser_PatternBlankNullSequence | CodeParser_PatternBlankSequence
  | CodeParser_PatternOptionalDefault | CodeParser_PostfixNode | CodeParser_PrefixBinaryNode
  | CodeParser_PrefixLinearSyntaxBang | CodeParser_PrefixNode | CodeParser_PrefixNot2
  | CodeParser_ReplaceText | CodeParser_Source | CodeParser_SyntaxErrorNode
  | CodeParser_SyntaxIssue | CodeParser_TernaryNode | CodeParser_TernaryOptionalPattern
  | CodeParser_TernaryTilde | CodeParser_UnterminatedTokenErrorNeedsReparseNode
  | Developer_VectorInequality | SyntaxError_ExpectedSet | SyntaxError_ExpectedSymbol
  | SyntaxError_ExpectedTilde | System__Aborted | System_AddTo | System_After | System_All
  | System_Alternatives | System_And | System_AngleBracket | System_Application | System_Apply
  | System_ApplyTo | System_Association | System_Backslash | System_Because | System_Before
  | System_Blank | System_BlankNullSequence | System_BlankSequence | System_BracketingBar
  | System_ByteArray | System_Cap | System_CapitalDifferentialD | System_Ceiling | System_CenterDot
  | System_CircleDot | System_CircleMinus | System_CirclePlus | System_CircleTimes
  | System_ClockwiseContourIntegral | System_Colon | System_Composition | System_CompoundExpression
  | System_Condition | System_Conditioned | System_ConfidenceLevel | System_Congruent
  | System_Conjugate | System_ConjugateTranspose | System_ContinuedFractionK
  | System_ContourIntegral | System_Coproduct | System_CounterClockwiseContourIntegral
  | System_Cross | System_CubeRoot | System_Cup | System_CupCap | System_CurlyDoubleQuote
  | System_CurlyQuote | System_Decrement | System_Degree | System_Del | System_Derivative
  | System_Diamond | System_DifferentialD | System_DirectedEdge | System_Distributed
  | System_Divide | System_DivideBy | System_Divisible | System_Dot | System_DotEqual
  | System_DoubleBracketingBar | System_DoubleContourIntegral | System_DoubleDownArrow
  | System_DoubleLeftArrow | System_DoubleLeftRightArrow | System_DoubleLeftTee
  | System_DoubleLongLeftArrow | System_DoubleLongLeftRightArrow | System_DoubleLongRightArrow
  | System_DoubleRightArrow | System_DoubleRightTee | System_DoubleUpArrow
  | System_DoubleUpDownArrow | System_DoubleVerticalBar | System_DownArrow | System_DownArrowBar
  | System_DownArrowUpArrow | System_DownLeftRightVector | System_DownLeftTeeVector
  | System_DownLeftVector | System_DownLeftVectorBar | System_DownRightTeeVector
  | System_DownRightVector | System_DownRightVectorBar | System_DownTee | System_DownTeeArrow
  | System_E | System_Element | System_EndOfFile | System_Equal | System_EqualTilde
  | System_Equilibrium | System_Equivalent | System_EvaluatePacket | System_Exists
  | System_ExpectationE | System_Factorial | System_Factorial2 | System_Floor | System_ForAll
  | System_Function | System_Get | System_Greater | System_GreaterEqual | System_GreaterEqualLess
  | System_GreaterFullEqual | System_GreaterGreater | System_GreaterLess | System_GreaterSlantEqual
  | System_GreaterTilde | System_HermitianConjugate | System_HumpDownHump | System_HumpEqual
  | System_I | System_Implies | System_Increment | System_Inequality | System_Infinity
  | System_Information | System_Integer | System_Integral | System_Integrate | System_Intersection
  | System_InvisiblePostfixScriptBase | System_InvisiblePrefixScriptBase | System_LeftArrow
  | System_LeftArrowBar | System_LeftArrowRightArrow | System_LeftDownTeeVector
  | System_LeftDownVector | System_LeftDownVectorBar | System_LeftRightArrow
  | System_LeftRightVector | System_LeftTee | System_LeftTeeArrow | System_LeftTeeVector
  | System_LeftTriangle | System_LeftTriangleBar | System_LeftTriangleEqual
  | System_LeftUpDownVector | System_LeftUpTeeVector | System_LeftUpVector | System_LeftUpVectorBar
  | System_LeftVector | System_LeftVectorBar | System_Less | System_LessEqual
  | System_LessEqualGreater | System_LessFullEqual | System_LessGreater | System_LessLess
  | System_LessSlantEqual | System_LessTilde | System_List | System_LongLeftArrow
  | System_LongLeftRightArrow | System_LongRightArrow | System_LowerLeftArrow
  | System_LowerRightArrow | System_Map | System_MapAll | System_MapApply | System_MessageName
  | System_Minus | System_MinusPlus | System_Missing | System_Nand | System_NestedGreaterGreater
  | System_NestedLessLess | System_NonCommutativeMultiply | System_Nor | System_Not
  | System_NotCongruent | System_NotCupCap | System_NotDoubleVerticalBar | System_NotElement
  | System_NotEqualTilde | System_NotExists | System_NotGreater | System_NotGreaterEqual
  | System_NotGreaterFullEqual | System_NotGreaterGreater | System_NotGreaterLess
  | System_NotGreaterSlantEqual | System_NotGreaterTilde | System_NotHumpDownHump
  | System_NotHumpEqual | System_NotLeftTriangle | System_NotLeftTriangleBar
  | System_NotLeftTriangleEqual | System_NotLess | System_NotLessEqual | System_NotLessFullEqual
  | System_NotLessGreater | System_NotLessLess | System_NotLessSlantEqual | System_NotLessTilde
  | System_NotNestedGreaterGreater | System_NotNestedLessLess | System_NotPrecedes
  | System_NotPrecedesEqual | System_NotPrecedesSlantEqual | System_NotPrecedesTilde
  | System_NotReverseElement | System_NotRightTriangle | System_NotRightTriangleBar
  | System_NotRightTriangleEqual | System_NotSquareSubset | System_NotSquareSubsetEqual
  | System_NotSquareSuperset | System_NotSquareSupersetEqual | System_NotSubset
  | System_NotSubsetEqual | System_NotSucceeds | System_NotSucceedsEqual
  | System_NotSucceedsSlantEqual | System_NotSucceedsTilde | System_NotSuperset
  | System_NotSupersetEqual | System_NotTilde | System_NotTildeEqual | System_NotTildeFullEqual
  | System_NotTildeTilde | System_NotVerticalBar | System_Nothing | System_Null | System_Optional
  | System_Or | System_Out | System_Part | System_Pattern | System_PatternTest
  | System_PermutationProduct | System_Perpendicular | System_Pi | System_Piecewise | System_Plus
  | System_PlusMinus | System_Power | System_PreDecrement | System_PreIncrement | System_Precedes
  | System_PrecedesEqual | System_PrecedesSlantEqual | System_PrecedesTilde | System_ProbabilityPr
  | System_Product | System_Proportion | System_Proportional | System_Put | System_PutAppend
  | System_Rational | System_Real | System_Repeated | System_RepeatedNull | System_ReplaceAll
  | System_ReplaceRepeated | System_ReverseElement | System_ReverseEquilibrium
  | System_ReverseUpEquilibrium | System_RightArrow | System_RightArrowBar
  | System_RightArrowLeftArrow | System_RightComposition | System_RightDownTeeVector
  | System_RightDownVector | System_RightDownVectorBar | System_RightTee | System_RightTeeArrow
  | System_RightTeeVector | System_RightTriangle | System_RightTriangleBar
  | System_RightTriangleEqual | System_RightUpDownVector | System_RightUpTeeVector
  | System_RightUpVector | System_RightUpVectorBar | System_RightVector | System_RightVectorBar
  | System_RoundImplies | System_Rule | System_RuleDelayed | System_SameQ | System_Set
  | System_SetDelayed | System_ShortDownArrow | System_ShortLeftArrow | System_ShortRightArrow
  | System_ShortUpArrow | System_Slot | System_SlotSequence | System_SmallCircle | System_Span
  | System_Sqrt | System_Square | System_SquareIntersection | System_SquareSubset
  | System_SquareSubsetEqual | System_SquareSuperset | System_SquareSupersetEqual
  | System_SquareUnion | System_Star | System_String | System_StringExpression | System_StringJoin
  | System_Subset | System_SubsetEqual | System_SubtractFrom | System_Succeeds
  | System_SucceedsEqual | System_SucceedsSlantEqual | System_SucceedsTilde | System_SuchThat
  | System_Sum | System_Superset | System_SupersetEqual | System_Symbol | System_TagSet
  | System_TagSetDelayed | System_TagUnset | System_TensorProduct | System_TensorWedge
  | System_Therefore | System_Tilde | System_TildeEqual | System_TildeFullEqual | System_TildeTilde
  | System_Times | System_TimesBy | System_Transpose | System_TwoWayRule | System_TypeSpecifier
  | System_UndirectedEdge | System_Unequal | System_Union | System_UnionPlus | System_UnsameQ
  | System_Unset | System_UpArrow | System_UpArrowBar | System_UpArrowDownArrow
  | System_UpDownArrow | System_UpEquilibrium | System_UpSet | System_UpSetDelayed | System_UpTee
  | System_UpTeeArrow | System_UpperLeftArrow | System_UpperRightArrow | System_VectorGreater
  | System_VectorGreaterEqual | System_VectorLess | System_VectorLessEqual | System_Vee
  | System_VerticalBar | System_VerticalSeparator | System_VerticalTilde | System_Wedge
  | System_Whitespace | System_Xnor | System_Xor | Token_Amp | Token_AmpAmp | Token_At | Token_AtAt
  | Token_AtAtAt | Token_AtStar | Token_Bang | Token_BangBang | Token_BangEqual | Token_Bar
  | Token_BarBar | Token_BarGreater | Token_BarMinusGreater | Token_Boxes_MultiSingleQuote
  | Token_Boxes_MultiWhitespace | Token_Boxes_OpenParenStar | Token_Boxes_StarCloseParen
  | Token_Buffer1 | Token_Buffer2 | Token_Buffer3 | Token_Buffer4 | Token_Caret
  | Token_CaretColonEqual | Token_CaretEqual | Token_CloseCurly | Token_CloseParen
  | Token_CloseSquare | Token_Colon | Token_ColonColon | Token_ColonColonOpenSquare
  | Token_ColonEqual | Token_ColonGreater | Token_Comma | Token_Comment | Token_Count | Token_Dot
  | Token_DotDot | Token_DotDotDot | Token_EndOfFile | Token_Equal | Token_EqualBangEqual
  | Token_EqualEqual | Token_EqualEqualEqual | Token_Error_Aborted | Token_Error_ExpectedEqual
  | Token_Error_ExpectedFile | Token_Error_ExpectedLetterlike | Token_Error_ExpectedOperand
  | Token_Error_ExpectedTag | Token_Error_InfixImplicitNull | Token_Error_Number
  | Token_Error_PrefixImplicitNull | Token_Error_UnexpectedCloser
  | Token_Error_UnexpectedCommentCloser | Token_Error_UnhandledCharacter
  | Token_Error_UnsafeCharacterEncoding | Token_Error_UnsupportedToken
  | Token_Error_UnterminatedComment | Token_Error_UnterminatedFileString
  | Token_Error_UnterminatedLinearSyntaxBlob | Token_Error_UnterminatedString
  | Token_Fake_ImplicitAll | Token_Fake_ImplicitNull | Token_Fake_ImplicitOne
  | Token_Fake_ImplicitTimes | Token_Greater | Token_GreaterEqual | Token_GreaterGreater
  | Token_GreaterGreaterGreater | Token_Hash | Token_HashHash | Token_Integer
  | Token_InternalNewline | Token_Less | Token_LessBar | Token_LessEqual | Token_LessGreater
  | Token_LessLess | Token_LessMinusGreater | Token_LinearSyntaxBlob | Token_LinearSyntax_Amp
  | Token_LinearSyntax_At | Token_LinearSyntax_BackTick | Token_LinearSyntax_Bang
  | Token_LinearSyntax_Caret | Token_LinearSyntax_CloseParen | Token_LinearSyntax_Percent
  | Token_LinearSyntax_Plus | Token_LinearSyntax_Slash | Token_LinearSyntax_Space
  | Token_LinearSyntax_Star | Token_LinearSyntax_Under | Token_LongName_And
  | Token_LongName_Application | Token_LongName_AutoLeftMatch | Token_LongName_AutoRightMatch
  | Token_LongName_Backslash | Token_LongName_Because | Token_LongName_Cap
  | Token_LongName_CapitalDifferentialD | Token_LongName_CenterDot | Token_LongName_CircleDot
  | Token_LongName_CircleMinus | Token_LongName_CirclePlus | Token_LongName_CircleTimes
  | Token_LongName_ClockwiseContourIntegral | Token_LongName_CloseCurlyDoubleQuote
  | Token_LongName_CloseCurlyQuote | Token_LongName_Colon | Token_LongName_Conditioned
  | Token_LongName_Congruent | Token_LongName_Conjugate | Token_LongName_ConjugateTranspose
  | Token_LongName_ContinuedFractionK | Token_LongName_ContourIntegral | Token_LongName_Coproduct
  | Token_LongName_CounterClockwiseContourIntegral | Token_LongName_Cross | Token_LongName_CubeRoot
  | Token_LongName_Cup | Token_LongName_CupCap | Token_LongName_Del | Token_LongName_Diamond
  | Token_LongName_DifferenceDelta | Token_LongName_DifferentialD | Token_LongName_DirectedEdge
  | Token_LongName_DiscreteRatio | Token_LongName_DiscreteShift | Token_LongName_Distributed
  | Token_LongName_Divide | Token_LongName_Divides | Token_LongName_DivisionSlash
  | Token_LongName_DotEqual | Token_LongName_DoubleContourIntegral | Token_LongName_DoubleDownArrow
  | Token_LongName_DoubleLeftArrow | Token_LongName_DoubleLeftRightArrow
  | Token_LongName_DoubleLeftTee | Token_LongName_DoubleLongLeftArrow
  | Token_LongName_DoubleLongLeftRightArrow | Token_LongName_DoubleLongRightArrow
  | Token_LongName_DoubleRightArrow | Token_LongName_DoubleRightTee | Token_LongName_DoubleUpArrow
  | Token_LongName_DoubleUpDownArrow | Token_LongName_DoubleVerticalBar | Token_LongName_DownArrow
  | Token_LongName_DownArrowBar | Token_LongName_DownArrowUpArrow
  | Token_LongName_DownLeftRightVector | Token_LongName_DownLeftTeeVector
  | Token_LongName_DownLeftVector | Token_LongName_DownLeftVectorBar
  | Token_LongName_DownRightTeeVector | Token_LongName_DownRightVector
  | Token_LongName_DownRightVectorBar | Token_LongName_DownTee | Token_LongName_DownTeeArrow
  | Token_LongName_Element | Token_LongName_Equal | Token_LongName_EqualTilde
  | Token_LongName_Equilibrium | Token_LongName_Equivalent | Token_LongName_Exists
  | Token_LongName_ExpectationE | Token_LongName_ForAll | Token_LongName_Function
  | Token_LongName_GreaterEqual | Token_LongName_GreaterEqualLess | Token_LongName_GreaterFullEqual
  | Token_LongName_GreaterGreater | Token_LongName_GreaterLess | Token_LongName_GreaterSlantEqual
  | Token_LongName_GreaterTilde | Token_LongName_HermitianConjugate | Token_LongName_HumpDownHump
  | Token_LongName_HumpEqual | Token_LongName_ImplicitPlus | Token_LongName_Implies
  | Token_LongName_Integral | Token_LongName_Intersection | Token_LongName_InvisibleApplication
  | Token_LongName_InvisibleComma | Token_LongName_InvisiblePostfixScriptBase
  | Token_LongName_InvisiblePrefixScriptBase | Token_LongName_InvisibleTimes
  | Token_LongName_LeftAngleBracket | Token_LongName_LeftArrow | Token_LongName_LeftArrowBar
  | Token_LongName_LeftArrowRightArrow | Token_LongName_LeftAssociation
  | Token_LongName_LeftBracketingBar | Token_LongName_LeftCeiling
  | Token_LongName_LeftDoubleBracket | Token_LongName_LeftDoubleBracketingBar
  | Token_LongName_LeftDownTeeVector | Token_LongName_LeftDownVector
  | Token_LongName_LeftDownVectorBar | Token_LongName_LeftFloor | Token_LongName_LeftRightArrow
  | Token_LongName_LeftRightVector | Token_LongName_LeftTee | Token_LongName_LeftTeeArrow
  | Token_LongName_LeftTeeVector | Token_LongName_LeftTriangle | Token_LongName_LeftTriangleBar
  | Token_LongName_LeftTriangleEqual | Token_LongName_LeftUpDownVector
  | Token_LongName_LeftUpTeeVector | Token_LongName_LeftUpVector | Token_LongName_LeftUpVectorBar
  | Token_LongName_LeftVector | Token_LongName_LeftVectorBar | Token_LongName_LessEqual
  | Token_LongName_LessEqualGreater | Token_LongName_LessFullEqual | Token_LongName_LessGreater
  | Token_LongName_LessLess | Token_LongName_LessSlantEqual | Token_LongName_LessTilde
  | Token_LongName_Limit | Token_LongName_LongEqual | Token_LongName_LongLeftArrow
  | Token_LongName_LongLeftRightArrow | Token_LongName_LongRightArrow
  | Token_LongName_LowerLeftArrow | Token_LongName_LowerRightArrow | Token_LongName_MaxLimit
  | Token_LongName_MinLimit | Token_LongName_Minus | Token_LongName_MinusPlus | Token_LongName_Nand
  | Token_LongName_NestedGreaterGreater | Token_LongName_NestedLessLess | Token_LongName_Nor
  | Token_LongName_Not | Token_LongName_NotCongruent | Token_LongName_NotCupCap
  | Token_LongName_NotDoubleVerticalBar | Token_LongName_NotElement | Token_LongName_NotEqual
  | Token_LongName_NotEqualTilde | Token_LongName_NotExists | Token_LongName_NotGreater
  | Token_LongName_NotGreaterEqual | Token_LongName_NotGreaterFullEqual
  | Token_LongName_NotGreaterGreater | Token_LongName_NotGreaterLess
  | Token_LongName_NotGreaterSlantEqual | Token_LongName_NotGreaterTilde
  | Token_LongName_NotHumpDownHump | Token_LongName_NotHumpEqual | Token_LongName_NotLeftTriangle
  | Token_LongName_NotLeftTriangleBar | Token_LongName_NotLeftTriangleEqual
  | Token_LongName_NotLess | Token_LongName_NotLessEqual | Token_LongName_NotLessFullEqual
  | Token_LongName_NotLessGreater | Token_LongName_NotLessLess | Token_LongName_NotLessSlantEqual
  | Token_LongName_NotLessTilde | Token_LongName_NotNestedGreaterGreater
  | Token_LongName_NotNestedLessLess | Token_LongName_NotPrecedes | Token_LongName_NotPrecedesEqual
  | Token_LongName_NotPrecedesSlantEqual | Token_LongName_NotPrecedesTilde
  | Token_LongName_NotReverseElement | Token_LongName_NotRightTriangle
  | Token_LongName_NotRightTriangleBar | Token_LongName_NotRightTriangleEqual
  | Token_LongName_NotSquareSubset | Token_LongName_NotSquareSubsetEqual
  | Token_LongName_NotSquareSuperset | Token_LongName_NotSquareSupersetEqual
  | Token_LongName_NotSubset | Token_LongName_NotSubsetEqual | Token_LongName_NotSucceeds
  | Token_LongName_NotSucceedsEqual | Token_LongName_NotSucceedsSlantEqual
  | Token_LongName_NotSucceedsTilde | Token_LongName_NotSuperset | Token_LongName_NotSupersetEqual
  | Token_LongName_NotTilde | Token_LongName_NotTildeEqual | Token_LongName_NotTildeFullEqual
  | Token_LongName_NotTildeTilde | Token_LongName_NotVerticalBar
  | Token_LongName_OpenCurlyDoubleQuote | Token_LongName_OpenCurlyQuote | Token_LongName_Or
  | Token_LongName_PartialD | Token_LongName_PermutationProduct | Token_LongName_Perpendicular
  | Token_LongName_Piecewise | Token_LongName_PlusMinus | Token_LongName_Precedes
  | Token_LongName_PrecedesEqual | Token_LongName_PrecedesSlantEqual | Token_LongName_PrecedesTilde
  | Token_LongName_ProbabilityPr | Token_LongName_Product | Token_LongName_Proportion
  | Token_LongName_Proportional | Token_LongName_ReverseElement | Token_LongName_ReverseEquilibrium
  | Token_LongName_ReverseUpEquilibrium | Token_LongName_RightAngleBracket
  | Token_LongName_RightArrow | Token_LongName_RightArrowBar | Token_LongName_RightArrowLeftArrow
  | Token_LongName_RightAssociation | Token_LongName_RightBracketingBar
  | Token_LongName_RightCeiling | Token_LongName_RightDoubleBracket
  | Token_LongName_RightDoubleBracketingBar | Token_LongName_RightDownTeeVector
  | Token_LongName_RightDownVector | Token_LongName_RightDownVectorBar | Token_LongName_RightFloor
  | Token_LongName_RightTee | Token_LongName_RightTeeArrow | Token_LongName_RightTeeVector
  | Token_LongName_RightTriangle | Token_LongName_RightTriangleBar
  | Token_LongName_RightTriangleEqual | Token_LongName_RightUpDownVector
  | Token_LongName_RightUpTeeVector | Token_LongName_RightUpVector
  | Token_LongName_RightUpVectorBar | Token_LongName_RightVector | Token_LongName_RightVectorBar
  | Token_LongName_RoundImplies | Token_LongName_Rule | Token_LongName_RuleDelayed
  | Token_LongName_ShortDownArrow | Token_LongName_ShortLeftArrow | Token_LongName_ShortRightArrow
  | Token_LongName_ShortUpArrow | Token_LongName_SmallCircle | Token_LongName_Sqrt
  | Token_LongName_Square | Token_LongName_SquareIntersection | Token_LongName_SquareSubset
  | Token_LongName_SquareSubsetEqual | Token_LongName_SquareSuperset
  | Token_LongName_SquareSupersetEqual | Token_LongName_SquareUnion | Token_LongName_Star
  | Token_LongName_Subset | Token_LongName_SubsetEqual | Token_LongName_Succeeds
  | Token_LongName_SucceedsEqual | Token_LongName_SucceedsSlantEqual | Token_LongName_SucceedsTilde
  | Token_LongName_SuchThat | Token_LongName_Sum | Token_LongName_Superset
  | Token_LongName_SupersetEqual | Token_LongName_TensorProduct | Token_LongName_TensorWedge
  | Token_LongName_Therefore | Token_LongName_Tilde | Token_LongName_TildeEqual
  | Token_LongName_TildeFullEqual | Token_LongName_TildeTilde | Token_LongName_Times
  | Token_LongName_Transpose | Token_LongName_TwoWayRule | Token_LongName_UndirectedEdge
  | Token_LongName_Union | Token_LongName_UnionPlus | Token_LongName_UpArrow
  | Token_LongName_UpArrowBar | Token_LongName_UpArrowDownArrow | Token_LongName_UpDownArrow
  | Token_LongName_UpEquilibrium | Token_LongName_UpTee | Token_LongName_UpTeeArrow
  | Token_LongName_UpperLeftArrow | Token_LongName_UpperRightArrow | Token_LongName_VectorGreater
  | Token_LongName_VectorGreaterEqual | Token_LongName_VectorLess | Token_LongName_VectorLessEqual
  | Token_LongName_Vee | Token_LongName_VerticalBar | Token_LongName_VerticalSeparator
  | Token_LongName_VerticalTilde | Token_LongName_Wedge | Token_LongName_Xnor | Token_LongName_Xor
  | Token_Minus | Token_MinusEqual | Token_MinusGreater | Token_MinusMinus | Token_Newline
  | Token_OpenCurly | Token_OpenParen | Token_OpenSquare | Token_Percent | Token_PercentPercent
  | Token_Plus | Token_PlusEqual | Token_PlusPlus | Token_Question | Token_QuestionQuestion
  | Token_Rational | Token_Real | Token_Semi | Token_SemiSemi | Token_SingleQuote | Token_Slash
  | Token_SlashAt | Token_SlashColon | Token_SlashDot | Token_SlashEqual | Token_SlashSemi
  | Token_SlashSlash | Token_SlashSlashAt | Token_SlashSlashDot | Token_SlashSlashEqual
  | Token_SlashStar | Token_Star | Token_StarEqual | Token_StarStar | Token_String | Token_Symbol
  | Token_Tilde | Token_TildeTilde | Token_ToplevelNewline | Token_Under | Token_UnderDot
  | Token_UnderUnder | Token_UnderUnderUnder | Token_Unknown | Token_Whitespace
deriving DecidableEq, Repr, Inhabited

/-- `InfixOperator`, parse/operators.rs:40-236. -/
inductive InfixOp where
  | Times | CompoundExpression | MessageName | CodeParser_InternalInvalid | CodeParser_Comma
  | CodeParser_InfixTilde | Plus | SameQ | UnsameQ | Dot | NonCommutativeMultiply | And | Or
  | Alternatives | StringJoin | StringExpression | Composition | RightComposition | Element
  | Subset | Superset | SubsetEqual | SupersetEqual | NotElement | NotSubset | NotSuperset
  | NotSubsetEqual | NotSupersetEqual | SquareSubset | SquareSuperset | NotSquareSubset
  | NotSquareSuperset | SquareSubsetEqual | SquareSupersetEqual | NotSquareSubsetEqual
  | NotSquareSupersetEqual | ReverseElement | NotReverseElement | Distributed | Xor | Nand | Nor
  | LeftArrow | RightArrow | LeftRightArrow | LeftTeeArrow | RightTeeArrow | RightArrowLeftArrow
  | LeftArrowRightArrow | DoubleLeftArrow | DoubleRightArrow | DoubleLeftRightArrow | LeftArrowBar
  | RightArrowBar | ShortRightArrow | ShortLeftArrow | UpperLeftArrow | UpperRightArrow
  | LowerRightArrow | LowerLeftArrow | LeftVector | RightVector | LeftRightVector | LeftVectorBar
  | RightVectorBar | LeftTeeVector | RightTeeVector | DownLeftVector | DownRightVector
  | DownLeftRightVector | DownLeftVectorBar | DownRightVectorBar | DownLeftTeeVector
  | DownRightTeeVector | UpArrow | DownArrow | UpDownArrow | UpTeeArrow | DownTeeArrow
  | UpArrowDownArrow | DoubleUpArrow | DoubleDownArrow | DoubleUpDownArrow | DownArrowUpArrow
  | LongLeftArrow | LongRightArrow | LongLeftRightArrow | DoubleLongLeftArrow
  | DoubleLongRightArrow | DoubleLongLeftRightArrow | UpArrowBar | DownArrowBar | ShortUpArrow
  | ShortDownArrow | RightUpVector | LeftUpVector | RightDownVector | LeftDownVector
  | RightUpDownVector | LeftUpDownVector | RightUpVectorBar | RightDownVectorBar | LeftUpVectorBar
  | LeftDownVectorBar | RightUpTeeVector | RightDownTeeVector | LeftUpTeeVector | LeftDownTeeVector
  | UpEquilibrium | ReverseUpEquilibrium | CenterDot | Equivalent | CircleDot | Conditioned | Union
  | SquareUnion | UnionPlus | Intersection | SquareIntersection | TensorWedge | TensorProduct
  | Cross | SmallCircle | Divisible | VerticalSeparator | Backslash | Diamond | Wedge | Vee
  | CircleTimes | Star | VerticalTilde | Coproduct | Cap | Cup | CirclePlus | VerticalBar
  | DoubleVerticalBar | NotVerticalBar | NotDoubleVerticalBar | LeftTriangle | RightTriangle
  | NotLeftTriangle | NotRightTriangle | LeftTriangleEqual | RightTriangleEqual
  | NotLeftTriangleEqual | NotRightTriangleEqual | LeftTriangleBar | RightTriangleBar
  | NotLeftTriangleBar | NotRightTriangleBar | TildeEqual | NotTildeEqual | TildeFullEqual
  | NotTildeFullEqual | Tilde | NotTilde | EqualTilde | NotEqualTilde | TildeTilde | NotTildeTilde
  | Proportional | Proportion | Congruent | NotCongruent | Equilibrium | ReverseEquilibrium
  | DotEqual | Precedes | Succeeds | PrecedesEqual | SucceedsEqual | PrecedesTilde | SucceedsTilde
  | PrecedesSlantEqual | SucceedsSlantEqual | NotPrecedes | NotSucceeds | NotPrecedesEqual
  | NotSucceedsEqual | NotPrecedesTilde | NotSucceedsTilde | NotPrecedesSlantEqual
  | NotSucceedsSlantEqual | CupCap | NotCupCap | HumpEqual | HumpDownHump | NotHumpEqual
  | NotHumpDownHump | CodeParser_InfixInequality | PermutationProduct | Colon | Xnor
deriving DecidableEq, Repr, Inhabited

/-- `InfixOperator::to_symbol`, parse/operators.rs:460-658. -/
def InfixOp.toSymbol : InfixOp → Sym
  | .Times => .System_Times
  | .CompoundExpression => .System_CompoundExpression
  | .MessageName => .System_MessageName
  | .CodeParser_InternalInvalid => .CodeParser_InternalInvalid
  | .CodeParser_Comma => .CodeParser_Comma
  | .CodeParser_InfixTilde => .CodeParser_InfixTilde
  | .Plus => .System_Plus
  | .SameQ => .System_SameQ
  | .UnsameQ => .System_UnsameQ
  | .Dot => .System_Dot
  | .NonCommutativeMultiply => .System_NonCommutativeMultiply
  | .And => .System_And
  | .Or => .System_Or
  | .Alternatives => .System_Alternatives
  | .StringJoin => .System_StringJoin
  | .StringExpression => .System_StringExpression
  | .Composition => .System_Composition
  | .RightComposition => .System_RightComposition
  | .Element => .System_Element
  | .Subset => .System_Subset
  | .Superset => .System_Superset
  | .SubsetEqual => .System_SubsetEqual
  | .SupersetEqual => .System_SupersetEqual
  | .NotElement => .System_NotElement
  | .NotSubset => .System_NotSubset
  | .NotSuperset => .System_NotSuperset
  | .NotSubsetEqual => .System_NotSubsetEqual
  | .NotSupersetEqual => .System_NotSupersetEqual
  | .SquareSubset => .System_SquareSubset
  | .SquareSuperset => .System_SquareSuperset
  | .NotSquareSubset => .System_NotSquareSubset
  | .NotSquareSuperset => .System_NotSquareSuperset
  | .SquareSubsetEqual => .System_SquareSubsetEqual
  | .SquareSupersetEqual => .System_SquareSupersetEqual
  | .NotSquareSubsetEqual => .System_NotSquareSubsetEqual
  | .NotSquareSupersetEqual => .System_NotSquareSupersetEqual
  | .ReverseElement => .System_ReverseElement
  | .NotReverseElement => .System_NotReverseElement
  | .Distributed => .System_Distributed
  | .Xor => .System_Xor
  | .Nand => .System_Nand
  | .Nor => .System_Nor
  | .LeftArrow => .System_LeftArrow
  | .RightArrow => .System_RightArrow
  | .LeftRightArrow => .System_LeftRightArrow
  | .LeftTeeArrow => .System_LeftTeeArrow
  | .RightTeeArrow => .System_RightTeeArrow
  | .RightArrowLeftArrow => .System_RightArrowLeftArrow
  | .LeftArrowRightArrow => .System_LeftArrowRightArrow
  | .DoubleLeftArrow => .System_DoubleLeftArrow
  | .DoubleRightArrow => .System_DoubleRightArrow
  | .DoubleLeftRightArrow => .System_DoubleLeftRightArrow
  | .LeftArrowBar => .System_LeftArrowBar
  | .RightArrowBar => .System_RightArrowBar
  | .ShortRightArrow => .System_ShortRightArrow
  | .ShortLeftArrow => .System_ShortLeftArrow
  | .UpperLeftArrow => .System_UpperLeftArrow
  | .UpperRightArrow => .System_UpperRightArrow
  | .LowerRightArrow => .System_LowerRightArrow
  | .LowerLeftArrow => .System_LowerLeftArrow
  | .LeftVector => .System_LeftVector
  | .RightVector => .System_RightVector
  | .LeftRightVector => .System_LeftRightVector
  | .LeftVectorBar => .System_LeftVectorBar
  | .RightVectorBar => .System_RightVectorBar
  | .LeftTeeVector => .System_LeftTeeVector
  | .RightTeeVector => .System_RightTeeVector
  | .DownLeftVector => .System_DownLeftVector
  | .DownRightVector => .System_DownRightVector
  | .DownLeftRightVector => .System_DownLeftRightVector
  | .DownLeftVectorBar => .System_DownLeftVectorBar
  | .DownRightVectorBar => .System_DownRightVectorBar
  | .DownLeftTeeVector => .System_DownLeftTeeVector
  | .DownRightTeeVector => .System_DownRightTeeVector
  | .UpArrow => .System_UpArrow
  | .DownArrow => .System_DownArrow
  | .UpDownArrow => .System_UpDownArrow
  | .UpTeeArrow => .System_UpTeeArrow
  | .DownTeeArrow => .System_DownTeeArrow
  | .UpArrowDownArrow => .System_UpArrowDownArrow
  | .DoubleUpArrow => .System_DoubleUpArrow
  | .DoubleDownArrow => .System_DoubleDownArrow
  | .DoubleUpDownArrow => .System_DoubleUpDownArrow
  | .DownArrowUpArrow => .System_DownArrowUpArrow
  | .LongLeftArrow => .System_LongLeftArrow
  | .LongRightArrow => .System_LongRightArrow
  | .LongLeftRightArrow => .System_LongLeftRightArrow
  | .DoubleLongLeftArrow => .System_DoubleLongLeftArrow
  | .DoubleLongRightArrow => .System_DoubleLongRightArrow
  | .DoubleLongLeftRightArrow => .System_DoubleLongLeftRightArrow
  | .UpArrowBar => .System_UpArrowBar
  | .DownArrowBar => .System_DownArrowBar
  | .ShortUpArrow => .System_ShortUpArrow
  | .ShortDownArrow => .System_ShortDownArrow
  | .RightUpVector => .System_RightUpVector
  | .LeftUpVector => .System_LeftUpVector
  | .RightDownVector => .System_RightDownVector
  | .LeftDownVector => .System_LeftDownVector
  | .RightUpDownVector => .System_RightUpDownVector
  | .LeftUpDownVector => .System_LeftUpDownVector
  | .RightUpVectorBar => .System_RightUpVectorBar
  | .RightDownVectorBar => .System_RightDownVectorBar
  | .LeftUpVectorBar => .System_LeftUpVectorBar
  | .LeftDownVectorBar => .System_LeftDownVectorBar
  | .RightUpTeeVector => .System_RightUpTeeVector
  | .RightDownTeeVector => .System_RightDownTeeVector
  | .LeftUpTeeVector => .System_LeftUpTeeVector
  | .LeftDownTeeVector => .System_LeftDownTeeVector
  | .UpEquilibrium => .System_UpEquilibrium
  | .ReverseUpEquilibrium => .System_ReverseUpEquilibrium
  | .CenterDot => .System_CenterDot
  | .Equivalent => .System_Equivalent
  | .CircleDot => .System_CircleDot
  | .Conditioned => .System_Conditioned
  | .Union => .System_Union
  | .SquareUnion => .System_SquareUnion
  | .UnionPlus => .System_UnionPlus
  | .Intersection => .System_Intersection
  | .SquareIntersection => .System_SquareIntersection
  | .TensorWedge => .System_TensorWedge
  | .TensorProduct => .System_TensorProduct
  | .Cross => .System_Cross
  | .SmallCircle => .System_SmallCircle
  | .Divisible => .System_Divisible
  | .VerticalSeparator => .System_VerticalSeparator
  | .Backslash => .System_Backslash
  | .Diamond => .System_Diamond
  | .Wedge => .System_Wedge
  | .Vee => .System_Vee
  | .CircleTimes => .System_CircleTimes
  | .Star => .System_Star
  | .VerticalTilde => .System_VerticalTilde
  | .Coproduct => .System_Coproduct
  | .Cap => .System_Cap
  | .Cup => .System_Cup
  | .CirclePlus => .System_CirclePlus
  | .VerticalBar => .System_VerticalBar
  | .DoubleVerticalBar => .System_DoubleVerticalBar
  | .NotVerticalBar => .System_NotVerticalBar
  | .NotDoubleVerticalBar => .System_NotDoubleVerticalBar
  | .LeftTriangle => .System_LeftTriangle
  | .RightTriangle => .System_RightTriangle
  | .NotLeftTriangle => .System_NotLeftTriangle
  | .NotRightTriangle => .System_NotRightTriangle
  | .LeftTriangleEqual => .System_LeftTriangleEqual
  | .RightTriangleEqual => .System_RightTriangleEqual
  | .NotLeftTriangleEqual => .System_NotLeftTriangleEqual
  | .NotRightTriangleEqual => .System_NotRightTriangleEqual
  | .LeftTriangleBar => .System_LeftTriangleBar
  | .RightTriangleBar => .System_RightTriangleBar
  | .NotLeftTriangleBar => .System_NotLeftTriangleBar
  | .NotRightTriangleBar => .System_NotRightTriangleBar
  | .TildeEqual => .System_TildeEqual
  | .NotTildeEqual => .System_NotTildeEqual
  | .TildeFullEqual => .System_TildeFullEqual
  | .NotTildeFullEqual => .System_NotTildeFullEqual
  | .Tilde => .System_Tilde
  | .NotTilde => .System_NotTilde
  | .EqualTilde => .System_EqualTilde
  | .NotEqualTilde => .System_NotEqualTilde
  | .TildeTilde => .System_TildeTilde
  | .NotTildeTilde => .System_NotTildeTilde
  | .Proportional => .System_Proportional
  | .Proportion => .System_Proportion
  | .Congruent => .System_Congruent
  | .NotCongruent => .System_NotCongruent
  | .Equilibrium => .System_Equilibrium
  | .ReverseEquilibrium => .System_ReverseEquilibrium
  | .DotEqual => .System_DotEqual
  | .Precedes => .System_Precedes
  | .Succeeds => .System_Succeeds
  | .PrecedesEqual => .System_PrecedesEqual
  | .SucceedsEqual => .System_SucceedsEqual
  | .PrecedesTilde => .System_PrecedesTilde
  | .SucceedsTilde => .System_SucceedsTilde
  | .PrecedesSlantEqual => .System_PrecedesSlantEqual
  | .SucceedsSlantEqual => .System_SucceedsSlantEqual
  | .NotPrecedes => .System_NotPrecedes
  | .NotSucceeds => .System_NotSucceeds
  | .NotPrecedesEqual => .System_NotPrecedesEqual
  | .NotSucceedsEqual => .System_NotSucceedsEqual
  | .NotPrecedesTilde => .System_NotPrecedesTilde
  | .NotSucceedsTilde => .System_NotSucceedsTilde
  | .NotPrecedesSlantEqual => .System_NotPrecedesSlantEqual
  | .NotSucceedsSlantEqual => .System_NotSucceedsSlantEqual
  | .CupCap => .System_CupCap
  | .NotCupCap => .System_NotCupCap
  | .HumpEqual => .System_HumpEqual
  | .HumpDownHump => .System_HumpDownHump
  | .NotHumpEqual => .System_NotHumpEqual
  | .NotHumpDownHump => .System_NotHumpDownHump
  | .CodeParser_InfixInequality => .CodeParser_InfixInequality
  | .PermutationProduct => .System_PermutationProduct
  | .Colon => .System_Colon
  | .Xnor => .System_Xnor

/-- The arms of `InfixOperator::try_from_symbol`, parse/operators.rs:660-862, in order. -/
def InfixOp.arms : _root_.List (Sym × InfixOp) := [
  (.System_Times, .Times), (.System_CompoundExpression, .CompoundExpression),
  (.System_MessageName, .MessageName), (.CodeParser_InternalInvalid, .CodeParser_InternalInvalid),
  (.CodeParser_Comma, .CodeParser_Comma), (.CodeParser_InfixTilde, .CodeParser_InfixTilde),
  (.System_Plus, .Plus), (.System_SameQ, .SameQ), (.System_UnsameQ, .UnsameQ), (.System_Dot, .Dot),
  (.System_NonCommutativeMultiply, .NonCommutativeMultiply), (.System_And, .And),
  (.System_Or, .Or), (.System_Alternatives, .Alternatives), (.System_StringJoin, .StringJoin),
  (.System_StringExpression, .StringExpression), (.System_Composition, .Composition),
  (.System_RightComposition, .RightComposition), (.System_Element, .Element),
  (.System_Subset, .Subset), (.System_Superset, .Superset), (.System_SubsetEqual, .SubsetEqual),
  (.System_SupersetEqual, .SupersetEqual), (.System_NotElement, .NotElement),
  (.System_NotSubset, .NotSubset), (.System_NotSuperset, .NotSuperset),
  (.System_NotSubsetEqual, .NotSubsetEqual), (.System_NotSupersetEqual, .NotSupersetEqual),
  (.System_SquareSubset, .SquareSubset), (.System_SquareSuperset, .SquareSuperset),
  (.System_NotSquareSubset, .NotSquareSubset), (.System_NotSquareSuperset, .NotSquareSuperset),
  (.System_SquareSubsetEqual, .SquareSubsetEqual),
  (.System_SquareSupersetEqual, .SquareSupersetEqual),
  (.System_NotSquareSubsetEqual, .NotSquareSubsetEqual),
  (.System_NotSquareSupersetEqual, .NotSquareSupersetEqual),
  (.System_ReverseElement, .ReverseElement), (.System_NotReverseElement, .NotReverseElement),
  (.System_Distributed, .Distributed), (.System_Xor, .Xor), (.System_Nand, .Nand),
  (.System_Nor, .Nor), (.System_LeftArrow, .LeftArrow), (.System_RightArrow, .RightArrow),
  (.System_LeftRightArrow, .LeftRightArrow), (.System_LeftTeeArrow, .LeftTeeArrow),
  (.System_RightTeeArrow, .RightTeeArrow), (.System_RightArrowLeftArrow, .RightArrowLeftArrow),
  (.System_LeftArrowRightArrow, .LeftArrowRightArrow), (.System_DoubleLeftArrow, .DoubleLeftArrow),
  (.System_DoubleRightArrow, .DoubleRightArrow),
  (.System_DoubleLeftRightArrow, .DoubleLeftRightArrow), (.System_LeftArrowBar, .LeftArrowBar),
  (.System_RightArrowBar, .RightArrowBar), (.System_ShortRightArrow, .ShortRightArrow),
  (.System_ShortLeftArrow, .ShortLeftArrow), (.System_UpperLeftArrow, .UpperLeftArrow),
  (.System_UpperRightArrow, .UpperRightArrow), (.System_LowerRightArrow, .LowerRightArrow),
  (.System_LowerLeftArrow, .LowerLeftArrow), (.System_LeftVector, .LeftVector),
  (.System_RightVector, .RightVector), (.System_LeftRightVector, .LeftRightVector),
  (.System_LeftVectorBar, .LeftVectorBar), (.System_RightVectorBar, .RightVectorBar),
  (.System_LeftTeeVector, .LeftTeeVector), (.System_RightTeeVector, .RightTeeVector),
  (.System_DownLeftVector, .DownLeftVector), (.System_DownRightVector, .DownRightVector),
  (.System_DownLeftRightVector, .DownLeftRightVector),
  (.System_DownLeftVectorBar, .DownLeftVectorBar),
  (.System_DownRightVectorBar, .DownRightVectorBar),
  (.System_DownLeftTeeVector, .DownLeftTeeVector),
  (.System_DownRightTeeVector, .DownRightTeeVector), (.System_UpArrow, .UpArrow),
  (.System_DownArrow, .DownArrow), (.System_UpDownArrow, .UpDownArrow),
  (.System_UpTeeArrow, .UpTeeArrow), (.System_DownTeeArrow, .DownTeeArrow),
  (.System_UpArrowDownArrow, .UpArrowDownArrow), (.System_DoubleUpArrow, .DoubleUpArrow),
  (.System_DoubleDownArrow, .DoubleDownArrow), (.System_DoubleUpDownArrow, .DoubleUpDownArrow),
  (.System_DownArrowUpArrow, .DownArrowUpArrow), (.System_LongLeftArrow, .LongLeftArrow),
  (.System_LongRightArrow, .LongRightArrow), (.System_LongLeftRightArrow, .LongLeftRightArrow),
  (.System_DoubleLongLeftArrow, .DoubleLongLeftArrow),
  (.System_DoubleLongRightArrow, .DoubleLongRightArrow),
  (.System_DoubleLongLeftRightArrow, .DoubleLongLeftRightArrow), (.System_UpArrowBar, .UpArrowBar),
  (.System_DownArrowBar, .DownArrowBar), (.System_ShortUpArrow, .ShortUpArrow),
  (.System_ShortDownArrow, .ShortDownArrow), (.System_RightUpVector, .RightUpVector),
  (.System_LeftUpVector, .LeftUpVector), (.System_RightDownVector, .RightDownVector),
  (.System_LeftDownVector, .LeftDownVector), (.System_RightUpDownVector, .RightUpDownVector),
  (.System_LeftUpDownVector, .LeftUpDownVector), (.System_RightUpVectorBar, .RightUpVectorBar),
  (.System_RightDownVectorBar, .RightDownVectorBar), (.System_LeftUpVectorBar, .LeftUpVectorBar),
  (.System_LeftDownVectorBar, .LeftDownVectorBar), (.System_RightUpTeeVector, .RightUpTeeVector),
  (.System_RightDownTeeVector, .RightDownTeeVector), (.System_LeftUpTeeVector, .LeftUpTeeVector),
  (.System_LeftDownTeeVector, .LeftDownTeeVector), (.System_UpEquilibrium, .UpEquilibrium),
  (.System_ReverseUpEquilibrium, .ReverseUpEquilibrium), (.System_CenterDot, .CenterDot),
  (.System_Equivalent, .Equivalent), (.System_CircleDot, .CircleDot),
  (.System_Conditioned, .Conditioned), (.System_Union, .Union),
  (.System_SquareUnion, .SquareUnion), (.System_UnionPlus, .UnionPlus),
  (.System_Intersection, .Intersection), (.System_SquareIntersection, .SquareIntersection),
  (.System_TensorWedge, .TensorWedge), (.System_TensorProduct, .TensorProduct),
  (.System_Cross, .Cross), (.System_SmallCircle, .SmallCircle), (.System_Divisible, .Divisible),
  (.System_VerticalSeparator, .VerticalSeparator), (.System_Backslash, .Backslash),
  (.System_Diamond, .Diamond), (.System_Wedge, .Wedge), (.System_Vee, .Vee),
  (.System_CircleTimes, .CircleTimes), (.System_Star, .Star),
  (.System_VerticalTilde, .VerticalTilde), (.System_Coproduct, .Coproduct), (.System_Cap, .Cap),
  (.System_Cup, .Cup), (.System_CirclePlus, .CirclePlus), (.System_VerticalBar, .VerticalBar),
  (.System_DoubleVerticalBar, .DoubleVerticalBar), (.System_NotVerticalBar, .NotVerticalBar),
  (.System_NotDoubleVerticalBar, .NotDoubleVerticalBar), (.System_LeftTriangle, .LeftTriangle),
  (.System_RightTriangle, .RightTriangle), (.System_NotLeftTriangle, .NotLeftTriangle),
  (.System_NotRightTriangle, .NotRightTriangle), (.System_LeftTriangleEqual, .LeftTriangleEqual),
  (.System_RightTriangleEqual, .RightTriangleEqual),
  (.System_NotLeftTriangleEqual, .NotLeftTriangleEqual),
  (.System_NotRightTriangleEqual, .NotRightTriangleEqual),
  (.System_LeftTriangleBar, .LeftTriangleBar), (.System_RightTriangleBar, .RightTriangleBar),
  (.System_NotLeftTriangleBar, .NotLeftTriangleBar),
  (.System_NotRightTriangleBar, .NotRightTriangleBar), (.System_TildeEqual, .TildeEqual),
  (.System_NotTildeEqual, .NotTildeEqual), (.System_TildeFullEqual, .TildeFullEqual),
  (.System_NotTildeFullEqual, .NotTildeFullEqual), (.System_Tilde, .Tilde),
  (.System_NotTilde, .NotTilde), (.System_EqualTilde, .EqualTilde),
  (.System_NotEqualTilde, .NotEqualTilde), (.System_TildeTilde, .TildeTilde),
  (.System_NotTildeTilde, .NotTildeTilde), (.System_Proportional, .Proportional),
  (.System_Proportion, .Proportion), (.System_Congruent, .Congruent),
  (.System_NotCongruent, .NotCongruent), (.System_Equilibrium, .Equilibrium),
  (.System_ReverseEquilibrium, .ReverseEquilibrium), (.System_DotEqual, .DotEqual),
  (.System_Precedes, .Precedes), (.System_Succeeds, .Succeeds),
  (.System_PrecedesEqual, .PrecedesEqual), (.System_SucceedsEqual, .SucceedsEqual),
  (.System_PrecedesTilde, .PrecedesTilde), (.System_SucceedsTilde, .SucceedsTilde),
  (.System_PrecedesSlantEqual, .PrecedesSlantEqual),
  (.System_SucceedsSlantEqual, .SucceedsSlantEqual), (.System_NotPrecedes, .NotPrecedes),
  (.System_NotSucceeds, .NotSucceeds), (.System_NotPrecedesEqual, .NotPrecedesEqual),
  (.System_NotSucceedsEqual, .NotSucceedsEqual), (.System_NotPrecedesTilde, .NotPrecedesTilde),
  (.System_NotSucceedsTilde, .NotSucceedsTilde),
  (.System_NotPrecedesSlantEqual, .NotPrecedesSlantEqual),
  (.System_NotSucceedsSlantEqual, .NotSucceedsSlantEqual), (.System_CupCap, .CupCap),
  (.System_NotCupCap, .NotCupCap), (.System_HumpEqual, .HumpEqual),
  (.System_HumpDownHump, .HumpDownHump), (.System_NotHumpEqual, .NotHumpEqual),
  (.System_NotHumpDownHump, .NotHumpDownHump),
  (.CodeParser_InfixInequality, .CodeParser_InfixInequality),
  (.System_PermutationProduct, .PermutationProduct), (.System_Colon, .Colon), (.System_Xnor, .Xnor)]

/-- `InfixOperator::try_from_symbol`, parse/operators.rs:660-862: the first arm that matches. -/
def InfixOp.ofSymbol (s : Sym) : _root_.Option InfixOp := InfixOp.arms.lookup s

/-- `PrefixOperator`, parse/operators.rs:240-276. -/
inductive PrefixOp where
  | Information | Get | Minus | Plus | Not | PreIncrement | PreDecrement | CodeParser_PrefixNot2
  | PlusMinus | Sum | Sqrt | MinusPlus | DifferentialD | CapitalDifferentialD | Del | Square
  | Product | ContinuedFractionK | CircleTimes | ForAll | Exists | NotExists | Coproduct
  | Piecewise | InvisiblePrefixScriptBase | ExpectationE | CubeRoot | ProbabilityPr
  | CodeParser_PrefixLinearSyntaxBang | Integral | ContourIntegral | DoubleContourIntegral
  | ClockwiseContourIntegral | CounterClockwiseContourIntegral
deriving DecidableEq, Repr, Inhabited

/-- `PrefixOperator::to_symbol`, parse/operators.rs:866-903. -/
def PrefixOp.toSymbol : PrefixOp → Sym
  | .Information => .System_Information
  | .Get => .System_Get
  | .Minus => .System_Minus
  | .Plus => .System_Plus
  | .Not => .System_Not
  | .PreIncrement => .System_PreIncrement
  | .PreDecrement => .System_PreDecrement
  | .CodeParser_PrefixNot2 => .CodeParser_PrefixNot2
  | .PlusMinus => .System_PlusMinus
  | .Sum => .System_Sum
  | .Sqrt => .System_Sqrt
  | .MinusPlus => .System_MinusPlus
  | .DifferentialD => .System_DifferentialD
  | .CapitalDifferentialD => .System_CapitalDifferentialD
  | .Del => .System_Del
  | .Square => .System_Square
  | .Product => .System_Product
  | .ContinuedFractionK => .System_ContinuedFractionK
  | .CircleTimes => .System_CircleTimes
  | .ForAll => .System_ForAll
  | .Exists => .System_Exists
  | .NotExists => .System_NotExists
  | .Coproduct => .System_Coproduct
  | .Piecewise => .System_Piecewise
  | .InvisiblePrefixScriptBase => .System_InvisiblePrefixScriptBase
  | .ExpectationE => .System_ExpectationE
  | .CubeRoot => .System_CubeRoot
  | .ProbabilityPr => .System_ProbabilityPr
  | .CodeParser_PrefixLinearSyntaxBang => .CodeParser_PrefixLinearSyntaxBang
  | .Integral => .System_Integral
  | .ContourIntegral => .System_ContourIntegral
  | .DoubleContourIntegral => .System_DoubleContourIntegral
  | .ClockwiseContourIntegral => .System_ClockwiseContourIntegral
  | .CounterClockwiseContourIntegral => .System_CounterClockwiseContourIntegral

/-- The arms of `PrefixOperator::try_from_symbol`, parse/operators.rs:905-946, in order. -/
def PrefixOp.arms : _root_.List (Sym × PrefixOp) := [
  (.System_Information, .Information), (.System_Get, .Get), (.System_Minus, .Minus),
  (.System_Plus, .Plus), (.System_Not, .Not), (.System_PreIncrement, .PreIncrement),
  (.System_PreDecrement, .PreDecrement), (.CodeParser_PrefixNot2, .CodeParser_PrefixNot2),
  (.System_PlusMinus, .PlusMinus), (.System_Sum, .Sum), (.System_Sqrt, .Sqrt),
  (.System_MinusPlus, .MinusPlus), (.System_DifferentialD, .DifferentialD),
  (.System_CapitalDifferentialD, .CapitalDifferentialD), (.System_Del, .Del),
  (.System_Square, .Square), (.System_Product, .Product),
  (.System_ContinuedFractionK, .ContinuedFractionK), (.System_CircleTimes, .CircleTimes),
  (.System_ForAll, .ForAll), (.System_Exists, .Exists), (.System_NotExists, .NotExists),
  (.System_Coproduct, .Coproduct), (.System_Piecewise, .Piecewise),
  (.System_InvisiblePrefixScriptBase, .InvisiblePrefixScriptBase),
  (.System_ExpectationE, .ExpectationE), (.System_CubeRoot, .CubeRoot),
  (.System_ProbabilityPr, .ProbabilityPr),
  (.CodeParser_PrefixLinearSyntaxBang, .CodeParser_PrefixLinearSyntaxBang),
  (.System_Integral, .Integral), (.System_ContourIntegral, .ContourIntegral),
  (.System_DoubleContourIntegral, .DoubleContourIntegral),
  (.System_ClockwiseContourIntegral, .ClockwiseContourIntegral),
  (.System_CounterClockwiseContourIntegral, .CounterClockwiseContourIntegral)]

/-- `PrefixOperator::try_from_symbol`, parse/operators.rs:905-946: the first arm that matches. -/
def PrefixOp.ofSymbol (s : Sym) : _root_.Option PrefixOp := PrefixOp.arms.lookup s

/-- `PostfixOperator`, parse/operators.rs:280-294. -/
inductive PostfixOp where
  | Function | Repeated | Factorial | Decrement | Increment | RepeatedNull | Factorial2
  | Derivative | Transpose | Conjugate | ConjugateTranspose | HermitianConjugate
  | InvisiblePostfixScriptBase
deriving DecidableEq, Repr, Inhabited

/-- `PostfixOperator::to_symbol`, parse/operators.rs:950-966. -/
def PostfixOp.toSymbol : PostfixOp → Sym
  | .Function => .System_Function
  | .Repeated => .System_Repeated
  | .Factorial => .System_Factorial
  | .Decrement => .System_Decrement
  | .Increment => .System_Increment
  | .RepeatedNull => .System_RepeatedNull
  | .Factorial2 => .System_Factorial2
  | .Derivative => .System_Derivative
  | .Transpose => .System_Transpose
  | .Conjugate => .System_Conjugate
  | .ConjugateTranspose => .System_ConjugateTranspose
  | .HermitianConjugate => .System_HermitianConjugate
  | .InvisiblePostfixScriptBase => .System_InvisiblePostfixScriptBase

/-- The arms of `PostfixOperator::try_from_symbol`, parse/operators.rs:968-988, in order. -/
def PostfixOp.arms : _root_.List (Sym × PostfixOp) := [
  (.System_Function, .Function), (.System_Repeated, .Repeated), (.System_Factorial, .Factorial),
  (.System_Decrement, .Decrement), (.System_Increment, .Increment),
  (.System_RepeatedNull, .RepeatedNull), (.System_Factorial2, .Factorial2),
  (.System_Derivative, .Derivative), (.System_Transpose, .Transpose),
  (.System_Conjugate, .Conjugate), (.System_ConjugateTranspose, .ConjugateTranspose),
  (.System_HermitianConjugate, .HermitianConjugate),
  (.System_InvisiblePostfixScriptBase, .InvisiblePostfixScriptBase)]

/-- `PostfixOperator::try_from_symbol`, parse/operators.rs:968-988: the first arm that matches. -/
def PostfixOp.ofSymbol (s : Sym) : _root_.Option PostfixOp := PostfixOp.arms.lookup s

/-- `BinaryOperator`, parse/operators.rs:298-348. -/
inductive BinaryOp where
  | Pattern | Optional | Set | SetDelayed | Unset | Put | PutAppend | Span | Divide | Power | UpSet
  | UpSetDelayed | Map | Rule | Apply | Condition | ReplaceAll | RuleDelayed | ReplaceRepeated
  | AddTo | TimesBy | SubtractFrom | DivideBy | TwoWayRule | MapAll | CodeParser_BinaryAt
  | MapApply | CodeParser_BinarySlashSlash | PatternTest | Function | ApplyTo | Implies
  | RoundImplies | PlusMinus | DirectedEdge | UndirectedEdge | MinusPlus | CircleMinus | SuchThat
  | Perpendicular | Because | Therefore | RightTee | LeftTee | DoubleRightTee | DoubleLeftTee
  | UpTee | DownTee | Application
deriving DecidableEq, Repr, Inhabited

/-- `BinaryOperator::to_symbol`, parse/operators.rs:992-1044. -/
def BinaryOp.toSymbol : BinaryOp → Sym
  | .Pattern => .System_Pattern
  | .Optional => .System_Optional
  | .Set => .System_Set
  | .SetDelayed => .System_SetDelayed
  | .Unset => .System_Unset
  | .Put => .System_Put
  | .PutAppend => .System_PutAppend
  | .Span => .System_Span
  | .Divide => .System_Divide
  | .Power => .System_Power
  | .UpSet => .System_UpSet
  | .UpSetDelayed => .System_UpSetDelayed
  | .Map => .System_Map
  | .Rule => .System_Rule
  | .Apply => .System_Apply
  | .Condition => .System_Condition
  | .ReplaceAll => .System_ReplaceAll
  | .RuleDelayed => .System_RuleDelayed
  | .ReplaceRepeated => .System_ReplaceRepeated
  | .AddTo => .System_AddTo
  | .TimesBy => .System_TimesBy
  | .SubtractFrom => .System_SubtractFrom
  | .DivideBy => .System_DivideBy
  | .TwoWayRule => .System_TwoWayRule
  | .MapAll => .System_MapAll
  | .CodeParser_BinaryAt => .CodeParser_BinaryAt
  | .MapApply => .System_MapApply
  | .CodeParser_BinarySlashSlash => .CodeParser_BinarySlashSlash
  | .PatternTest => .System_PatternTest
  | .Function => .System_Function
  | .ApplyTo => .System_ApplyTo
  | .Implies => .System_Implies
  | .RoundImplies => .System_RoundImplies
  | .PlusMinus => .System_PlusMinus
  | .DirectedEdge => .System_DirectedEdge
  | .UndirectedEdge => .System_UndirectedEdge
  | .MinusPlus => .System_MinusPlus
  | .CircleMinus => .System_CircleMinus
  | .SuchThat => .System_SuchThat
  | .Perpendicular => .System_Perpendicular
  | .Because => .System_Because
  | .Therefore => .System_Therefore
  | .RightTee => .System_RightTee
  | .LeftTee => .System_LeftTee
  | .DoubleRightTee => .System_DoubleRightTee
  | .DoubleLeftTee => .System_DoubleLeftTee
  | .UpTee => .System_UpTee
  | .DownTee => .System_DownTee
  | .Application => .System_Application

/-- The arms of `BinaryOperator::try_from_symbol`, parse/operators.rs:1046-1102, in order. -/
def BinaryOp.arms : _root_.List (Sym × BinaryOp) := [
  (.System_Pattern, .Pattern), (.System_Optional, .Optional), (.System_Set, .Set),
  (.System_SetDelayed, .SetDelayed), (.System_Unset, .Unset), (.System_Put, .Put),
  (.System_PutAppend, .PutAppend), (.System_Span, .Span), (.System_Divide, .Divide),
  (.System_Power, .Power), (.System_UpSet, .UpSet), (.System_UpSetDelayed, .UpSetDelayed),
  (.System_Map, .Map), (.System_Rule, .Rule), (.System_Apply, .Apply),
  (.System_Condition, .Condition), (.System_ReplaceAll, .ReplaceAll),
  (.System_RuleDelayed, .RuleDelayed), (.System_ReplaceRepeated, .ReplaceRepeated),
  (.System_AddTo, .AddTo), (.System_TimesBy, .TimesBy), (.System_SubtractFrom, .SubtractFrom),
  (.System_DivideBy, .DivideBy), (.System_TwoWayRule, .TwoWayRule), (.System_MapAll, .MapAll),
  (.CodeParser_BinaryAt, .CodeParser_BinaryAt), (.System_MapApply, .MapApply),
  (.CodeParser_BinarySlashSlash, .CodeParser_BinarySlashSlash),
  (.System_PatternTest, .PatternTest), (.System_Function, .Function), (.System_ApplyTo, .ApplyTo),
  (.System_Implies, .Implies), (.System_RoundImplies, .RoundImplies),
  (.System_PlusMinus, .PlusMinus), (.System_DirectedEdge, .DirectedEdge),
  (.System_UndirectedEdge, .UndirectedEdge), (.System_MinusPlus, .MinusPlus),
  (.System_CircleMinus, .CircleMinus), (.System_SuchThat, .SuchThat),
  (.System_Perpendicular, .Perpendicular), (.System_Because, .Because),
  (.System_Therefore, .Therefore), (.System_RightTee, .RightTee), (.System_LeftTee, .LeftTee),
  (.System_DoubleRightTee, .DoubleRightTee), (.System_DoubleLeftTee, .DoubleLeftTee),
  (.System_UpTee, .UpTee), (.System_DownTee, .DownTee), (.System_Application, .Application)]

/-- `BinaryOperator::try_from_symbol`, parse/operators.rs:1046-1102: the first arm that matches. -/
def BinaryOp.ofSymbol (s : Sym) : _root_.Option BinaryOp := BinaryOp.arms.lookup s

/-- `TernaryOperator`, parse/operators.rs:352-359. -/
inductive TernaryOp where
  | CodeParser_TernaryTilde | CodeParser_TernaryOptionalPattern | TagSet | TagSetDelayed | TagUnset
  | Span
deriving DecidableEq, Repr, Inhabited

/-- `TernaryOperator::to_symbol`, parse/operators.rs:1106-1115. -/
def TernaryOp.toSymbol : TernaryOp → Sym
  | .CodeParser_TernaryTilde => .CodeParser_TernaryTilde
  | .CodeParser_TernaryOptionalPattern => .CodeParser_TernaryOptionalPattern
  | .TagSet => .System_TagSet
  | .TagSetDelayed => .System_TagSetDelayed
  | .TagUnset => .System_TagUnset
  | .Span => .System_Span

/-- The arms of `TernaryOperator::try_from_symbol`, parse/operators.rs:1117-1130, in order. -/
def TernaryOp.arms : _root_.List (Sym × TernaryOp) := [
  (.CodeParser_TernaryTilde, .CodeParser_TernaryTilde),
  (.CodeParser_TernaryOptionalPattern, .CodeParser_TernaryOptionalPattern),
  (.System_TagSet, .TagSet), (.System_TagSetDelayed, .TagSetDelayed),
  (.System_TagUnset, .TagUnset), (.System_Span, .Span)]

/-- `TernaryOperator::try_from_symbol`, parse/operators.rs:1117-1130: the first arm that matches. -/
def TernaryOp.ofSymbol (s : Sym) : _root_.Option TernaryOp := TernaryOp.arms.lookup s

/-- `PrefixBinaryOperator`, parse/operators.rs:363-369. -/
inductive PrefixBinaryOp where
  | Integrate | ContourIntegral | DoubleContourIntegral | ClockwiseContourIntegral
  | CounterClockwiseContourIntegral
deriving DecidableEq, Repr, Inhabited

/-- `PrefixBinaryOperator::to_symbol`, parse/operators.rs:1134-1142. -/
def PrefixBinaryOp.toSymbol : PrefixBinaryOp → Sym
  | .Integrate => .System_Integrate
  | .ContourIntegral => .System_ContourIntegral
  | .DoubleContourIntegral => .System_DoubleContourIntegral
  | .ClockwiseContourIntegral => .System_ClockwiseContourIntegral
  | .CounterClockwiseContourIntegral => .System_CounterClockwiseContourIntegral

/-- The arms of `PrefixBinaryOperator::try_from_symbol`, parse/operators.rs:1144-1156, in order. -/
def PrefixBinaryOp.arms : _root_.List (Sym × PrefixBinaryOp) := [
  (.System_Integrate, .Integrate), (.System_ContourIntegral, .ContourIntegral),
  (.System_DoubleContourIntegral, .DoubleContourIntegral),
  (.System_ClockwiseContourIntegral, .ClockwiseContourIntegral),
  (.System_CounterClockwiseContourIntegral, .CounterClockwiseContourIntegral)]

/-- `PrefixBinaryOperator::try_from_symbol`, parse/operators.rs:1144-1156: the first arm that matches. -/
def PrefixBinaryOp.ofSymbol (s : Sym) : _root_.Option PrefixBinaryOp := PrefixBinaryOp.arms.lookup s

/-- `CompoundOperator`, parse/operators.rs:373-384. -/
inductive CompoundOp where
  | Blank | BlankSequence | BlankNullSequence | Slot | SlotSequence | Out | CodeParser_PatternBlank
  | CodeParser_PatternBlankSequence | CodeParser_PatternBlankNullSequence
  | CodeParser_PatternOptionalDefault
deriving DecidableEq, Repr, Inhabited

/-- `CompoundOperator::to_symbol`, parse/operators.rs:1160-1173. -/
def CompoundOp.toSymbol : CompoundOp → Sym
  | .Blank => .System_Blank
  | .BlankSequence => .System_BlankSequence
  | .BlankNullSequence => .System_BlankNullSequence
  | .Slot => .System_Slot
  | .SlotSequence => .System_SlotSequence
  | .Out => .System_Out
  | .CodeParser_PatternBlank => .CodeParser_PatternBlank
  | .CodeParser_PatternBlankSequence => .CodeParser_PatternBlankSequence
  | .CodeParser_PatternBlankNullSequence => .CodeParser_PatternBlankNullSequence
  | .CodeParser_PatternOptionalDefault => .CodeParser_PatternOptionalDefault

/-- The arms of `CompoundOperator::try_from_symbol`, parse/operators.rs:1175-1192, in order. -/
def CompoundOp.arms : _root_.List (Sym × CompoundOp) := [
  (.System_Blank, .Blank), (.System_BlankSequence, .BlankSequence),
  (.System_BlankNullSequence, .BlankNullSequence), (.System_Slot, .Slot),
  (.System_SlotSequence, .SlotSequence), (.System_Out, .Out),
  (.CodeParser_PatternBlank, .CodeParser_PatternBlank),
  (.CodeParser_PatternBlankSequence, .CodeParser_PatternBlankSequence),
  (.CodeParser_PatternBlankNullSequence, .CodeParser_PatternBlankNullSequence),
  (.CodeParser_PatternOptionalDefault, .CodeParser_PatternOptionalDefault)]

/-- `CompoundOperator::try_from_symbol`, parse/operators.rs:1175-1192: the first arm that matches. -/
def CompoundOp.ofSymbol (s : Sym) : _root_.Option CompoundOp := CompoundOp.arms.lookup s

/-- `GroupOperator`, parse/operators.rs:388-405. -/
inductive GroupOp where
  | Token_Comment | CodeParser_Comment | CodeParser_GroupParen | CodeParser_GroupSquare | List
  | Association | CodeParser_GroupTypeSpecifier | AngleBracket | Ceiling | Floor
  | CodeParser_GroupDoubleBracket | BracketingBar | DoubleBracketingBar | CurlyQuote
  | CurlyDoubleQuote
deriving DecidableEq, Repr, Inhabited

/-- `GroupOperator::to_symbol`, parse/operators.rs:1196-1214. -/
def GroupOp.toSymbol : GroupOp → Sym
  | .Token_Comment => .Token_Comment
  | .CodeParser_Comment => .CodeParser_Comment
  | .CodeParser_GroupParen => .CodeParser_GroupParen
  | .CodeParser_GroupSquare => .CodeParser_GroupSquare
  | .List => .System_List
  | .Association => .System_Association
  | .CodeParser_GroupTypeSpecifier => .CodeParser_GroupTypeSpecifier
  | .AngleBracket => .System_AngleBracket
  | .Ceiling => .System_Ceiling
  | .Floor => .System_Floor
  | .CodeParser_GroupDoubleBracket => .CodeParser_GroupDoubleBracket
  | .BracketingBar => .System_BracketingBar
  | .DoubleBracketingBar => .System_DoubleBracketingBar
  | .CurlyQuote => .System_CurlyQuote
  | .CurlyDoubleQuote => .System_CurlyDoubleQuote

/-- The arms of `GroupOperator::try_from_symbol`, parse/operators.rs:1216-1238, in order. -/
def GroupOp.arms : _root_.List (Sym × GroupOp) := [
  (.Token_Comment, .Token_Comment), (.CodeParser_Comment, .CodeParser_Comment),
  (.CodeParser_GroupParen, .CodeParser_GroupParen),
  (.CodeParser_GroupSquare, .CodeParser_GroupSquare), (.System_List, .List),
  (.System_Association, .Association),
  (.CodeParser_GroupTypeSpecifier, .CodeParser_GroupTypeSpecifier),
  (.System_AngleBracket, .AngleBracket), (.System_Ceiling, .Ceiling), (.System_Floor, .Floor),
  (.CodeParser_GroupDoubleBracket, .CodeParser_GroupDoubleBracket),
  (.System_BracketingBar, .BracketingBar), (.System_DoubleBracketingBar, .DoubleBracketingBar),
  (.System_CurlyQuote, .CurlyQuote), (.System_CurlyDoubleQuote, .CurlyDoubleQuote)]

/-- `GroupOperator::try_from_symbol`, parse/operators.rs:1216-1238: the first arm that matches. -/
def GroupOp.ofSymbol (s : Sym) : _root_.Option GroupOp := GroupOp.arms.lookup s

/-- `CallOperator`, parse/operators.rs:409-413. -/
inductive CallOp where
  | CodeParser_GroupSquare | CodeParser_GroupDoubleBracket | CodeParser_GroupTypeSpecifier
deriving DecidableEq, Repr, Inhabited

/-- `CallOperator::to_symbol`, parse/operators.rs:1242-1248. -/
def CallOp.toSymbol : CallOp → Sym
  | .CodeParser_GroupSquare => .CodeParser_GroupSquare
  | .CodeParser_GroupDoubleBracket => .CodeParser_GroupDoubleBracket
  | .CodeParser_GroupTypeSpecifier => .CodeParser_GroupTypeSpecifier

/-- The arms of `CallOperator::try_from_symbol`, parse/operators.rs:1250-1260, in order. -/
def CallOp.arms : _root_.List (Sym × CallOp) := [
  (.CodeParser_GroupSquare, .CodeParser_GroupSquare),
  (.CodeParser_GroupDoubleBracket, .CodeParser_GroupDoubleBracket),
  (.CodeParser_GroupTypeSpecifier, .CodeParser_GroupTypeSpecifier)]

/-- `CallOperator::try_from_symbol`, parse/operators.rs:1250-1260: the first arm that matches. -/
def CallOp.ofSymbol (s : Sym) : _root_.Option CallOp := CallOp.arms.lookup s

/-- `TokenKind::to_symbol`, tokenize/token_kind.rs:295-301 with `token_to_symbol!` (307-331). -/
def TK.toSymbol : TK → Sym
  | .Unknown => .Token_Unknown
  | .EndOfFile => .System_EndOfFile
  | .Symbol => .System_Symbol
  | .String => .System_String
  | .Integer => .System_Integer
  | .Real => .System_Real
  | .Rational => .System_Rational
  | .LinearSyntaxBlob => .Token_LinearSyntaxBlob
  | .InternalNewline => .Token_Newline
  | .Comment => .Token_Comment
  | .Whitespace => .System_Whitespace
  | .Buffer1 => .Token_Buffer1
  | .ToplevelNewline => .Token_Newline
  | .Buffer2 => .Token_Buffer2
  | .Buffer3 => .Token_Buffer3
  | .Buffer4 => .Token_Buffer4
  | .Error_ExpectedEqual => .Token_Error_ExpectedEqual
  | .Error_Number => .Token_Error_Number
  | .Error_UnhandledCharacter => .Token_Error_UnhandledCharacter
  | .Error_ExpectedLetterlike => .Token_Error_ExpectedLetterlike
  | .Error_Aborted => .Token_Error_Aborted
  | .Error_ExpectedOperand => .Token_Error_ExpectedOperand
  | .Error_ExpectedTag => .Token_Error_ExpectedTag
  | .Error_ExpectedFile => .Token_Error_ExpectedFile
  | .Error_UnexpectedCloser => .Token_Error_UnexpectedCloser
  | .Error_PrefixImplicitNull => .Token_Error_PrefixImplicitNull
  | .Error_InfixImplicitNull => .Token_Error_InfixImplicitNull
  | .Error_UnsafeCharacterEncoding => .Token_Error_UnsafeCharacterEncoding
  | .Error_UnterminatedComment => .Token_Error_UnterminatedComment
  | .Error_UnterminatedString => .Token_Error_UnterminatedString
  | .Error_UnterminatedFileString => .Token_Error_UnterminatedFileString
  | .Error_UnterminatedLinearSyntaxBlob => .Token_Error_UnterminatedLinearSyntaxBlob
  | .Error_UnsupportedToken => .Token_Error_UnsupportedToken
  | .Error_UnexpectedCommentCloser => .Token_Error_UnexpectedCommentCloser
  | .Dot => .Token_Dot
  | .Colon => .Token_Colon
  | .OpenParen => .Token_OpenParen
  | .CloseParen => .Token_CloseParen
  | .OpenSquare => .Token_OpenSquare
  | .CloseSquare => .Token_CloseSquare
  | .Comma => .Token_Comma
  | .OpenCurly => .Token_OpenCurly
  | .CloseCurly => .Token_CloseCurly
  | .Equal => .Token_Equal
  | .Bang => .Token_Bang
  | .Under => .Token_Under
  | .Less => .Token_Less
  | .Greater => .Token_Greater
  | .Minus => .Token_Minus
  | .Bar => .Token_Bar
  | .Semi => .Token_Semi
  | .Hash => .Token_Hash
  | .Amp => .Token_Amp
  | .Slash => .Token_Slash
  | .At => .Token_At
  | .Plus => .Token_Plus
  | .Tilde => .Token_Tilde
  | .Star => .Token_Star
  | .Caret => .Token_Caret
  | .SingleQuote => .Token_SingleQuote
  | .Percent => .Token_Percent
  | .Question => .Token_Question
  | .DotDot => .Token_DotDot
  | .ColonColon => .Token_ColonColon
  | .ColonEqual => .Token_ColonEqual
  | .ColonGreater => .Token_ColonGreater
  | .EqualEqual => .Token_EqualEqual
  | .UnderUnder => .Token_UnderUnder
  | .UnderDot => .Token_UnderDot
  | .LessBar => .Token_LessBar
  | .LessLess => .Token_LessLess
  | .LessGreater => .Token_LessGreater
  | .LessEqual => .Token_LessEqual
  | .GreaterGreater => .Token_GreaterGreater
  | .GreaterEqual => .Token_GreaterEqual
  | .MinusGreater => .Token_MinusGreater
  | .MinusMinus => .Token_MinusMinus
  | .MinusEqual => .Token_MinusEqual
  | .BarBar => .Token_BarBar
  | .BarGreater => .Token_BarGreater
  | .SemiSemi => .Token_SemiSemi
  | .AmpAmp => .Token_AmpAmp
  | .SlashAt => .Token_SlashAt
  | .SlashSemi => .Token_SlashSemi
  | .SlashDot => .Token_SlashDot
  | .SlashSlash => .Token_SlashSlash
  | .SlashColon => .Token_SlashColon
  | .SlashEqual => .Token_SlashEqual
  | .SlashStar => .Token_SlashStar
  | .AtAt => .Token_AtAt
  | .AtStar => .Token_AtStar
  | .PlusPlus => .Token_PlusPlus
  | .PlusEqual => .Token_PlusEqual
  | .TildeTilde => .Token_TildeTilde
  | .StarEqual => .Token_StarEqual
  | .StarStar => .Token_StarStar
  | .CaretEqual => .Token_CaretEqual
  | .HashHash => .Token_HashHash
  | .BangEqual => .Token_BangEqual
  | .BangBang => .Token_BangBang
  | .QuestionQuestion => .Token_QuestionQuestion
  | .DotDotDot => .Token_DotDotDot
  | .EqualEqualEqual => .Token_EqualEqualEqual
  | .EqualBangEqual => .Token_EqualBangEqual
  | .UnderUnderUnder => .Token_UnderUnderUnder
  | .SlashSlashDot => .Token_SlashSlashDot
  | .AtAtAt => .Token_AtAtAt
  | .LessMinusGreater => .Token_LessMinusGreater
  | .SlashSlashAt => .Token_SlashSlashAt
  | .CaretColonEqual => .Token_CaretColonEqual
  | .GreaterGreaterGreater => .Token_GreaterGreaterGreater
  | .BarMinusGreater => .Token_BarMinusGreater
  | .SlashSlashEqual => .Token_SlashSlashEqual
  | .ColonColonOpenSquare => .Token_ColonColonOpenSquare
  | .PercentPercent => .Token_PercentPercent
  | .LinearSyntax_Bang => .Token_LinearSyntax_Bang
  | .LinearSyntax_CloseParen => .Token_LinearSyntax_CloseParen
  | .LinearSyntax_At => .Token_LinearSyntax_At
  | .LinearSyntax_Amp => .Token_LinearSyntax_Amp
  | .LinearSyntax_Star => .Token_LinearSyntax_Star
  | .LinearSyntax_Under => .Token_LinearSyntax_Under
  | .LinearSyntax_Caret => .Token_LinearSyntax_Caret
  | .LinearSyntax_Space => .Token_LinearSyntax_Space
  | .LinearSyntax_Percent => .Token_LinearSyntax_Percent
  | .LinearSyntax_Plus => .Token_LinearSyntax_Plus
  | .LinearSyntax_Slash => .Token_LinearSyntax_Slash
  | .LinearSyntax_BackTick => .Token_LinearSyntax_BackTick
  | .Fake_ImplicitTimes => .Token_Fake_ImplicitTimes
  | .Fake_ImplicitNull => .Token_Fake_ImplicitNull
  | .Fake_ImplicitOne => .Token_Fake_ImplicitOne
  | .Fake_ImplicitAll => .Token_Fake_ImplicitAll
  | .Boxes_OpenParenStar => .Token_Boxes_OpenParenStar
  | .Boxes_StarCloseParen => .Token_Boxes_StarCloseParen
  | .Boxes_MultiSingleQuote => .Token_Boxes_MultiSingleQuote
  | .Boxes_MultiWhitespace => .Token_Boxes_MultiWhitespace
  | .LongName_Not => .Token_LongName_Not
  | .LongName_PlusMinus => .Token_LongName_PlusMinus
  | .LongName_CenterDot => .Token_LongName_CenterDot
  | .LongName_Times => .Token_LongName_Times
  | .LongName_Divide => .Token_LongName_Divide
  | .LongName_OpenCurlyQuote => .Token_LongName_OpenCurlyQuote
  | .LongName_CloseCurlyQuote => .Token_LongName_CloseCurlyQuote
  | .LongName_OpenCurlyDoubleQuote => .Token_LongName_OpenCurlyDoubleQuote
  | .LongName_CloseCurlyDoubleQuote => .Token_LongName_CloseCurlyDoubleQuote
  | .LongName_InvisibleTimes => .Token_LongName_InvisibleTimes
  | .LongName_LeftArrow => .Token_LongName_LeftArrow
  | .LongName_UpArrow => .Token_LongName_UpArrow
  | .LongName_RightArrow => .Token_LongName_RightArrow
  | .LongName_DownArrow => .Token_LongName_DownArrow
  | .LongName_LeftRightArrow => .Token_LongName_LeftRightArrow
  | .LongName_UpDownArrow => .Token_LongName_UpDownArrow
  | .LongName_UpperLeftArrow => .Token_LongName_UpperLeftArrow
  | .LongName_UpperRightArrow => .Token_LongName_UpperRightArrow
  | .LongName_LowerRightArrow => .Token_LongName_LowerRightArrow
  | .LongName_LowerLeftArrow => .Token_LongName_LowerLeftArrow
  | .LongName_LeftTeeArrow => .Token_LongName_LeftTeeArrow
  | .LongName_UpTeeArrow => .Token_LongName_UpTeeArrow
  | .LongName_RightTeeArrow => .Token_LongName_RightTeeArrow
  | .LongName_DownTeeArrow => .Token_LongName_DownTeeArrow
  | .LongName_LeftVector => .Token_LongName_LeftVector
  | .LongName_DownLeftVector => .Token_LongName_DownLeftVector
  | .LongName_RightUpVector => .Token_LongName_RightUpVector
  | .LongName_LeftUpVector => .Token_LongName_LeftUpVector
  | .LongName_RightVector => .Token_LongName_RightVector
  | .LongName_DownRightVector => .Token_LongName_DownRightVector
  | .LongName_RightDownVector => .Token_LongName_RightDownVector
  | .LongName_LeftDownVector => .Token_LongName_LeftDownVector
  | .LongName_RightArrowLeftArrow => .Token_LongName_RightArrowLeftArrow
  | .LongName_UpArrowDownArrow => .Token_LongName_UpArrowDownArrow
  | .LongName_LeftArrowRightArrow => .Token_LongName_LeftArrowRightArrow
  | .LongName_ReverseEquilibrium => .Token_LongName_ReverseEquilibrium
  | .LongName_Equilibrium => .Token_LongName_Equilibrium
  | .LongName_DoubleLeftArrow => .Token_LongName_DoubleLeftArrow
  | .LongName_DoubleUpArrow => .Token_LongName_DoubleUpArrow
  | .LongName_DoubleRightArrow => .Token_LongName_DoubleRightArrow
  | .LongName_DoubleDownArrow => .Token_LongName_DoubleDownArrow
  | .LongName_DoubleLeftRightArrow => .Token_LongName_DoubleLeftRightArrow
  | .LongName_DoubleUpDownArrow => .Token_LongName_DoubleUpDownArrow
  | .LongName_LeftArrowBar => .Token_LongName_LeftArrowBar
  | .LongName_RightArrowBar => .Token_LongName_RightArrowBar
  | .LongName_DownArrowUpArrow => .Token_LongName_DownArrowUpArrow
  | .LongName_ForAll => .Token_LongName_ForAll
  | .LongName_PartialD => .Token_LongName_PartialD
  | .LongName_Exists => .Token_LongName_Exists
  | .LongName_NotExists => .Token_LongName_NotExists
  | .LongName_Del => .Token_LongName_Del
  | .LongName_Element => .Token_LongName_Element
  | .LongName_NotElement => .Token_LongName_NotElement
  | .LongName_ReverseElement => .Token_LongName_ReverseElement
  | .LongName_NotReverseElement => .Token_LongName_NotReverseElement
  | .LongName_SuchThat => .Token_LongName_SuchThat
  | .LongName_Product => .Token_LongName_Product
  | .LongName_Coproduct => .Token_LongName_Coproduct
  | .LongName_Sum => .Token_LongName_Sum
  | .LongName_Minus => .Token_LongName_Minus
  | .LongName_MinusPlus => .Token_LongName_MinusPlus
  | .LongName_DivisionSlash => .Token_LongName_DivisionSlash
  | .LongName_Backslash => .Token_LongName_Backslash
  | .LongName_SmallCircle => .Token_LongName_SmallCircle
  | .LongName_Sqrt => .Token_LongName_Sqrt
  | .LongName_CubeRoot => .Token_LongName_CubeRoot
  | .LongName_Proportional => .Token_LongName_Proportional
  | .LongName_Divides => .Token_LongName_Divides
  | .LongName_DoubleVerticalBar => .Token_LongName_DoubleVerticalBar
  | .LongName_NotDoubleVerticalBar => .Token_LongName_NotDoubleVerticalBar
  | .LongName_And => .Token_LongName_And
  | .LongName_Or => .Token_LongName_Or
  | .LongName_Integral => .Token_LongName_Integral
  | .LongName_ContourIntegral => .Token_LongName_ContourIntegral
  | .LongName_DoubleContourIntegral => .Token_LongName_DoubleContourIntegral
  | .LongName_ClockwiseContourIntegral => .Token_LongName_ClockwiseContourIntegral
  | .LongName_CounterClockwiseContourIntegral => .Token_LongName_CounterClockwiseContourIntegral
  | .LongName_Therefore => .Token_LongName_Therefore
  | .LongName_Because => .Token_LongName_Because
  | .LongName_Colon => .Token_LongName_Colon
  | .LongName_Proportion => .Token_LongName_Proportion
  | .LongName_Tilde => .Token_LongName_Tilde
  | .LongName_VerticalTilde => .Token_LongName_VerticalTilde
  | .LongName_NotTilde => .Token_LongName_NotTilde
  | .LongName_EqualTilde => .Token_LongName_EqualTilde
  | .LongName_TildeEqual => .Token_LongName_TildeEqual
  | .LongName_NotTildeEqual => .Token_LongName_NotTildeEqual
  | .LongName_TildeFullEqual => .Token_LongName_TildeFullEqual
  | .LongName_NotTildeFullEqual => .Token_LongName_NotTildeFullEqual
  | .LongName_TildeTilde => .Token_LongName_TildeTilde
  | .LongName_NotTildeTilde => .Token_LongName_NotTildeTilde
  | .LongName_CupCap => .Token_LongName_CupCap
  | .LongName_HumpDownHump => .Token_LongName_HumpDownHump
  | .LongName_HumpEqual => .Token_LongName_HumpEqual
  | .LongName_DotEqual => .Token_LongName_DotEqual
  | .LongName_NotEqual => .Token_LongName_NotEqual
  | .LongName_Congruent => .Token_LongName_Congruent
  | .LongName_NotCongruent => .Token_LongName_NotCongruent
  | .LongName_LessEqual => .Token_LongName_LessEqual
  | .LongName_GreaterEqual => .Token_LongName_GreaterEqual
  | .LongName_LessFullEqual => .Token_LongName_LessFullEqual
  | .LongName_GreaterFullEqual => .Token_LongName_GreaterFullEqual
  | .LongName_NotLessFullEqual => .Token_LongName_NotLessFullEqual
  | .LongName_NotGreaterFullEqual => .Token_LongName_NotGreaterFullEqual
  | .LongName_LessLess => .Token_LongName_LessLess
  | .LongName_GreaterGreater => .Token_LongName_GreaterGreater
  | .LongName_NotCupCap => .Token_LongName_NotCupCap
  | .LongName_NotLess => .Token_LongName_NotLess
  | .LongName_NotGreater => .Token_LongName_NotGreater
  | .LongName_NotLessEqual => .Token_LongName_NotLessEqual
  | .LongName_NotGreaterEqual => .Token_LongName_NotGreaterEqual
  | .LongName_LessTilde => .Token_LongName_LessTilde
  | .LongName_GreaterTilde => .Token_LongName_GreaterTilde
  | .LongName_NotLessTilde => .Token_LongName_NotLessTilde
  | .LongName_NotGreaterTilde => .Token_LongName_NotGreaterTilde
  | .LongName_LessGreater => .Token_LongName_LessGreater
  | .LongName_GreaterLess => .Token_LongName_GreaterLess
  | .LongName_NotLessGreater => .Token_LongName_NotLessGreater
  | .LongName_NotGreaterLess => .Token_LongName_NotGreaterLess
  | .LongName_Precedes => .Token_LongName_Precedes
  | .LongName_Succeeds => .Token_LongName_Succeeds
  | .LongName_PrecedesSlantEqual => .Token_LongName_PrecedesSlantEqual
  | .LongName_SucceedsSlantEqual => .Token_LongName_SucceedsSlantEqual
  | .LongName_PrecedesTilde => .Token_LongName_PrecedesTilde
  | .LongName_SucceedsTilde => .Token_LongName_SucceedsTilde
  | .LongName_NotPrecedes => .Token_LongName_NotPrecedes
  | .LongName_NotSucceeds => .Token_LongName_NotSucceeds
  | .LongName_Subset => .Token_LongName_Subset
  | .LongName_Superset => .Token_LongName_Superset
  | .LongName_NotSubset => .Token_LongName_NotSubset
  | .LongName_NotSuperset => .Token_LongName_NotSuperset
  | .LongName_SubsetEqual => .Token_LongName_SubsetEqual
  | .LongName_SupersetEqual => .Token_LongName_SupersetEqual
  | .LongName_NotSubsetEqual => .Token_LongName_NotSubsetEqual
  | .LongName_NotSupersetEqual => .Token_LongName_NotSupersetEqual
  | .LongName_UnionPlus => .Token_LongName_UnionPlus
  | .LongName_SquareSubset => .Token_LongName_SquareSubset
  | .LongName_SquareSuperset => .Token_LongName_SquareSuperset
  | .LongName_SquareSubsetEqual => .Token_LongName_SquareSubsetEqual
  | .LongName_SquareSupersetEqual => .Token_LongName_SquareSupersetEqual
  | .LongName_SquareIntersection => .Token_LongName_SquareIntersection
  | .LongName_SquareUnion => .Token_LongName_SquareUnion
  | .LongName_CirclePlus => .Token_LongName_CirclePlus
  | .LongName_CircleMinus => .Token_LongName_CircleMinus
  | .LongName_CircleTimes => .Token_LongName_CircleTimes
  | .LongName_CircleDot => .Token_LongName_CircleDot
  | .LongName_RightTee => .Token_LongName_RightTee
  | .LongName_LeftTee => .Token_LongName_LeftTee
  | .LongName_DownTee => .Token_LongName_DownTee
  | .LongName_UpTee => .Token_LongName_UpTee
  | .LongName_DoubleRightTee => .Token_LongName_DoubleRightTee
  | .LongName_LeftTriangle => .Token_LongName_LeftTriangle
  | .LongName_RightTriangle => .Token_LongName_RightTriangle
  | .LongName_LeftTriangleEqual => .Token_LongName_LeftTriangleEqual
  | .LongName_RightTriangleEqual => .Token_LongName_RightTriangleEqual
  | .LongName_Xor => .Token_LongName_Xor
  | .LongName_Nand => .Token_LongName_Nand
  | .LongName_Nor => .Token_LongName_Nor
  | .LongName_Wedge => .Token_LongName_Wedge
  | .LongName_Vee => .Token_LongName_Vee
  | .LongName_Intersection => .Token_LongName_Intersection
  | .LongName_Union => .Token_LongName_Union
  | .LongName_Diamond => .Token_LongName_Diamond
  | .LongName_Star => .Token_LongName_Star
  | .LongName_LessEqualGreater => .Token_LongName_LessEqualGreater
  | .LongName_GreaterEqualLess => .Token_LongName_GreaterEqualLess
  | .LongName_NotPrecedesSlantEqual => .Token_LongName_NotPrecedesSlantEqual
  | .LongName_NotSucceedsSlantEqual => .Token_LongName_NotSucceedsSlantEqual
  | .LongName_NotSquareSubsetEqual => .Token_LongName_NotSquareSubsetEqual
  | .LongName_NotSquareSupersetEqual => .Token_LongName_NotSquareSupersetEqual
  | .LongName_NotPrecedesTilde => .Token_LongName_NotPrecedesTilde
  | .LongName_NotSucceedsTilde => .Token_LongName_NotSucceedsTilde
  | .LongName_NotLeftTriangle => .Token_LongName_NotLeftTriangle
  | .LongName_NotRightTriangle => .Token_LongName_NotRightTriangle
  | .LongName_NotLeftTriangleEqual => .Token_LongName_NotLeftTriangleEqual
  | .LongName_NotRightTriangleEqual => .Token_LongName_NotRightTriangleEqual
  | .LongName_LeftCeiling => .Token_LongName_LeftCeiling
  | .LongName_RightCeiling => .Token_LongName_RightCeiling
  | .LongName_LeftFloor => .Token_LongName_LeftFloor
  | .LongName_RightFloor => .Token_LongName_RightFloor
  | .LongName_Cap => .Token_LongName_Cap
  | .LongName_Cup => .Token_LongName_Cup
  | .LongName_LeftAngleBracket => .Token_LongName_LeftAngleBracket
  | .LongName_RightAngleBracket => .Token_LongName_RightAngleBracket
  | .LongName_Perpendicular => .Token_LongName_Perpendicular
  | .LongName_LongLeftArrow => .Token_LongName_LongLeftArrow
  | .LongName_LongRightArrow => .Token_LongName_LongRightArrow
  | .LongName_LongLeftRightArrow => .Token_LongName_LongLeftRightArrow
  | .LongName_DoubleLongLeftArrow => .Token_LongName_DoubleLongLeftArrow
  | .LongName_DoubleLongRightArrow => .Token_LongName_DoubleLongRightArrow
  | .LongName_DoubleLongLeftRightArrow => .Token_LongName_DoubleLongLeftRightArrow
  | .LongName_UpArrowBar => .Token_LongName_UpArrowBar
  | .LongName_DownArrowBar => .Token_LongName_DownArrowBar
  | .LongName_LeftRightVector => .Token_LongName_LeftRightVector
  | .LongName_RightUpDownVector => .Token_LongName_RightUpDownVector
  | .LongName_DownLeftRightVector => .Token_LongName_DownLeftRightVector
  | .LongName_LeftUpDownVector => .Token_LongName_LeftUpDownVector
  | .LongName_LeftVectorBar => .Token_LongName_LeftVectorBar
  | .LongName_RightVectorBar => .Token_LongName_RightVectorBar
  | .LongName_RightUpVectorBar => .Token_LongName_RightUpVectorBar
  | .LongName_RightDownVectorBar => .Token_LongName_RightDownVectorBar
  | .LongName_DownLeftVectorBar => .Token_LongName_DownLeftVectorBar
  | .LongName_DownRightVectorBar => .Token_LongName_DownRightVectorBar
  | .LongName_LeftUpVectorBar => .Token_LongName_LeftUpVectorBar
  | .LongName_LeftDownVectorBar => .Token_LongName_LeftDownVectorBar
  | .LongName_LeftTeeVector => .Token_LongName_LeftTeeVector
  | .LongName_RightTeeVector => .Token_LongName_RightTeeVector
  | .LongName_RightUpTeeVector => .Token_LongName_RightUpTeeVector
  | .LongName_RightDownTeeVector => .Token_LongName_RightDownTeeVector
  | .LongName_DownLeftTeeVector => .Token_LongName_DownLeftTeeVector
  | .LongName_DownRightTeeVector => .Token_LongName_DownRightTeeVector
  | .LongName_LeftUpTeeVector => .Token_LongName_LeftUpTeeVector
  | .LongName_LeftDownTeeVector => .Token_LongName_LeftDownTeeVector
  | .LongName_UpEquilibrium => .Token_LongName_UpEquilibrium
  | .LongName_ReverseUpEquilibrium => .Token_LongName_ReverseUpEquilibrium
  | .LongName_RoundImplies => .Token_LongName_RoundImplies
  | .LongName_LeftTriangleBar => .Token_LongName_LeftTriangleBar
  | .LongName_RightTriangleBar => .Token_LongName_RightTriangleBar
  | .LongName_Equivalent => .Token_LongName_Equivalent
  | .LongName_LessSlantEqual => .Token_LongName_LessSlantEqual
  | .LongName_GreaterSlantEqual => .Token_LongName_GreaterSlantEqual
  | .LongName_NestedLessLess => .Token_LongName_NestedLessLess
  | .LongName_NestedGreaterGreater => .Token_LongName_NestedGreaterGreater
  | .LongName_PrecedesEqual => .Token_LongName_PrecedesEqual
  | .LongName_SucceedsEqual => .Token_LongName_SucceedsEqual
  | .LongName_DoubleLeftTee => .Token_LongName_DoubleLeftTee
  | .LongName_LeftDoubleBracket => .Token_LongName_LeftDoubleBracket
  | .LongName_RightDoubleBracket => .Token_LongName_RightDoubleBracket
  | .LongName_LeftAssociation => .Token_LongName_LeftAssociation
  | .LongName_RightAssociation => .Token_LongName_RightAssociation
  | .LongName_TwoWayRule => .Token_LongName_TwoWayRule
  | .LongName_Piecewise => .Token_LongName_Piecewise
  | .LongName_ImplicitPlus => .Token_LongName_ImplicitPlus
  | .LongName_AutoLeftMatch => .Token_LongName_AutoLeftMatch
  | .LongName_AutoRightMatch => .Token_LongName_AutoRightMatch
  | .LongName_InvisiblePrefixScriptBase => .Token_LongName_InvisiblePrefixScriptBase
  | .LongName_InvisiblePostfixScriptBase => .Token_LongName_InvisiblePostfixScriptBase
  | .LongName_Transpose => .Token_LongName_Transpose
  | .LongName_Conjugate => .Token_LongName_Conjugate
  | .LongName_ConjugateTranspose => .Token_LongName_ConjugateTranspose
  | .LongName_HermitianConjugate => .Token_LongName_HermitianConjugate
  | .LongName_VerticalBar => .Token_LongName_VerticalBar
  | .LongName_NotVerticalBar => .Token_LongName_NotVerticalBar
  | .LongName_Distributed => .Token_LongName_Distributed
  | .LongName_Conditioned => .Token_LongName_Conditioned
  | .LongName_UndirectedEdge => .Token_LongName_UndirectedEdge
  | .LongName_DirectedEdge => .Token_LongName_DirectedEdge
  | .LongName_ContinuedFractionK => .Token_LongName_ContinuedFractionK
  | .LongName_TensorProduct => .Token_LongName_TensorProduct
  | .LongName_TensorWedge => .Token_LongName_TensorWedge
  | .LongName_ProbabilityPr => .Token_LongName_ProbabilityPr
  | .LongName_ExpectationE => .Token_LongName_ExpectationE
  | .LongName_PermutationProduct => .Token_LongName_PermutationProduct
  | .LongName_NotEqualTilde => .Token_LongName_NotEqualTilde
  | .LongName_NotHumpEqual => .Token_LongName_NotHumpEqual
  | .LongName_NotHumpDownHump => .Token_LongName_NotHumpDownHump
  | .LongName_NotLeftTriangleBar => .Token_LongName_NotLeftTriangleBar
  | .LongName_NotRightTriangleBar => .Token_LongName_NotRightTriangleBar
  | .LongName_NotLessLess => .Token_LongName_NotLessLess
  | .LongName_NotNestedLessLess => .Token_LongName_NotNestedLessLess
  | .LongName_NotLessSlantEqual => .Token_LongName_NotLessSlantEqual
  | .LongName_NotGreaterGreater => .Token_LongName_NotGreaterGreater
  | .LongName_NotNestedGreaterGreater => .Token_LongName_NotNestedGreaterGreater
  | .LongName_NotGreaterSlantEqual => .Token_LongName_NotGreaterSlantEqual
  | .LongName_NotPrecedesEqual => .Token_LongName_NotPrecedesEqual
  | .LongName_NotSucceedsEqual => .Token_LongName_NotSucceedsEqual
  | .LongName_NotSquareSubset => .Token_LongName_NotSquareSubset
  | .LongName_NotSquareSuperset => .Token_LongName_NotSquareSuperset
  | .LongName_Equal => .Token_LongName_Equal
  | .LongName_VerticalSeparator => .Token_LongName_VerticalSeparator
  | .LongName_VectorGreater => .Token_LongName_VectorGreater
  | .LongName_VectorGreaterEqual => .Token_LongName_VectorGreaterEqual
  | .LongName_VectorLess => .Token_LongName_VectorLess
  | .LongName_VectorLessEqual => .Token_LongName_VectorLessEqual
  | .LongName_Limit => .Token_LongName_Limit
  | .LongName_MaxLimit => .Token_LongName_MaxLimit
  | .LongName_MinLimit => .Token_LongName_MinLimit
  | .LongName_Cross => .Token_LongName_Cross
  | .LongName_Function => .Token_LongName_Function
  | .LongName_Xnor => .Token_LongName_Xnor
  | .LongName_DiscreteShift => .Token_LongName_DiscreteShift
  | .LongName_DifferenceDelta => .Token_LongName_DifferenceDelta
  | .LongName_DiscreteRatio => .Token_LongName_DiscreteRatio
  | .LongName_RuleDelayed => .Token_LongName_RuleDelayed
  | .LongName_Square => .Token_LongName_Square
  | .LongName_Rule => .Token_LongName_Rule
  | .LongName_Implies => .Token_LongName_Implies
  | .LongName_ShortRightArrow => .Token_LongName_ShortRightArrow
  | .LongName_ShortLeftArrow => .Token_LongName_ShortLeftArrow
  | .LongName_ShortUpArrow => .Token_LongName_ShortUpArrow
  | .LongName_ShortDownArrow => .Token_LongName_ShortDownArrow
  | .LongName_Application => .Token_LongName_Application
  | .LongName_LeftBracketingBar => .Token_LongName_LeftBracketingBar
  | .LongName_RightBracketingBar => .Token_LongName_RightBracketingBar
  | .LongName_LeftDoubleBracketingBar => .Token_LongName_LeftDoubleBracketingBar
  | .LongName_RightDoubleBracketingBar => .Token_LongName_RightDoubleBracketingBar
  | .LongName_CapitalDifferentialD => .Token_LongName_CapitalDifferentialD
  | .LongName_DifferentialD => .Token_LongName_DifferentialD
  | .LongName_InvisibleComma => .Token_LongName_InvisibleComma
  | .LongName_InvisibleApplication => .Token_LongName_InvisibleApplication
  | .LongName_LongEqual => .Token_LongName_LongEqual

/-- `TokenKind::from_symbol`, tokenize/token_kind.rs:279-293: the first kind, in
declaration order, whose symbol matches. -/
def TK.fromSymbol (s : Sym) : Option TK := TK.all.find? (fun k => k.toSymbol == s)

/-- `GroupOperator::try_to_call_operator`, parse/operators.rs:423-451; `none` is the panic. -/
def GroupOp.toCall : GroupOp → Option CallOp
  | .CodeParser_GroupSquare => some .CodeParser_GroupSquare
  | .CodeParser_GroupTypeSpecifier => some .CodeParser_GroupTypeSpecifier
  | .CodeParser_GroupDoubleBracket => some .CodeParser_GroupDoubleBracket
  | _ => none

end CodeParser
