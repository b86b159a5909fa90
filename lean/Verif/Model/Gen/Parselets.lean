import Verif.Model.Gen.TokenKind
import Verif.Model.Gen.Operators

/- Generated by tools/gen_tables.py from /repo. Do not edit.
Paths are relative to /repo/crates/wolfram-parser/src. -/

namespace CodeParser

/-! `Precedence` constants, generated/precedence_values.rs:11-182.  `Option<Precedence>` is a `Nat`
with `None` as 0 (`Precedence` is a `NonZeroU8`, precedence.rs:8). -/
namespace Prec
def COMMA : Nat := 2
def LONGNAME_INVISIBLECOMMA : Nat := 2
def SEMI : Nat := 4
def GREATERGREATER : Nat := 6
def GREATERGREATERGREATER : Nat := 6
def EQUAL : Nat := 9
def COLONEQUAL : Nat := 9
def CARETEQUAL : Nat := 9
def CARETCOLONEQUAL : Nat := 9
def LONGNAME_FUNCTION : Nat := 9
def FAKE_EQUALDOT : Nat := 9
def BARMINUSGREATER : Nat := 9
def SLASHCOLON : Nat := 11
def LONGNAME_BECAUSE : Nat := 12
def LONGNAME_THEREFORE : Nat := 15
def LONGNAME_VERTICALSEPARATOR : Nat := 16
def SLASHSLASH : Nat := 18
def SLASHSLASHEQUAL : Nat := 21
def LONGNAME_COLON : Nat := 22
def AMP : Nat := 24
def PLUSEQUAL : Nat := 27
def STAREQUAL : Nat := 27
def MINUSEQUAL : Nat := 27
def SLASHEQUAL : Nat := 27
def SLASHDOT : Nat := 28
def SLASHSLASHDOT : Nat := 28
def MINUSGREATER : Nat := 31
def COLONGREATER : Nat := 31
def LONGNAME_RULE : Nat := 31
def LONGNAME_RULEDELAYED : Nat := 31
def LESSMINUSGREATER : Nat := 33
def LONGNAME_TWOWAYRULE : Nat := 33
def SLASHSEMI : Nat := 34
def TILDETILDE : Nat := 36
def FAKE_OPTIONALCOLON : Nat := 38
def FAKE_PATTERNCOLON : Nat := 40
def BAR : Nat := 42
def DOTDOT : Nat := 44
def DOTDOTDOT : Nat := 44
def LONGNAME_SUCHTHAT : Nat := 47
def LONGNAME_UPTEE : Nat := 48
def LONGNAME_DOWNTEE : Nat := 48
def LONGNAME_LEFTTEE : Nat := 48
def LONGNAME_DOUBLELEFTTEE : Nat := 48
def LONGNAME_PERPENDICULAR : Nat := 48
def LONGNAME_RIGHTTEE : Nat := 51
def LONGNAME_DOUBLERIGHTTEE : Nat := 51
def LONGNAME_CONDITIONED : Nat := 52
def LONGNAME_IMPLIES : Nat := 55
def LONGNAME_ROUNDIMPLIES : Nat := 55
def LONGNAME_EQUIVALENT : Nat := 56
def BARBAR : Nat := 58
def LONGNAME_OR : Nat := 58
def LONGNAME_NOR : Nat := 58
def LONGNAME_XOR : Nat := 60
def LONGNAME_XNOR : Nat := 60
def AMPAMP : Nat := 62
def LONGNAME_AND : Nat := 62
def LONGNAME_NAND : Nat := 62
def PREFIX_BANG : Nat := 64
def LONGNAME_NOT : Nat := 64
def FAKE_PREFIX_BANGBANG : Nat := 64
def LONGNAME_FORALL : Nat := 66
def LONGNAME_EXISTS : Nat := 66
def LONGNAME_NOTEXISTS : Nat := 66
def CLASS_SETRELATIONS : Nat := 68
def EQUALEQUALEQUAL : Nat := 70
def EQUALBANGEQUAL : Nat := 70
def CLASS_HORIZONTALARROWS : Nat := 72
def CLASS_VECTOROPERATORS : Nat := 72
def CLASS_DIAGONALARROWOPERATORS : Nat := 72
def LONGNAME_VERTICALBAR : Nat := 74
def LONGNAME_NOTVERTICALBAR : Nat := 74
def LONGNAME_DOUBLEVERTICALBAR : Nat := 74
def LONGNAME_NOTDOUBLEVERTICALBAR : Nat := 74
def CLASS_ORDERINGOPERATORS : Nat := 76
def CLASS_INEQUALITY : Nat := 76
def LONGNAME_DIRECTEDEDGE : Nat := 79
def LONGNAME_UNDIRECTEDEDGE : Nat := 79
def SEMISEMI : Nat := 80
def CLASS_UNIONOPERATORS : Nat := 82
def CLASS_INTERSECTIONOPERATORS : Nat := 84
def INFIX_PLUS : Nat := 86
def INFIX_MINUS : Nat := 86
def INFIX_LONGNAME_PLUSMINUS : Nat := 86
def INFIX_LONGNAME_MINUSPLUS : Nat := 86
def INFIX_LONGNAME_MINUS : Nat := 86
def LONGNAME_IMPLICITPLUS : Nat := 88
def LONGNAME_SUM : Nat := 90
def CLASS_INTEGRATIONOPERATORS : Nat := 92
def LONGNAME_EXPECTATIONE : Nat := 92
def LONGNAME_PROBABILITYPR : Nat := 92
def LONGNAME_CIRCLEPLUS : Nat := 94
def LONGNAME_CIRCLEMINUS : Nat := 94
def LONGNAME_CUP : Nat := 96
def LONGNAME_CAP : Nat := 98
def INFIX_LONGNAME_COPRODUCT : Nat := 100
def LONGNAME_VERTICALTILDE : Nat := 102
def LONGNAME_PRODUCT : Nat := 104
def LONGNAME_CONTINUEDFRACTIONK : Nat := 104
def LONGNAME_STAR : Nat := 106
def STAR : Nat := 108
def LONGNAME_TIMES : Nat := 108
def LONGNAME_INVISIBLETIMES : Nat := 108
def FAKE_IMPLICITTIMES : Nat := 108
def LONGNAME_CENTERDOT : Nat := 110
def INFIX_LONGNAME_CIRCLETIMES : Nat := 112
def LONGNAME_VEE : Nat := 114
def LONGNAME_WEDGE : Nat := 116
def LONGNAME_DIAMOND : Nat := 118
def LONGNAME_BACKSLASH : Nat := 120
def SLASH : Nat := 122
def LONGNAME_DIVIDE : Nat := 122
def LONGNAME_DIVIDES : Nat := 122
def LONGNAME_DIVISIONSLASH : Nat := 122
def PREFIX_MINUS : Nat := 124
def PREFIX_PLUS : Nat := 124
def PREFIX_LONGNAME_PLUSMINUS : Nat := 124
def PREFIX_LONGNAME_MINUSPLUS : Nat := 124
def PREFIX_LONGNAME_MINUS : Nat := 124
def PREFIX_LONGNAME_CIRCLETIMES : Nat := 124
def PREFIX_LONGNAME_COPRODUCT : Nat := 124
def DOT : Nat := 126
def LONGNAME_TENSORPRODUCT : Nat := 128
def LONGNAME_CROSS : Nat := 130
def LONGNAME_TENSORWEDGE : Nat := 130
def STARSTAR : Nat := 132
def LONGNAME_CIRCLEDOT : Nat := 134
def LONGNAME_PERMUTATIONPRODUCT : Nat := 134
def LONGNAME_SMALLCIRCLE : Nat := 136
def LONGNAME_SQUARE : Nat := 138
def LONGNAME_DEL : Nat := 140
def LONGNAME_PIECEWISE : Nat := 142
def LONGNAME_DIFFERENTIALD : Nat := 144
def LONGNAME_CAPITALDIFFERENTIALD : Nat := 144
def LONGNAME_SQRT : Nat := 146
def LONGNAME_CUBEROOT : Nat := 146
def CLASS_VERTICALARROWOPERATORS : Nat := 148
def CLASS_VERTICALVECTOROPERATORS : Nat := 148
def CARET : Nat := 151
def LESSGREATER : Nat := 152
def SINGLEQUOTE : Nat := 154
def LONGNAME_TRANSPOSE : Nat := 156
def LONGNAME_CONJUGATE : Nat := 156
def LONGNAME_CONJUGATETRANSPOSE : Nat := 156
def LONGNAME_HERMITIANCONJUGATE : Nat := 156
def POSTFIX_BANG : Nat := 158
def POSTFIX_BANGBANG : Nat := 158
def ATAT : Nat := 161
def SLASHAT : Nat := 161
def ATATAT : Nat := 161
def SLASHSLASHAT : Nat := 161
def TILDE : Nat := 162
def AT : Nat := 165
def LONGNAME_INVISIBLEAPPLICATION : Nat := 165
def LONGNAME_APPLICATION : Nat := 166
def SLASHSTAR : Nat := 168
def ATSTAR : Nat := 170
def PREFIX_PLUSPLUS : Nat := 172
def PREFIX_MINUSMINUS : Nat := 172
def POSTFIX_PLUSPLUS : Nat := 174
def POSTFIX_MINUSMINUS : Nat := 174
def CALL : Nat := 176
def INFIX_QUESTION : Nat := 178
def LINEARSYNTAX_BANG : Nat := 180
def LESSLESS : Nat := 182
def COLONCOLON : Nat := 184
def LONGNAME_INVISIBLEPREFIXSCRIPTBASE : Nat := 186
def LONGNAME_INVISIBLEPOSTFIXSCRIPTBASE : Nat := 186
def HIGHEST : Nat := 188
def SYMBOL : Nat := 188
def UNDER : Nat := 188
end Prec

/-- The implementors of `PrefixParselet`, parse/parselet.rs. -/
inductive PrefixParselet where
  | leaf | error | closer | eof | unsupported | comma | unhandled | symbol | underDot
  | hash | hashHash | percent | semiSemi | lessLess
  | op (prec : Nat) (op : PrefixOp)
  | group (opener : TK) (op : GroupOp)
  | under (blank patternBlank : CompoundOp)
  | integral (op1 : PrefixBinaryOp) (op2 : PrefixOp)
deriving DecidableEq, Repr

/-- The implementors of `InfixParselet`, parse/parselet.rs. -/
inductive InfixParselet where
  | assertFalse | toplevelNewline | implicitTimes | differentialD | times | semi | comma
  | semiSemi | tilde | colon | slashColon | equal | colonEqual | colonColon
  | greaterGreater | greaterGreaterGreater
  | binary (prec : Nat) (op : BinaryOp)
  | «infix» (prec : Nat) (op : InfixOp)
  | «postfix» (prec : Nat) (op : PostfixOp)
  | call (opener : TK) (op : GroupOp)
deriving DecidableEq, Repr

/-- `token_kind_to_prefix_parselet!`, parse/token_parselets.rs:21-216. -/
def TK.prefixParselet : TK → PrefixParselet
  | .EndOfFile
    => .eof
  | .String | .Integer | .Real | .Rational | .LinearSyntaxBlob
    => .leaf
  | .Unknown | .Whitespace | .InternalNewline | .Comment
    => .error
  | .Error_ExpectedEqual | .Error_Number | .Error_UnhandledCharacter | .Error_ExpectedLetterlike
  | .Error_Aborted | .Error_ExpectedOperand | .Error_ExpectedTag | .Error_ExpectedFile
  | .Error_UnterminatedComment | .Error_UnterminatedString | .Error_UnterminatedFileString
  | .Error_UnterminatedLinearSyntaxBlob | .Error_UnsupportedToken | .Error_UnexpectedCloser
  | .Error_UnsafeCharacterEncoding | .Error_UnexpectedCommentCloser
    => .error
  | .BarGreater | .CloseCurly | .CloseParen | .CloseSquare | .LongName_CloseCurlyDoubleQuote
  | .LongName_CloseCurlyQuote | .LongName_RightAngleBracket | .LongName_RightAssociation
  | .LongName_RightBracketingBar | .LongName_RightCeiling | .LongName_RightDoubleBracket
  | .LongName_RightDoubleBracketingBar | .LongName_RightFloor
    => .closer
  | .Minus
    => .op Prec.PREFIX_MINUS .Minus
  | .Plus
    => .op Prec.PREFIX_PLUS .Plus
  | .Bang
    => .op Prec.PREFIX_BANG .Not
  | .PlusPlus
    => .op Prec.PREFIX_PLUSPLUS .PreIncrement
  | .MinusMinus
    => .op Prec.PREFIX_MINUSMINUS .PreDecrement
  | .BangBang
    => .op Prec.FAKE_PREFIX_BANGBANG .CodeParser_PrefixNot2
  | .LongName_PlusMinus
    => .op Prec.PREFIX_LONGNAME_PLUSMINUS .PlusMinus
  | .LongName_Sum
    => .op Prec.LONGNAME_SUM .Sum
  | .LongName_Not
    => .op Prec.LONGNAME_NOT .Not
  | .LongName_Sqrt
    => .op Prec.LONGNAME_SQRT .Sqrt
  | .LongName_MinusPlus
    => .op Prec.PREFIX_LONGNAME_MINUSPLUS .MinusPlus
  | .LongName_DifferentialD
    => .op Prec.LONGNAME_DIFFERENTIALD .DifferentialD
  | .LongName_CapitalDifferentialD
    => .op Prec.LONGNAME_CAPITALDIFFERENTIALD .CapitalDifferentialD
  | .LongName_Minus
    => .op Prec.PREFIX_LONGNAME_MINUS .Minus
  | .LongName_Del
    => .op Prec.LONGNAME_DEL .Del
  | .LongName_Square
    => .op Prec.LONGNAME_SQUARE .Square
  | .Comma | .LongName_InvisibleComma
    => .comma
  | .LongName_Product
    => .op Prec.LONGNAME_PRODUCT .Product
  | .LongName_ContinuedFractionK
    => .op Prec.LONGNAME_CONTINUEDFRACTIONK .ContinuedFractionK
  | .LongName_CircleTimes
    => .op Prec.PREFIX_LONGNAME_CIRCLETIMES .CircleTimes
  | .LongName_ForAll
    => .op Prec.LONGNAME_FORALL .ForAll
  | .LongName_Exists
    => .op Prec.LONGNAME_EXISTS .Exists
  | .LongName_NotExists
    => .op Prec.LONGNAME_NOTEXISTS .NotExists
  | .LongName_Coproduct
    => .op Prec.PREFIX_LONGNAME_COPRODUCT .Coproduct
  | .LongName_Piecewise
    => .op Prec.LONGNAME_PIECEWISE .Piecewise
  | .LongName_InvisiblePrefixScriptBase
    => .op Prec.LONGNAME_INVISIBLEPREFIXSCRIPTBASE .InvisiblePrefixScriptBase
  | .LongName_ExpectationE
    => .op Prec.LONGNAME_EXPECTATIONE .ExpectationE
  | .LongName_CubeRoot
    => .op Prec.LONGNAME_CUBEROOT .CubeRoot
  | .LongName_ProbabilityPr
    => .op Prec.LONGNAME_PROBABILITYPR .ProbabilityPr
  | .LinearSyntax_Bang
    => .op Prec.LINEARSYNTAX_BANG .CodeParser_PrefixLinearSyntaxBang
  | .LinearSyntax_At | .LinearSyntax_Amp | .LinearSyntax_Star | .LinearSyntax_Under
  | .LinearSyntax_Caret | .LinearSyntax_Space | .LinearSyntax_Percent | .LinearSyntax_Plus
  | .LinearSyntax_Slash | .LinearSyntax_BackTick | .LinearSyntax_CloseParen
    => .unsupported
  | .OpenParen
    => .group .OpenParen .CodeParser_GroupParen
  | .OpenSquare
    => .group .OpenSquare .CodeParser_GroupSquare
  | .OpenCurly
    => .group .OpenCurly .List
  | .LessBar
    => .group .LessBar .Association
  | .ColonColonOpenSquare
    => .group .ColonColonOpenSquare .CodeParser_GroupTypeSpecifier
  | .LongName_LeftAngleBracket
    => .group .LongName_LeftAngleBracket .AngleBracket
  | .LongName_LeftCeiling
    => .group .LongName_LeftCeiling .Ceiling
  | .LongName_LeftFloor
    => .group .LongName_LeftFloor .Floor
  | .LongName_LeftDoubleBracket
    => .group .LongName_LeftDoubleBracket .CodeParser_GroupDoubleBracket
  | .LongName_LeftBracketingBar
    => .group .LongName_LeftBracketingBar .BracketingBar
  | .LongName_LeftDoubleBracketingBar
    => .group .LongName_LeftDoubleBracketingBar .DoubleBracketingBar
  | .LongName_LeftAssociation
    => .group .LongName_LeftAssociation .Association
  | .LongName_OpenCurlyQuote
    => .group .LongName_OpenCurlyQuote .CurlyQuote
  | .LongName_OpenCurlyDoubleQuote
    => .group .LongName_OpenCurlyDoubleQuote .CurlyDoubleQuote
  | .Symbol
    => .symbol
  | .Under
    => .under .Blank .CodeParser_PatternBlank
  | .UnderUnder
    => .under .BlankSequence .CodeParser_PatternBlankSequence
  | .UnderUnderUnder
    => .under .BlankNullSequence .CodeParser_PatternBlankNullSequence
  | .UnderDot
    => .underDot
  | .Hash
    => .hash
  | .HashHash
    => .hashHash
  | .Percent
    => .percent
  | .PercentPercent
    => .leaf
  | .SemiSemi
    => .semiSemi
  | .LongName_Integral
    => .integral .Integrate .Integral
  | .LongName_ContourIntegral
    => .integral .ContourIntegral .ContourIntegral
  | .LongName_DoubleContourIntegral
    => .integral .DoubleContourIntegral .DoubleContourIntegral
  | .LongName_ClockwiseContourIntegral
    => .integral .ClockwiseContourIntegral .ClockwiseContourIntegral
  | .LongName_CounterClockwiseContourIntegral
    => .integral .CounterClockwiseContourIntegral .CounterClockwiseContourIntegral
  | .LessLess
    => .lessLess
  | .QuestionQuestion
    => .unsupported
  | .LongName_Limit | .LongName_MaxLimit | .LongName_MinLimit
    => .unsupported
  | .LongName_AutoLeftMatch | .LongName_AutoRightMatch | .LongName_DiscreteShift
  | .LongName_DifferenceDelta | .LongName_DiscreteRatio | .LongName_PartialD
    => .unsupported
  | _ => .unhandled

/-- `token_kind_to_infix_parselet!`, parse/token_parselets.rs:217-746. -/
def TK.infixParselet : TK → InfixParselet
  | .EndOfFile
    => .assertFalse
  | .Unknown | .Whitespace | .InternalNewline | .Comment
    => .assertFalse
  | .ToplevelNewline
    => .toplevelNewline
  | .Error_ExpectedEqual | .Error_Number | .Error_UnhandledCharacter | .Error_ExpectedLetterlike
  | .Error_Aborted | .Error_ExpectedOperand | .Error_ExpectedTag | .Error_ExpectedFile
  | .Error_UnterminatedComment | .Error_UnterminatedString | .Error_UnterminatedFileString
  | .Error_UnterminatedLinearSyntaxBlob | .Error_UnsupportedToken | .Error_UnexpectedCloser
  | .Error_UnsafeCharacterEncoding | .Error_UnexpectedCommentCloser
    => .assertFalse
  | .BarGreater | .CloseCurly | .CloseParen | .CloseSquare | .LongName_CloseCurlyDoubleQuote
  | .LongName_CloseCurlyQuote | .LongName_RightAngleBracket | .LongName_RightAssociation
  | .LongName_RightBracketingBar | .LongName_RightCeiling | .LongName_RightDoubleBracket
  | .LongName_RightDoubleBracketingBar | .LongName_RightFloor
    => .assertFalse
  | .LongName_DifferentialD | .LongName_CapitalDifferentialD
    => .differentialD
  | .Slash
    => .binary Prec.SLASH .Divide
  | .Caret
    => .binary Prec.CARET .Power
  | .CaretEqual
    => .binary Prec.CARETEQUAL .UpSet
  | .CaretColonEqual
    => .binary Prec.CARETCOLONEQUAL .UpSetDelayed
  | .SlashAt
    => .binary Prec.SLASHAT .Map
  | .MinusGreater
    => .binary Prec.MINUSGREATER .Rule
  | .AtAt
    => .binary Prec.ATAT .Apply
  | .SlashSemi
    => .binary Prec.SLASHSEMI .Condition
  | .SlashDot
    => .binary Prec.SLASHDOT .ReplaceAll
  | .ColonGreater
    => .binary Prec.COLONGREATER .RuleDelayed
  | .SlashSlashDot
    => .binary Prec.SLASHSLASHDOT .ReplaceRepeated
  | .PlusEqual
    => .binary Prec.PLUSEQUAL .AddTo
  | .StarEqual
    => .binary Prec.STAREQUAL .TimesBy
  | .MinusEqual
    => .binary Prec.MINUSEQUAL .SubtractFrom
  | .SlashEqual
    => .binary Prec.SLASHEQUAL .DivideBy
  | .LessMinusGreater
    => .binary Prec.LESSMINUSGREATER .TwoWayRule
  | .SlashSlashAt
    => .binary Prec.SLASHSLASHAT .MapAll
  | .At
    => .binary Prec.AT .CodeParser_BinaryAt
  | .AtAtAt
    => .binary Prec.ATATAT .MapApply
  | .SlashSlash
    => .binary Prec.SLASHSLASH .CodeParser_BinarySlashSlash
  | .Question
    => .binary Prec.INFIX_QUESTION .PatternTest
  | .BarMinusGreater
    => .binary Prec.BARMINUSGREATER .Function
  | .SlashSlashEqual
    => .binary Prec.SLASHSLASHEQUAL .ApplyTo
  | .LongName_Divide
    => .binary Prec.LONGNAME_DIVIDE .Divide
  | .LongName_DivisionSlash
    => .binary Prec.LONGNAME_DIVISIONSLASH .Divide
  | .LongName_Implies
    => .binary Prec.LONGNAME_IMPLIES .Implies
  | .LongName_RoundImplies
    => .binary Prec.LONGNAME_ROUNDIMPLIES .RoundImplies
  | .LongName_PlusMinus
    => .binary Prec.INFIX_LONGNAME_PLUSMINUS .PlusMinus
  | .LongName_DirectedEdge
    => .binary Prec.LONGNAME_DIRECTEDEDGE .DirectedEdge
  | .LongName_Rule
    => .binary Prec.LONGNAME_RULE .Rule
  | .LongName_RuleDelayed
    => .binary Prec.LONGNAME_RULEDELAYED .RuleDelayed
  | .LongName_UndirectedEdge
    => .binary Prec.LONGNAME_UNDIRECTEDEDGE .UndirectedEdge
  | .LongName_Function
    => .binary Prec.LONGNAME_FUNCTION .Function
  | .LongName_MinusPlus
    => .binary Prec.INFIX_LONGNAME_MINUSPLUS .MinusPlus
  | .LongName_TwoWayRule
    => .binary Prec.LONGNAME_TWOWAYRULE .TwoWayRule
  | .LongName_InvisibleApplication
    => .binary Prec.LONGNAME_INVISIBLEAPPLICATION .CodeParser_BinaryAt
  | .LongName_CircleMinus
    => .binary Prec.LONGNAME_CIRCLEMINUS .CircleMinus
  | .LongName_SuchThat
    => .binary Prec.LONGNAME_SUCHTHAT .SuchThat
  | .LongName_Perpendicular
    => .binary Prec.LONGNAME_PERPENDICULAR .Perpendicular
  | .LongName_Because
    => .binary Prec.LONGNAME_BECAUSE .Because
  | .LongName_Therefore
    => .binary Prec.LONGNAME_THEREFORE .Therefore
  | .LongName_RightTee
    => .binary Prec.LONGNAME_RIGHTTEE .RightTee
  | .LongName_LeftTee
    => .binary Prec.LONGNAME_LEFTTEE .LeftTee
  | .LongName_DoubleRightTee
    => .binary Prec.LONGNAME_DOUBLERIGHTTEE .DoubleRightTee
  | .LongName_DoubleLeftTee
    => .binary Prec.LONGNAME_DOUBLELEFTTEE .DoubleLeftTee
  | .LongName_UpTee
    => .binary Prec.LONGNAME_UPTEE .UpTee
  | .LongName_DownTee
    => .binary Prec.LONGNAME_DOWNTEE .DownTee
  | .LongName_Application
    => .binary Prec.LONGNAME_APPLICATION .Application
  | .Minus
    => .infix Prec.INFIX_MINUS .Plus
  | .EqualEqualEqual
    => .infix Prec.EQUALEQUALEQUAL .SameQ
  | .EqualBangEqual
    => .infix Prec.EQUALBANGEQUAL .UnsameQ
  | .Plus
    => .infix Prec.INFIX_PLUS .Plus
  | .Dot
    => .infix Prec.DOT .Dot
  | .StarStar
    => .infix Prec.STARSTAR .NonCommutativeMultiply
  | .AmpAmp
    => .infix Prec.AMPAMP .And
  | .BarBar
    => .infix Prec.BARBAR .Or
  | .Bar
    => .infix Prec.BAR .Alternatives
  | .LessGreater
    => .infix Prec.LESSGREATER .StringJoin
  | .TildeTilde
    => .infix Prec.TILDETILDE .StringExpression
  | .AtStar
    => .infix Prec.ATSTAR .Composition
  | .SlashStar
    => .infix Prec.SLASHSTAR .RightComposition
  | .Star | .LongName_Times | .LongName_InvisibleTimes | .Fake_ImplicitTimes
    => .times
  | .LongName_Element
    => .infix Prec.CLASS_SETRELATIONS .Element
  | .LongName_Subset
    => .infix Prec.CLASS_SETRELATIONS .Subset
  | .LongName_Superset
    => .infix Prec.CLASS_SETRELATIONS .Superset
  | .LongName_SubsetEqual
    => .infix Prec.CLASS_SETRELATIONS .SubsetEqual
  | .LongName_SupersetEqual
    => .infix Prec.CLASS_SETRELATIONS .SupersetEqual
  | .LongName_NotElement
    => .infix Prec.CLASS_SETRELATIONS .NotElement
  | .LongName_NotSubset
    => .infix Prec.CLASS_SETRELATIONS .NotSubset
  | .LongName_NotSuperset
    => .infix Prec.CLASS_SETRELATIONS .NotSuperset
  | .LongName_NotSubsetEqual
    => .infix Prec.CLASS_SETRELATIONS .NotSubsetEqual
  | .LongName_NotSupersetEqual
    => .infix Prec.CLASS_SETRELATIONS .NotSupersetEqual
  | .LongName_SquareSubset
    => .infix Prec.CLASS_SETRELATIONS .SquareSubset
  | .LongName_SquareSuperset
    => .infix Prec.CLASS_SETRELATIONS .SquareSuperset
  | .LongName_NotSquareSubset
    => .infix Prec.CLASS_SETRELATIONS .NotSquareSubset
  | .LongName_NotSquareSuperset
    => .infix Prec.CLASS_SETRELATIONS .NotSquareSuperset
  | .LongName_SquareSubsetEqual
    => .infix Prec.CLASS_SETRELATIONS .SquareSubsetEqual
  | .LongName_SquareSupersetEqual
    => .infix Prec.CLASS_SETRELATIONS .SquareSupersetEqual
  | .LongName_NotSquareSubsetEqual
    => .infix Prec.CLASS_SETRELATIONS .NotSquareSubsetEqual
  | .LongName_NotSquareSupersetEqual
    => .infix Prec.CLASS_SETRELATIONS .NotSquareSupersetEqual
  | .LongName_ReverseElement
    => .infix Prec.CLASS_SETRELATIONS .ReverseElement
  | .LongName_NotReverseElement
    => .infix Prec.CLASS_SETRELATIONS .NotReverseElement
  | .LongName_Distributed
    => .infix Prec.CLASS_SETRELATIONS .Distributed
  | .LongName_ImplicitPlus
    => .infix Prec.LONGNAME_IMPLICITPLUS .Plus
  | .LongName_And
    => .infix Prec.LONGNAME_AND .And
  | .LongName_Or
    => .infix Prec.LONGNAME_OR .Or
  | .LongName_Xor
    => .infix Prec.LONGNAME_XOR .Xor
  | .LongName_Nand
    => .infix Prec.LONGNAME_NAND .Nand
  | .LongName_Nor
    => .infix Prec.LONGNAME_NOR .Nor
  | .LongName_LeftArrow
    => .infix Prec.CLASS_HORIZONTALARROWS .LeftArrow
  | .LongName_RightArrow
    => .infix Prec.CLASS_HORIZONTALARROWS .RightArrow
  | .LongName_LeftRightArrow
    => .infix Prec.CLASS_HORIZONTALARROWS .LeftRightArrow
  | .LongName_LeftTeeArrow
    => .infix Prec.CLASS_HORIZONTALARROWS .LeftTeeArrow
  | .LongName_RightTeeArrow
    => .infix Prec.CLASS_HORIZONTALARROWS .RightTeeArrow
  | .LongName_RightArrowLeftArrow
    => .infix Prec.CLASS_HORIZONTALARROWS .RightArrowLeftArrow
  | .LongName_LeftArrowRightArrow
    => .infix Prec.CLASS_HORIZONTALARROWS .LeftArrowRightArrow
  | .LongName_DoubleLeftArrow
    => .infix Prec.CLASS_HORIZONTALARROWS .DoubleLeftArrow
  | .LongName_DoubleRightArrow
    => .infix Prec.CLASS_HORIZONTALARROWS .DoubleRightArrow
  | .LongName_DoubleLeftRightArrow
    => .infix Prec.CLASS_HORIZONTALARROWS .DoubleLeftRightArrow
  | .LongName_LeftArrowBar
    => .infix Prec.CLASS_HORIZONTALARROWS .LeftArrowBar
  | .LongName_RightArrowBar
    => .infix Prec.CLASS_HORIZONTALARROWS .RightArrowBar
  | .LongName_ShortRightArrow
    => .infix Prec.CLASS_HORIZONTALARROWS .ShortRightArrow
  | .LongName_ShortLeftArrow
    => .infix Prec.CLASS_HORIZONTALARROWS .ShortLeftArrow
  | .LongName_UpperLeftArrow
    => .infix Prec.CLASS_DIAGONALARROWOPERATORS .UpperLeftArrow
  | .LongName_UpperRightArrow
    => .infix Prec.CLASS_DIAGONALARROWOPERATORS .UpperRightArrow
  | .LongName_LowerRightArrow
    => .infix Prec.CLASS_DIAGONALARROWOPERATORS .LowerRightArrow
  | .LongName_LowerLeftArrow
    => .infix Prec.CLASS_DIAGONALARROWOPERATORS .LowerLeftArrow
  | .LongName_LeftVector
    => .infix Prec.CLASS_VECTOROPERATORS .LeftVector
  | .LongName_RightVector
    => .infix Prec.CLASS_VECTOROPERATORS .RightVector
  | .LongName_LeftRightVector
    => .infix Prec.CLASS_VECTOROPERATORS .LeftRightVector
  | .LongName_LeftVectorBar
    => .infix Prec.CLASS_VECTOROPERATORS .LeftVectorBar
  | .LongName_RightVectorBar
    => .infix Prec.CLASS_VECTOROPERATORS .RightVectorBar
  | .LongName_LeftTeeVector
    => .infix Prec.CLASS_VECTOROPERATORS .LeftTeeVector
  | .LongName_RightTeeVector
    => .infix Prec.CLASS_VECTOROPERATORS .RightTeeVector
  | .LongName_DownLeftVector
    => .infix Prec.CLASS_VECTOROPERATORS .DownLeftVector
  | .LongName_DownRightVector
    => .infix Prec.CLASS_VECTOROPERATORS .DownRightVector
  | .LongName_DownLeftRightVector
    => .infix Prec.CLASS_VECTOROPERATORS .DownLeftRightVector
  | .LongName_DownLeftVectorBar
    => .infix Prec.CLASS_VECTOROPERATORS .DownLeftVectorBar
  | .LongName_DownRightVectorBar
    => .infix Prec.CLASS_VECTOROPERATORS .DownRightVectorBar
  | .LongName_DownLeftTeeVector
    => .infix Prec.CLASS_VECTOROPERATORS .DownLeftTeeVector
  | .LongName_DownRightTeeVector
    => .infix Prec.CLASS_VECTOROPERATORS .DownRightTeeVector
  | .LongName_UpArrow
    => .infix Prec.CLASS_VERTICALARROWOPERATORS .UpArrow
  | .LongName_DownArrow
    => .infix Prec.CLASS_VERTICALARROWOPERATORS .DownArrow
  | .LongName_UpDownArrow
    => .infix Prec.CLASS_VERTICALARROWOPERATORS .UpDownArrow
  | .LongName_UpTeeArrow
    => .infix Prec.CLASS_VERTICALARROWOPERATORS .UpTeeArrow
  | .LongName_DownTeeArrow
    => .infix Prec.CLASS_VERTICALARROWOPERATORS .DownTeeArrow
  | .LongName_UpArrowDownArrow
    => .infix Prec.CLASS_VERTICALARROWOPERATORS .UpArrowDownArrow
  | .LongName_DoubleUpArrow
    => .infix Prec.CLASS_VERTICALARROWOPERATORS .DoubleUpArrow
  | .LongName_DoubleDownArrow
    => .infix Prec.CLASS_VERTICALARROWOPERATORS .DoubleDownArrow
  | .LongName_DoubleUpDownArrow
    => .infix Prec.CLASS_VERTICALARROWOPERATORS .DoubleUpDownArrow
  | .LongName_DownArrowUpArrow
    => .infix Prec.CLASS_VERTICALARROWOPERATORS .DownArrowUpArrow
  | .LongName_LongLeftArrow
    => .infix Prec.CLASS_VERTICALARROWOPERATORS .LongLeftArrow
  | .LongName_LongRightArrow
    => .infix Prec.CLASS_VERTICALARROWOPERATORS .LongRightArrow
  | .LongName_LongLeftRightArrow
    => .infix Prec.CLASS_VERTICALARROWOPERATORS .LongLeftRightArrow
  | .LongName_DoubleLongLeftArrow
    => .infix Prec.CLASS_VERTICALARROWOPERATORS .DoubleLongLeftArrow
  | .LongName_DoubleLongRightArrow
    => .infix Prec.CLASS_VERTICALARROWOPERATORS .DoubleLongRightArrow
  | .LongName_DoubleLongLeftRightArrow
    => .infix Prec.CLASS_VERTICALARROWOPERATORS .DoubleLongLeftRightArrow
  | .LongName_UpArrowBar
    => .infix Prec.CLASS_VERTICALARROWOPERATORS .UpArrowBar
  | .LongName_DownArrowBar
    => .infix Prec.CLASS_VERTICALARROWOPERATORS .DownArrowBar
  | .LongName_ShortUpArrow
    => .infix Prec.CLASS_VERTICALARROWOPERATORS .ShortUpArrow
  | .LongName_ShortDownArrow
    => .infix Prec.CLASS_VERTICALARROWOPERATORS .ShortDownArrow
  | .LongName_RightUpVector
    => .infix Prec.CLASS_VERTICALVECTOROPERATORS .RightUpVector
  | .LongName_LeftUpVector
    => .infix Prec.CLASS_VERTICALVECTOROPERATORS .LeftUpVector
  | .LongName_RightDownVector
    => .infix Prec.CLASS_VERTICALVECTOROPERATORS .RightDownVector
  | .LongName_LeftDownVector
    => .infix Prec.CLASS_VERTICALVECTOROPERATORS .LeftDownVector
  | .LongName_RightUpDownVector
    => .infix Prec.CLASS_VERTICALVECTOROPERATORS .RightUpDownVector
  | .LongName_LeftUpDownVector
    => .infix Prec.CLASS_VERTICALVECTOROPERATORS .LeftUpDownVector
  | .LongName_RightUpVectorBar
    => .infix Prec.CLASS_VERTICALVECTOROPERATORS .RightUpVectorBar
  | .LongName_RightDownVectorBar
    => .infix Prec.CLASS_VERTICALVECTOROPERATORS .RightDownVectorBar
  | .LongName_LeftUpVectorBar
    => .infix Prec.CLASS_VERTICALVECTOROPERATORS .LeftUpVectorBar
  | .LongName_LeftDownVectorBar
    => .infix Prec.CLASS_VERTICALVECTOROPERATORS .LeftDownVectorBar
  | .LongName_RightUpTeeVector
    => .infix Prec.CLASS_VERTICALVECTOROPERATORS .RightUpTeeVector
  | .LongName_RightDownTeeVector
    => .infix Prec.CLASS_VERTICALVECTOROPERATORS .RightDownTeeVector
  | .LongName_LeftUpTeeVector
    => .infix Prec.CLASS_VERTICALVECTOROPERATORS .LeftUpTeeVector
  | .LongName_LeftDownTeeVector
    => .infix Prec.CLASS_VERTICALVECTOROPERATORS .LeftDownTeeVector
  | .LongName_UpEquilibrium
    => .infix Prec.CLASS_VERTICALVECTOROPERATORS .UpEquilibrium
  | .LongName_ReverseUpEquilibrium
    => .infix Prec.CLASS_VERTICALVECTOROPERATORS .ReverseUpEquilibrium
  | .LongName_CenterDot
    => .infix Prec.LONGNAME_CENTERDOT .CenterDot
  | .LongName_Equivalent
    => .infix Prec.LONGNAME_EQUIVALENT .Equivalent
  | .LongName_CircleDot
    => .infix Prec.LONGNAME_CIRCLEDOT .CircleDot
  | .LongName_Conditioned
    => .infix Prec.LONGNAME_CONDITIONED .Conditioned
  | .LongName_Union
    => .infix Prec.CLASS_UNIONOPERATORS .Union
  | .LongName_SquareUnion
    => .infix Prec.CLASS_UNIONOPERATORS .SquareUnion
  | .LongName_UnionPlus
    => .infix Prec.CLASS_UNIONOPERATORS .UnionPlus
  | .LongName_Intersection
    => .infix Prec.CLASS_INTERSECTIONOPERATORS .Intersection
  | .LongName_SquareIntersection
    => .infix Prec.CLASS_INTERSECTIONOPERATORS .SquareIntersection
  | .LongName_TensorWedge
    => .infix Prec.LONGNAME_TENSORWEDGE .TensorWedge
  | .LongName_TensorProduct
    => .infix Prec.LONGNAME_TENSORPRODUCT .TensorProduct
  | .LongName_Cross
    => .infix Prec.LONGNAME_CROSS .Cross
  | .LongName_SmallCircle
    => .infix Prec.LONGNAME_SMALLCIRCLE .SmallCircle
  | .LongName_Divides
    => .infix Prec.LONGNAME_DIVIDES .Divisible
  | .LongName_VerticalSeparator
    => .infix Prec.LONGNAME_VERTICALSEPARATOR .VerticalSeparator
  | .LongName_Backslash
    => .infix Prec.LONGNAME_BACKSLASH .Backslash
  | .LongName_Diamond
    => .infix Prec.LONGNAME_DIAMOND .Diamond
  | .LongName_Wedge
    => .infix Prec.LONGNAME_WEDGE .Wedge
  | .LongName_Vee
    => .infix Prec.LONGNAME_VEE .Vee
  | .LongName_CircleTimes
    => .infix Prec.INFIX_LONGNAME_CIRCLETIMES .CircleTimes
  | .LongName_Star
    => .infix Prec.LONGNAME_STAR .Star
  | .LongName_VerticalTilde
    => .infix Prec.LONGNAME_VERTICALTILDE .VerticalTilde
  | .LongName_Coproduct
    => .infix Prec.INFIX_LONGNAME_COPRODUCT .Coproduct
  | .LongName_Cap
    => .infix Prec.LONGNAME_CAP .Cap
  | .LongName_Cup
    => .infix Prec.LONGNAME_CUP .Cup
  | .LongName_CirclePlus
    => .infix Prec.LONGNAME_CIRCLEPLUS .CirclePlus
  | .LongName_VerticalBar
    => .infix Prec.LONGNAME_VERTICALBAR .VerticalBar
  | .LongName_DoubleVerticalBar
    => .infix Prec.LONGNAME_DOUBLEVERTICALBAR .DoubleVerticalBar
  | .LongName_NotVerticalBar
    => .infix Prec.LONGNAME_NOTVERTICALBAR .NotVerticalBar
  | .LongName_NotDoubleVerticalBar
    => .infix Prec.LONGNAME_NOTDOUBLEVERTICALBAR .NotDoubleVerticalBar
  | .LongName_LeftTriangle
    => .infix Prec.CLASS_ORDERINGOPERATORS .LeftTriangle
  | .LongName_RightTriangle
    => .infix Prec.CLASS_ORDERINGOPERATORS .RightTriangle
  | .LongName_NotLeftTriangle
    => .infix Prec.CLASS_ORDERINGOPERATORS .NotLeftTriangle
  | .LongName_NotRightTriangle
    => .infix Prec.CLASS_ORDERINGOPERATORS .NotRightTriangle
  | .LongName_LeftTriangleEqual
    => .infix Prec.CLASS_ORDERINGOPERATORS .LeftTriangleEqual
  | .LongName_RightTriangleEqual
    => .infix Prec.CLASS_ORDERINGOPERATORS .RightTriangleEqual
  | .LongName_NotLeftTriangleEqual
    => .infix Prec.CLASS_ORDERINGOPERATORS .NotLeftTriangleEqual
  | .LongName_NotRightTriangleEqual
    => .infix Prec.CLASS_ORDERINGOPERATORS .NotRightTriangleEqual
  | .LongName_LeftTriangleBar
    => .infix Prec.CLASS_ORDERINGOPERATORS .LeftTriangleBar
  | .LongName_RightTriangleBar
    => .infix Prec.CLASS_ORDERINGOPERATORS .RightTriangleBar
  | .LongName_NotLeftTriangleBar
    => .infix Prec.CLASS_ORDERINGOPERATORS .NotLeftTriangleBar
  | .LongName_NotRightTriangleBar
    => .infix Prec.CLASS_ORDERINGOPERATORS .NotRightTriangleBar
  | .LongName_TildeEqual
    => .infix Prec.CLASS_ORDERINGOPERATORS .TildeEqual
  | .LongName_NotTildeEqual
    => .infix Prec.CLASS_ORDERINGOPERATORS .NotTildeEqual
  | .LongName_TildeFullEqual
    => .infix Prec.CLASS_ORDERINGOPERATORS .TildeFullEqual
  | .LongName_NotTildeFullEqual
    => .infix Prec.CLASS_ORDERINGOPERATORS .NotTildeFullEqual
  | .LongName_Tilde
    => .infix Prec.CLASS_ORDERINGOPERATORS .Tilde
  | .LongName_NotTilde
    => .infix Prec.CLASS_ORDERINGOPERATORS .NotTilde
  | .LongName_EqualTilde
    => .infix Prec.CLASS_ORDERINGOPERATORS .EqualTilde
  | .LongName_NotEqualTilde
    => .infix Prec.CLASS_ORDERINGOPERATORS .NotEqualTilde
  | .LongName_TildeTilde
    => .infix Prec.CLASS_ORDERINGOPERATORS .TildeTilde
  | .LongName_NotTildeTilde
    => .infix Prec.CLASS_ORDERINGOPERATORS .NotTildeTilde
  | .LongName_Proportional
    => .infix Prec.CLASS_ORDERINGOPERATORS .Proportional
  | .LongName_Proportion
    => .infix Prec.CLASS_ORDERINGOPERATORS .Proportion
  | .LongName_Congruent
    => .infix Prec.CLASS_ORDERINGOPERATORS .Congruent
  | .LongName_NotCongruent
    => .infix Prec.CLASS_ORDERINGOPERATORS .NotCongruent
  | .LongName_Equilibrium
    => .infix Prec.CLASS_ORDERINGOPERATORS .Equilibrium
  | .LongName_ReverseEquilibrium
    => .infix Prec.CLASS_ORDERINGOPERATORS .ReverseEquilibrium
  | .LongName_DotEqual
    => .infix Prec.CLASS_ORDERINGOPERATORS .DotEqual
  | .LongName_Precedes
    => .infix Prec.CLASS_ORDERINGOPERATORS .Precedes
  | .LongName_Succeeds
    => .infix Prec.CLASS_ORDERINGOPERATORS .Succeeds
  | .LongName_PrecedesEqual
    => .infix Prec.CLASS_ORDERINGOPERATORS .PrecedesEqual
  | .LongName_SucceedsEqual
    => .infix Prec.CLASS_ORDERINGOPERATORS .SucceedsEqual
  | .LongName_PrecedesTilde
    => .infix Prec.CLASS_ORDERINGOPERATORS .PrecedesTilde
  | .LongName_SucceedsTilde
    => .infix Prec.CLASS_ORDERINGOPERATORS .SucceedsTilde
  | .LongName_PrecedesSlantEqual
    => .infix Prec.CLASS_ORDERINGOPERATORS .PrecedesSlantEqual
  | .LongName_SucceedsSlantEqual
    => .infix Prec.CLASS_ORDERINGOPERATORS .SucceedsSlantEqual
  | .LongName_NotPrecedes
    => .infix Prec.CLASS_ORDERINGOPERATORS .NotPrecedes
  | .LongName_NotSucceeds
    => .infix Prec.CLASS_ORDERINGOPERATORS .NotSucceeds
  | .LongName_NotPrecedesEqual
    => .infix Prec.CLASS_ORDERINGOPERATORS .NotPrecedesEqual
  | .LongName_NotSucceedsEqual
    => .infix Prec.CLASS_ORDERINGOPERATORS .NotSucceedsEqual
  | .LongName_NotPrecedesTilde
    => .infix Prec.CLASS_ORDERINGOPERATORS .NotPrecedesTilde
  | .LongName_NotSucceedsTilde
    => .infix Prec.CLASS_ORDERINGOPERATORS .NotSucceedsTilde
  | .LongName_NotPrecedesSlantEqual
    => .infix Prec.CLASS_ORDERINGOPERATORS .NotPrecedesSlantEqual
  | .LongName_NotSucceedsSlantEqual
    => .infix Prec.CLASS_ORDERINGOPERATORS .NotSucceedsSlantEqual
  | .LongName_CupCap
    => .infix Prec.CLASS_ORDERINGOPERATORS .CupCap
  | .LongName_NotCupCap
    => .infix Prec.CLASS_ORDERINGOPERATORS .NotCupCap
  | .LongName_HumpEqual
    => .infix Prec.CLASS_ORDERINGOPERATORS .HumpEqual
  | .LongName_HumpDownHump
    => .infix Prec.CLASS_ORDERINGOPERATORS .HumpDownHump
  | .LongName_NotHumpEqual
    => .infix Prec.CLASS_ORDERINGOPERATORS .NotHumpEqual
  | .LongName_NotHumpDownHump
    => .infix Prec.CLASS_ORDERINGOPERATORS .NotHumpDownHump
  | .BangEqual
    => .infix Prec.CLASS_INEQUALITY .CodeParser_InfixInequality
  | .EqualEqual
    => .infix Prec.CLASS_INEQUALITY .CodeParser_InfixInequality
  | .Greater
    => .infix Prec.CLASS_INEQUALITY .CodeParser_InfixInequality
  | .GreaterEqual
    => .infix Prec.CLASS_INEQUALITY .CodeParser_InfixInequality
  | .LessEqual
    => .infix Prec.CLASS_INEQUALITY .CodeParser_InfixInequality
  | .Less
    => .infix Prec.CLASS_INEQUALITY .CodeParser_InfixInequality
  | .LongName_Equal
    => .infix Prec.CLASS_INEQUALITY .CodeParser_InfixInequality
  | .LongName_GreaterEqual
    => .infix Prec.CLASS_INEQUALITY .CodeParser_InfixInequality
  | .LongName_GreaterEqualLess
    => .infix Prec.CLASS_INEQUALITY .CodeParser_InfixInequality
  | .LongName_GreaterFullEqual
    => .infix Prec.CLASS_INEQUALITY .CodeParser_InfixInequality
  | .LongName_GreaterGreater
    => .infix Prec.CLASS_INEQUALITY .CodeParser_InfixInequality
  | .LongName_GreaterLess
    => .infix Prec.CLASS_INEQUALITY .CodeParser_InfixInequality
  | .LongName_GreaterSlantEqual
    => .infix Prec.CLASS_INEQUALITY .CodeParser_InfixInequality
  | .LongName_GreaterTilde
    => .infix Prec.CLASS_INEQUALITY .CodeParser_InfixInequality
  | .LongName_LessEqual
    => .infix Prec.CLASS_INEQUALITY .CodeParser_InfixInequality
  | .LongName_LessEqualGreater
    => .infix Prec.CLASS_INEQUALITY .CodeParser_InfixInequality
  | .LongName_LessFullEqual
    => .infix Prec.CLASS_INEQUALITY .CodeParser_InfixInequality
  | .LongName_LessGreater
    => .infix Prec.CLASS_INEQUALITY .CodeParser_InfixInequality
  | .LongName_LessLess
    => .infix Prec.CLASS_INEQUALITY .CodeParser_InfixInequality
  | .LongName_LessSlantEqual
    => .infix Prec.CLASS_INEQUALITY .CodeParser_InfixInequality
  | .LongName_LessTilde
    => .infix Prec.CLASS_INEQUALITY .CodeParser_InfixInequality
  | .LongName_LongEqual
    => .infix Prec.CLASS_INEQUALITY .CodeParser_InfixInequality
  | .LongName_NestedGreaterGreater
    => .infix Prec.CLASS_INEQUALITY .CodeParser_InfixInequality
  | .LongName_NestedLessLess
    => .infix Prec.CLASS_INEQUALITY .CodeParser_InfixInequality
  | .LongName_NotEqual
    => .infix Prec.CLASS_INEQUALITY .CodeParser_InfixInequality
  | .LongName_NotGreater
    => .infix Prec.CLASS_INEQUALITY .CodeParser_InfixInequality
  | .LongName_NotGreaterEqual
    => .infix Prec.CLASS_INEQUALITY .CodeParser_InfixInequality
  | .LongName_NotGreaterFullEqual
    => .infix Prec.CLASS_INEQUALITY .CodeParser_InfixInequality
  | .LongName_NotGreaterGreater
    => .infix Prec.CLASS_INEQUALITY .CodeParser_InfixInequality
  | .LongName_NotGreaterLess
    => .infix Prec.CLASS_INEQUALITY .CodeParser_InfixInequality
  | .LongName_NotGreaterSlantEqual
    => .infix Prec.CLASS_INEQUALITY .CodeParser_InfixInequality
  | .LongName_NotGreaterTilde
    => .infix Prec.CLASS_INEQUALITY .CodeParser_InfixInequality
  | .LongName_NotLess
    => .infix Prec.CLASS_INEQUALITY .CodeParser_InfixInequality
  | .LongName_NotLessEqual
    => .infix Prec.CLASS_INEQUALITY .CodeParser_InfixInequality
  | .LongName_NotLessFullEqual
    => .infix Prec.CLASS_INEQUALITY .CodeParser_InfixInequality
  | .LongName_NotLessGreater
    => .infix Prec.CLASS_INEQUALITY .CodeParser_InfixInequality
  | .LongName_NotLessLess
    => .infix Prec.CLASS_INEQUALITY .CodeParser_InfixInequality
  | .LongName_NotLessSlantEqual
    => .infix Prec.CLASS_INEQUALITY .CodeParser_InfixInequality
  | .LongName_NotLessTilde
    => .infix Prec.CLASS_INEQUALITY .CodeParser_InfixInequality
  | .LongName_NotNestedGreaterGreater
    => .infix Prec.CLASS_INEQUALITY .CodeParser_InfixInequality
  | .LongName_NotNestedLessLess
    => .infix Prec.CLASS_INEQUALITY .CodeParser_InfixInequality
  | .LongName_VectorGreater
    => .infix Prec.CLASS_INEQUALITY .CodeParser_InfixInequality
  | .LongName_VectorGreaterEqual
    => .infix Prec.CLASS_INEQUALITY .CodeParser_InfixInequality
  | .LongName_VectorLess
    => .infix Prec.CLASS_INEQUALITY .CodeParser_InfixInequality
  | .LongName_VectorLessEqual
    => .infix Prec.CLASS_INEQUALITY .CodeParser_InfixInequality
  | .LongName_PermutationProduct
    => .infix Prec.LONGNAME_PERMUTATIONPRODUCT .PermutationProduct
  | .LongName_Colon
    => .infix Prec.LONGNAME_COLON .Colon
  | .LongName_Xnor
    => .infix Prec.LONGNAME_XNOR .Xnor
  | .LongName_Minus
    => .infix Prec.INFIX_LONGNAME_MINUS .Plus
  | .Amp
    => .postfix Prec.AMP .Function
  | .DotDot
    => .postfix Prec.DOTDOT .Repeated
  | .Bang
    => .postfix Prec.POSTFIX_BANG .Factorial
  | .MinusMinus
    => .postfix Prec.POSTFIX_MINUSMINUS .Decrement
  | .PlusPlus
    => .postfix Prec.POSTFIX_PLUSPLUS .Increment
  | .DotDotDot
    => .postfix Prec.DOTDOTDOT .RepeatedNull
  | .BangBang
    => .postfix Prec.POSTFIX_BANGBANG .Factorial2
  | .SingleQuote
    => .postfix Prec.SINGLEQUOTE .Derivative
  | .LongName_Transpose
    => .postfix Prec.LONGNAME_TRANSPOSE .Transpose
  | .LongName_Conjugate
    => .postfix Prec.LONGNAME_CONJUGATE .Conjugate
  | .LongName_ConjugateTranspose
    => .postfix Prec.LONGNAME_CONJUGATETRANSPOSE .ConjugateTranspose
  | .LongName_HermitianConjugate
    => .postfix Prec.LONGNAME_HERMITIANCONJUGATE .HermitianConjugate
  | .LongName_InvisiblePostfixScriptBase
    => .postfix Prec.LONGNAME_INVISIBLEPOSTFIXSCRIPTBASE .InvisiblePostfixScriptBase
  | .OpenSquare
    => .call .OpenSquare .CodeParser_GroupSquare
  | .LongName_LeftDoubleBracket
    => .call .LongName_LeftDoubleBracket .CodeParser_GroupDoubleBracket
  | .ColonColonOpenSquare
    => .call .ColonColonOpenSquare .CodeParser_GroupTypeSpecifier
  | .Semi
    => .semi
  | .Comma
    => .comma
  | .LongName_InvisibleComma
    => .comma
  | .SemiSemi
    => .semiSemi
  | .Tilde
    => .tilde
  | .Colon
    => .colon
  | .SlashColon
    => .slashColon
  | .Equal
    => .equal
  | .ColonEqual
    => .colonEqual
  | .ColonColon
    => .colonColon
  | .GreaterGreater
    => .greaterGreater
  | .GreaterGreaterGreater
    => .greaterGreaterGreater
  | .QuestionQuestion
    => .assertFalse
  | .LongName_Limit | .LongName_MaxLimit | .LongName_MinLimit
    => .assertFalse
  | .LongName_AutoLeftMatch | .LongName_AutoRightMatch | .LongName_DiscreteShift
  | .LongName_DifferenceDelta | .LongName_DiscreteRatio | .LongName_PartialD
    => .assertFalse
  | _ => .implicitTimes

end CodeParser
