import Verif.Model.Gen.Operators
/- Generated by tools/gen_tables.py from /repo. Do not edit.
Paths are relative to /repo/crates/wolfram-parser/src. -/
namespace CodeParser

/-- The full name of a symbol, symbols.rs:22-907. -/
def Sym.name : Sym → List Char
  | .CodeParser_AbstractSyntaxErrorNode => ['C','o','d','e','P','a','r','s','e','r','`','A','b','s','t','r','a','c','t','S','y','n','t','a','x','E','r','r','o','r','N','o','d','e']
  | .CodeParser_BinaryAt => ['C','o','d','e','P','a','r','s','e','r','`','B','i','n','a','r','y','A','t']
  | .CodeParser_BinaryNode => ['C','o','d','e','P','a','r','s','e','r','`','B','i','n','a','r','y','N','o','d','e']
  | .CodeParser_BinarySlashSlash => ['C','o','d','e','P','a','r','s','e','r','`','B','i','n','a','r','y','S','l','a','s','h','S','l','a','s','h']
  | .CodeParser_BoxNode => ['C','o','d','e','P','a','r','s','e','r','`','B','o','x','N','o','d','e']
  | .CodeParser_CallMissingCloserNode => ['C','o','d','e','P','a','r','s','e','r','`','C','a','l','l','M','i','s','s','i','n','g','C','l','o','s','e','r','N','o','d','e']
  | .CodeParser_CallNode => ['C','o','d','e','P','a','r','s','e','r','`','C','a','l','l','N','o','d','e']
  | .CodeParser_CodeAction => ['C','o','d','e','P','a','r','s','e','r','`','C','o','d','e','A','c','t','i','o','n']
  | .CodeParser_CodeActions => ['C','o','d','e','P','a','r','s','e','r','`','C','o','d','e','A','c','t','i','o','n','s']
  | .CodeParser_CodeNode => ['C','o','d','e','P','a','r','s','e','r','`','C','o','d','e','N','o','d','e']
  | .CodeParser_Comma => ['C','o','d','e','P','a','r','s','e','r','`','C','o','m','m','a']
  | .CodeParser_Comment => ['C','o','d','e','P','a','r','s','e','r','`','C','o','m','m','e','n','t']
  | .CodeParser_CompoundNode => ['C','o','d','e','P','a','r','s','e','r','`','C','o','m','p','o','u','n','d','N','o','d','e']
  | .CodeParser_ContainerNode => ['C','o','d','e','P','a','r','s','e','r','`','C','o','n','t','a','i','n','e','r','N','o','d','e']
  | .CodeParser_DeleteText => ['C','o','d','e','P','a','r','s','e','r','`','D','e','l','e','t','e','T','e','x','t']
  | .CodeParser_EncodingIssue => ['C','o','d','e','P','a','r','s','e','r','`','E','n','c','o','d','i','n','g','I','s','s','u','e']
  | .CodeParser_ErrorNode => ['C','o','d','e','P','a','r','s','e','r','`','E','r','r','o','r','N','o','d','e']
  | .CodeParser_FormatIssue => ['C','o','d','e','P','a','r','s','e','r','`','F','o','r','m','a','t','I','s','s','u','e']
  | .CodeParser_GroupDoubleBracket => ['C','o','d','e','P','a','r','s','e','r','`','G','r','o','u','p','D','o','u','b','l','e','B','r','a','c','k','e','t']
  | .CodeParser_GroupMissingCloserNode => ['C','o','d','e','P','a','r','s','e','r','`','G','r','o','u','p','M','i','s','s','i','n','g','C','l','o','s','e','r','N','o','d','e']
  | .CodeParser_GroupMissingOpenerNode => ['C','o','d','e','P','a','r','s','e','r','`','G','r','o','u','p','M','i','s','s','i','n','g','O','p','e','n','e','r','N','o','d','e']
  | .CodeParser_GroupNode => ['C','o','d','e','P','a','r','s','e','r','`','G','r','o','u','p','N','o','d','e']
  | .CodeParser_GroupParen => ['C','o','d','e','P','a','r','s','e','r','`','G','r','o','u','p','P','a','r','e','n']
  | .CodeParser_GroupSquare => ['C','o','d','e','P','a','r','s','e','r','`','G','r','o','u','p','S','q','u','a','r','e']
  | .CodeParser_GroupTypeSpecifier => ['C','o','d','e','P','a','r','s','e','r','`','G','r','o','u','p','T','y','p','e','S','p','e','c','i','f','i','e','r']
  | .CodeParser_InfixInequality => ['C','o','d','e','P','a','r','s','e','r','`','I','n','f','i','x','I','n','e','q','u','a','l','i','t','y']
  | .CodeParser_InfixNode => ['C','o','d','e','P','a','r','s','e','r','`','I','n','f','i','x','N','o','d','e']
  | .CodeParser_InfixTilde => ['C','o','d','e','P','a','r','s','e','r','`','I','n','f','i','x','T','i','l','d','e']
  | .CodeParser_InsertText => ['C','o','d','e','P','a','r','s','e','r','`','I','n','s','e','r','t','T','e','x','t']
  | .CodeParser_InternalInvalid => ['C','o','d','e','P','a','r','s','e','r','`','I','n','t','e','r','n','a','l','I','n','v','a','l','i','d']
  | .CodeParser_LeafNode => ['C','o','d','e','P','a','r','s','e','r','`','L','e','a','f','N','o','d','e']
  | .CodeParser_Library_LongNameSuggestion => ['C','o','d','e','P','a','r','s','e','r','`','L','i','b','r','a','r','y','`','L','o','n','g','N','a','m','e','S','u','g','g','e','s','t','i','o','n']
  | .CodeParser_Library_SetConcreteParseProgress => ['C','o','d','e','P','a','r','s','e','r','`','L','i','b','r','a','r','y','`','S','e','t','C','o','n','c','r','e','t','e','P','a','r','s','e','P','r','o','g','r','e','s','s']
  | .CodeParser_PatternBlank => ['C','o','d','e','P','a','r','s','e','r','`','P','a','t','t','e','r','n','B','l','a','n','k']
  | .CodeParser_PatternBlankNullSequence => ['C','o','d','e','P','a','r','s','e','r','`','P','a','t','t','e','r','n','B','l','a','n','k','N','u','l','l','S','e','q','u','e','n','c','e']
  | .CodeParser_PatternBlankSequence => ['C','o','d','e','P','a','r','s','e','r','`','P','a','t','t','e','r','n','B','l','a','n','k','S','e','q','u','e','n','c','e']
  | .CodeParser_PatternOptionalDefault => ['C','o','d','e','P','a','r','s','e','r','`','P','a','t','t','e','r','n','O','p','t','i','o','n','a','l','D','e','f','a','u','l','t']
  | .CodeParser_PostfixNode => ['C','o','d','e','P','a','r','s','e','r','`','P','o','s','t','f','i','x','N','o','d','e']
  | .CodeParser_PrefixBinaryNode => ['C','o','d','e','P','a','r','s','e','r','`','P','r','e','f','i','x','B','i','n','a','r','y','N','o','d','e']
  | .CodeParser_PrefixLinearSyntaxBang => ['C','o','d','e','P','a','r','s','e','r','`','P','r','e','f','i','x','L','i','n','e','a','r','S','y','n','t','a','x','B','a','n','g']
  | .CodeParser_PrefixNode => ['C','o','d','e','P','a','r','s','e','r','`','P','r','e','f','i','x','N','o','d','e']
  | .CodeParser_PrefixNot2 => ['C','o','d','e','P','a','r','s','e','r','`','P','r','e','f','i','x','N','o','t','2']
  | .CodeParser_ReplaceText => ['C','o','d','e','P','a','r','s','e','r','`','R','e','p','l','a','c','e','T','e','x','t']
  | .CodeParser_Source => ['C','o','d','e','P','a','r','s','e','r','`','S','o','u','r','c','e']
  | .CodeParser_SyntaxErrorNode => ['C','o','d','e','P','a','r','s','e','r','`','S','y','n','t','a','x','E','r','r','o','r','N','o','d','e']
  | .CodeParser_SyntaxIssue => ['C','o','d','e','P','a','r','s','e','r','`','S','y','n','t','a','x','I','s','s','u','e']
  | .CodeParser_TernaryNode => ['C','o','d','e','P','a','r','s','e','r','`','T','e','r','n','a','r','y','N','o','d','e']
  | .CodeParser_TernaryOptionalPattern => ['C','o','d','e','P','a','r','s','e','r','`','T','e','r','n','a','r','y','O','p','t','i','o','n','a','l','P','a','t','t','e','r','n']
  | .CodeParser_TernaryTilde => ['C','o','d','e','P','a','r','s','e','r','`','T','e','r','n','a','r','y','T','i','l','d','e']
  | .CodeParser_UnterminatedTokenErrorNeedsReparseNode => ['C','o','d','e','P','a','r','s','e','r','`','U','n','t','e','r','m','i','n','a','t','e','d','T','o','k','e','n','E','r','r','o','r','N','e','e','d','s','R','e','p','a','r','s','e','N','o','d','e']
  | .Developer_VectorInequality => ['D','e','v','e','l','o','p','e','r','`','V','e','c','t','o','r','I','n','e','q','u','a','l','i','t','y']
  | .SyntaxError_ExpectedSet => ['S','y','n','t','a','x','E','r','r','o','r','`','E','x','p','e','c','t','e','d','S','e','t']
  | .SyntaxError_ExpectedSymbol => ['S','y','n','t','a','x','E','r','r','o','r','`','E','x','p','e','c','t','e','d','S','y','m','b','o','l']
  | .SyntaxError_ExpectedTilde => ['S','y','n','t','a','x','E','r','r','o','r','`','E','x','p','e','c','t','e','d','T','i','l','d','e']
  | .System__Aborted => ['S','y','s','t','e','m','`','$','A','b','o','r','t','e','d']
  | .System_AddTo => ['S','y','s','t','e','m','`','A','d','d','T','o']
  | .System_After => ['S','y','s','t','e','m','`','A','f','t','e','r']
  | .System_All => ['S','y','s','t','e','m','`','A','l','l']
  | .System_Alternatives => ['S','y','s','t','e','m','`','A','l','t','e','r','n','a','t','i','v','e','s']
  | .System_And => ['S','y','s','t','e','m','`','A','n','d']
  | .System_AngleBracket => ['S','y','s','t','e','m','`','A','n','g','l','e','B','r','a','c','k','e','t']
  | .System_Application => ['S','y','s','t','e','m','`','A','p','p','l','i','c','a','t','i','o','n']
  | .System_Apply => ['S','y','s','t','e','m','`','A','p','p','l','y']
  | .System_ApplyTo => ['S','y','s','t','e','m','`','A','p','p','l','y','T','o']
  | .System_Association => ['S','y','s','t','e','m','`','A','s','s','o','c','i','a','t','i','o','n']
  | .System_Backslash => ['S','y','s','t','e','m','`','B','a','c','k','s','l','a','s','h']
  | .System_Because => ['S','y','s','t','e','m','`','B','e','c','a','u','s','e']
  | .System_Before => ['S','y','s','t','e','m','`','B','e','f','o','r','e']
  | .System_Blank => ['S','y','s','t','e','m','`','B','l','a','n','k']
  | .System_BlankNullSequence => ['S','y','s','t','e','m','`','B','l','a','n','k','N','u','l','l','S','e','q','u','e','n','c','e']
  | .System_BlankSequence => ['S','y','s','t','e','m','`','B','l','a','n','k','S','e','q','u','e','n','c','e']
  | .System_BracketingBar => ['S','y','s','t','e','m','`','B','r','a','c','k','e','t','i','n','g','B','a','r']
  | .System_ByteArray => ['S','y','s','t','e','m','`','B','y','t','e','A','r','r','a','y']
  | .System_Cap => ['S','y','s','t','e','m','`','C','a','p']
  | .System_CapitalDifferentialD => ['S','y','s','t','e','m','`','C','a','p','i','t','a','l','D','i','f','f','e','r','e','n','t','i','a','l','D']
  | .System_Ceiling => ['S','y','s','t','e','m','`','C','e','i','l','i','n','g']
  | .System_CenterDot => ['S','y','s','t','e','m','`','C','e','n','t','e','r','D','o','t']
  | .System_CircleDot => ['S','y','s','t','e','m','`','C','i','r','c','l','e','D','o','t']
  | .System_CircleMinus => ['S','y','s','t','e','m','`','C','i','r','c','l','e','M','i','n','u','s']
  | .System_CirclePlus => ['S','y','s','t','e','m','`','C','i','r','c','l','e','P','l','u','s']
  | .System_CircleTimes => ['S','y','s','t','e','m','`','C','i','r','c','l','e','T','i','m','e','s']
  | .System_ClockwiseContourIntegral => ['S','y','s','t','e','m','`','C','l','o','c','k','w','i','s','e','C','o','n','t','o','u','r','I','n','t','e','g','r','a','l']
  | .System_Colon => ['S','y','s','t','e','m','`','C','o','l','o','n']
  | .System_Composition => ['S','y','s','t','e','m','`','C','o','m','p','o','s','i','t','i','o','n']
  | .System_CompoundExpression => ['S','y','s','t','e','m','`','C','o','m','p','o','u','n','d','E','x','p','r','e','s','s','i','o','n']
  | .System_Condition => ['S','y','s','t','e','m','`','C','o','n','d','i','t','i','o','n']
  | .System_Conditioned => ['S','y','s','t','e','m','`','C','o','n','d','i','t','i','o','n','e','d']
  | .System_ConfidenceLevel => ['S','y','s','t','e','m','`','C','o','n','f','i','d','e','n','c','e','L','e','v','e','l']
  | .System_Congruent => ['S','y','s','t','e','m','`','C','o','n','g','r','u','e','n','t']
  | .System_Conjugate => ['S','y','s','t','e','m','`','C','o','n','j','u','g','a','t','e']
  | .System_ConjugateTranspose => ['S','y','s','t','e','m','`','C','o','n','j','u','g','a','t','e','T','r','a','n','s','p','o','s','e']
  | .System_ContinuedFractionK => ['S','y','s','t','e','m','`','C','o','n','t','i','n','u','e','d','F','r','a','c','t','i','o','n','K']
  | .System_ContourIntegral => ['S','y','s','t','e','m','`','C','o','n','t','o','u','r','I','n','t','e','g','r','a','l']
  | .System_Coproduct => ['S','y','s','t','e','m','`','C','o','p','r','o','d','u','c','t']
  | .System_CounterClockwiseContourIntegral => ['S','y','s','t','e','m','`','C','o','u','n','t','e','r','C','l','o','c','k','w','i','s','e','C','o','n','t','o','u','r','I','n','t','e','g','r','a','l']
  | .System_Cross => ['S','y','s','t','e','m','`','C','r','o','s','s']
  | .System_CubeRoot => ['S','y','s','t','e','m','`','C','u','b','e','R','o','o','t']
  | .System_Cup => ['S','y','s','t','e','m','`','C','u','p']
  | .System_CupCap => ['S','y','s','t','e','m','`','C','u','p','C','a','p']
  | .System_CurlyDoubleQuote => ['S','y','s','t','e','m','`','C','u','r','l','y','D','o','u','b','l','e','Q','u','o','t','e']
  | .System_CurlyQuote => ['S','y','s','t','e','m','`','C','u','r','l','y','Q','u','o','t','e']
  | .System_Decrement => ['S','y','s','t','e','m','`','D','e','c','r','e','m','e','n','t']
  | .System_Degree => ['S','y','s','t','e','m','`','D','e','g','r','e','e']
  | .System_Del => ['S','y','s','t','e','m','`','D','e','l']
  | .System_Derivative => ['S','y','s','t','e','m','`','D','e','r','i','v','a','t','i','v','e']
  | .System_Diamond => ['S','y','s','t','e','m','`','D','i','a','m','o','n','d']
  | .System_DifferentialD => ['S','y','s','t','e','m','`','D','i','f','f','e','r','e','n','t','i','a','l','D']
  | .System_DirectedEdge => ['S','y','s','t','e','m','`','D','i','r','e','c','t','e','d','E','d','g','e']
  | .System_Distributed => ['S','y','s','t','e','m','`','D','i','s','t','r','i','b','u','t','e','d']
  | .System_Divide => ['S','y','s','t','e','m','`','D','i','v','i','d','e']
  | .System_DivideBy => ['S','y','s','t','e','m','`','D','i','v','i','d','e','B','y']
  | .System_Divisible => ['S','y','s','t','e','m','`','D','i','v','i','s','i','b','l','e']
  | .System_Dot => ['S','y','s','t','e','m','`','D','o','t']
  | .System_DotEqual => ['S','y','s','t','e','m','`','D','o','t','E','q','u','a','l']
  | .System_DoubleBracketingBar => ['S','y','s','t','e','m','`','D','o','u','b','l','e','B','r','a','c','k','e','t','i','n','g','B','a','r']
  | .System_DoubleContourIntegral => ['S','y','s','t','e','m','`','D','o','u','b','l','e','C','o','n','t','o','u','r','I','n','t','e','g','r','a','l']
  | .System_DoubleDownArrow => ['S','y','s','t','e','m','`','D','o','u','b','l','e','D','o','w','n','A','r','r','o','w']
  | .System_DoubleLeftArrow => ['S','y','s','t','e','m','`','D','o','u','b','l','e','L','e','f','t','A','r','r','o','w']
  | .System_DoubleLeftRightArrow => ['S','y','s','t','e','m','`','D','o','u','b','l','e','L','e','f','t','R','i','g','h','t','A','r','r','o','w']
  | .System_DoubleLeftTee => ['S','y','s','t','e','m','`','D','o','u','b','l','e','L','e','f','t','T','e','e']
  | .System_DoubleLongLeftArrow => ['S','y','s','t','e','m','`','D','o','u','b','l','e','L','o','n','g','L','e','f','t','A','r','r','o','w']
  | .System_DoubleLongLeftRightArrow => ['S','y','s','t','e','m','`','D','o','u','b','l','e','L','o','n','g','L','e','f','t','R','i','g','h','t','A','r','r','o','w']
  | .System_DoubleLongRightArrow => ['S','y','s','t','e','m','`','D','o','u','b','l','e','L','o','n','g','R','i','g','h','t','A','r','r','o','w']
  | .System_DoubleRightArrow => ['S','y','s','t','e','m','`','D','o','u','b','l','e','R','i','g','h','t','A','r','r','o','w']
  | .System_DoubleRightTee => ['S','y','s','t','e','m','`','D','o','u','b','l','e','R','i','g','h','t','T','e','e']
  | .System_DoubleUpArrow => ['S','y','s','t','e','m','`','D','o','u','b','l','e','U','p','A','r','r','o','w']
  | .System_DoubleUpDownArrow => ['S','y','s','t','e','m','`','D','o','u','b','l','e','U','p','D','o','w','n','A','r','r','o','w']
  | .System_DoubleVerticalBar => ['S','y','s','t','e','m','`','D','o','u','b','l','e','V','e','r','t','i','c','a','l','B','a','r']
  | .System_DownArrow => ['S','y','s','t','e','m','`','D','o','w','n','A','r','r','o','w']
  | .System_DownArrowBar => ['S','y','s','t','e','m','`','D','o','w','n','A','r','r','o','w','B','a','r']
  | .System_DownArrowUpArrow => ['S','y','s','t','e','m','`','D','o','w','n','A','r','r','o','w','U','p','A','r','r','o','w']
  | .System_DownLeftRightVector => ['S','y','s','t','e','m','`','D','o','w','n','L','e','f','t','R','i','g','h','t','V','e','c','t','o','r']
  | .System_DownLeftTeeVector => ['S','y','s','t','e','m','`','D','o','w','n','L','e','f','t','T','e','e','V','e','c','t','o','r']
  | .System_DownLeftVector => ['S','y','s','t','e','m','`','D','o','w','n','L','e','f','t','V','e','c','t','o','r']
  | .System_DownLeftVectorBar => ['S','y','s','t','e','m','`','D','o','w','n','L','e','f','t','V','e','c','t','o','r','B','a','r']
  | .System_DownRightTeeVector => ['S','y','s','t','e','m','`','D','o','w','n','R','i','g','h','t','T','e','e','V','e','c','t','o','r']
  | .System_DownRightVector => ['S','y','s','t','e','m','`','D','o','w','n','R','i','g','h','t','V','e','c','t','o','r']
  | .System_DownRightVectorBar => ['S','y','s','t','e','m','`','D','o','w','n','R','i','g','h','t','V','e','c','t','o','r','B','a','r']
  | .System_DownTee => ['S','y','s','t','e','m','`','D','o','w','n','T','e','e']
  | .System_DownTeeArrow => ['S','y','s','t','e','m','`','D','o','w','n','T','e','e','A','r','r','o','w']
  | .System_E => ['S','y','s','t','e','m','`','E']
  | .System_Element => ['S','y','s','t','e','m','`','E','l','e','m','e','n','t']
  | .System_EndOfFile => ['S','y','s','t','e','m','`','E','n','d','O','f','F','i','l','e']
  | .System_Equal => ['S','y','s','t','e','m','`','E','q','u','a','l']
  | .System_EqualTilde => ['S','y','s','t','e','m','`','E','q','u','a','l','T','i','l','d','e']
  | .System_Equilibrium => ['S','y','s','t','e','m','`','E','q','u','i','l','i','b','r','i','u','m']
  | .System_Equivalent => ['S','y','s','t','e','m','`','E','q','u','i','v','a','l','e','n','t']
  | .System_EvaluatePacket => ['S','y','s','t','e','m','`','E','v','a','l','u','a','t','e','P','a','c','k','e','t']
  | .System_Exists => ['S','y','s','t','e','m','`','E','x','i','s','t','s']
  | .System_ExpectationE => ['S','y','s','t','e','m','`','E','x','p','e','c','t','a','t','i','o','n','E']
  | .System_Factorial => ['S','y','s','t','e','m','`','F','a','c','t','o','r','i','a','l']
  | .System_Factorial2 => ['S','y','s','t','e','m','`','F','a','c','t','o','r','i','a','l','2']
  | .System_Floor => ['S','y','s','t','e','m','`','F','l','o','o','r']
  | .System_ForAll => ['S','y','s','t','e','m','`','F','o','r','A','l','l']
  | .System_Function => ['S','y','s','t','e','m','`','F','u','n','c','t','i','o','n']
  | .System_Get => ['S','y','s','t','e','m','`','G','e','t']
  | .System_Greater => ['S','y','s','t','e','m','`','G','r','e','a','t','e','r']
  | .System_GreaterEqual => ['S','y','s','t','e','m','`','G','r','e','a','t','e','r','E','q','u','a','l']
  | .System_GreaterEqualLess => ['S','y','s','t','e','m','`','G','r','e','a','t','e','r','E','q','u','a','l','L','e','s','s']
  | .System_GreaterFullEqual => ['S','y','s','t','e','m','`','G','r','e','a','t','e','r','F','u','l','l','E','q','u','a','l']
  | .System_GreaterGreater => ['S','y','s','t','e','m','`','G','r','e','a','t','e','r','G','r','e','a','t','e','r']
  | .System_GreaterLess => ['S','y','s','t','e','m','`','G','r','e','a','t','e','r','L','e','s','s']
  | .System_GreaterSlantEqual => ['S','y','s','t','e','m','`','G','r','e','a','t','e','r','S','l','a','n','t','E','q','u','a','l']
  | .System_GreaterTilde => ['S','y','s','t','e','m','`','G','r','e','a','t','e','r','T','i','l','d','e']
  | .System_HermitianConjugate => ['S','y','s','t','e','m','`','H','e','r','m','i','t','i','a','n','C','o','n','j','u','g','a','t','e']
  | .System_HumpDownHump => ['S','y','s','t','e','m','`','H','u','m','p','D','o','w','n','H','u','m','p']
  | .System_HumpEqual => ['S','y','s','t','e','m','`','H','u','m','p','E','q','u','a','l']
  | .System_I => ['S','y','s','t','e','m','`','I']
  | .System_Implies => ['S','y','s','t','e','m','`','I','m','p','l','i','e','s']
  | .System_Increment => ['S','y','s','t','e','m','`','I','n','c','r','e','m','e','n','t']
  | .System_Inequality => ['S','y','s','t','e','m','`','I','n','e','q','u','a','l','i','t','y']
  | .System_Infinity => ['S','y','s','t','e','m','`','I','n','f','i','n','i','t','y']
  | .System_Information => ['S','y','s','t','e','m','`','I','n','f','o','r','m','a','t','i','o','n']
  | .System_Integer => ['S','y','s','t','e','m','`','I','n','t','e','g','e','r']
  | .System_Integral => ['S','y','s','t','e','m','`','I','n','t','e','g','r','a','l']
  | .System_Integrate => ['S','y','s','t','e','m','`','I','n','t','e','g','r','a','t','e']
  | .System_Intersection => ['S','y','s','t','e','m','`','I','n','t','e','r','s','e','c','t','i','o','n']
  | .System_InvisiblePostfixScriptBase => ['S','y','s','t','e','m','`','I','n','v','i','s','i','b','l','e','P','o','s','t','f','i','x','S','c','r','i','p','t','B','a','s','e']
  | .System_InvisiblePrefixScriptBase => ['S','y','s','t','e','m','`','I','n','v','i','s','i','b','l','e','P','r','e','f','i','x','S','c','r','i','p','t','B','a','s','e']
  | .System_LeftArrow => ['S','y','s','t','e','m','`','L','e','f','t','A','r','r','o','w']
  | .System_LeftArrowBar => ['S','y','s','t','e','m','`','L','e','f','t','A','r','r','o','w','B','a','r']
  | .System_LeftArrowRightArrow => ['S','y','s','t','e','m','`','L','e','f','t','A','r','r','o','w','R','i','g','h','t','A','r','r','o','w']
  | .System_LeftDownTeeVector => ['S','y','s','t','e','m','`','L','e','f','t','D','o','w','n','T','e','e','V','e','c','t','o','r']
  | .System_LeftDownVector => ['S','y','s','t','e','m','`','L','e','f','t','D','o','w','n','V','e','c','t','o','r']
  | .System_LeftDownVectorBar => ['S','y','s','t','e','m','`','L','e','f','t','D','o','w','n','V','e','c','t','o','r','B','a','r']
  | .System_LeftRightArrow => ['S','y','s','t','e','m','`','L','e','f','t','R','i','g','h','t','A','r','r','o','w']
  | .System_LeftRightVector => ['S','y','s','t','e','m','`','L','e','f','t','R','i','g','h','t','V','e','c','t','o','r']
  | .System_LeftTee => ['S','y','s','t','e','m','`','L','e','f','t','T','e','e']
  | .System_LeftTeeArrow => ['S','y','s','t','e','m','`','L','e','f','t','T','e','e','A','r','r','o','w']
  | .System_LeftTeeVector => ['S','y','s','t','e','m','`','L','e','f','t','T','e','e','V','e','c','t','o','r']
  | .System_LeftTriangle => ['S','y','s','t','e','m','`','L','e','f','t','T','r','i','a','n','g','l','e']
  | .System_LeftTriangleBar => ['S','y','s','t','e','m','`','L','e','f','t','T','r','i','a','n','g','l','e','B','a','r']
  | .System_LeftTriangleEqual => ['S','y','s','t','e','m','`','L','e','f','t','T','r','i','a','n','g','l','e','E','q','u','a','l']
  | .System_LeftUpDownVector => ['S','y','s','t','e','m','`','L','e','f','t','U','p','D','o','w','n','V','e','c','t','o','r']
  | .System_LeftUpTeeVector => ['S','y','s','t','e','m','`','L','e','f','t','U','p','T','e','e','V','e','c','t','o','r']
  | .System_LeftUpVector => ['S','y','s','t','e','m','`','L','e','f','t','U','p','V','e','c','t','o','r']
  | .System_LeftUpVectorBar => ['S','y','s','t','e','m','`','L','e','f','t','U','p','V','e','c','t','o','r','B','a','r']
  | .System_LeftVector => ['S','y','s','t','e','m','`','L','e','f','t','V','e','c','t','o','r']
  | .System_LeftVectorBar => ['S','y','s','t','e','m','`','L','e','f','t','V','e','c','t','o','r','B','a','r']
  | .System_Less => ['S','y','s','t','e','m','`','L','e','s','s']
  | .System_LessEqual => ['S','y','s','t','e','m','`','L','e','s','s','E','q','u','a','l']
  | .System_LessEqualGreater => ['S','y','s','t','e','m','`','L','e','s','s','E','q','u','a','l','G','r','e','a','t','e','r']
  | .System_LessFullEqual => ['S','y','s','t','e','m','`','L','e','s','s','F','u','l','l','E','q','u','a','l']
  | .System_LessGreater => ['S','y','s','t','e','m','`','L','e','s','s','G','r','e','a','t','e','r']
  | .System_LessLess => ['S','y','s','t','e','m','`','L','e','s','s','L','e','s','s']
  | .System_LessSlantEqual => ['S','y','s','t','e','m','`','L','e','s','s','S','l','a','n','t','E','q','u','a','l']
  | .System_LessTilde => ['S','y','s','t','e','m','`','L','e','s','s','T','i','l','d','e']
  | .System_List => ['S','y','s','t','e','m','`','L','i','s','t']
  | .System_LongLeftArrow => ['S','y','s','t','e','m','`','L','o','n','g','L','e','f','t','A','r','r','o','w']
  | .System_LongLeftRightArrow => ['S','y','s','t','e','m','`','L','o','n','g','L','e','f','t','R','i','g','h','t','A','r','r','o','w']
  | .System_LongRightArrow => ['S','y','s','t','e','m','`','L','o','n','g','R','i','g','h','t','A','r','r','o','w']
  | .System_LowerLeftArrow => ['S','y','s','t','e','m','`','L','o','w','e','r','L','e','f','t','A','r','r','o','w']
  | .System_LowerRightArrow => ['S','y','s','t','e','m','`','L','o','w','e','r','R','i','g','h','t','A','r','r','o','w']
  | .System_Map => ['S','y','s','t','e','m','`','M','a','p']
  | .System_MapAll => ['S','y','s','t','e','m','`','M','a','p','A','l','l']
  | .System_MapApply => ['S','y','s','t','e','m','`','M','a','p','A','p','p','l','y']
  | .System_MessageName => ['S','y','s','t','e','m','`','M','e','s','s','a','g','e','N','a','m','e']
  | .System_Minus => ['S','y','s','t','e','m','`','M','i','n','u','s']
  | .System_MinusPlus => ['S','y','s','t','e','m','`','M','i','n','u','s','P','l','u','s']
  | .System_Missing => ['S','y','s','t','e','m','`','M','i','s','s','i','n','g']
  | .System_Nand => ['S','y','s','t','e','m','`','N','a','n','d']
  | .System_NestedGreaterGreater => ['S','y','s','t','e','m','`','N','e','s','t','e','d','G','r','e','a','t','e','r','G','r','e','a','t','e','r']
  | .System_NestedLessLess => ['S','y','s','t','e','m','`','N','e','s','t','e','d','L','e','s','s','L','e','s','s']
  | .System_NonCommutativeMultiply => ['S','y','s','t','e','m','`','N','o','n','C','o','m','m','u','t','a','t','i','v','e','M','u','l','t','i','p','l','y']
  | .System_Nor => ['S','y','s','t','e','m','`','N','o','r']
  | .System_Not => ['S','y','s','t','e','m','`','N','o','t']
  | .System_NotCongruent => ['S','y','s','t','e','m','`','N','o','t','C','o','n','g','r','u','e','n','t']
  | .System_NotCupCap => ['S','y','s','t','e','m','`','N','o','t','C','u','p','C','a','p']
  | .System_NotDoubleVerticalBar => ['S','y','s','t','e','m','`','N','o','t','D','o','u','b','l','e','V','e','r','t','i','c','a','l','B','a','r']
  | .System_NotElement => ['S','y','s','t','e','m','`','N','o','t','E','l','e','m','e','n','t']
  | .System_NotEqualTilde => ['S','y','s','t','e','m','`','N','o','t','E','q','u','a','l','T','i','l','d','e']
  | .System_NotExists => ['S','y','s','t','e','m','`','N','o','t','E','x','i','s','t','s']
  | .System_NotGreater => ['S','y','s','t','e','m','`','N','o','t','G','r','e','a','t','e','r']
  | .System_NotGreaterEqual => ['S','y','s','t','e','m','`','N','o','t','G','r','e','a','t','e','r','E','q','u','a','l']
  | .System_NotGreaterFullEqual => ['S','y','s','t','e','m','`','N','o','t','G','r','e','a','t','e','r','F','u','l','l','E','q','u','a','l']
  | .System_NotGreaterGreater => ['S','y','s','t','e','m','`','N','o','t','G','r','e','a','t','e','r','G','r','e','a','t','e','r']
  | .System_NotGreaterLess => ['S','y','s','t','e','m','`','N','o','t','G','r','e','a','t','e','r','L','e','s','s']
  | .System_NotGreaterSlantEqual => ['S','y','s','t','e','m','`','N','o','t','G','r','e','a','t','e','r','S','l','a','n','t','E','q','u','a','l']
  | .System_NotGreaterTilde => ['S','y','s','t','e','m','`','N','o','t','G','r','e','a','t','e','r','T','i','l','d','e']
  | .System_NotHumpDownHump => ['S','y','s','t','e','m','`','N','o','t','H','u','m','p','D','o','w','n','H','u','m','p']
  | .System_NotHumpEqual => ['S','y','s','t','e','m','`','N','o','t','H','u','m','p','E','q','u','a','l']
  | .System_NotLeftTriangle => ['S','y','s','t','e','m','`','N','o','t','L','e','f','t','T','r','i','a','n','g','l','e']
  | .System_NotLeftTriangleBar => ['S','y','s','t','e','m','`','N','o','t','L','e','f','t','T','r','i','a','n','g','l','e','B','a','r']
  | .System_NotLeftTriangleEqual => ['S','y','s','t','e','m','`','N','o','t','L','e','f','t','T','r','i','a','n','g','l','e','E','q','u','a','l']
  | .System_NotLess => ['S','y','s','t','e','m','`','N','o','t','L','e','s','s']
  | .System_NotLessEqual => ['S','y','s','t','e','m','`','N','o','t','L','e','s','s','E','q','u','a','l']
  | .System_NotLessFullEqual => ['S','y','s','t','e','m','`','N','o','t','L','e','s','s','F','u','l','l','E','q','u','a','l']
  | .System_NotLessGreater => ['S','y','s','t','e','m','`','N','o','t','L','e','s','s','G','r','e','a','t','e','r']
  | .System_NotLessLess => ['S','y','s','t','e','m','`','N','o','t','L','e','s','s','L','e','s','s']
  | .System_NotLessSlantEqual => ['S','y','s','t','e','m','`','N','o','t','L','e','s','s','S','l','a','n','t','E','q','u','a','l']
  | .System_NotLessTilde => ['S','y','s','t','e','m','`','N','o','t','L','e','s','s','T','i','l','d','e']
  | .System_NotNestedGreaterGreater => ['S','y','s','t','e','m','`','N','o','t','N','e','s','t','e','d','G','r','e','a','t','e','r','G','r','e','a','t','e','r']
  | .System_NotNestedLessLess => ['S','y','s','t','e','m','`','N','o','t','N','e','s','t','e','d','L','e','s','s','L','e','s','s']
  | .System_NotPrecedes => ['S','y','s','t','e','m','`','N','o','t','P','r','e','c','e','d','e','s']
  | .System_NotPrecedesEqual => ['S','y','s','t','e','m','`','N','o','t','P','r','e','c','e','d','e','s','E','q','u','a','l']
  | .System_NotPrecedesSlantEqual => ['S','y','s','t','e','m','`','N','o','t','P','r','e','c','e','d','e','s','S','l','a','n','t','E','q','u','a','l']
  | .System_NotPrecedesTilde => ['S','y','s','t','e','m','`','N','o','t','P','r','e','c','e','d','e','s','T','i','l','d','e']
  | .System_NotReverseElement => ['S','y','s','t','e','m','`','N','o','t','R','e','v','e','r','s','e','E','l','e','m','e','n','t']
  | .System_NotRightTriangle => ['S','y','s','t','e','m','`','N','o','t','R','i','g','h','t','T','r','i','a','n','g','l','e']
  | .System_NotRightTriangleBar => ['S','y','s','t','e','m','`','N','o','t','R','i','g','h','t','T','r','i','a','n','g','l','e','B','a','r']
  | .System_NotRightTriangleEqual => ['S','y','s','t','e','m','`','N','o','t','R','i','g','h','t','T','r','i','a','n','g','l','e','E','q','u','a','l']
  | .System_NotSquareSubset => ['S','y','s','t','e','m','`','N','o','t','S','q','u','a','r','e','S','u','b','s','e','t']
  | .System_NotSquareSubsetEqual => ['S','y','s','t','e','m','`','N','o','t','S','q','u','a','r','e','S','u','b','s','e','t','E','q','u','a','l']
  | .System_NotSquareSuperset => ['S','y','s','t','e','m','`','N','o','t','S','q','u','a','r','e','S','u','p','e','r','s','e','t']
  | .System_NotSquareSupersetEqual => ['S','y','s','t','e','m','`','N','o','t','S','q','u','a','r','e','S','u','p','e','r','s','e','t','E','q','u','a','l']
  | .System_NotSubset => ['S','y','s','t','e','m','`','N','o','t','S','u','b','s','e','t']
  | .System_NotSubsetEqual => ['S','y','s','t','e','m','`','N','o','t','S','u','b','s','e','t','E','q','u','a','l']
  | .System_NotSucceeds => ['S','y','s','t','e','m','`','N','o','t','S','u','c','c','e','e','d','s']
  | .System_NotSucceedsEqual => ['S','y','s','t','e','m','`','N','o','t','S','u','c','c','e','e','d','s','E','q','u','a','l']
  | .System_NotSucceedsSlantEqual => ['S','y','s','t','e','m','`','N','o','t','S','u','c','c','e','e','d','s','S','l','a','n','t','E','q','u','a','l']
  | .System_NotSucceedsTilde => ['S','y','s','t','e','m','`','N','o','t','S','u','c','c','e','e','d','s','T','i','l','d','e']
  | .System_NotSuperset => ['S','y','s','t','e','m','`','N','o','t','S','u','p','e','r','s','e','t']
  | .System_NotSupersetEqual => ['S','y','s','t','e','m','`','N','o','t','S','u','p','e','r','s','e','t','E','q','u','a','l']
  | .System_NotTilde => ['S','y','s','t','e','m','`','N','o','t','T','i','l','d','e']
  | .System_NotTildeEqual => ['S','y','s','t','e','m','`','N','o','t','T','i','l','d','e','E','q','u','a','l']
  | .System_NotTildeFullEqual => ['S','y','s','t','e','m','`','N','o','t','T','i','l','d','e','F','u','l','l','E','q','u','a','l']
  | .System_NotTildeTilde => ['S','y','s','t','e','m','`','N','o','t','T','i','l','d','e','T','i','l','d','e']
  | .System_NotVerticalBar => ['S','y','s','t','e','m','`','N','o','t','V','e','r','t','i','c','a','l','B','a','r']
  | .System_Nothing => ['S','y','s','t','e','m','`','N','o','t','h','i','n','g']
  | .System_Null => ['S','y','s','t','e','m','`','N','u','l','l']
  | .System_Optional => ['S','y','s','t','e','m','`','O','p','t','i','o','n','a','l']
  | .System_Or => ['S','y','s','t','e','m','`','O','r']
  | .System_Out => ['S','y','s','t','e','m','`','O','u','t']
  | .System_Part => ['S','y','s','t','e','m','`','P','a','r','t']
  | .System_Pattern => ['S','y','s','t','e','m','`','P','a','t','t','e','r','n']
  | .System_PatternTest => ['S','y','s','t','e','m','`','P','a','t','t','e','r','n','T','e','s','t']
  | .System_PermutationProduct => ['S','y','s','t','e','m','`','P','e','r','m','u','t','a','t','i','o','n','P','r','o','d','u','c','t']
  | .System_Perpendicular => ['S','y','s','t','e','m','`','P','e','r','p','e','n','d','i','c','u','l','a','r']
  | .System_Pi => ['S','y','s','t','e','m','`','P','i']
  | .System_Piecewise => ['S','y','s','t','e','m','`','P','i','e','c','e','w','i','s','e']
  | .System_Plus => ['S','y','s','t','e','m','`','P','l','u','s']
  | .System_PlusMinus => ['S','y','s','t','e','m','`','P','l','u','s','M','i','n','u','s']
  | .System_Power => ['S','y','s','t','e','m','`','P','o','w','e','r']
  | .System_PreDecrement => ['S','y','s','t','e','m','`','P','r','e','D','e','c','r','e','m','e','n','t']
  | .System_PreIncrement => ['S','y','s','t','e','m','`','P','r','e','I','n','c','r','e','m','e','n','t']
  | .System_Precedes => ['S','y','s','t','e','m','`','P','r','e','c','e','d','e','s']
  | .System_PrecedesEqual => ['S','y','s','t','e','m','`','P','r','e','c','e','d','e','s','E','q','u','a','l']
  | .System_PrecedesSlantEqual => ['S','y','s','t','e','m','`','P','r','e','c','e','d','e','s','S','l','a','n','t','E','q','u','a','l']
  | .System_PrecedesTilde => ['S','y','s','t','e','m','`','P','r','e','c','e','d','e','s','T','i','l','d','e']
  | .System_ProbabilityPr => ['S','y','s','t','e','m','`','P','r','o','b','a','b','i','l','i','t','y','P','r']
  | .System_Product => ['S','y','s','t','e','m','`','P','r','o','d','u','c','t']
  | .System_Proportion => ['S','y','s','t','e','m','`','P','r','o','p','o','r','t','i','o','n']
  | .System_Proportional => ['S','y','s','t','e','m','`','P','r','o','p','o','r','t','i','o','n','a','l']
  | .System_Put => ['S','y','s','t','e','m','`','P','u','t']
  | .System_PutAppend => ['S','y','s','t','e','m','`','P','u','t','A','p','p','e','n','d']
  | .System_Rational => ['S','y','s','t','e','m','`','R','a','t','i','o','n','a','l']
  | .System_Real => ['S','y','s','t','e','m','`','R','e','a','l']
  | .System_Repeated => ['S','y','s','t','e','m','`','R','e','p','e','a','t','e','d']
  | .System_RepeatedNull => ['S','y','s','t','e','m','`','R','e','p','e','a','t','e','d','N','u','l','l']
  | .System_ReplaceAll => ['S','y','s','t','e','m','`','R','e','p','l','a','c','e','A','l','l']
  | .System_ReplaceRepeated => ['S','y','s','t','e','m','`','R','e','p','l','a','c','e','R','e','p','e','a','t','e','d']
  | .System_ReverseElement => ['S','y','s','t','e','m','`','R','e','v','e','r','s','e','E','l','e','m','e','n','t']
  | .System_ReverseEquilibrium => ['S','y','s','t','e','m','`','R','e','v','e','r','s','e','E','q','u','i','l','i','b','r','i','u','m']
  | .System_ReverseUpEquilibrium => ['S','y','s','t','e','m','`','R','e','v','e','r','s','e','U','p','E','q','u','i','l','i','b','r','i','u','m']
  | .System_RightArrow => ['S','y','s','t','e','m','`','R','i','g','h','t','A','r','r','o','w']
  | .System_RightArrowBar => ['S','y','s','t','e','m','`','R','i','g','h','t','A','r','r','o','w','B','a','r']
  | .System_RightArrowLeftArrow => ['S','y','s','t','e','m','`','R','i','g','h','t','A','r','r','o','w','L','e','f','t','A','r','r','o','w']
  | .System_RightComposition => ['S','y','s','t','e','m','`','R','i','g','h','t','C','o','m','p','o','s','i','t','i','o','n']
  | .System_RightDownTeeVector => ['S','y','s','t','e','m','`','R','i','g','h','t','D','o','w','n','T','e','e','V','e','c','t','o','r']
  | .System_RightDownVector => ['S','y','s','t','e','m','`','R','i','g','h','t','D','o','w','n','V','e','c','t','o','r']
  | .System_RightDownVectorBar => ['S','y','s','t','e','m','`','R','i','g','h','t','D','o','w','n','V','e','c','t','o','r','B','a','r']
  | .System_RightTee => ['S','y','s','t','e','m','`','R','i','g','h','t','T','e','e']
  | .System_RightTeeArrow => ['S','y','s','t','e','m','`','R','i','g','h','t','T','e','e','A','r','r','o','w']
  | .System_RightTeeVector => ['S','y','s','t','e','m','`','R','i','g','h','t','T','e','e','V','e','c','t','o','r']
  | .System_RightTriangle => ['S','y','s','t','e','m','`','R','i','g','h','t','T','r','i','a','n','g','l','e']
  | .System_RightTriangleBar => ['S','y','s','t','e','m','`','R','i','g','h','t','T','r','i','a','n','g','l','e','B','a','r']
  | .System_RightTriangleEqual => ['S','y','s','t','e','m','`','R','i','g','h','t','T','r','i','a','n','g','l','e','E','q','u','a','l']
  | .System_RightUpDownVector => ['S','y','s','t','e','m','`','R','i','g','h','t','U','p','D','o','w','n','V','e','c','t','o','r']
  | .System_RightUpTeeVector => ['S','y','s','t','e','m','`','R','i','g','h','t','U','p','T','e','e','V','e','c','t','o','r']
  | .System_RightUpVector => ['S','y','s','t','e','m','`','R','i','g','h','t','U','p','V','e','c','t','o','r']
  | .System_RightUpVectorBar => ['S','y','s','t','e','m','`','R','i','g','h','t','U','p','V','e','c','t','o','r','B','a','r']
  | .System_RightVector => ['S','y','s','t','e','m','`','R','i','g','h','t','V','e','c','t','o','r']
  | .System_RightVectorBar => ['S','y','s','t','e','m','`','R','i','g','h','t','V','e','c','t','o','r','B','a','r']
  | .System_RoundImplies => ['S','y','s','t','e','m','`','R','o','u','n','d','I','m','p','l','i','e','s']
  | .System_Rule => ['S','y','s','t','e','m','`','R','u','l','e']
  | .System_RuleDelayed => ['S','y','s','t','e','m','`','R','u','l','e','D','e','l','a','y','e','d']
  | .System_SameQ => ['S','y','s','t','e','m','`','S','a','m','e','Q']
  | .System_Set => ['S','y','s','t','e','m','`','S','e','t']
  | .System_SetDelayed => ['S','y','s','t','e','m','`','S','e','t','D','e','l','a','y','e','d']
  | .System_ShortDownArrow => ['S','y','s','t','e','m','`','S','h','o','r','t','D','o','w','n','A','r','r','o','w']
  | .System_ShortLeftArrow => ['S','y','s','t','e','m','`','S','h','o','r','t','L','e','f','t','A','r','r','o','w']
  | .System_ShortRightArrow => ['S','y','s','t','e','m','`','S','h','o','r','t','R','i','g','h','t','A','r','r','o','w']
  | .System_ShortUpArrow => ['S','y','s','t','e','m','`','S','h','o','r','t','U','p','A','r','r','o','w']
  | .System_Slot => ['S','y','s','t','e','m','`','S','l','o','t']
  | .System_SlotSequence => ['S','y','s','t','e','m','`','S','l','o','t','S','e','q','u','e','n','c','e']
  | .System_SmallCircle => ['S','y','s','t','e','m','`','S','m','a','l','l','C','i','r','c','l','e']
  | .System_Span => ['S','y','s','t','e','m','`','S','p','a','n']
  | .System_Sqrt => ['S','y','s','t','e','m','`','S','q','r','t']
  | .System_Square => ['S','y','s','t','e','m','`','S','q','u','a','r','e']
  | .System_SquareIntersection => ['S','y','s','t','e','m','`','S','q','u','a','r','e','I','n','t','e','r','s','e','c','t','i','o','n']
  | .System_SquareSubset => ['S','y','s','t','e','m','`','S','q','u','a','r','e','S','u','b','s','e','t']
  | .System_SquareSubsetEqual => ['S','y','s','t','e','m','`','S','q','u','a','r','e','S','u','b','s','e','t','E','q','u','a','l']
  | .System_SquareSuperset => ['S','y','s','t','e','m','`','S','q','u','a','r','e','S','u','p','e','r','s','e','t']
  | .System_SquareSupersetEqual => ['S','y','s','t','e','m','`','S','q','u','a','r','e','S','u','p','e','r','s','e','t','E','q','u','a','l']
  | .System_SquareUnion => ['S','y','s','t','e','m','`','S','q','u','a','r','e','U','n','i','o','n']
  | .System_Star => ['S','y','s','t','e','m','`','S','t','a','r']
  | .System_String => ['S','y','s','t','e','m','`','S','t','r','i','n','g']
  | .System_StringExpression => ['S','y','s','t','e','m','`','S','t','r','i','n','g','E','x','p','r','e','s','s','i','o','n']
  | .System_StringJoin => ['S','y','s','t','e','m','`','S','t','r','i','n','g','J','o','i','n']
  | .System_Subset => ['S','y','s','t','e','m','`','S','u','b','s','e','t']
  | .System_SubsetEqual => ['S','y','s','t','e','m','`','S','u','b','s','e','t','E','q','u','a','l']
  | .System_SubtractFrom => ['S','y','s','t','e','m','`','S','u','b','t','r','a','c','t','F','r','o','m']
  | .System_Succeeds => ['S','y','s','t','e','m','`','S','u','c','c','e','e','d','s']
  | .System_SucceedsEqual => ['S','y','s','t','e','m','`','S','u','c','c','e','e','d','s','E','q','u','a','l']
  | .System_SucceedsSlantEqual => ['S','y','s','t','e','m','`','S','u','c','c','e','e','d','s','S','l','a','n','t','E','q','u','a','l']
  | .System_SucceedsTilde => ['S','y','s','t','e','m','`','S','u','c','c','e','e','d','s','T','i','l','d','e']
  | .System_SuchThat => ['S','y','s','t','e','m','`','S','u','c','h','T','h','a','t']
  | .System_Sum => ['S','y','s','t','e','m','`','S','u','m']
  | .System_Superset => ['S','y','s','t','e','m','`','S','u','p','e','r','s','e','t']
  | .System_SupersetEqual => ['S','y','s','t','e','m','`','S','u','p','e','r','s','e','t','E','q','u','a','l']
  | .System_Symbol => ['S','y','s','t','e','m','`','S','y','m','b','o','l']
  | .System_TagSet => ['S','y','s','t','e','m','`','T','a','g','S','e','t']
  | .System_TagSetDelayed => ['S','y','s','t','e','m','`','T','a','g','S','e','t','D','e','l','a','y','e','d']
  | .System_TagUnset => ['S','y','s','t','e','m','`','T','a','g','U','n','s','e','t']
  | .System_TensorProduct => ['S','y','s','t','e','m','`','T','e','n','s','o','r','P','r','o','d','u','c','t']
  | .System_TensorWedge => ['S','y','s','t','e','m','`','T','e','n','s','o','r','W','e','d','g','e']
  | .System_Therefore => ['S','y','s','t','e','m','`','T','h','e','r','e','f','o','r','e']
  | .System_Tilde => ['S','y','s','t','e','m','`','T','i','l','d','e']
  | .System_TildeEqual => ['S','y','s','t','e','m','`','T','i','l','d','e','E','q','u','a','l']
  | .System_TildeFullEqual => ['S','y','s','t','e','m','`','T','i','l','d','e','F','u','l','l','E','q','u','a','l']
  | .System_TildeTilde => ['S','y','s','t','e','m','`','T','i','l','d','e','T','i','l','d','e']
  | .System_Times => ['S','y','s','t','e','m','`','T','i','m','e','s']
  | .System_TimesBy => ['S','y','s','t','e','m','`','T','i','m','e','s','B','y']
  | .System_Transpose => ['S','y','s','t','e','m','`','T','r','a','n','s','p','o','s','e']
  | .System_TwoWayRule => ['S','y','s','t','e','m','`','T','w','o','W','a','y','R','u','l','e']
  | .System_TypeSpecifier => ['S','y','s','t','e','m','`','T','y','p','e','S','p','e','c','i','f','i','e','r']
  | .System_UndirectedEdge => ['S','y','s','t','e','m','`','U','n','d','i','r','e','c','t','e','d','E','d','g','e']
  | .System_Unequal => ['S','y','s','t','e','m','`','U','n','e','q','u','a','l']
  | .System_Union => ['S','y','s','t','e','m','`','U','n','i','o','n']
  | .System_UnionPlus => ['S','y','s','t','e','m','`','U','n','i','o','n','P','l','u','s']
  | .System_UnsameQ => ['S','y','s','t','e','m','`','U','n','s','a','m','e','Q']
  | .System_Unset => ['S','y','s','t','e','m','`','U','n','s','e','t']
  | .System_UpArrow => ['S','y','s','t','e','m','`','U','p','A','r','r','o','w']
  | .System_UpArrowBar => ['S','y','s','t','e','m','`','U','p','A','r','r','o','w','B','a','r']
  | .System_UpArrowDownArrow => ['S','y','s','t','e','m','`','U','p','A','r','r','o','w','D','o','w','n','A','r','r','o','w']
  | .System_UpDownArrow => ['S','y','s','t','e','m','`','U','p','D','o','w','n','A','r','r','o','w']
  | .System_UpEquilibrium => ['S','y','s','t','e','m','`','U','p','E','q','u','i','l','i','b','r','i','u','m']
  | .System_UpSet => ['S','y','s','t','e','m','`','U','p','S','e','t']
  | .System_UpSetDelayed => ['S','y','s','t','e','m','`','U','p','S','e','t','D','e','l','a','y','e','d']
  | .System_UpTee => ['S','y','s','t','e','m','`','U','p','T','e','e']
  | .System_UpTeeArrow => ['S','y','s','t','e','m','`','U','p','T','e','e','A','r','r','o','w']
  | .System_UpperLeftArrow => ['S','y','s','t','e','m','`','U','p','p','e','r','L','e','f','t','A','r','r','o','w']
  | .System_UpperRightArrow => ['S','y','s','t','e','m','`','U','p','p','e','r','R','i','g','h','t','A','r','r','o','w']
  | .System_VectorGreater => ['S','y','s','t','e','m','`','V','e','c','t','o','r','G','r','e','a','t','e','r']
  | .System_VectorGreaterEqual => ['S','y','s','t','e','m','`','V','e','c','t','o','r','G','r','e','a','t','e','r','E','q','u','a','l']
  | .System_VectorLess => ['S','y','s','t','e','m','`','V','e','c','t','o','r','L','e','s','s']
  | .System_VectorLessEqual => ['S','y','s','t','e','m','`','V','e','c','t','o','r','L','e','s','s','E','q','u','a','l']
  | .System_Vee => ['S','y','s','t','e','m','`','V','e','e']
  | .System_VerticalBar => ['S','y','s','t','e','m','`','V','e','r','t','i','c','a','l','B','a','r']
  | .System_VerticalSeparator => ['S','y','s','t','e','m','`','V','e','r','t','i','c','a','l','S','e','p','a','r','a','t','o','r']
  | .System_VerticalTilde => ['S','y','s','t','e','m','`','V','e','r','t','i','c','a','l','T','i','l','d','e']
  | .System_Wedge => ['S','y','s','t','e','m','`','W','e','d','g','e']
  | .System_Whitespace => ['S','y','s','t','e','m','`','W','h','i','t','e','s','p','a','c','e']
  | .System_Xnor => ['S','y','s','t','e','m','`','X','n','o','r']
  | .System_Xor => ['S','y','s','t','e','m','`','X','o','r']
  | .Token_Amp => ['T','o','k','e','n','`','A','m','p']
  | .Token_AmpAmp => ['T','o','k','e','n','`','A','m','p','A','m','p']
  | .Token_At => ['T','o','k','e','n','`','A','t']
  | .Token_AtAt => ['T','o','k','e','n','`','A','t','A','t']
  | .Token_AtAtAt => ['T','o','k','e','n','`','A','t','A','t','A','t']
  | .Token_AtStar => ['T','o','k','e','n','`','A','t','S','t','a','r']
  | .Token_Bang => ['T','o','k','e','n','`','B','a','n','g']
  | .Token_BangBang => ['T','o','k','e','n','`','B','a','n','g','B','a','n','g']
  | .Token_BangEqual => ['T','o','k','e','n','`','B','a','n','g','E','q','u','a','l']
  | .Token_Bar => ['T','o','k','e','n','`','B','a','r']
  | .Token_BarBar => ['T','o','k','e','n','`','B','a','r','B','a','r']
  | .Token_BarGreater => ['T','o','k','e','n','`','B','a','r','G','r','e','a','t','e','r']
  | .Token_BarMinusGreater => ['T','o','k','e','n','`','B','a','r','M','i','n','u','s','G','r','e','a','t','e','r']
  | .Token_Boxes_MultiSingleQuote => ['T','o','k','e','n','`','B','o','x','e','s','`','M','u','l','t','i','S','i','n','g','l','e','Q','u','o','t','e']
  | .Token_Boxes_MultiWhitespace => ['T','o','k','e','n','`','B','o','x','e','s','`','M','u','l','t','i','W','h','i','t','e','s','p','a','c','e']
  | .Token_Boxes_OpenParenStar => ['T','o','k','e','n','`','B','o','x','e','s','`','O','p','e','n','P','a','r','e','n','S','t','a','r']
  | .Token_Boxes_StarCloseParen => ['T','o','k','e','n','`','B','o','x','e','s','`','S','t','a','r','C','l','o','s','e','P','a','r','e','n']
  | .Token_Buffer1 => ['T','o','k','e','n','`','B','u','f','f','e','r','1']
  | .Token_Buffer2 => ['T','o','k','e','n','`','B','u','f','f','e','r','2']
  | .Token_Buffer3 => ['T','o','k','e','n','`','B','u','f','f','e','r','3']
  | .Token_Buffer4 => ['T','o','k','e','n','`','B','u','f','f','e','r','4']
  | .Token_Caret => ['T','o','k','e','n','`','C','a','r','e','t']
  | .Token_CaretColonEqual => ['T','o','k','e','n','`','C','a','r','e','t','C','o','l','o','n','E','q','u','a','l']
  | .Token_CaretEqual => ['T','o','k','e','n','`','C','a','r','e','t','E','q','u','a','l']
  | .Token_CloseCurly => ['T','o','k','e','n','`','C','l','o','s','e','C','u','r','l','y']
  | .Token_CloseParen => ['T','o','k','e','n','`','C','l','o','s','e','P','a','r','e','n']
  | .Token_CloseSquare => ['T','o','k','e','n','`','C','l','o','s','e','S','q','u','a','r','e']
  | .Token_Colon => ['T','o','k','e','n','`','C','o','l','o','n']
  | .Token_ColonColon => ['T','o','k','e','n','`','C','o','l','o','n','C','o','l','o','n']
  | .Token_ColonColonOpenSquare => ['T','o','k','e','n','`','C','o','l','o','n','C','o','l','o','n','O','p','e','n','S','q','u','a','r','e']
  | .Token_ColonEqual => ['T','o','k','e','n','`','C','o','l','o','n','E','q','u','a','l']
  | .Token_ColonGreater => ['T','o','k','e','n','`','C','o','l','o','n','G','r','e','a','t','e','r']
  | .Token_Comma => ['T','o','k','e','n','`','C','o','m','m','a']
  | .Token_Comment => ['T','o','k','e','n','`','C','o','m','m','e','n','t']
  | .Token_Count => ['T','o','k','e','n','`','C','o','u','n','t']
  | .Token_Dot => ['T','o','k','e','n','`','D','o','t']
  | .Token_DotDot => ['T','o','k','e','n','`','D','o','t','D','o','t']
  | .Token_DotDotDot => ['T','o','k','e','n','`','D','o','t','D','o','t','D','o','t']
  | .Token_EndOfFile => ['T','o','k','e','n','`','E','n','d','O','f','F','i','l','e']
  | .Token_Equal => ['T','o','k','e','n','`','E','q','u','a','l']
  | .Token_EqualBangEqual => ['T','o','k','e','n','`','E','q','u','a','l','B','a','n','g','E','q','u','a','l']
  | .Token_EqualEqual => ['T','o','k','e','n','`','E','q','u','a','l','E','q','u','a','l']
  | .Token_EqualEqualEqual => ['T','o','k','e','n','`','E','q','u','a','l','E','q','u','a','l','E','q','u','a','l']
  | .Token_Error_Aborted => ['T','o','k','e','n','`','E','r','r','o','r','`','A','b','o','r','t','e','d']
  | .Token_Error_ExpectedEqual => ['T','o','k','e','n','`','E','r','r','o','r','`','E','x','p','e','c','t','e','d','E','q','u','a','l']
  | .Token_Error_ExpectedFile => ['T','o','k','e','n','`','E','r','r','o','r','`','E','x','p','e','c','t','e','d','F','i','l','e']
  | .Token_Error_ExpectedLetterlike => ['T','o','k','e','n','`','E','r','r','o','r','`','E','x','p','e','c','t','e','d','L','e','t','t','e','r','l','i','k','e']
  | .Token_Error_ExpectedOperand => ['T','o','k','e','n','`','E','r','r','o','r','`','E','x','p','e','c','t','e','d','O','p','e','r','a','n','d']
  | .Token_Error_ExpectedTag => ['T','o','k','e','n','`','E','r','r','o','r','`','E','x','p','e','c','t','e','d','T','a','g']
  | .Token_Error_InfixImplicitNull => ['T','o','k','e','n','`','E','r','r','o','r','`','I','n','f','i','x','I','m','p','l','i','c','i','t','N','u','l','l']
  | .Token_Error_Number => ['T','o','k','e','n','`','E','r','r','o','r','`','N','u','m','b','e','r']
  | .Token_Error_PrefixImplicitNull => ['T','o','k','e','n','`','E','r','r','o','r','`','P','r','e','f','i','x','I','m','p','l','i','c','i','t','N','u','l','l']
  | .Token_Error_UnexpectedCloser => ['T','o','k','e','n','`','E','r','r','o','r','`','U','n','e','x','p','e','c','t','e','d','C','l','o','s','e','r']
  | .Token_Error_UnexpectedCommentCloser => ['T','o','k','e','n','`','E','r','r','o','r','`','U','n','e','x','p','e','c','t','e','d','C','o','m','m','e','n','t','C','l','o','s','e','r']
  | .Token_Error_UnhandledCharacter => ['T','o','k','e','n','`','E','r','r','o','r','`','U','n','h','a','n','d','l','e','d','C','h','a','r','a','c','t','e','r']
  | .Token_Error_UnsafeCharacterEncoding => ['T','o','k','e','n','`','E','r','r','o','r','`','U','n','s','a','f','e','C','h','a','r','a','c','t','e','r','E','n','c','o','d','i','n','g']
  | .Token_Error_UnsupportedToken => ['T','o','k','e','n','`','E','r','r','o','r','`','U','n','s','u','p','p','o','r','t','e','d','T','o','k','e','n']
  | .Token_Error_UnterminatedComment => ['T','o','k','e','n','`','E','r','r','o','r','`','U','n','t','e','r','m','i','n','a','t','e','d','C','o','m','m','e','n','t']
  | .Token_Error_UnterminatedFileString => ['T','o','k','e','n','`','E','r','r','o','r','`','U','n','t','e','r','m','i','n','a','t','e','d','F','i','l','e','S','t','r','i','n','g']
  | .Token_Error_UnterminatedLinearSyntaxBlob => ['T','o','k','e','n','`','E','r','r','o','r','`','U','n','t','e','r','m','i','n','a','t','e','d','L','i','n','e','a','r','S','y','n','t','a','x','B','l','o','b']
  | .Token_Error_UnterminatedString => ['T','o','k','e','n','`','E','r','r','o','r','`','U','n','t','e','r','m','i','n','a','t','e','d','S','t','r','i','n','g']
  | .Token_Fake_ImplicitAll => ['T','o','k','e','n','`','F','a','k','e','`','I','m','p','l','i','c','i','t','A','l','l']
  | .Token_Fake_ImplicitNull => ['T','o','k','e','n','`','F','a','k','e','`','I','m','p','l','i','c','i','t','N','u','l','l']
  | .Token_Fake_ImplicitOne => ['T','o','k','e','n','`','F','a','k','e','`','I','m','p','l','i','c','i','t','O','n','e']
  | .Token_Fake_ImplicitTimes => ['T','o','k','e','n','`','F','a','k','e','`','I','m','p','l','i','c','i','t','T','i','m','e','s']
  | .Token_Greater => ['T','o','k','e','n','`','G','r','e','a','t','e','r']
  | .Token_GreaterEqual => ['T','o','k','e','n','`','G','r','e','a','t','e','r','E','q','u','a','l']
  | .Token_GreaterGreater => ['T','o','k','e','n','`','G','r','e','a','t','e','r','G','r','e','a','t','e','r']
  | .Token_GreaterGreaterGreater => ['T','o','k','e','n','`','G','r','e','a','t','e','r','G','r','e','a','t','e','r','G','r','e','a','t','e','r']
  | .Token_Hash => ['T','o','k','e','n','`','H','a','s','h']
  | .Token_HashHash => ['T','o','k','e','n','`','H','a','s','h','H','a','s','h']
  | .Token_Integer => ['T','o','k','e','n','`','I','n','t','e','g','e','r']
  | .Token_InternalNewline => ['T','o','k','e','n','`','I','n','t','e','r','n','a','l','N','e','w','l','i','n','e']
  | .Token_Less => ['T','o','k','e','n','`','L','e','s','s']
  | .Token_LessBar => ['T','o','k','e','n','`','L','e','s','s','B','a','r']
  | .Token_LessEqual => ['T','o','k','e','n','`','L','e','s','s','E','q','u','a','l']
  | .Token_LessGreater => ['T','o','k','e','n','`','L','e','s','s','G','r','e','a','t','e','r']
  | .Token_LessLess => ['T','o','k','e','n','`','L','e','s','s','L','e','s','s']
  | .Token_LessMinusGreater => ['T','o','k','e','n','`','L','e','s','s','M','i','n','u','s','G','r','e','a','t','e','r']
  | .Token_LinearSyntaxBlob => ['T','o','k','e','n','`','L','i','n','e','a','r','S','y','n','t','a','x','B','l','o','b']
  | .Token_LinearSyntax_Amp => ['T','o','k','e','n','`','L','i','n','e','a','r','S','y','n','t','a','x','`','A','m','p']
  | .Token_LinearSyntax_At => ['T','o','k','e','n','`','L','i','n','e','a','r','S','y','n','t','a','x','`','A','t']
  | .Token_LinearSyntax_BackTick => ['T','o','k','e','n','`','L','i','n','e','a','r','S','y','n','t','a','x','`','B','a','c','k','T','i','c','k']
  | .Token_LinearSyntax_Bang => ['T','o','k','e','n','`','L','i','n','e','a','r','S','y','n','t','a','x','`','B','a','n','g']
  | .Token_LinearSyntax_Caret => ['T','o','k','e','n','`','L','i','n','e','a','r','S','y','n','t','a','x','`','C','a','r','e','t']
  | .Token_LinearSyntax_CloseParen => ['T','o','k','e','n','`','L','i','n','e','a','r','S','y','n','t','a','x','`','C','l','o','s','e','P','a','r','e','n']
  | .Token_LinearSyntax_Percent => ['T','o','k','e','n','`','L','i','n','e','a','r','S','y','n','t','a','x','`','P','e','r','c','e','n','t']
  | .Token_LinearSyntax_Plus => ['T','o','k','e','n','`','L','i','n','e','a','r','S','y','n','t','a','x','`','P','l','u','s']
  | .Token_LinearSyntax_Slash => ['T','o','k','e','n','`','L','i','n','e','a','r','S','y','n','t','a','x','`','S','l','a','s','h']
  | .Token_LinearSyntax_Space => ['T','o','k','e','n','`','L','i','n','e','a','r','S','y','n','t','a','x','`','S','p','a','c','e']
  | .Token_LinearSyntax_Star => ['T','o','k','e','n','`','L','i','n','e','a','r','S','y','n','t','a','x','`','S','t','a','r']
  | .Token_LinearSyntax_Under => ['T','o','k','e','n','`','L','i','n','e','a','r','S','y','n','t','a','x','`','U','n','d','e','r']
  | .Token_LongName_And => ['T','o','k','e','n','`','L','o','n','g','N','a','m','e','`','A','n','d']
  | .Token_LongName_Application => ['T','o','k','e','n','`','L','o','n','g','N','a','m','e','`','A','p','p','l','i','c','a','t','i','o','n']
  | .Token_LongName_AutoLeftMatch => ['T','o','k','e','n','`','L','o','n','g','N','a','m','e','`','A','u','t','o','L','e','f','t','M','a','t','c','h']
  | .Token_LongName_AutoRightMatch => ['T','o','k','e','n','`','L','o','n','g','N','a','m','e','`','A','u','t','o','R','i','g','h','t','M','a','t','c','h']
  | .Token_LongName_Backslash => ['T','o','k','e','n','`','L','o','n','g','N','a','m','e','`','B','a','c','k','s','l','a','s','h']
  | .Token_LongName_Because => ['T','o','k','e','n','`','L','o','n','g','N','a','m','e','`','B','e','c','a','u','s','e']
  | .Token_LongName_Cap => ['T','o','k','e','n','`','L','o','n','g','N','a','m','e','`','C','a','p']
  | .Token_LongName_CapitalDifferentialD => ['T','o','k','e','n','`','L','o','n','g','N','a','m','e','`','C','a','p','i','t','a','l','D','i','f','f','e','r','e','n','t','i','a','l','D']
  | .Token_LongName_CenterDot => ['T','o','k','e','n','`','L','o','n','g','N','a','m','e','`','C','e','n','t','e','r','D','o','t']
  | .Token_LongName_CircleDot => ['T','o','k','e','n','`','L','o','n','g','N','a','m','e','`','C','i','r','c','l','e','D','o','t']
  | .Token_LongName_CircleMinus => ['T','o','k','e','n','`','L','o','n','g','N','a','m','e','`','C','i','r','c','l','e','M','i','n','u','s']
  | .Token_LongName_CirclePlus => ['T','o','k','e','n','`','L','o','n','g','N','a','m','e','`','C','i','r','c','l','e','P','l','u','s']
  | .Token_LongName_CircleTimes => ['T','o','k','e','n','`','L','o','n','g','N','a','m','e','`','C','i','r','c','l','e','T','i','m','e','s']
  | .Token_LongName_ClockwiseContourIntegral => ['T','o','k','e','n','`','L','o','n','g','N','a','m','e','`','C','l','o','c','k','w','i','s','e','C','o','n','t','o','u','r','I','n','t','e','g','r','a','l']
  | .Token_LongName_CloseCurlyDoubleQuote => ['T','o','k','e','n','`','L','o','n','g','N','a','m','e','`','C','l','o','s','e','C','u','r','l','y','D','o','u','b','l','e','Q','u','o','t','e']
  | .Token_LongName_CloseCurlyQuote => ['T','o','k','e','n','`','L','o','n','g','N','a','m','e','`','C','l','o','s','e','C','u','r','l','y','Q','u','o','t','e']
  | .Token_LongName_Colon => ['T','o','k','e','n','`','L','o','n','g','N','a','m','e','`','C','o','l','o','n']
  | .Token_LongName_Conditioned => ['T','o','k','e','n','`','L','o','n','g','N','a','m','e','`','C','o','n','d','i','t','i','o','n','e','d']
  | .Token_LongName_Congruent => ['T','o','k','e','n','`','L','o','n','g','N','a','m','e','`','C','o','n','g','r','u','e','n','t']
  | .Token_LongName_Conjugate => ['T','o','k','e','n','`','L','o','n','g','N','a','m','e','`','C','o','n','j','u','g','a','t','e']
  | .Token_LongName_ConjugateTranspose => ['T','o','k','e','n','`','L','o','n','g','N','a','m','e','`','C','o','n','j','u','g','a','t','e','T','r','a','n','s','p','o','s','e']
  | .Token_LongName_ContinuedFractionK => ['T','o','k','e','n','`','L','o','n','g','N','a','m','e','`','C','o','n','t','i','n','u','e','d','F','r','a','c','t','i','o','n','K']
  | .Token_LongName_ContourIntegral => ['T','o','k','e','n','`','L','o','n','g','N','a','m','e','`','C','o','n','t','o','u','r','I','n','t','e','g','r','a','l']
  | .Token_LongName_Coproduct => ['T','o','k','e','n','`','L','o','n','g','N','a','m','e','`','C','o','p','r','o','d','u','c','t']
  | .Token_LongName_CounterClockwiseContourIntegral => ['T','o','k','e','n','`','L','o','n','g','N','a','m','e','`','C','o','u','n','t','e','r','C','l','o','c','k','w','i','s','e','C','o','n','t','o','u','r','I','n','t','e','g','r','a','l']
  | .Token_LongName_Cross => ['T','o','k','e','n','`','L','o','n','g','N','a','m','e','`','C','r','o','s','s']
  | .Token_LongName_CubeRoot => ['T','o','k','e','n','`','L','o','n','g','N','a','m','e','`','C','u','b','e','R','o','o','t']
  | .Token_LongName_Cup => ['T','o','k','e','n','`','L','o','n','g','N','a','m','e','`','C','u','p']
  | .Token_LongName_CupCap => ['T','o','k','e','n','`','L','o','n','g','N','a','m','e','`','C','u','p','C','a','p']
  | .Token_LongName_Del => ['T','o','k','e','n','`','L','o','n','g','N','a','m','e','`','D','e','l']
  | .Token_LongName_Diamond => ['T','o','k','e','n','`','L','o','n','g','N','a','m','e','`','D','i','a','m','o','n','d']
  | .Token_LongName_DifferenceDelta => ['T','o','k','e','n','`','L','o','n','g','N','a','m','e','`','D','i','f','f','e','r','e','n','c','e','D','e','l','t','a']
  | .Token_LongName_DifferentialD => ['T','o','k','e','n','`','L','o','n','g','N','a','m','e','`','D','i','f','f','e','r','e','n','t','i','a','l','D']
  | .Token_LongName_DirectedEdge => ['T','o','k','e','n','`','L','o','n','g','N','a','m','e','`','D','i','r','e','c','t','e','d','E','d','g','e']
  | .Token_LongName_DiscreteRatio => ['T','o','k','e','n','`','L','o','n','g','N','a','m','e','`','D','i','s','c','r','e','t','e','R','a','t','i','o']
  | .Token_LongName_DiscreteShift => ['T','o','k','e','n','`','L','o','n','g','N','a','m','e','`','D','i','s','c','r','e','t','e','S','h','i','f','t']
  | .Token_LongName_Distributed => ['T','o','k','e','n','`','L','o','n','g','N','a','m','e','`','D','i','s','t','r','i','b','u','t','e','d']
  | .Token_LongName_Divide => ['T','o','k','e','n','`','L','o','n','g','N','a','m','e','`','D','i','v','i','d','e']
  | .Token_LongName_Divides => ['T','o','k','e','n','`','L','o','n','g','N','a','m','e','`','D','i','v','i','d','e','s']
  | .Token_LongName_DivisionSlash => ['T','o','k','e','n','`','L','o','n','g','N','a','m','e','`','D','i','v','i','s','i','o','n','S','l','a','s','h']
  | .Token_LongName_DotEqual => ['T','o','k','e','n','`','L','o','n','g','N','a','m','e','`','D','o','t','E','q','u','a','l']
  | .Token_LongName_DoubleContourIntegral => ['T','o','k','e','n','`','L','o','n','g','N','a','m','e','`','D','o','u','b','l','e','C','o','n','t','o','u','r','I','n','t','e','g','r','a','l']
  | .Token_LongName_DoubleDownArrow => ['T','o','k','e','n','`','L','o','n','g','N','a','m','e','`','D','o','u','b','l','e','D','o','w','n','A','r','r','o','w']
  | .Token_LongName_DoubleLeftArrow => ['T','o','k','e','n','`','L','o','n','g','N','a','m','e','`','D','o','u','b','l','e','L','e','f','t','A','r','r','o','w']
  | .Token_LongName_DoubleLeftRightArrow => ['T','o','k','e','n','`','L','o','n','g','N','a','m','e','`','D','o','u','b','l','e','L','e','f','t','R','i','g','h','t','A','r','r','o','w']
  | .Token_LongName_DoubleLeftTee => ['T','o','k','e','n','`','L','o','n','g','N','a','m','e','`','D','o','u','b','l','e','L','e','f','t','T','e','e']
  | .Token_LongName_DoubleLongLeftArrow => ['T','o','k','e','n','`','L','o','n','g','N','a','m','e','`','D','o','u','b','l','e','L','o','n','g','L','e','f','t','A','r','r','o','w']
  | .Token_LongName_DoubleLongLeftRightArrow => ['T','o','k','e','n','`','L','o','n','g','N','a','m','e','`','D','o','u','b','l','e','L','o','n','g','L','e','f','t','R','i','g','h','t','A','r','r','o','w']
  | .Token_LongName_DoubleLongRightArrow => ['T','o','k','e','n','`','L','o','n','g','N','a','m','e','`','D','o','u','b','l','e','L','o','n','g','R','i','g','h','t','A','r','r','o','w']
  | .Token_LongName_DoubleRightArrow => ['T','o','k','e','n','`','L','o','n','g','N','a','m','e','`','D','o','u','b','l','e','R','i','g','h','t','A','r','r','o','w']
  | .Token_LongName_DoubleRightTee => ['T','o','k','e','n','`','L','o','n','g','N','a','m','e','`','D','o','u','b','l','e','R','i','g','h','t','T','e','e']
  | .Token_LongName_DoubleUpArrow => ['T','o','k','e','n','`','L','o','n','g','N','a','m','e','`','D','o','u','b','l','e','U','p','A','r','r','o','w']
  | .Token_LongName_DoubleUpDownArrow => ['T','o','k','e','n','`','L','o','n','g','N','a','m','e','`','D','o','u','b','l','e','U','p','D','o','w','n','A','r','r','o','w']
  | .Token_LongName_DoubleVerticalBar => ['T','o','k','e','n','`','L','o','n','g','N','a','m','e','`','D','o','u','b','l','e','V','e','r','t','i','c','a','l','B','a','r']
  | .Token_LongName_DownArrow => ['T','o','k','e','n','`','L','o','n','g','N','a','m','e','`','D','o','w','n','A','r','r','o','w']
  | .Token_LongName_DownArrowBar => ['T','o','k','e','n','`','L','o','n','g','N','a','m','e','`','D','o','w','n','A','r','r','o','w','B','a','r']
  | .Token_LongName_DownArrowUpArrow => ['T','o','k','e','n','`','L','o','n','g','N','a','m','e','`','D','o','w','n','A','r','r','o','w','U','p','A','r','r','o','w']
  | .Token_LongName_DownLeftRightVector => ['T','o','k','e','n','`','L','o','n','g','N','a','m','e','`','D','o','w','n','L','e','f','t','R','i','g','h','t','V','e','c','t','o','r']
  | .Token_LongName_DownLeftTeeVector => ['T','o','k','e','n','`','L','o','n','g','N','a','m','e','`','D','o','w','n','L','e','f','t','T','e','e','V','e','c','t','o','r']
  | .Token_LongName_DownLeftVector => ['T','o','k','e','n','`','L','o','n','g','N','a','m','e','`','D','o','w','n','L','e','f','t','V','e','c','t','o','r']
  | .Token_LongName_DownLeftVectorBar => ['T','o','k','e','n','`','L','o','n','g','N','a','m','e','`','D','o','w','n','L','e','f','t','V','e','c','t','o','r','B','a','r']
  | .Token_LongName_DownRightTeeVector => ['T','o','k','e','n','`','L','o','n','g','N','a','m','e','`','D','o','w','n','R','i','g','h','t','T','e','e','V','e','c','t','o','r']
  | .Token_LongName_DownRightVector => ['T','o','k','e','n','`','L','o','n','g','N','a','m','e','`','D','o','w','n','R','i','g','h','t','V','e','c','t','o','r']
  | .Token_LongName_DownRightVectorBar => ['T','o','k','e','n','`','L','o','n','g','N','a','m','e','`','D','o','w','n','R','i','g','h','t','V','e','c','t','o','r','B','a','r']
  | .Token_LongName_DownTee => ['T','o','k','e','n','`','L','o','n','g','N','a','m','e','`','D','o','w','n','T','e','e']
  | .Token_LongName_DownTeeArrow => ['T','o','k','e','n','`','L','o','n','g','N','a','m','e','`','D','o','w','n','T','e','e','A','r','r','o','w']
  | .Token_LongName_Element => ['T','o','k','e','n','`','L','o','n','g','N','a','m','e','`','E','l','e','m','e','n','t']
  | .Token_LongName_Equal => ['T','o','k','e','n','`','L','o','n','g','N','a','m','e','`','E','q','u','a','l']
  | .Token_LongName_EqualTilde => ['T','o','k','e','n','`','L','o','n','g','N','a','m','e','`','E','q','u','a','l','T','i','l','d','e']
  | .Token_LongName_Equilibrium => ['T','o','k','e','n','`','L','o','n','g','N','a','m','e','`','E','q','u','i','l','i','b','r','i','u','m']
  | .Token_LongName_Equivalent => ['T','o','k','e','n','`','L','o','n','g','N','a','m','e','`','E','q','u','i','v','a','l','e','n','t']
  | .Token_LongName_Exists => ['T','o','k','e','n','`','L','o','n','g','N','a','m','e','`','E','x','i','s','t','s']
  | .Token_LongName_ExpectationE => ['T','o','k','e','n','`','L','o','n','g','N','a','m','e','`','E','x','p','e','c','t','a','t','i','o','n','E']
  | .Token_LongName_ForAll => ['T','o','k','e','n','`','L','o','n','g','N','a','m','e','`','F','o','r','A','l','l']
  | .Token_LongName_Function => ['T','o','k','e','n','`','L','o','n','g','N','a','m','e','`','F','u','n','c','t','i','o','n']
  | .Token_LongName_GreaterEqual => ['T','o','k','e','n','`','L','o','n','g','N','a','m','e','`','G','r','e','a','t','e','r','E','q','u','a','l']
  | .Token_LongName_GreaterEqualLess => ['T','o','k','e','n','`','L','o','n','g','N','a','m','e','`','G','r','e','a','t','e','r','E','q','u','a','l','L','e','s','s']
  | .Token_LongName_GreaterFullEqual => ['T','o','k','e','n','`','L','o','n','g','N','a','m','e','`','G','r','e','a','t','e','r','F','u','l','l','E','q','u','a','l']
  | .Token_LongName_GreaterGreater => ['T','o','k','e','n','`','L','o','n','g','N','a','m','e','`','G','r','e','a','t','e','r','G','r','e','a','t','e','r']
  | .Token_LongName_GreaterLess => ['T','o','k','e','n','`','L','o','n','g','N','a','m','e','`','G','r','e','a','t','e','r','L','e','s','s']
  | .Token_LongName_GreaterSlantEqual => ['T','o','k','e','n','`','L','o','n','g','N','a','m','e','`','G','r','e','a','t','e','r','S','l','a','n','t','E','q','u','a','l']
  | .Token_LongName_GreaterTilde => ['T','o','k','e','n','`','L','o','n','g','N','a','m','e','`','G','r','e','a','t','e','r','T','i','l','d','e']
  | .Token_LongName_HermitianConjugate => ['T','o','k','e','n','`','L','o','n','g','N','a','m','e','`','H','e','r','m','i','t','i','a','n','C','o','n','j','u','g','a','t','e']
  | .Token_LongName_HumpDownHump => ['T','o','k','e','n','`','L','o','n','g','N','a','m','e','`','H','u','m','p','D','o','w','n','H','u','m','p']
  | .Token_LongName_HumpEqual => ['T','o','k','e','n','`','L','o','n','g','N','a','m','e','`','H','u','m','p','E','q','u','a','l']
  | .Token_LongName_ImplicitPlus => ['T','o','k','e','n','`','L','o','n','g','N','a','m','e','`','I','m','p','l','i','c','i','t','P','l','u','s']
  | .Token_LongName_Implies => ['T','o','k','e','n','`','L','o','n','g','N','a','m','e','`','I','m','p','l','i','e','s']
  | .Token_LongName_Integral => ['T','o','k','e','n','`','L','o','n','g','N','a','m','e','`','I','n','t','e','g','r','a','l']
  | .Token_LongName_Intersection => ['T','o','k','e','n','`','L','o','n','g','N','a','m','e','`','I','n','t','e','r','s','e','c','t','i','o','n']
  | .Token_LongName_InvisibleApplication => ['T','o','k','e','n','`','L','o','n','g','N','a','m','e','`','I','n','v','i','s','i','b','l','e','A','p','p','l','i','c','a','t','i','o','n']
  | .Token_LongName_InvisibleComma => ['T','o','k','e','n','`','L','o','n','g','N','a','m','e','`','I','n','v','i','s','i','b','l','e','C','o','m','m','a']
  | .Token_LongName_InvisiblePostfixScriptBase => ['T','o','k','e','n','`','L','o','n','g','N','a','m','e','`','I','n','v','i','s','i','b','l','e','P','o','s','t','f','i','x','S','c','r','i','p','t','B','a','s','e']
  | .Token_LongName_InvisiblePrefixScriptBase => ['T','o','k','e','n','`','L','o','n','g','N','a','m','e','`','I','n','v','i','s','i','b','l','e','P','r','e','f','i','x','S','c','r','i','p','t','B','a','s','e']
  | .Token_LongName_InvisibleTimes => ['T','o','k','e','n','`','L','o','n','g','N','a','m','e','`','I','n','v','i','s','i','b','l','e','T','i','m','e','s']
  | .Token_LongName_LeftAngleBracket => ['T','o','k','e','n','`','L','o','n','g','N','a','m','e','`','L','e','f','t','A','n','g','l','e','B','r','a','c','k','e','t']
  | .Token_LongName_LeftArrow => ['T','o','k','e','n','`','L','o','n','g','N','a','m','e','`','L','e','f','t','A','r','r','o','w']
  | .Token_LongName_LeftArrowBar => ['T','o','k','e','n','`','L','o','n','g','N','a','m','e','`','L','e','f','t','A','r','r','o','w','B','a','r']
  | .Token_LongName_LeftArrowRightArrow => ['T','o','k','e','n','`','L','o','n','g','N','a','m','e','`','L','e','f','t','A','r','r','o','w','R','i','g','h','t','A','r','r','o','w']
  | .Token_LongName_LeftAssociation => ['T','o','k','e','n','`','L','o','n','g','N','a','m','e','`','L','e','f','t','A','s','s','o','c','i','a','t','i','o','n']
  | .Token_LongName_LeftBracketingBar => ['T','o','k','e','n','`','L','o','n','g','N','a','m','e','`','L','e','f','t','B','r','a','c','k','e','t','i','n','g','B','a','r']
  | .Token_LongName_LeftCeiling => ['T','o','k','e','n','`','L','o','n','g','N','a','m','e','`','L','e','f','t','C','e','i','l','i','n','g']
  | .Token_LongName_LeftDoubleBracket => ['T','o','k','e','n','`','L','o','n','g','N','a','m','e','`','L','e','f','t','D','o','u','b','l','e','B','r','a','c','k','e','t']
  | .Token_LongName_LeftDoubleBracketingBar => ['T','o','k','e','n','`','L','o','n','g','N','a','m','e','`','L','e','f','t','D','o','u','b','l','e','B','r','a','c','k','e','t','i','n','g','B','a','r']
  | .Token_LongName_LeftDownTeeVector => ['T','o','k','e','n','`','L','o','n','g','N','a','m','e','`','L','e','f','t','D','o','w','n','T','e','e','V','e','c','t','o','r']
  | .Token_LongName_LeftDownVector => ['T','o','k','e','n','`','L','o','n','g','N','a','m','e','`','L','e','f','t','D','o','w','n','V','e','c','t','o','r']
  | .Token_LongName_LeftDownVectorBar => ['T','o','k','e','n','`','L','o','n','g','N','a','m','e','`','L','e','f','t','D','o','w','n','V','e','c','t','o','r','B','a','r']
  | .Token_LongName_LeftFloor => ['T','o','k','e','n','`','L','o','n','g','N','a','m','e','`','L','e','f','t','F','l','o','o','r']
  | .Token_LongName_LeftRightArrow => ['T','o','k','e','n','`','L','o','n','g','N','a','m','e','`','L','e','f','t','R','i','g','h','t','A','r','r','o','w']
  | .Token_LongName_LeftRightVector => ['T','o','k','e','n','`','L','o','n','g','N','a','m','e','`','L','e','f','t','R','i','g','h','t','V','e','c','t','o','r']
  | .Token_LongName_LeftTee => ['T','o','k','e','n','`','L','o','n','g','N','a','m','e','`','L','e','f','t','T','e','e']
  | .Token_LongName_LeftTeeArrow => ['T','o','k','e','n','`','L','o','n','g','N','a','m','e','`','L','e','f','t','T','e','e','A','r','r','o','w']
  | .Token_LongName_LeftTeeVector => ['T','o','k','e','n','`','L','o','n','g','N','a','m','e','`','L','e','f','t','T','e','e','V','e','c','t','o','r']
  | .Token_LongName_LeftTriangle => ['T','o','k','e','n','`','L','o','n','g','N','a','m','e','`','L','e','f','t','T','r','i','a','n','g','l','e']
  | .Token_LongName_LeftTriangleBar => ['T','o','k','e','n','`','L','o','n','g','N','a','m','e','`','L','e','f','t','T','r','i','a','n','g','l','e','B','a','r']
  | .Token_LongName_LeftTriangleEqual => ['T','o','k','e','n','`','L','o','n','g','N','a','m','e','`','L','e','f','t','T','r','i','a','n','g','l','e','E','q','u','a','l']
  | .Token_LongName_LeftUpDownVector => ['T','o','k','e','n','`','L','o','n','g','N','a','m','e','`','L','e','f','t','U','p','D','o','w','n','V','e','c','t','o','r']
  | .Token_LongName_LeftUpTeeVector => ['T','o','k','e','n','`','L','o','n','g','N','a','m','e','`','L','e','f','t','U','p','T','e','e','V','e','c','t','o','r']
  | .Token_LongName_LeftUpVector => ['T','o','k','e','n','`','L','o','n','g','N','a','m','e','`','L','e','f','t','U','p','V','e','c','t','o','r']
  | .Token_LongName_LeftUpVectorBar => ['T','o','k','e','n','`','L','o','n','g','N','a','m','e','`','L','e','f','t','U','p','V','e','c','t','o','r','B','a','r']
  | .Token_LongName_LeftVector => ['T','o','k','e','n','`','L','o','n','g','N','a','m','e','`','L','e','f','t','V','e','c','t','o','r']
  | .Token_LongName_LeftVectorBar => ['T','o','k','e','n','`','L','o','n','g','N','a','m','e','`','L','e','f','t','V','e','c','t','o','r','B','a','r']
  | .Token_LongName_LessEqual => ['T','o','k','e','n','`','L','o','n','g','N','a','m','e','`','L','e','s','s','E','q','u','a','l']
  | .Token_LongName_LessEqualGreater => ['T','o','k','e','n','`','L','o','n','g','N','a','m','e','`','L','e','s','s','E','q','u','a','l','G','r','e','a','t','e','r']
  | .Token_LongName_LessFullEqual => ['T','o','k','e','n','`','L','o','n','g','N','a','m','e','`','L','e','s','s','F','u','l','l','E','q','u','a','l']
  | .Token_LongName_LessGreater => ['T','o','k','e','n','`','L','o','n','g','N','a','m','e','`','L','e','s','s','G','r','e','a','t','e','r']
  | .Token_LongName_LessLess => ['T','o','k','e','n','`','L','o','n','g','N','a','m','e','`','L','e','s','s','L','e','s','s']
  | .Token_LongName_LessSlantEqual => ['T','o','k','e','n','`','L','o','n','g','N','a','m','e','`','L','e','s','s','S','l','a','n','t','E','q','u','a','l']
  | .Token_LongName_LessTilde => ['T','o','k','e','n','`','L','o','n','g','N','a','m','e','`','L','e','s','s','T','i','l','d','e']
  | .Token_LongName_Limit => ['T','o','k','e','n','`','L','o','n','g','N','a','m','e','`','L','i','m','i','t']
  | .Token_LongName_LongEqual => ['T','o','k','e','n','`','L','o','n','g','N','a','m','e','`','L','o','n','g','E','q','u','a','l']
  | .Token_LongName_LongLeftArrow => ['T','o','k','e','n','`','L','o','n','g','N','a','m','e','`','L','o','n','g','L','e','f','t','A','r','r','o','w']
  | .Token_LongName_LongLeftRightArrow => ['T','o','k','e','n','`','L','o','n','g','N','a','m','e','`','L','o','n','g','L','e','f','t','R','i','g','h','t','A','r','r','o','w']
  | .Token_LongName_LongRightArrow => ['T','o','k','e','n','`','L','o','n','g','N','a','m','e','`','L','o','n','g','R','i','g','h','t','A','r','r','o','w']
  | .Token_LongName_LowerLeftArrow => ['T','o','k','e','n','`','L','o','n','g','N','a','m','e','`','L','o','w','e','r','L','e','f','t','A','r','r','o','w']
  | .Token_LongName_LowerRightArrow => ['T','o','k','e','n','`','L','o','n','g','N','a','m','e','`','L','o','w','e','r','R','i','g','h','t','A','r','r','o','w']
  | .Token_LongName_MaxLimit => ['T','o','k','e','n','`','L','o','n','g','N','a','m','e','`','M','a','x','L','i','m','i','t']
  | .Token_LongName_MinLimit => ['T','o','k','e','n','`','L','o','n','g','N','a','m','e','`','M','i','n','L','i','m','i','t']
  | .Token_LongName_Minus => ['T','o','k','e','n','`','L','o','n','g','N','a','m','e','`','M','i','n','u','s']
  | .Token_LongName_MinusPlus => ['T','o','k','e','n','`','L','o','n','g','N','a','m','e','`','M','i','n','u','s','P','l','u','s']
  | .Token_LongName_Nand => ['T','o','k','e','n','`','L','o','n','g','N','a','m','e','`','N','a','n','d']
  | .Token_LongName_NestedGreaterGreater => ['T','o','k','e','n','`','L','o','n','g','N','a','m','e','`','N','e','s','t','e','d','G','r','e','a','t','e','r','G','r','e','a','t','e','r']
  | .Token_LongName_NestedLessLess => ['T','o','k','e','n','`','L','o','n','g','N','a','m','e','`','N','e','s','t','e','d','L','e','s','s','L','e','s','s']
  | .Token_LongName_Nor => ['T','o','k','e','n','`','L','o','n','g','N','a','m','e','`','N','o','r']
  | .Token_LongName_Not => ['T','o','k','e','n','`','L','o','n','g','N','a','m','e','`','N','o','t']
  | .Token_LongName_NotCongruent => ['T','o','k','e','n','`','L','o','n','g','N','a','m','e','`','N','o','t','C','o','n','g','r','u','e','n','t']
  | .Token_LongName_NotCupCap => ['T','o','k','e','n','`','L','o','n','g','N','a','m','e','`','N','o','t','C','u','p','C','a','p']
  | .Token_LongName_NotDoubleVerticalBar => ['T','o','k','e','n','`','L','o','n','g','N','a','m','e','`','N','o','t','D','o','u','b','l','e','V','e','r','t','i','c','a','l','B','a','r']
  | .Token_LongName_NotElement => ['T','o','k','e','n','`','L','o','n','g','N','a','m','e','`','N','o','t','E','l','e','m','e','n','t']
  | .Token_LongName_NotEqual => ['T','o','k','e','n','`','L','o','n','g','N','a','m','e','`','N','o','t','E','q','u','a','l']
  | .Token_LongName_NotEqualTilde => ['T','o','k','e','n','`','L','o','n','g','N','a','m','e','`','N','o','t','E','q','u','a','l','T','i','l','d','e']
  | .Token_LongName_NotExists => ['T','o','k','e','n','`','L','o','n','g','N','a','m','e','`','N','o','t','E','x','i','s','t','s']
  | .Token_LongName_NotGreater => ['T','o','k','e','n','`','L','o','n','g','N','a','m','e','`','N','o','t','G','r','e','a','t','e','r']
  | .Token_LongName_NotGreaterEqual => ['T','o','k','e','n','`','L','o','n','g','N','a','m','e','`','N','o','t','G','r','e','a','t','e','r','E','q','u','a','l']
  | .Token_LongName_NotGreaterFullEqual => ['T','o','k','e','n','`','L','o','n','g','N','a','m','e','`','N','o','t','G','r','e','a','t','e','r','F','u','l','l','E','q','u','a','l']
  | .Token_LongName_NotGreaterGreater => ['T','o','k','e','n','`','L','o','n','g','N','a','m','e','`','N','o','t','G','r','e','a','t','e','r','G','r','e','a','t','e','r']
  | .Token_LongName_NotGreaterLess => ['T','o','k','e','n','`','L','o','n','g','N','a','m','e','`','N','o','t','G','r','e','a','t','e','r','L','e','s','s']
  | .Token_LongName_NotGreaterSlantEqual => ['T','o','k','e','n','`','L','o','n','g','N','a','m','e','`','N','o','t','G','r','e','a','t','e','r','S','l','a','n','t','E','q','u','a','l']
  | .Token_LongName_NotGreaterTilde => ['T','o','k','e','n','`','L','o','n','g','N','a','m','e','`','N','o','t','G','r','e','a','t','e','r','T','i','l','d','e']
  | .Token_LongName_NotHumpDownHump => ['T','o','k','e','n','`','L','o','n','g','N','a','m','e','`','N','o','t','H','u','m','p','D','o','w','n','H','u','m','p']
  | .Token_LongName_NotHumpEqual => ['T','o','k','e','n','`','L','o','n','g','N','a','m','e','`','N','o','t','H','u','m','p','E','q','u','a','l']
  | .Token_LongName_NotLeftTriangle => ['T','o','k','e','n','`','L','o','n','g','N','a','m','e','`','N','o','t','L','e','f','t','T','r','i','a','n','g','l','e']
  | .Token_LongName_NotLeftTriangleBar => ['T','o','k','e','n','`','L','o','n','g','N','a','m','e','`','N','o','t','L','e','f','t','T','r','i','a','n','g','l','e','B','a','r']
  | .Token_LongName_NotLeftTriangleEqual => ['T','o','k','e','n','`','L','o','n','g','N','a','m','e','`','N','o','t','L','e','f','t','T','r','i','a','n','g','l','e','E','q','u','a','l']
  | .Token_LongName_NotLess => ['T','o','k','e','n','`','L','o','n','g','N','a','m','e','`','N','o','t','L','e','s','s']
  | .Token_LongName_NotLessEqual => ['T','o','k','e','n','`','L','o','n','g','N','a','m','e','`','N','o','t','L','e','s','s','E','q','u','a','l']
  | .Token_LongName_NotLessFullEqual => ['T','o','k','e','n','`','L','o','n','g','N','a','m','e','`','N','o','t','L','e','s','s','F','u','l','l','E','q','u','a','l']
  | .Token_LongName_NotLessGreater => ['T','o','k','e','n','`','L','o','n','g','N','a','m','e','`','N','o','t','L','e','s','s','G','r','e','a','t','e','r']
  | .Token_LongName_NotLessLess => ['T','o','k','e','n','`','L','o','n','g','N','a','m','e','`','N','o','t','L','e','s','s','L','e','s','s']
  | .Token_LongName_NotLessSlantEqual => ['T','o','k','e','n','`','L','o','n','g','N','a','m','e','`','N','o','t','L','e','s','s','S','l','a','n','t','E','q','u','a','l']
  | .Token_LongName_NotLessTilde => ['T','o','k','e','n','`','L','o','n','g','N','a','m','e','`','N','o','t','L','e','s','s','T','i','l','d','e']
  | .Token_LongName_NotNestedGreaterGreater => ['T','o','k','e','n','`','L','o','n','g','N','a','m','e','`','N','o','t','N','e','s','t','e','d','G','r','e','a','t','e','r','G','r','e','a','t','e','r']
  | .Token_LongName_NotNestedLessLess => ['T','o','k','e','n','`','L','o','n','g','N','a','m','e','`','N','o','t','N','e','s','t','e','d','L','e','s','s','L','e','s','s']
  | .Token_LongName_NotPrecedes => ['T','o','k','e','n','`','L','o','n','g','N','a','m','e','`','N','o','t','P','r','e','c','e','d','e','s']
  | .Token_LongName_NotPrecedesEqual => ['T','o','k','e','n','`','L','o','n','g','N','a','m','e','`','N','o','t','P','r','e','c','e','d','e','s','E','q','u','a','l']
  | .Token_LongName_NotPrecedesSlantEqual => ['T','o','k','e','n','`','L','o','n','g','N','a','m','e','`','N','o','t','P','r','e','c','e','d','e','s','S','l','a','n','t','E','q','u','a','l']
  | .Token_LongName_NotPrecedesTilde => ['T','o','k','e','n','`','L','o','n','g','N','a','m','e','`','N','o','t','P','r','e','c','e','d','e','s','T','i','l','d','e']
  | .Token_LongName_NotReverseElement => ['T','o','k','e','n','`','L','o','n','g','N','a','m','e','`','N','o','t','R','e','v','e','r','s','e','E','l','e','m','e','n','t']
  | .Token_LongName_NotRightTriangle => ['T','o','k','e','n','`','L','o','n','g','N','a','m','e','`','N','o','t','R','i','g','h','t','T','r','i','a','n','g','l','e']
  | .Token_LongName_NotRightTriangleBar => ['T','o','k','e','n','`','L','o','n','g','N','a','m','e','`','N','o','t','R','i','g','h','t','T','r','i','a','n','g','l','e','B','a','r']
  | .Token_LongName_NotRightTriangleEqual => ['T','o','k','e','n','`','L','o','n','g','N','a','m','e','`','N','o','t','R','i','g','h','t','T','r','i','a','n','g','l','e','E','q','u','a','l']
  | .Token_LongName_NotSquareSubset => ['T','o','k','e','n','`','L','o','n','g','N','a','m','e','`','N','o','t','S','q','u','a','r','e','S','u','b','s','e','t']
  | .Token_LongName_NotSquareSubsetEqual => ['T','o','k','e','n','`','L','o','n','g','N','a','m','e','`','N','o','t','S','q','u','a','r','e','S','u','b','s','e','t','E','q','u','a','l']
  | .Token_LongName_NotSquareSuperset => ['T','o','k','e','n','`','L','o','n','g','N','a','m','e','`','N','o','t','S','q','u','a','r','e','S','u','p','e','r','s','e','t']
  | .Token_LongName_NotSquareSupersetEqual => ['T','o','k','e','n','`','L','o','n','g','N','a','m','e','`','N','o','t','S','q','u','a','r','e','S','u','p','e','r','s','e','t','E','q','u','a','l']
  | .Token_LongName_NotSubset => ['T','o','k','e','n','`','L','o','n','g','N','a','m','e','`','N','o','t','S','u','b','s','e','t']
  | .Token_LongName_NotSubsetEqual => ['T','o','k','e','n','`','L','o','n','g','N','a','m','e','`','N','o','t','S','u','b','s','e','t','E','q','u','a','l']
  | .Token_LongName_NotSucceeds => ['T','o','k','e','n','`','L','o','n','g','N','a','m','e','`','N','o','t','S','u','c','c','e','e','d','s']
  | .Token_LongName_NotSucceedsEqual => ['T','o','k','e','n','`','L','o','n','g','N','a','m','e','`','N','o','t','S','u','c','c','e','e','d','s','E','q','u','a','l']
  | .Token_LongName_NotSucceedsSlantEqual => ['T','o','k','e','n','`','L','o','n','g','N','a','m','e','`','N','o','t','S','u','c','c','e','e','d','s','S','l','a','n','t','E','q','u','a','l']
  | .Token_LongName_NotSucceedsTilde => ['T','o','k','e','n','`','L','o','n','g','N','a','m','e','`','N','o','t','S','u','c','c','e','e','d','s','T','i','l','d','e']
  | .Token_LongName_NotSuperset => ['T','o','k','e','n','`','L','o','n','g','N','a','m','e','`','N','o','t','S','u','p','e','r','s','e','t']
  | .Token_LongName_NotSupersetEqual => ['T','o','k','e','n','`','L','o','n','g','N','a','m','e','`','N','o','t','S','u','p','e','r','s','e','t','E','q','u','a','l']
  | .Token_LongName_NotTilde => ['T','o','k','e','n','`','L','o','n','g','N','a','m','e','`','N','o','t','T','i','l','d','e']
  | .Token_LongName_NotTildeEqual => ['T','o','k','e','n','`','L','o','n','g','N','a','m','e','`','N','o','t','T','i','l','d','e','E','q','u','a','l']
  | .Token_LongName_NotTildeFullEqual => ['T','o','k','e','n','`','L','o','n','g','N','a','m','e','`','N','o','t','T','i','l','d','e','F','u','l','l','E','q','u','a','l']
  | .Token_LongName_NotTildeTilde => ['T','o','k','e','n','`','L','o','n','g','N','a','m','e','`','N','o','t','T','i','l','d','e','T','i','l','d','e']
  | .Token_LongName_NotVerticalBar => ['T','o','k','e','n','`','L','o','n','g','N','a','m','e','`','N','o','t','V','e','r','t','i','c','a','l','B','a','r']
  | .Token_LongName_OpenCurlyDoubleQuote => ['T','o','k','e','n','`','L','o','n','g','N','a','m','e','`','O','p','e','n','C','u','r','l','y','D','o','u','b','l','e','Q','u','o','t','e']
  | .Token_LongName_OpenCurlyQuote => ['T','o','k','e','n','`','L','o','n','g','N','a','m','e','`','O','p','e','n','C','u','r','l','y','Q','u','o','t','e']
  | .Token_LongName_Or => ['T','o','k','e','n','`','L','o','n','g','N','a','m','e','`','O','r']
  | .Token_LongName_PartialD => ['T','o','k','e','n','`','L','o','n','g','N','a','m','e','`','P','a','r','t','i','a','l','D']
  | .Token_LongName_PermutationProduct => ['T','o','k','e','n','`','L','o','n','g','N','a','m','e','`','P','e','r','m','u','t','a','t','i','o','n','P','r','o','d','u','c','t']
  | .Token_LongName_Perpendicular => ['T','o','k','e','n','`','L','o','n','g','N','a','m','e','`','P','e','r','p','e','n','d','i','c','u','l','a','r']
  | .Token_LongName_Piecewise => ['T','o','k','e','n','`','L','o','n','g','N','a','m','e','`','P','i','e','c','e','w','i','s','e']
  | .Token_LongName_PlusMinus => ['T','o','k','e','n','`','L','o','n','g','N','a','m','e','`','P','l','u','s','M','i','n','u','s']
  | .Token_LongName_Precedes => ['T','o','k','e','n','`','L','o','n','g','N','a','m','e','`','P','r','e','c','e','d','e','s']
  | .Token_LongName_PrecedesEqual => ['T','o','k','e','n','`','L','o','n','g','N','a','m','e','`','P','r','e','c','e','d','e','s','E','q','u','a','l']
  | .Token_LongName_PrecedesSlantEqual => ['T','o','k','e','n','`','L','o','n','g','N','a','m','e','`','P','r','e','c','e','d','e','s','S','l','a','n','t','E','q','u','a','l']
  | .Token_LongName_PrecedesTilde => ['T','o','k','e','n','`','L','o','n','g','N','a','m','e','`','P','r','e','c','e','d','e','s','T','i','l','d','e']
  | .Token_LongName_ProbabilityPr => ['T','o','k','e','n','`','L','o','n','g','N','a','m','e','`','P','r','o','b','a','b','i','l','i','t','y','P','r']
  | .Token_LongName_Product => ['T','o','k','e','n','`','L','o','n','g','N','a','m','e','`','P','r','o','d','u','c','t']
  | .Token_LongName_Proportion => ['T','o','k','e','n','`','L','o','n','g','N','a','m','e','`','P','r','o','p','o','r','t','i','o','n']
  | .Token_LongName_Proportional => ['T','o','k','e','n','`','L','o','n','g','N','a','m','e','`','P','r','o','p','o','r','t','i','o','n','a','l']
  | .Token_LongName_ReverseElement => ['T','o','k','e','n','`','L','o','n','g','N','a','m','e','`','R','e','v','e','r','s','e','E','l','e','m','e','n','t']
  | .Token_LongName_ReverseEquilibrium => ['T','o','k','e','n','`','L','o','n','g','N','a','m','e','`','R','e','v','e','r','s','e','E','q','u','i','l','i','b','r','i','u','m']
  | .Token_LongName_ReverseUpEquilibrium => ['T','o','k','e','n','`','L','o','n','g','N','a','m','e','`','R','e','v','e','r','s','e','U','p','E','q','u','i','l','i','b','r','i','u','m']
  | .Token_LongName_RightAngleBracket => ['T','o','k','e','n','`','L','o','n','g','N','a','m','e','`','R','i','g','h','t','A','n','g','l','e','B','r','a','c','k','e','t']
  | .Token_LongName_RightArrow => ['T','o','k','e','n','`','L','o','n','g','N','a','m','e','`','R','i','g','h','t','A','r','r','o','w']
  | .Token_LongName_RightArrowBar => ['T','o','k','e','n','`','L','o','n','g','N','a','m','e','`','R','i','g','h','t','A','r','r','o','w','B','a','r']
  | .Token_LongName_RightArrowLeftArrow => ['T','o','k','e','n','`','L','o','n','g','N','a','m','e','`','R','i','g','h','t','A','r','r','o','w','L','e','f','t','A','r','r','o','w']
  | .Token_LongName_RightAssociation => ['T','o','k','e','n','`','L','o','n','g','N','a','m','e','`','R','i','g','h','t','A','s','s','o','c','i','a','t','i','o','n']
  | .Token_LongName_RightBracketingBar => ['T','o','k','e','n','`','L','o','n','g','N','a','m','e','`','R','i','g','h','t','B','r','a','c','k','e','t','i','n','g','B','a','r']
  | .Token_LongName_RightCeiling => ['T','o','k','e','n','`','L','o','n','g','N','a','m','e','`','R','i','g','h','t','C','e','i','l','i','n','g']
  | .Token_LongName_RightDoubleBracket => ['T','o','k','e','n','`','L','o','n','g','N','a','m','e','`','R','i','g','h','t','D','o','u','b','l','e','B','r','a','c','k','e','t']
  | .Token_LongName_RightDoubleBracketingBar => ['T','o','k','e','n','`','L','o','n','g','N','a','m','e','`','R','i','g','h','t','D','o','u','b','l','e','B','r','a','c','k','e','t','i','n','g','B','a','r']
  | .Token_LongName_RightDownTeeVector => ['T','o','k','e','n','`','L','o','n','g','N','a','m','e','`','R','i','g','h','t','D','o','w','n','T','e','e','V','e','c','t','o','r']
  | .Token_LongName_RightDownVector => ['T','o','k','e','n','`','L','o','n','g','N','a','m','e','`','R','i','g','h','t','D','o','w','n','V','e','c','t','o','r']
  | .Token_LongName_RightDownVectorBar => ['T','o','k','e','n','`','L','o','n','g','N','a','m','e','`','R','i','g','h','t','D','o','w','n','V','e','c','t','o','r','B','a','r']
  | .Token_LongName_RightFloor => ['T','o','k','e','n','`','L','o','n','g','N','a','m','e','`','R','i','g','h','t','F','l','o','o','r']
  | .Token_LongName_RightTee => ['T','o','k','e','n','`','L','o','n','g','N','a','m','e','`','R','i','g','h','t','T','e','e']
  | .Token_LongName_RightTeeArrow => ['T','o','k','e','n','`','L','o','n','g','N','a','m','e','`','R','i','g','h','t','T','e','e','A','r','r','o','w']
  | .Token_LongName_RightTeeVector => ['T','o','k','e','n','`','L','o','n','g','N','a','m','e','`','R','i','g','h','t','T','e','e','V','e','c','t','o','r']
  | .Token_LongName_RightTriangle => ['T','o','k','e','n','`','L','o','n','g','N','a','m','e','`','R','i','g','h','t','T','r','i','a','n','g','l','e']
  | .Token_LongName_RightTriangleBar => ['T','o','k','e','n','`','L','o','n','g','N','a','m','e','`','R','i','g','h','t','T','r','i','a','n','g','l','e','B','a','r']
  | .Token_LongName_RightTriangleEqual => ['T','o','k','e','n','`','L','o','n','g','N','a','m','e','`','R','i','g','h','t','T','r','i','a','n','g','l','e','E','q','u','a','l']
  | .Token_LongName_RightUpDownVector => ['T','o','k','e','n','`','L','o','n','g','N','a','m','e','`','R','i','g','h','t','U','p','D','o','w','n','V','e','c','t','o','r']
  | .Token_LongName_RightUpTeeVector => ['T','o','k','e','n','`','L','o','n','g','N','a','m','e','`','R','i','g','h','t','U','p','T','e','e','V','e','c','t','o','r']
  | .Token_LongName_RightUpVector => ['T','o','k','e','n','`','L','o','n','g','N','a','m','e','`','R','i','g','h','t','U','p','V','e','c','t','o','r']
  | .Token_LongName_RightUpVectorBar => ['T','o','k','e','n','`','L','o','n','g','N','a','m','e','`','R','i','g','h','t','U','p','V','e','c','t','o','r','B','a','r']
  | .Token_LongName_RightVector => ['T','o','k','e','n','`','L','o','n','g','N','a','m','e','`','R','i','g','h','t','V','e','c','t','o','r']
  | .Token_LongName_RightVectorBar => ['T','o','k','e','n','`','L','o','n','g','N','a','m','e','`','R','i','g','h','t','V','e','c','t','o','r','B','a','r']
  | .Token_LongName_RoundImplies => ['T','o','k','e','n','`','L','o','n','g','N','a','m','e','`','R','o','u','n','d','I','m','p','l','i','e','s']
  | .Token_LongName_Rule => ['T','o','k','e','n','`','L','o','n','g','N','a','m','e','`','R','u','l','e']
  | .Token_LongName_RuleDelayed => ['T','o','k','e','n','`','L','o','n','g','N','a','m','e','`','R','u','l','e','D','e','l','a','y','e','d']
  | .Token_LongName_ShortDownArrow => ['T','o','k','e','n','`','L','o','n','g','N','a','m','e','`','S','h','o','r','t','D','o','w','n','A','r','r','o','w']
  | .Token_LongName_ShortLeftArrow => ['T','o','k','e','n','`','L','o','n','g','N','a','m','e','`','S','h','o','r','t','L','e','f','t','A','r','r','o','w']
  | .Token_LongName_ShortRightArrow => ['T','o','k','e','n','`','L','o','n','g','N','a','m','e','`','S','h','o','r','t','R','i','g','h','t','A','r','r','o','w']
  | .Token_LongName_ShortUpArrow => ['T','o','k','e','n','`','L','o','n','g','N','a','m','e','`','S','h','o','r','t','U','p','A','r','r','o','w']
  | .Token_LongName_SmallCircle => ['T','o','k','e','n','`','L','o','n','g','N','a','m','e','`','S','m','a','l','l','C','i','r','c','l','e']
  | .Token_LongName_Sqrt => ['T','o','k','e','n','`','L','o','n','g','N','a','m','e','`','S','q','r','t']
  | .Token_LongName_Square => ['T','o','k','e','n','`','L','o','n','g','N','a','m','e','`','S','q','u','a','r','e']
  | .Token_LongName_SquareIntersection => ['T','o','k','e','n','`','L','o','n','g','N','a','m','e','`','S','q','u','a','r','e','I','n','t','e','r','s','e','c','t','i','o','n']
  | .Token_LongName_SquareSubset => ['T','o','k','e','n','`','L','o','n','g','N','a','m','e','`','S','q','u','a','r','e','S','u','b','s','e','t']
  | .Token_LongName_SquareSubsetEqual => ['T','o','k','e','n','`','L','o','n','g','N','a','m','e','`','S','q','u','a','r','e','S','u','b','s','e','t','E','q','u','a','l']
  | .Token_LongName_SquareSuperset => ['T','o','k','e','n','`','L','o','n','g','N','a','m','e','`','S','q','u','a','r','e','S','u','p','e','r','s','e','t']
  | .Token_LongName_SquareSupersetEqual => ['T','o','k','e','n','`','L','o','n','g','N','a','m','e','`','S','q','u','a','r','e','S','u','p','e','r','s','e','t','E','q','u','a','l']
  | .Token_LongName_SquareUnion => ['T','o','k','e','n','`','L','o','n','g','N','a','m','e','`','S','q','u','a','r','e','U','n','i','o','n']
  | .Token_LongName_Star => ['T','o','k','e','n','`','L','o','n','g','N','a','m','e','`','S','t','a','r']
  | .Token_LongName_Subset => ['T','o','k','e','n','`','L','o','n','g','N','a','m','e','`','S','u','b','s','e','t']
  | .Token_LongName_SubsetEqual => ['T','o','k','e','n','`','L','o','n','g','N','a','m','e','`','S','u','b','s','e','t','E','q','u','a','l']
  | .Token_LongName_Succeeds => ['T','o','k','e','n','`','L','o','n','g','N','a','m','e','`','S','u','c','c','e','e','d','s']
  | .Token_LongName_SucceedsEqual => ['T','o','k','e','n','`','L','o','n','g','N','a','m','e','`','S','u','c','c','e','e','d','s','E','q','u','a','l']
  | .Token_LongName_SucceedsSlantEqual => ['T','o','k','e','n','`','L','o','n','g','N','a','m','e','`','S','u','c','c','e','e','d','s','S','l','a','n','t','E','q','u','a','l']
  | .Token_LongName_SucceedsTilde => ['T','o','k','e','n','`','L','o','n','g','N','a','m','e','`','S','u','c','c','e','e','d','s','T','i','l','d','e']
  | .Token_LongName_SuchThat => ['T','o','k','e','n','`','L','o','n','g','N','a','m','e','`','S','u','c','h','T','h','a','t']
  | .Token_LongName_Sum => ['T','o','k','e','n','`','L','o','n','g','N','a','m','e','`','S','u','m']
  | .Token_LongName_Superset => ['T','o','k','e','n','`','L','o','n','g','N','a','m','e','`','S','u','p','e','r','s','e','t']
  | .Token_LongName_SupersetEqual => ['T','o','k','e','n','`','L','o','n','g','N','a','m','e','`','S','u','p','e','r','s','e','t','E','q','u','a','l']
  | .Token_LongName_TensorProduct => ['T','o','k','e','n','`','L','o','n','g','N','a','m','e','`','T','e','n','s','o','r','P','r','o','d','u','c','t']
  | .Token_LongName_TensorWedge => ['T','o','k','e','n','`','L','o','n','g','N','a','m','e','`','T','e','n','s','o','r','W','e','d','g','e']
  | .Token_LongName_Therefore => ['T','o','k','e','n','`','L','o','n','g','N','a','m','e','`','T','h','e','r','e','f','o','r','e']
  | .Token_LongName_Tilde => ['T','o','k','e','n','`','L','o','n','g','N','a','m','e','`','T','i','l','d','e']
  | .Token_LongName_TildeEqual => ['T','o','k','e','n','`','L','o','n','g','N','a','m','e','`','T','i','l','d','e','E','q','u','a','l']
  | .Token_LongName_TildeFullEqual => ['T','o','k','e','n','`','L','o','n','g','N','a','m','e','`','T','i','l','d','e','F','u','l','l','E','q','u','a','l']
  | .Token_LongName_TildeTilde => ['T','o','k','e','n','`','L','o','n','g','N','a','m','e','`','T','i','l','d','e','T','i','l','d','e']
  | .Token_LongName_Times => ['T','o','k','e','n','`','L','o','n','g','N','a','m','e','`','T','i','m','e','s']
  | .Token_LongName_Transpose => ['T','o','k','e','n','`','L','o','n','g','N','a','m','e','`','T','r','a','n','s','p','o','s','e']
  | .Token_LongName_TwoWayRule => ['T','o','k','e','n','`','L','o','n','g','N','a','m','e','`','T','w','o','W','a','y','R','u','l','e']
  | .Token_LongName_UndirectedEdge => ['T','o','k','e','n','`','L','o','n','g','N','a','m','e','`','U','n','d','i','r','e','c','t','e','d','E','d','g','e']
  | .Token_LongName_Union => ['T','o','k','e','n','`','L','o','n','g','N','a','m','e','`','U','n','i','o','n']
  | .Token_LongName_UnionPlus => ['T','o','k','e','n','`','L','o','n','g','N','a','m','e','`','U','n','i','o','n','P','l','u','s']
  | .Token_LongName_UpArrow => ['T','o','k','e','n','`','L','o','n','g','N','a','m','e','`','U','p','A','r','r','o','w']
  | .Token_LongName_UpArrowBar => ['T','o','k','e','n','`','L','o','n','g','N','a','m','e','`','U','p','A','r','r','o','w','B','a','r']
  | .Token_LongName_UpArrowDownArrow => ['T','o','k','e','n','`','L','o','n','g','N','a','m','e','`','U','p','A','r','r','o','w','D','o','w','n','A','r','r','o','w']
  | .Token_LongName_UpDownArrow => ['T','o','k','e','n','`','L','o','n','g','N','a','m','e','`','U','p','D','o','w','n','A','r','r','o','w']
  | .Token_LongName_UpEquilibrium => ['T','o','k','e','n','`','L','o','n','g','N','a','m','e','`','U','p','E','q','u','i','l','i','b','r','i','u','m']
  | .Token_LongName_UpTee => ['T','o','k','e','n','`','L','o','n','g','N','a','m','e','`','U','p','T','e','e']
  | .Token_LongName_UpTeeArrow => ['T','o','k','e','n','`','L','o','n','g','N','a','m','e','`','U','p','T','e','e','A','r','r','o','w']
  | .Token_LongName_UpperLeftArrow => ['T','o','k','e','n','`','L','o','n','g','N','a','m','e','`','U','p','p','e','r','L','e','f','t','A','r','r','o','w']
  | .Token_LongName_UpperRightArrow => ['T','o','k','e','n','`','L','o','n','g','N','a','m','e','`','U','p','p','e','r','R','i','g','h','t','A','r','r','o','w']
  | .Token_LongName_VectorGreater => ['T','o','k','e','n','`','L','o','n','g','N','a','m','e','`','V','e','c','t','o','r','G','r','e','a','t','e','r']
  | .Token_LongName_VectorGreaterEqual => ['T','o','k','e','n','`','L','o','n','g','N','a','m','e','`','V','e','c','t','o','r','G','r','e','a','t','e','r','E','q','u','a','l']
  | .Token_LongName_VectorLess => ['T','o','k','e','n','`','L','o','n','g','N','a','m','e','`','V','e','c','t','o','r','L','e','s','s']
  | .Token_LongName_VectorLessEqual => ['T','o','k','e','n','`','L','o','n','g','N','a','m','e','`','V','e','c','t','o','r','L','e','s','s','E','q','u','a','l']
  | .Token_LongName_Vee => ['T','o','k','e','n','`','L','o','n','g','N','a','m','e','`','V','e','e']
  | .Token_LongName_VerticalBar => ['T','o','k','e','n','`','L','o','n','g','N','a','m','e','`','V','e','r','t','i','c','a','l','B','a','r']
  | .Token_LongName_VerticalSeparator => ['T','o','k','e','n','`','L','o','n','g','N','a','m','e','`','V','e','r','t','i','c','a','l','S','e','p','a','r','a','t','o','r']
  | .Token_LongName_VerticalTilde => ['T','o','k','e','n','`','L','o','n','g','N','a','m','e','`','V','e','r','t','i','c','a','l','T','i','l','d','e']
  | .Token_LongName_Wedge => ['T','o','k','e','n','`','L','o','n','g','N','a','m','e','`','W','e','d','g','e']
  | .Token_LongName_Xnor => ['T','o','k','e','n','`','L','o','n','g','N','a','m','e','`','X','n','o','r']
  | .Token_LongName_Xor => ['T','o','k','e','n','`','L','o','n','g','N','a','m','e','`','X','o','r']
  | .Token_Minus => ['T','o','k','e','n','`','M','i','n','u','s']
  | .Token_MinusEqual => ['T','o','k','e','n','`','M','i','n','u','s','E','q','u','a','l']
  | .Token_MinusGreater => ['T','o','k','e','n','`','M','i','n','u','s','G','r','e','a','t','e','r']
  | .Token_MinusMinus => ['T','o','k','e','n','`','M','i','n','u','s','M','i','n','u','s']
  | .Token_Newline => ['T','o','k','e','n','`','N','e','w','l','i','n','e']
  | .Token_OpenCurly => ['T','o','k','e','n','`','O','p','e','n','C','u','r','l','y']
  | .Token_OpenParen => ['T','o','k','e','n','`','O','p','e','n','P','a','r','e','n']
  | .Token_OpenSquare => ['T','o','k','e','n','`','O','p','e','n','S','q','u','a','r','e']
  | .Token_Percent => ['T','o','k','e','n','`','P','e','r','c','e','n','t']
  | .Token_PercentPercent => ['T','o','k','e','n','`','P','e','r','c','e','n','t','P','e','r','c','e','n','t']
  | .Token_Plus => ['T','o','k','e','n','`','P','l','u','s']
  | .Token_PlusEqual => ['T','o','k','e','n','`','P','l','u','s','E','q','u','a','l']
  | .Token_PlusPlus => ['T','o','k','e','n','`','P','l','u','s','P','l','u','s']
  | .Token_Question => ['T','o','k','e','n','`','Q','u','e','s','t','i','o','n']
  | .Token_QuestionQuestion => ['T','o','k','e','n','`','Q','u','e','s','t','i','o','n','Q','u','e','s','t','i','o','n']
  | .Token_Rational => ['T','o','k','e','n','`','R','a','t','i','o','n','a','l']
  | .Token_Real => ['T','o','k','e','n','`','R','e','a','l']
  | .Token_Semi => ['T','o','k','e','n','`','S','e','m','i']
  | .Token_SemiSemi => ['T','o','k','e','n','`','S','e','m','i','S','e','m','i']
  | .Token_SingleQuote => ['T','o','k','e','n','`','S','i','n','g','l','e','Q','u','o','t','e']
  | .Token_Slash => ['T','o','k','e','n','`','S','l','a','s','h']
  | .Token_SlashAt => ['T','o','k','e','n','`','S','l','a','s','h','A','t']
  | .Token_SlashColon => ['T','o','k','e','n','`','S','l','a','s','h','C','o','l','o','n']
  | .Token_SlashDot => ['T','o','k','e','n','`','S','l','a','s','h','D','o','t']
  | .Token_SlashEqual => ['T','o','k','e','n','`','S','l','a','s','h','E','q','u','a','l']
  | .Token_SlashSemi => ['T','o','k','e','n','`','S','l','a','s','h','S','e','m','i']
  | .Token_SlashSlash => ['T','o','k','e','n','`','S','l','a','s','h','S','l','a','s','h']
  | .Token_SlashSlashAt => ['T','o','k','e','n','`','S','l','a','s','h','S','l','a','s','h','A','t']
  | .Token_SlashSlashDot => ['T','o','k','e','n','`','S','l','a','s','h','S','l','a','s','h','D','o','t']
  | .Token_SlashSlashEqual => ['T','o','k','e','n','`','S','l','a','s','h','S','l','a','s','h','E','q','u','a','l']
  | .Token_SlashStar => ['T','o','k','e','n','`','S','l','a','s','h','S','t','a','r']
  | .Token_Star => ['T','o','k','e','n','`','S','t','a','r']
  | .Token_StarEqual => ['T','o','k','e','n','`','S','t','a','r','E','q','u','a','l']
  | .Token_StarStar => ['T','o','k','e','n','`','S','t','a','r','S','t','a','r']
  | .Token_String => ['T','o','k','e','n','`','S','t','r','i','n','g']
  | .Token_Symbol => ['T','o','k','e','n','`','S','y','m','b','o','l']
  | .Token_Tilde => ['T','o','k','e','n','`','T','i','l','d','e']
  | .Token_TildeTilde => ['T','o','k','e','n','`','T','i','l','d','e','T','i','l','d','e']
  | .Token_ToplevelNewline => ['T','o','k','e','n','`','T','o','p','l','e','v','e','l','N','e','w','l','i','n','e']
  | .Token_Under => ['T','o','k','e','n','`','U','n','d','e','r']
  | .Token_UnderDot => ['T','o','k','e','n','`','U','n','d','e','r','D','o','t']
  | .Token_UnderUnder => ['T','o','k','e','n','`','U','n','d','e','r','U','n','d','e','r']
  | .Token_UnderUnderUnder => ['T','o','k','e','n','`','U','n','d','e','r','U','n','d','e','r','U','n','d','e','r']
  | .Token_Unknown => ['T','o','k','e','n','`','U','n','k','n','o','w','n']
  | .Token_Whitespace => ['T','o','k','e','n','`','W','h','i','t','e','s','p','a','c','e']

/-- `inequalityOperatorToSymbol`, abstract_cst.rs:2513-2571; `none` is the panic. -/
def inequalityOperatorToSymbol : TK → Option Sym
  | .EqualEqual => some .System_Equal
  | .LongName_Equal => some .System_Equal
  | .LongName_LongEqual => some .System_Equal
  | .BangEqual => some .System_Unequal
  | .LongName_NotEqual => some .System_Unequal
  | .Less => some .System_Less
  | .Greater => some .System_Greater
  | .LessEqual => some .System_LessEqual
  | .LongName_LessEqual => some .System_LessEqual
  | .GreaterEqual => some .System_GreaterEqual
  | .LongName_GreaterEqual => some .System_GreaterEqual
  | .LongName_GreaterEqualLess => some .System_GreaterEqualLess
  | .LongName_GreaterFullEqual => some .System_GreaterFullEqual
  | .LongName_GreaterGreater => some .System_GreaterGreater
  | .LongName_GreaterLess => some .System_GreaterLess
  | .LongName_GreaterSlantEqual => some .System_GreaterEqual
  | .LongName_GreaterTilde => some .System_GreaterTilde
  | .LongName_LessEqualGreater => some .System_LessEqualGreater
  | .LongName_LessFullEqual => some .System_LessFullEqual
  | .LongName_LessGreater => some .System_LessGreater
  | .LongName_LessLess => some .System_LessLess
  | .LongName_LessSlantEqual => some .System_LessEqual
  | .LongName_LessTilde => some .System_LessTilde
  | .LongName_NestedGreaterGreater => some .System_NestedGreaterGreater
  | .LongName_NestedLessLess => some .System_NestedLessLess
  | .LongName_NotGreater => some .System_NotGreater
  | .LongName_NotGreaterEqual => some .System_NotGreaterEqual
  | .LongName_NotGreaterFullEqual => some .System_NotGreaterFullEqual
  | .LongName_NotGreaterGreater => some .System_NotGreaterGreater
  | .LongName_NotGreaterLess => some .System_NotGreaterLess
  | .LongName_NotGreaterSlantEqual => some .System_NotGreaterSlantEqual
  | .LongName_NotGreaterTilde => some .System_NotGreaterTilde
  | .LongName_NotLess => some .System_NotLess
  | .LongName_NotLessEqual => some .System_NotLessEqual
  | .LongName_NotLessFullEqual => some .System_NotLessFullEqual
  | .LongName_NotLessGreater => some .System_NotLessGreater
  | .LongName_NotLessLess => some .System_NotLessLess
  | .LongName_NotLessSlantEqual => some .System_NotLessSlantEqual
  | .LongName_NotLessTilde => some .System_NotLessTilde
  | .LongName_NotNestedGreaterGreater => some .System_NotNestedGreaterGreater
  | .LongName_NotNestedLessLess => some .System_NotNestedLessLess
  | .LongName_VectorLess => some .System_VectorLess
  | .LongName_VectorGreater => some .System_VectorGreater
  | .LongName_VectorLessEqual => some .System_VectorLessEqual
  | .LongName_VectorGreaterEqual => some .System_VectorGreaterEqual
  | _ => none

/-- `vectorInequalityAffinity`, abstract_cst.rs:2574-2634; the outer `none` is the panic. -/
def vectorInequalityAffinity : Sym → Option (Option Bool)
  | .System_Equal => some none
  | .System_Unequal => some none
  | .System_Less => some none
  | .System_Greater => some none
  | .System_LessEqual => some none
  | .System_GreaterEqual => some none
  | .System_GreaterEqualLess => some (some false)
  | .System_GreaterFullEqual => some (some false)
  | .System_GreaterGreater => some (some false)
  | .System_GreaterLess => some (some false)
  | .System_GreaterSlantEqual => some (some false)
  | .System_GreaterTilde => some (some false)
  | .System_LessEqualGreater => some (some false)
  | .System_LessFullEqual => some (some false)
  | .System_LessGreater => some (some false)
  | .System_LessLess => some (some false)
  | .System_LessSlantEqual => some (some false)
  | .System_LessTilde => some (some false)
  | .System_NestedGreaterGreater => some (some false)
  | .System_NestedLessLess => some (some false)
  | .System_NotGreater => some (some false)
  | .System_NotGreaterEqual => some (some false)
  | .System_NotGreaterFullEqual => some (some false)
  | .System_NotGreaterGreater => some (some false)
  | .System_NotGreaterLess => some (some false)
  | .System_NotGreaterSlantEqual => some (some false)
  | .System_NotGreaterTilde => some (some false)
  | .System_NotLess => some (some false)
  | .System_NotLessEqual => some (some false)
  | .System_NotLessFullEqual => some (some false)
  | .System_NotLessGreater => some (some false)
  | .System_NotLessLess => some (some false)
  | .System_NotLessSlantEqual => some (some false)
  | .System_NotLessTilde => some (some false)
  | .System_NotNestedGreaterGreater => some (some false)
  | .System_NotNestedLessLess => some (some false)
  | .System_VectorLess => some (some true)
  | .System_VectorGreater => some (some true)
  | .System_VectorLessEqual => some (some true)
  | .System_VectorGreaterEqual => some (some true)
  | _ => none

/-- The operators `simplifyInfixInequality`, abstract_cst.rs:2349-2511, looks for, in this order; `true` if the
operands become a list. -/
def simplifyRators : List (Sym × Bool) := [
  (.System_Equal, false),
  (.System_Unequal, false),
  (.System_Greater, false),
  (.System_Less, false),
  (.System_GreaterEqual, false),
  (.System_GreaterEqualLess, false),
  (.System_GreaterFullEqual, false),
  (.System_GreaterGreater, false),
  (.System_GreaterLess, false),
  (.System_GreaterTilde, false),
  (.System_LessEqual, false),
  (.System_LessEqualGreater, false),
  (.System_LessFullEqual, false),
  (.System_LessGreater, false),
  (.System_LessLess, false),
  (.System_LessTilde, false),
  (.System_NestedGreaterGreater, false),
  (.System_NestedLessLess, false),
  (.System_NotGreater, false),
  (.System_NotGreaterEqual, false),
  (.System_NotGreaterFullEqual, false),
  (.System_NotGreaterGreater, false),
  (.System_NotGreaterLess, false),
  (.System_NotGreaterSlantEqual, false),
  (.System_NotGreaterTilde, false),
  (.System_NotLess, false),
  (.System_NotLessEqual, false),
  (.System_NotLessFullEqual, false),
  (.System_NotLessGreater, false),
  (.System_NotLessLess, false),
  (.System_NotLessSlantEqual, false),
  (.System_NotLessTilde, false),
  (.System_NotNestedGreaterGreater, false),
  (.System_NotNestedLessLess, false),
  (.System_VectorLess, true),
  (.System_VectorGreater, true),
  (.System_VectorLessEqual, true),
  (.System_VectorGreaterEqual, true)]

end CodeParser
