/- Generated by tools/gen_tables.py from /repo. Do not edit.
Paths are relative to /repo/crates/wolfram-parser/src. -/

namespace CodeParser

/-- `TokenKind`, tokenize/token_kind.rs:337-868. -/
inductive TK where
  | Unknown | EndOfFile | Symbol | String | Integer | Real | Rational | LinearSyntaxBlob
  | InternalNewline | Comment | Whitespace | Buffer1 | ToplevelNewline | Buffer2 | Buffer3
  | Buffer4 | Error_ExpectedEqual | Error_Number | Error_UnhandledCharacter
  | Error_ExpectedLetterlike | Error_Aborted | Error_ExpectedOperand | Error_ExpectedTag
  | Error_ExpectedFile | Error_UnexpectedCloser | Error_PrefixImplicitNull
  | Error_InfixImplicitNull | Error_UnsafeCharacterEncoding | Error_UnterminatedComment
  | Error_UnterminatedString | Error_UnterminatedFileString | Error_UnterminatedLinearSyntaxBlob
  | Error_UnsupportedToken | Error_UnexpectedCommentCloser | Dot | Colon | OpenParen | CloseParen
  | OpenSquare | CloseSquare | Comma | OpenCurly | CloseCurly | Equal | Bang | Under | Less
  | Greater | Minus | Bar | Semi | Hash | Amp | Slash | At | Plus | Tilde | Star | Caret
  | SingleQuote | Percent | Question | DotDot | ColonColon | ColonEqual | ColonGreater | EqualEqual
  | UnderUnder | UnderDot | LessBar | LessLess | LessGreater | LessEqual | GreaterGreater
  | GreaterEqual | MinusGreater | MinusMinus | MinusEqual | BarBar | BarGreater | SemiSemi | AmpAmp
  | SlashAt | SlashSemi | SlashDot | SlashSlash | SlashColon | SlashEqual | SlashStar | AtAt
  | AtStar | PlusPlus | PlusEqual | TildeTilde | StarEqual | StarStar | CaretEqual | HashHash
  | BangEqual | BangBang | QuestionQuestion | DotDotDot | EqualEqualEqual | EqualBangEqual
  | UnderUnderUnder | SlashSlashDot | AtAtAt | LessMinusGreater | SlashSlashAt | CaretColonEqual
  | GreaterGreaterGreater | BarMinusGreater | SlashSlashEqual | ColonColonOpenSquare
  | PercentPercent | LinearSyntax_Bang | LinearSyntax_CloseParen | LinearSyntax_At
  | LinearSyntax_Amp | LinearSyntax_Star | LinearSyntax_Under | LinearSyntax_Caret
  | LinearSyntax_Space | LinearSyntax_Percent | LinearSyntax_Plus | LinearSyntax_Slash
  | LinearSyntax_BackTick | Fake_ImplicitTimes | Fake_ImplicitNull | Fake_ImplicitOne
  | Fake_ImplicitAll | Boxes_OpenParenStar | Boxes_StarCloseParen | Boxes_MultiSingleQuote
  | Boxes_MultiWhitespace | LongName_Not | LongName_PlusMinus | LongName_CenterDot | LongName_Times
  | LongName_Divide | LongName_OpenCurlyQuote | LongName_CloseCurlyQuote
  | LongName_OpenCurlyDoubleQuote | LongName_CloseCurlyDoubleQuote | LongName_InvisibleTimes
  | LongName_LeftArrow | LongName_UpArrow | LongName_RightArrow | LongName_DownArrow
  | LongName_LeftRightArrow | LongName_UpDownArrow | LongName_UpperLeftArrow
  | LongName_UpperRightArrow | LongName_LowerRightArrow | LongName_LowerLeftArrow
  | LongName_LeftTeeArrow | LongName_UpTeeArrow | LongName_RightTeeArrow | LongName_DownTeeArrow
  | LongName_LeftVector | LongName_DownLeftVector | LongName_RightUpVector | LongName_LeftUpVector
  | LongName_RightVector | LongName_DownRightVector | LongName_RightDownVector
  | LongName_LeftDownVector | LongName_RightArrowLeftArrow | LongName_UpArrowDownArrow
  | LongName_LeftArrowRightArrow | LongName_ReverseEquilibrium | LongName_Equilibrium
  | LongName_DoubleLeftArrow | LongName_DoubleUpArrow | LongName_DoubleRightArrow
  | LongName_DoubleDownArrow | LongName_DoubleLeftRightArrow | LongName_DoubleUpDownArrow
  | LongName_LeftArrowBar | LongName_RightArrowBar | LongName_DownArrowUpArrow | LongName_ForAll
  | LongName_PartialD | LongName_Exists | LongName_NotExists | LongName_Del | LongName_Element
  | LongName_NotElement | LongName_ReverseElement | LongName_NotReverseElement | LongName_SuchThat
  | LongName_Product | LongName_Coproduct | LongName_Sum | LongName_Minus | LongName_MinusPlus
  | LongName_DivisionSlash | LongName_Backslash | LongName_SmallCircle | LongName_Sqrt
  | LongName_CubeRoot | LongName_Proportional | LongName_Divides | LongName_DoubleVerticalBar
  | LongName_NotDoubleVerticalBar | LongName_And | LongName_Or | LongName_Integral
  | LongName_ContourIntegral | LongName_DoubleContourIntegral | LongName_ClockwiseContourIntegral
  | LongName_CounterClockwiseContourIntegral | LongName_Therefore | LongName_Because
  | LongName_Colon | LongName_Proportion | LongName_Tilde | LongName_VerticalTilde
  | LongName_NotTilde | LongName_EqualTilde | LongName_TildeEqual | LongName_NotTildeEqual
  | LongName_TildeFullEqual | LongName_NotTildeFullEqual | LongName_TildeTilde
  | LongName_NotTildeTilde | LongName_CupCap | LongName_HumpDownHump | LongName_HumpEqual
  | LongName_DotEqual | LongName_NotEqual | LongName_Congruent | LongName_NotCongruent
  | LongName_LessEqual | LongName_GreaterEqual | LongName_LessFullEqual | LongName_GreaterFullEqual
  | LongName_NotLessFullEqual | LongName_NotGreaterFullEqual | LongName_LessLess
  | LongName_GreaterGreater | LongName_NotCupCap | LongName_NotLess | LongName_NotGreater
  | LongName_NotLessEqual | LongName_NotGreaterEqual | LongName_LessTilde | LongName_GreaterTilde
  | LongName_NotLessTilde | LongName_NotGreaterTilde | LongName_LessGreater | LongName_GreaterLess
  | LongName_NotLessGreater | LongName_NotGreaterLess | LongName_Precedes | LongName_Succeeds
  | LongName_PrecedesSlantEqual | LongName_SucceedsSlantEqual | LongName_PrecedesTilde
  | LongName_SucceedsTilde | LongName_NotPrecedes | LongName_NotSucceeds | LongName_Subset
  | LongName_Superset | LongName_NotSubset | LongName_NotSuperset | LongName_SubsetEqual
  | LongName_SupersetEqual | LongName_NotSubsetEqual | LongName_NotSupersetEqual
  | LongName_UnionPlus | LongName_SquareSubset | LongName_SquareSuperset
  | LongName_SquareSubsetEqual | LongName_SquareSupersetEqual | LongName_SquareIntersection
  | LongName_SquareUnion | LongName_CirclePlus | LongName_CircleMinus | LongName_CircleTimes
  | LongName_CircleDot | LongName_RightTee | LongName_LeftTee | LongName_DownTee | LongName_UpTee
  | LongName_DoubleRightTee | LongName_LeftTriangle | LongName_RightTriangle
  | LongName_LeftTriangleEqual | LongName_RightTriangleEqual | LongName_Xor | LongName_Nand
  | LongName_Nor | LongName_Wedge | LongName_Vee | LongName_Intersection | LongName_Union
  | LongName_Diamond | LongName_Star | LongName_LessEqualGreater | LongName_GreaterEqualLess
  | LongName_NotPrecedesSlantEqual | LongName_NotSucceedsSlantEqual | LongName_NotSquareSubsetEqual
  | LongName_NotSquareSupersetEqual | LongName_NotPrecedesTilde | LongName_NotSucceedsTilde
  | LongName_NotLeftTriangle | LongName_NotRightTriangle | LongName_NotLeftTriangleEqual
  | LongName_NotRightTriangleEqual | LongName_LeftCeiling | LongName_RightCeiling
  | LongName_LeftFloor | LongName_RightFloor | LongName_Cap | LongName_Cup
  | LongName_LeftAngleBracket | LongName_RightAngleBracket | LongName_Perpendicular
  | LongName_LongLeftArrow | LongName_LongRightArrow | LongName_LongLeftRightArrow
  | LongName_DoubleLongLeftArrow | LongName_DoubleLongRightArrow
  | LongName_DoubleLongLeftRightArrow | LongName_UpArrowBar | LongName_DownArrowBar
  | LongName_LeftRightVector | LongName_RightUpDownVector | LongName_DownLeftRightVector
  | LongName_LeftUpDownVector | LongName_LeftVectorBar | LongName_RightVectorBar
  | LongName_RightUpVectorBar | LongName_RightDownVectorBar | LongName_DownLeftVectorBar
  | LongName_DownRightVectorBar | LongName_LeftUpVectorBar | LongName_LeftDownVectorBar
  | LongName_LeftTeeVector | LongName_RightTeeVector | LongName_RightUpTeeVector
  | LongName_RightDownTeeVector | LongName_DownLeftTeeVector | LongName_DownRightTeeVector
  | LongName_LeftUpTeeVector | LongName_LeftDownTeeVector | LongName_UpEquilibrium
  | LongName_ReverseUpEquilibrium | LongName_RoundImplies | LongName_LeftTriangleBar
  | LongName_RightTriangleBar | LongName_Equivalent | LongName_LessSlantEqual
  | LongName_GreaterSlantEqual | LongName_NestedLessLess | LongName_NestedGreaterGreater
  | LongName_PrecedesEqual | LongName_SucceedsEqual | LongName_DoubleLeftTee
  | LongName_LeftDoubleBracket | LongName_RightDoubleBracket | LongName_LeftAssociation
  | LongName_RightAssociation | LongName_TwoWayRule | LongName_Piecewise | LongName_ImplicitPlus
  | LongName_AutoLeftMatch | LongName_AutoRightMatch | LongName_InvisiblePrefixScriptBase
  | LongName_InvisiblePostfixScriptBase | LongName_Transpose | LongName_Conjugate
  | LongName_ConjugateTranspose | LongName_HermitianConjugate | LongName_VerticalBar
  | LongName_NotVerticalBar | LongName_Distributed | LongName_Conditioned | LongName_UndirectedEdge
  | LongName_DirectedEdge | LongName_ContinuedFractionK | LongName_TensorProduct
  | LongName_TensorWedge | LongName_ProbabilityPr | LongName_ExpectationE
  | LongName_PermutationProduct | LongName_NotEqualTilde | LongName_NotHumpEqual
  | LongName_NotHumpDownHump | LongName_NotLeftTriangleBar | LongName_NotRightTriangleBar
  | LongName_NotLessLess | LongName_NotNestedLessLess | LongName_NotLessSlantEqual
  | LongName_NotGreaterGreater | LongName_NotNestedGreaterGreater | LongName_NotGreaterSlantEqual
  | LongName_NotPrecedesEqual | LongName_NotSucceedsEqual | LongName_NotSquareSubset
  | LongName_NotSquareSuperset | LongName_Equal | LongName_VerticalSeparator
  | LongName_VectorGreater | LongName_VectorGreaterEqual | LongName_VectorLess
  | LongName_VectorLessEqual | LongName_Limit | LongName_MaxLimit | LongName_MinLimit
  | LongName_Cross | LongName_Function | LongName_Xnor | LongName_DiscreteShift
  | LongName_DifferenceDelta | LongName_DiscreteRatio | LongName_RuleDelayed | LongName_Square
  | LongName_Rule | LongName_Implies | LongName_ShortRightArrow | LongName_ShortLeftArrow
  | LongName_ShortUpArrow | LongName_ShortDownArrow | LongName_Application
  | LongName_LeftBracketingBar | LongName_RightBracketingBar | LongName_LeftDoubleBracketingBar
  | LongName_RightDoubleBracketingBar | LongName_CapitalDifferentialD | LongName_DifferentialD
  | LongName_InvisibleComma | LongName_InvisibleApplication | LongName_LongEqual
deriving DecidableEq, Repr, Inhabited

namespace TK

/-- The `id` literals of `token_kind!`, tokenize/token_kind.rs:337-868. -/
def id : TK → Nat
  | .Unknown => 0
  | .EndOfFile => 1
  | .Symbol => 2
  | .String => 3
  | .Integer => 4
  | .Real => 5
  | .Rational => 6
  | .LinearSyntaxBlob => 7
  | .InternalNewline => 8
  | .Comment => 9
  | .Whitespace => 10
  | .Buffer1 => 11
  | .ToplevelNewline => 12
  | .Buffer2 => 13
  | .Buffer3 => 14
  | .Buffer4 => 15
  | .Error_ExpectedEqual => 16
  | .Error_Number => 17
  | .Error_UnhandledCharacter => 18
  | .Error_ExpectedLetterlike => 19
  | .Error_Aborted => 20
  | .Error_ExpectedOperand => 21
  | .Error_ExpectedTag => 22
  | .Error_ExpectedFile => 23
  | .Error_UnexpectedCloser => 24
  | .Error_PrefixImplicitNull => 25
  | .Error_InfixImplicitNull => 26
  | .Error_UnsafeCharacterEncoding => 27
  | .Error_UnterminatedComment => 28
  | .Error_UnterminatedString => 29
  | .Error_UnterminatedFileString => 30
  | .Error_UnterminatedLinearSyntaxBlob => 31
  | .Error_UnsupportedToken => 32
  | .Error_UnexpectedCommentCloser => 33
  | .Dot => 34
  | .Colon => 35
  | .OpenParen => 36
  | .CloseParen => 37
  | .OpenSquare => 38
  | .CloseSquare => 39
  | .Comma => 40
  | .OpenCurly => 41
  | .CloseCurly => 42
  | .Equal => 43
  | .Bang => 44
  | .Under => 45
  | .Less => 46
  | .Greater => 47
  | .Minus => 48
  | .Bar => 49
  | .Semi => 50
  | .Hash => 51
  | .Amp => 52
  | .Slash => 53
  | .At => 54
  | .Plus => 55
  | .Tilde => 56
  | .Star => 57
  | .Caret => 58
  | .SingleQuote => 59
  | .Percent => 60
  | .Question => 61
  | .DotDot => 62
  | .ColonColon => 63
  | .ColonEqual => 64
  | .ColonGreater => 65
  | .EqualEqual => 66
  | .UnderUnder => 67
  | .UnderDot => 68
  | .LessBar => 69
  | .LessLess => 70
  | .LessGreater => 71
  | .LessEqual => 72
  | .GreaterGreater => 73
  | .GreaterEqual => 74
  | .MinusGreater => 75
  | .MinusMinus => 76
  | .MinusEqual => 77
  | .BarBar => 78
  | .BarGreater => 79
  | .SemiSemi => 80
  | .AmpAmp => 81
  | .SlashAt => 82
  | .SlashSemi => 83
  | .SlashDot => 84
  | .SlashSlash => 85
  | .SlashColon => 86
  | .SlashEqual => 87
  | .SlashStar => 88
  | .AtAt => 89
  | .AtStar => 90
  | .PlusPlus => 91
  | .PlusEqual => 92
  | .TildeTilde => 93
  | .StarEqual => 94
  | .StarStar => 95
  | .CaretEqual => 96
  | .HashHash => 97
  | .BangEqual => 98
  | .BangBang => 99
  | .QuestionQuestion => 100
  | .DotDotDot => 101
  | .EqualEqualEqual => 102
  | .EqualBangEqual => 103
  | .UnderUnderUnder => 104
  | .SlashSlashDot => 105
  | .AtAtAt => 106
  | .LessMinusGreater => 107
  | .SlashSlashAt => 108
  | .CaretColonEqual => 109
  | .GreaterGreaterGreater => 110
  | .BarMinusGreater => 111
  | .SlashSlashEqual => 112
  | .ColonColonOpenSquare => 113
  | .PercentPercent => 114
  | .LinearSyntax_Bang => 115
  | .LinearSyntax_CloseParen => 116
  | .LinearSyntax_At => 117
  | .LinearSyntax_Amp => 118
  | .LinearSyntax_Star => 119
  | .LinearSyntax_Under => 120
  | .LinearSyntax_Caret => 121
  | .LinearSyntax_Space => 122
  | .LinearSyntax_Percent => 123
  | .LinearSyntax_Plus => 124
  | .LinearSyntax_Slash => 125
  | .LinearSyntax_BackTick => 126
  | .Fake_ImplicitTimes => 127
  | .Fake_ImplicitNull => 128
  | .Fake_ImplicitOne => 129
  | .Fake_ImplicitAll => 130
  | .Boxes_OpenParenStar => 131
  | .Boxes_StarCloseParen => 132
  | .Boxes_MultiSingleQuote => 133
  | .Boxes_MultiWhitespace => 134
  | .LongName_Not => 135
  | .LongName_PlusMinus => 136
  | .LongName_CenterDot => 137
  | .LongName_Times => 138
  | .LongName_Divide => 139
  | .LongName_OpenCurlyQuote => 140
  | .LongName_CloseCurlyQuote => 141
  | .LongName_OpenCurlyDoubleQuote => 142
  | .LongName_CloseCurlyDoubleQuote => 143
  | .LongName_InvisibleTimes => 144
  | .LongName_LeftArrow => 145
  | .LongName_UpArrow => 146
  | .LongName_RightArrow => 147
  | .LongName_DownArrow => 148
  | .LongName_LeftRightArrow => 149
  | .LongName_UpDownArrow => 150
  | .LongName_UpperLeftArrow => 151
  | .LongName_UpperRightArrow => 152
  | .LongName_LowerRightArrow => 153
  | .LongName_LowerLeftArrow => 154
  | .LongName_LeftTeeArrow => 155
  | .LongName_UpTeeArrow => 156
  | .LongName_RightTeeArrow => 157
  | .LongName_DownTeeArrow => 158
  | .LongName_LeftVector => 159
  | .LongName_DownLeftVector => 160
  | .LongName_RightUpVector => 161
  | .LongName_LeftUpVector => 162
  | .LongName_RightVector => 163
  | .LongName_DownRightVector => 164
  | .LongName_RightDownVector => 165
  | .LongName_LeftDownVector => 166
  | .LongName_RightArrowLeftArrow => 167
  | .LongName_UpArrowDownArrow => 168
  | .LongName_LeftArrowRightArrow => 169
  | .LongName_ReverseEquilibrium => 170
  | .LongName_Equilibrium => 171
  | .LongName_DoubleLeftArrow => 172
  | .LongName_DoubleUpArrow => 173
  | .LongName_DoubleRightArrow => 174
  | .LongName_DoubleDownArrow => 175
  | .LongName_DoubleLeftRightArrow => 176
  | .LongName_DoubleUpDownArrow => 177
  | .LongName_LeftArrowBar => 178
  | .LongName_RightArrowBar => 179
  | .LongName_DownArrowUpArrow => 180
  | .LongName_ForAll => 181
  | .LongName_PartialD => 182
  | .LongName_Exists => 183
  | .LongName_NotExists => 184
  | .LongName_Del => 185
  | .LongName_Element => 186
  | .LongName_NotElement => 187
  | .LongName_ReverseElement => 188
  | .LongName_NotReverseElement => 189
  | .LongName_SuchThat => 190
  | .LongName_Product => 191
  | .LongName_Coproduct => 192
  | .LongName_Sum => 193
  | .LongName_Minus => 194
  | .LongName_MinusPlus => 195
  | .LongName_DivisionSlash => 196
  | .LongName_Backslash => 197
  | .LongName_SmallCircle => 198
  | .LongName_Sqrt => 199
  | .LongName_CubeRoot => 200
  | .LongName_Proportional => 201
  | .LongName_Divides => 202
  | .LongName_DoubleVerticalBar => 203
  | .LongName_NotDoubleVerticalBar => 204
  | .LongName_And => 205
  | .LongName_Or => 206
  | .LongName_Integral => 207
  | .LongName_ContourIntegral => 208
  | .LongName_DoubleContourIntegral => 209
  | .LongName_ClockwiseContourIntegral => 210
  | .LongName_CounterClockwiseContourIntegral => 211
  | .LongName_Therefore => 212
  | .LongName_Because => 213
  | .LongName_Colon => 214
  | .LongName_Proportion => 215
  | .LongName_Tilde => 216
  | .LongName_VerticalTilde => 217
  | .LongName_NotTilde => 218
  | .LongName_EqualTilde => 219
  | .LongName_TildeEqual => 220
  | .LongName_NotTildeEqual => 221
  | .LongName_TildeFullEqual => 222
  | .LongName_NotTildeFullEqual => 223
  | .LongName_TildeTilde => 224
  | .LongName_NotTildeTilde => 225
  | .LongName_CupCap => 226
  | .LongName_HumpDownHump => 227
  | .LongName_HumpEqual => 228
  | .LongName_DotEqual => 229
  | .LongName_NotEqual => 230
  | .LongName_Congruent => 231
  | .LongName_NotCongruent => 232
  | .LongName_LessEqual => 233
  | .LongName_GreaterEqual => 234
  | .LongName_LessFullEqual => 235
  | .LongName_GreaterFullEqual => 236
  | .LongName_NotLessFullEqual => 237
  | .LongName_NotGreaterFullEqual => 238
  | .LongName_LessLess => 239
  | .LongName_GreaterGreater => 240
  | .LongName_NotCupCap => 241
  | .LongName_NotLess => 242
  | .LongName_NotGreater => 243
  | .LongName_NotLessEqual => 244
  | .LongName_NotGreaterEqual => 245
  | .LongName_LessTilde => 246
  | .LongName_GreaterTilde => 247
  | .LongName_NotLessTilde => 248
  | .LongName_NotGreaterTilde => 249
  | .LongName_LessGreater => 250
  | .LongName_GreaterLess => 251
  | .LongName_NotLessGreater => 252
  | .LongName_NotGreaterLess => 253
  | .LongName_Precedes => 254
  | .LongName_Succeeds => 255
  | .LongName_PrecedesSlantEqual => 256
  | .LongName_SucceedsSlantEqual => 257
  | .LongName_PrecedesTilde => 258
  | .LongName_SucceedsTilde => 259
  | .LongName_NotPrecedes => 260
  | .LongName_NotSucceeds => 261
  | .LongName_Subset => 262
  | .LongName_Superset => 263
  | .LongName_NotSubset => 264
  | .LongName_NotSuperset => 265
  | .LongName_SubsetEqual => 266
  | .LongName_SupersetEqual => 267
  | .LongName_NotSubsetEqual => 268
  | .LongName_NotSupersetEqual => 269
  | .LongName_UnionPlus => 270
  | .LongName_SquareSubset => 271
  | .LongName_SquareSuperset => 272
  | .LongName_SquareSubsetEqual => 273
  | .LongName_SquareSupersetEqual => 274
  | .LongName_SquareIntersection => 275
  | .LongName_SquareUnion => 276
  | .LongName_CirclePlus => 277
  | .LongName_CircleMinus => 278
  | .LongName_CircleTimes => 279
  | .LongName_CircleDot => 280
  | .LongName_RightTee => 281
  | .LongName_LeftTee => 282
  | .LongName_DownTee => 283
  | .LongName_UpTee => 284
  | .LongName_DoubleRightTee => 285
  | .LongName_LeftTriangle => 286
  | .LongName_RightTriangle => 287
  | .LongName_LeftTriangleEqual => 288
  | .LongName_RightTriangleEqual => 289
  | .LongName_Xor => 290
  | .LongName_Nand => 291
  | .LongName_Nor => 292
  | .LongName_Wedge => 293
  | .LongName_Vee => 294
  | .LongName_Intersection => 295
  | .LongName_Union => 296
  | .LongName_Diamond => 297
  | .LongName_Star => 298
  | .LongName_LessEqualGreater => 299
  | .LongName_GreaterEqualLess => 300
  | .LongName_NotPrecedesSlantEqual => 301
  | .LongName_NotSucceedsSlantEqual => 302
  | .LongName_NotSquareSubsetEqual => 303
  | .LongName_NotSquareSupersetEqual => 304
  | .LongName_NotPrecedesTilde => 305
  | .LongName_NotSucceedsTilde => 306
  | .LongName_NotLeftTriangle => 307
  | .LongName_NotRightTriangle => 308
  | .LongName_NotLeftTriangleEqual => 309
  | .LongName_NotRightTriangleEqual => 310
  | .LongName_LeftCeiling => 311
  | .LongName_RightCeiling => 312
  | .LongName_LeftFloor => 313
  | .LongName_RightFloor => 314
  | .LongName_Cap => 315
  | .LongName_Cup => 316
  | .LongName_LeftAngleBracket => 317
  | .LongName_RightAngleBracket => 318
  | .LongName_Perpendicular => 319
  | .LongName_LongLeftArrow => 320
  | .LongName_LongRightArrow => 321
  | .LongName_LongLeftRightArrow => 322
  | .LongName_DoubleLongLeftArrow => 323
  | .LongName_DoubleLongRightArrow => 324
  | .LongName_DoubleLongLeftRightArrow => 325
  | .LongName_UpArrowBar => 326
  | .LongName_DownArrowBar => 327
  | .LongName_LeftRightVector => 328
  | .LongName_RightUpDownVector => 329
  | .LongName_DownLeftRightVector => 330
  | .LongName_LeftUpDownVector => 331
  | .LongName_LeftVectorBar => 332
  | .LongName_RightVectorBar => 333
  | .LongName_RightUpVectorBar => 334
  | .LongName_RightDownVectorBar => 335
  | .LongName_DownLeftVectorBar => 336
  | .LongName_DownRightVectorBar => 337
  | .LongName_LeftUpVectorBar => 338
  | .LongName_LeftDownVectorBar => 339
  | .LongName_LeftTeeVector => 340
  | .LongName_RightTeeVector => 341
  | .LongName_RightUpTeeVector => 342
  | .LongName_RightDownTeeVector => 343
  | .LongName_DownLeftTeeVector => 344
  | .LongName_DownRightTeeVector => 345
  | .LongName_LeftUpTeeVector => 346
  | .LongName_LeftDownTeeVector => 347
  | .LongName_UpEquilibrium => 348
  | .LongName_ReverseUpEquilibrium => 349
  | .LongName_RoundImplies => 350
  | .LongName_LeftTriangleBar => 351
  | .LongName_RightTriangleBar => 352
  | .LongName_Equivalent => 353
  | .LongName_LessSlantEqual => 354
  | .LongName_GreaterSlantEqual => 355
  | .LongName_NestedLessLess => 356
  | .LongName_NestedGreaterGreater => 357
  | .LongName_PrecedesEqual => 358
  | .LongName_SucceedsEqual => 359
  | .LongName_DoubleLeftTee => 360
  | .LongName_LeftDoubleBracket => 361
  | .LongName_RightDoubleBracket => 362
  | .LongName_LeftAssociation => 363
  | .LongName_RightAssociation => 364
  | .LongName_TwoWayRule => 365
  | .LongName_Piecewise => 366
  | .LongName_ImplicitPlus => 367
  | .LongName_AutoLeftMatch => 368
  | .LongName_AutoRightMatch => 369
  | .LongName_InvisiblePrefixScriptBase => 370
  | .LongName_InvisiblePostfixScriptBase => 371
  | .LongName_Transpose => 372
  | .LongName_Conjugate => 373
  | .LongName_ConjugateTranspose => 374
  | .LongName_HermitianConjugate => 375
  | .LongName_VerticalBar => 376
  | .LongName_NotVerticalBar => 377
  | .LongName_Distributed => 378
  | .LongName_Conditioned => 379
  | .LongName_UndirectedEdge => 380
  | .LongName_DirectedEdge => 381
  | .LongName_ContinuedFractionK => 382
  | .LongName_TensorProduct => 383
  | .LongName_TensorWedge => 384
  | .LongName_ProbabilityPr => 385
  | .LongName_ExpectationE => 386
  | .LongName_PermutationProduct => 387
  | .LongName_NotEqualTilde => 388
  | .LongName_NotHumpEqual => 389
  | .LongName_NotHumpDownHump => 390
  | .LongName_NotLeftTriangleBar => 391
  | .LongName_NotRightTriangleBar => 392
  | .LongName_NotLessLess => 393
  | .LongName_NotNestedLessLess => 394
  | .LongName_NotLessSlantEqual => 395
  | .LongName_NotGreaterGreater => 396
  | .LongName_NotNestedGreaterGreater => 397
  | .LongName_NotGreaterSlantEqual => 398
  | .LongName_NotPrecedesEqual => 399
  | .LongName_NotSucceedsEqual => 400
  | .LongName_NotSquareSubset => 401
  | .LongName_NotSquareSuperset => 402
  | .LongName_Equal => 403
  | .LongName_VerticalSeparator => 404
  | .LongName_VectorGreater => 405
  | .LongName_VectorGreaterEqual => 406
  | .LongName_VectorLess => 407
  | .LongName_VectorLessEqual => 408
  | .LongName_Limit => 409
  | .LongName_MaxLimit => 410
  | .LongName_MinLimit => 411
  | .LongName_Cross => 412
  | .LongName_Function => 413
  | .LongName_Xnor => 414
  | .LongName_DiscreteShift => 415
  | .LongName_DifferenceDelta => 416
  | .LongName_DiscreteRatio => 417
  | .LongName_RuleDelayed => 418
  | .LongName_Square => 419
  | .LongName_Rule => 420
  | .LongName_Implies => 421
  | .LongName_ShortRightArrow => 422
  | .LongName_ShortLeftArrow => 423
  | .LongName_ShortUpArrow => 424
  | .LongName_ShortDownArrow => 425
  | .LongName_Application => 426
  | .LongName_LeftBracketingBar => 427
  | .LongName_RightBracketingBar => 428
  | .LongName_LeftDoubleBracketingBar => 429
  | .LongName_RightDoubleBracketingBar => 430
  | .LongName_CapitalDifferentialD => 431
  | .LongName_DifferentialD => 432
  | .LongName_InvisibleComma => 433
  | .LongName_InvisibleApplication => 434
  | .LongName_LongEqual => 435

/-- `TokenKind::VARIANTS`, tokenize/token_kind.rs:273-275. -/
def all : List TK := [
  .Unknown, .EndOfFile, .Symbol, .String, .Integer, .Real, .Rational, .LinearSyntaxBlob,
  .InternalNewline, .Comment, .Whitespace, .Buffer1, .ToplevelNewline, .Buffer2, .Buffer3,
  .Buffer4, .Error_ExpectedEqual, .Error_Number, .Error_UnhandledCharacter,
  .Error_ExpectedLetterlike, .Error_Aborted, .Error_ExpectedOperand, .Error_ExpectedTag,
  .Error_ExpectedFile, .Error_UnexpectedCloser, .Error_PrefixImplicitNull,
  .Error_InfixImplicitNull, .Error_UnsafeCharacterEncoding, .Error_UnterminatedComment,
  .Error_UnterminatedString, .Error_UnterminatedFileString, .Error_UnterminatedLinearSyntaxBlob,
  .Error_UnsupportedToken, .Error_UnexpectedCommentCloser, .Dot, .Colon, .OpenParen, .CloseParen,
  .OpenSquare, .CloseSquare, .Comma, .OpenCurly, .CloseCurly, .Equal, .Bang, .Under, .Less,
  .Greater, .Minus, .Bar, .Semi, .Hash, .Amp, .Slash, .At, .Plus, .Tilde, .Star, .Caret,
  .SingleQuote, .Percent, .Question, .DotDot, .ColonColon, .ColonEqual, .ColonGreater, .EqualEqual,
  .UnderUnder, .UnderDot, .LessBar, .LessLess, .LessGreater, .LessEqual, .GreaterGreater,
  .GreaterEqual, .MinusGreater, .MinusMinus, .MinusEqual, .BarBar, .BarGreater, .SemiSemi, .AmpAmp,
  .SlashAt, .SlashSemi, .SlashDot, .SlashSlash, .SlashColon, .SlashEqual, .SlashStar, .AtAt,
  .AtStar, .PlusPlus, .PlusEqual, .TildeTilde, .StarEqual, .StarStar, .CaretEqual, .HashHash,
  .BangEqual, .BangBang, .QuestionQuestion, .DotDotDot, .EqualEqualEqual, .EqualBangEqual,
  .UnderUnderUnder, .SlashSlashDot, .AtAtAt, .LessMinusGreater, .SlashSlashAt, .CaretColonEqual,
  .GreaterGreaterGreater, .BarMinusGreater, .SlashSlashEqual, .ColonColonOpenSquare,
  .PercentPercent, .LinearSyntax_Bang, .LinearSyntax_CloseParen, .LinearSyntax_At,
  .LinearSyntax_Amp, .LinearSyntax_Star, .LinearSyntax_Under, .LinearSyntax_Caret,
  .LinearSyntax_Space, .LinearSyntax_Percent, .LinearSyntax_Plus, .LinearSyntax_Slash,
  .LinearSyntax_BackTick, .Fake_ImplicitTimes, .Fake_ImplicitNull, .Fake_ImplicitOne,
  .Fake_ImplicitAll, .Boxes_OpenParenStar, .Boxes_StarCloseParen, .Boxes_MultiSingleQuote,
  .Boxes_MultiWhitespace, .LongName_Not, .LongName_PlusMinus, .LongName_CenterDot, .LongName_Times,
  .LongName_Divide, .LongName_OpenCurlyQuote, .LongName_CloseCurlyQuote,
  .LongName_OpenCurlyDoubleQuote, .LongName_CloseCurlyDoubleQuote, .LongName_InvisibleTimes,
  .LongName_LeftArrow, .LongName_UpArrow, .LongName_RightArrow, .LongName_DownArrow,
  .LongName_LeftRightArrow, .LongName_UpDownArrow, .LongName_UpperLeftArrow,
  .LongName_UpperRightArrow, .LongName_LowerRightArrow, .LongName_LowerLeftArrow,
  .LongName_LeftTeeArrow, .LongName_UpTeeArrow, .LongName_RightTeeArrow, .LongName_DownTeeArrow,
  .LongName_LeftVector, .LongName_DownLeftVector, .LongName_RightUpVector, .LongName_LeftUpVector,
  .LongName_RightVector, .LongName_DownRightVector, .LongName_RightDownVector,
  .LongName_LeftDownVector, .LongName_RightArrowLeftArrow, .LongName_UpArrowDownArrow,
  .LongName_LeftArrowRightArrow, .LongName_ReverseEquilibrium, .LongName_Equilibrium,
  .LongName_DoubleLeftArrow, .LongName_DoubleUpArrow, .LongName_DoubleRightArrow,
  .LongName_DoubleDownArrow, .LongName_DoubleLeftRightArrow, .LongName_DoubleUpDownArrow,
  .LongName_LeftArrowBar, .LongName_RightArrowBar, .LongName_DownArrowUpArrow, .LongName_ForAll,
  .LongName_PartialD, .LongName_Exists, .LongName_NotExists, .LongName_Del, .LongName_Element,
  .LongName_NotElement, .LongName_ReverseElement, .LongName_NotReverseElement, .LongName_SuchThat,
  .LongName_Product, .LongName_Coproduct, .LongName_Sum, .LongName_Minus, .LongName_MinusPlus,
  .LongName_DivisionSlash, .LongName_Backslash, .LongName_SmallCircle, .LongName_Sqrt,
  .LongName_CubeRoot, .LongName_Proportional, .LongName_Divides, .LongName_DoubleVerticalBar,
  .LongName_NotDoubleVerticalBar, .LongName_And, .LongName_Or, .LongName_Integral,
  .LongName_ContourIntegral, .LongName_DoubleContourIntegral, .LongName_ClockwiseContourIntegral,
  .LongName_CounterClockwiseContourIntegral, .LongName_Therefore, .LongName_Because,
  .LongName_Colon, .LongName_Proportion, .LongName_Tilde, .LongName_VerticalTilde,
  .LongName_NotTilde, .LongName_EqualTilde, .LongName_TildeEqual, .LongName_NotTildeEqual,
  .LongName_TildeFullEqual, .LongName_NotTildeFullEqual, .LongName_TildeTilde,
  .LongName_NotTildeTilde, .LongName_CupCap, .LongName_HumpDownHump, .LongName_HumpEqual,
  .LongName_DotEqual, .LongName_NotEqual, .LongName_Congruent, .LongName_NotCongruent,
  .LongName_LessEqual, .LongName_GreaterEqual, .LongName_LessFullEqual, .LongName_GreaterFullEqual,
  .LongName_NotLessFullEqual, .LongName_NotGreaterFullEqual, .LongName_LessLess,
  .LongName_GreaterGreater, .LongName_NotCupCap, .LongName_NotLess, .LongName_NotGreater,
  .LongName_NotLessEqual, .LongName_NotGreaterEqual, .LongName_LessTilde, .LongName_GreaterTilde,
  .LongName_NotLessTilde, .LongName_NotGreaterTilde, .LongName_LessGreater, .LongName_GreaterLess,
  .LongName_NotLessGreater, .LongName_NotGreaterLess, .LongName_Precedes, .LongName_Succeeds,
  .LongName_PrecedesSlantEqual, .LongName_SucceedsSlantEqual, .LongName_PrecedesTilde,
  .LongName_SucceedsTilde, .LongName_NotPrecedes, .LongName_NotSucceeds, .LongName_Subset,
  .LongName_Superset, .LongName_NotSubset, .LongName_NotSuperset, .LongName_SubsetEqual,
  .LongName_SupersetEqual, .LongName_NotSubsetEqual, .LongName_NotSupersetEqual,
  .LongName_UnionPlus, .LongName_SquareSubset, .LongName_SquareSuperset,
  .LongName_SquareSubsetEqual, .LongName_SquareSupersetEqual, .LongName_SquareIntersection,
  .LongName_SquareUnion, .LongName_CirclePlus, .LongName_CircleMinus, .LongName_CircleTimes,
  .LongName_CircleDot, .LongName_RightTee, .LongName_LeftTee, .LongName_DownTee, .LongName_UpTee,
  .LongName_DoubleRightTee, .LongName_LeftTriangle, .LongName_RightTriangle,
  .LongName_LeftTriangleEqual, .LongName_RightTriangleEqual, .LongName_Xor, .LongName_Nand,
  .LongName_Nor, .LongName_Wedge, .LongName_Vee, .LongName_Intersection, .LongName_Union,
  .LongName_Diamond, .LongName_Star, .LongName_LessEqualGreater, .LongName_GreaterEqualLess,
  .LongName_NotPrecedesSlantEqual, .LongName_NotSucceedsSlantEqual, .LongName_NotSquareSubsetEqual,
  .LongName_NotSquareSupersetEqual, .LongName_NotPrecedesTilde, .LongName_NotSucceedsTilde,
  .LongName_NotLeftTriangle, .LongName_NotRightTriangle, .LongName_NotLeftTriangleEqual,
  .LongName_NotRightTriangleEqual, .LongName_LeftCeiling, .LongName_RightCeiling,
  .LongName_LeftFloor, .LongName_RightFloor, .LongName_Cap, .LongName_Cup,
  .LongName_LeftAngleBracket, .LongName_RightAngleBracket, .LongName_Perpendicular,
  .LongName_LongLeftArrow, .LongName_LongRightArrow, .LongName_LongLeftRightArrow,
  .LongName_DoubleLongLeftArrow, .LongName_DoubleLongRightArrow,
  .LongName_DoubleLongLeftRightArrow, .LongName_UpArrowBar, .LongName_DownArrowBar,
  .LongName_LeftRightVector, .LongName_RightUpDownVector, .LongName_DownLeftRightVector,
  .LongName_LeftUpDownVector, .LongName_LeftVectorBar, .LongName_RightVectorBar,
  .LongName_RightUpVectorBar, .LongName_RightDownVectorBar, .LongName_DownLeftVectorBar,
  .LongName_DownRightVectorBar, .LongName_LeftUpVectorBar, .LongName_LeftDownVectorBar,
  .LongName_LeftTeeVector, .LongName_RightTeeVector, .LongName_RightUpTeeVector,
  .LongName_RightDownTeeVector, .LongName_DownLeftTeeVector, .LongName_DownRightTeeVector,
  .LongName_LeftUpTeeVector, .LongName_LeftDownTeeVector, .LongName_UpEquilibrium,
  .LongName_ReverseUpEquilibrium, .LongName_RoundImplies, .LongName_LeftTriangleBar,
  .LongName_RightTriangleBar, .LongName_Equivalent, .LongName_LessSlantEqual,
  .LongName_GreaterSlantEqual, .LongName_NestedLessLess, .LongName_NestedGreaterGreater,
  .LongName_PrecedesEqual, .LongName_SucceedsEqual, .LongName_DoubleLeftTee,
  .LongName_LeftDoubleBracket, .LongName_RightDoubleBracket, .LongName_LeftAssociation,
  .LongName_RightAssociation, .LongName_TwoWayRule, .LongName_Piecewise, .LongName_ImplicitPlus,
  .LongName_AutoLeftMatch, .LongName_AutoRightMatch, .LongName_InvisiblePrefixScriptBase,
  .LongName_InvisiblePostfixScriptBase, .LongName_Transpose, .LongName_Conjugate,
  .LongName_ConjugateTranspose, .LongName_HermitianConjugate, .LongName_VerticalBar,
  .LongName_NotVerticalBar, .LongName_Distributed, .LongName_Conditioned, .LongName_UndirectedEdge,
  .LongName_DirectedEdge, .LongName_ContinuedFractionK, .LongName_TensorProduct,
  .LongName_TensorWedge, .LongName_ProbabilityPr, .LongName_ExpectationE,
  .LongName_PermutationProduct, .LongName_NotEqualTilde, .LongName_NotHumpEqual,
  .LongName_NotHumpDownHump, .LongName_NotLeftTriangleBar, .LongName_NotRightTriangleBar,
  .LongName_NotLessLess, .LongName_NotNestedLessLess, .LongName_NotLessSlantEqual,
  .LongName_NotGreaterGreater, .LongName_NotNestedGreaterGreater, .LongName_NotGreaterSlantEqual,
  .LongName_NotPrecedesEqual, .LongName_NotSucceedsEqual, .LongName_NotSquareSubset,
  .LongName_NotSquareSuperset, .LongName_Equal, .LongName_VerticalSeparator,
  .LongName_VectorGreater, .LongName_VectorGreaterEqual, .LongName_VectorLess,
  .LongName_VectorLessEqual, .LongName_Limit, .LongName_MaxLimit, .LongName_MinLimit,
  .LongName_Cross, .LongName_Function, .LongName_Xnor, .LongName_DiscreteShift,
  .LongName_DifferenceDelta, .LongName_DiscreteRatio, .LongName_RuleDelayed, .LongName_Square,
  .LongName_Rule, .LongName_Implies, .LongName_ShortRightArrow, .LongName_ShortLeftArrow,
  .LongName_ShortUpArrow, .LongName_ShortDownArrow, .LongName_Application,
  .LongName_LeftBracketingBar, .LongName_RightBracketingBar, .LongName_LeftDoubleBracketingBar,
  .LongName_RightDoubleBracketingBar, .LongName_CapitalDifferentialD, .LongName_DifferentialD,
  .LongName_InvisibleComma, .LongName_InvisibleApplication, .LongName_LongEqual]

/-- `Debug` name of a kind (the identifiers in token_kind.rs:337-868). -/
def name : TK → _root_.List Char
  | .Unknown => ['U', 'n', 'k', 'n', 'o', 'w', 'n']
  | .EndOfFile => ['E', 'n', 'd', 'O', 'f', 'F', 'i', 'l', 'e']
  | .Symbol => ['S', 'y', 'm', 'b', 'o', 'l']
  | .String => ['S', 't', 'r', 'i', 'n', 'g']
  | .Integer => ['I', 'n', 't', 'e', 'g', 'e', 'r']
  | .Real => ['R', 'e', 'a', 'l']
  | .Rational => ['R', 'a', 't', 'i', 'o', 'n', 'a', 'l']
  | .LinearSyntaxBlob => ['L', 'i', 'n', 'e', 'a', 'r', 'S', 'y', 'n', 't', 'a', 'x', 'B', 'l', 'o', 'b']
  | .InternalNewline => ['I', 'n', 't', 'e', 'r', 'n', 'a', 'l', 'N', 'e', 'w', 'l', 'i', 'n', 'e']
  | .Comment => ['C', 'o', 'm', 'm', 'e', 'n', 't']
  | .Whitespace => ['W', 'h', 'i', 't', 'e', 's', 'p', 'a', 'c', 'e']
  | .Buffer1 => ['B', 'u', 'f', 'f', 'e', 'r', '1']
  | .ToplevelNewline => ['T', 'o', 'p', 'l', 'e', 'v', 'e', 'l', 'N', 'e', 'w', 'l', 'i', 'n', 'e']
  | .Buffer2 => ['B', 'u', 'f', 'f', 'e', 'r', '2']
  | .Buffer3 => ['B', 'u', 'f', 'f', 'e', 'r', '3']
  | .Buffer4 => ['B', 'u', 'f', 'f', 'e', 'r', '4']
  | .Error_ExpectedEqual => ['E', 'r', 'r', 'o', 'r', '_', 'E', 'x', 'p', 'e', 'c', 't', 'e', 'd', 'E', 'q', 'u', 'a', 'l']
  | .Error_Number => ['E', 'r', 'r', 'o', 'r', '_', 'N', 'u', 'm', 'b', 'e', 'r']
  | .Error_UnhandledCharacter => ['E', 'r', 'r', 'o', 'r', '_', 'U', 'n', 'h', 'a', 'n', 'd', 'l', 'e', 'd', 'C', 'h', 'a', 'r', 'a', 'c', 't', 'e', 'r']
  | .Error_ExpectedLetterlike => ['E', 'r', 'r', 'o', 'r', '_', 'E', 'x', 'p', 'e', 'c', 't', 'e', 'd', 'L', 'e', 't', 't', 'e', 'r', 'l', 'i', 'k', 'e']
  | .Error_Aborted => ['E', 'r', 'r', 'o', 'r', '_', 'A', 'b', 'o', 'r', 't', 'e', 'd']
  | .Error_ExpectedOperand => ['E', 'r', 'r', 'o', 'r', '_', 'E', 'x', 'p', 'e', 'c', 't', 'e', 'd', 'O', 'p', 'e', 'r', 'a', 'n', 'd']
  | .Error_ExpectedTag => ['E', 'r', 'r', 'o', 'r', '_', 'E', 'x', 'p', 'e', 'c', 't', 'e', 'd', 'T', 'a', 'g']
  | .Error_ExpectedFile => ['E', 'r', 'r', 'o', 'r', '_', 'E', 'x', 'p', 'e', 'c', 't', 'e', 'd', 'F', 'i', 'l', 'e']
  | .Error_UnexpectedCloser => ['E', 'r', 'r', 'o', 'r', '_', 'U', 'n', 'e', 'x', 'p', 'e', 'c', 't', 'e', 'd', 'C', 'l', 'o', 's', 'e', 'r']
  | .Error_PrefixImplicitNull => ['E', 'r', 'r', 'o', 'r', '_', 'P', 'r', 'e', 'f', 'i', 'x', 'I', 'm', 'p', 'l', 'i', 'c', 'i', 't', 'N', 'u', 'l', 'l']
  | .Error_InfixImplicitNull => ['E', 'r', 'r', 'o', 'r', '_', 'I', 'n', 'f', 'i', 'x', 'I', 'm', 'p', 'l', 'i', 'c', 'i', 't', 'N', 'u', 'l', 'l']
  | .Error_UnsafeCharacterEncoding => ['E', 'r', 'r', 'o', 'r', '_', 'U', 'n', 's', 'a', 'f', 'e', 'C', 'h', 'a', 'r', 'a', 'c', 't', 'e', 'r', 'E', 'n', 'c', 'o', 'd', 'i', 'n', 'g']
  | .Error_UnterminatedComment => ['E', 'r', 'r', 'o', 'r', '_', 'U', 'n', 't', 'e', 'r', 'm', 'i', 'n', 'a', 't', 'e', 'd', 'C', 'o', 'm', 'm', 'e', 'n', 't']
  | .Error_UnterminatedString => ['E', 'r', 'r', 'o', 'r', '_', 'U', 'n', 't', 'e', 'r', 'm', 'i', 'n', 'a', 't', 'e', 'd', 'S', 't', 'r', 'i', 'n', 'g']
  | .Error_UnterminatedFileString => ['E', 'r', 'r', 'o', 'r', '_', 'U', 'n', 't', 'e', 'r', 'm', 'i', 'n', 'a', 't', 'e', 'd', 'F', 'i', 'l', 'e', 'S', 't', 'r', 'i', 'n', 'g']
  | .Error_UnterminatedLinearSyntaxBlob => ['E', 'r', 'r', 'o', 'r', '_', 'U', 'n', 't', 'e', 'r', 'm', 'i', 'n', 'a', 't', 'e', 'd', 'L', 'i', 'n', 'e', 'a', 'r', 'S', 'y', 'n', 't', 'a', 'x', 'B', 'l', 'o', 'b']
  | .Error_UnsupportedToken => ['E', 'r', 'r', 'o', 'r', '_', 'U', 'n', 's', 'u', 'p', 'p', 'o', 'r', 't', 'e', 'd', 'T', 'o', 'k', 'e', 'n']
  | .Error_UnexpectedCommentCloser => ['E', 'r', 'r', 'o', 'r', '_', 'U', 'n', 'e', 'x', 'p', 'e', 'c', 't', 'e', 'd', 'C', 'o', 'm', 'm', 'e', 'n', 't', 'C', 'l', 'o', 's', 'e', 'r']
  | .Dot => ['D', 'o', 't']
  | .Colon => ['C', 'o', 'l', 'o', 'n']
  | .OpenParen => ['O', 'p', 'e', 'n', 'P', 'a', 'r', 'e', 'n']
  | .CloseParen => ['C', 'l', 'o', 's', 'e', 'P', 'a', 'r', 'e', 'n']
  | .OpenSquare => ['O', 'p', 'e', 'n', 'S', 'q', 'u', 'a', 'r', 'e']
  | .CloseSquare => ['C', 'l', 'o', 's', 'e', 'S', 'q', 'u', 'a', 'r', 'e']
  | .Comma => ['C', 'o', 'm', 'm', 'a']
  | .OpenCurly => ['O', 'p', 'e', 'n', 'C', 'u', 'r', 'l', 'y']
  | .CloseCurly => ['C', 'l', 'o', 's', 'e', 'C', 'u', 'r', 'l', 'y']
  | .Equal => ['E', 'q', 'u', 'a', 'l']
  | .Bang => ['B', 'a', 'n', 'g']
  | .Under => ['U', 'n', 'd', 'e', 'r']
  | .Less => ['L', 'e', 's', 's']
  | .Greater => ['G', 'r', 'e', 'a', 't', 'e', 'r']
  | .Minus => ['M', 'i', 'n', 'u', 's']
  | .Bar => ['B', 'a', 'r']
  | .Semi => ['S', 'e', 'm', 'i']
  | .Hash => ['H', 'a', 's', 'h']
  | .Amp => ['A', 'm', 'p']
  | .Slash => ['S', 'l', 'a', 's', 'h']
  | .At => ['A', 't']
  | .Plus => ['P', 'l', 'u', 's']
  | .Tilde => ['T', 'i', 'l', 'd', 'e']
  | .Star => ['S', 't', 'a', 'r']
  | .Caret => ['C', 'a', 'r', 'e', 't']
  | .SingleQuote => ['S', 'i', 'n', 'g', 'l', 'e', 'Q', 'u', 'o', 't', 'e']
  | .Percent => ['P', 'e', 'r', 'c', 'e', 'n', 't']
  | .Question => ['Q', 'u', 'e', 's', 't', 'i', 'o', 'n']
  | .DotDot => ['D', 'o', 't', 'D', 'o', 't']
  | .ColonColon => ['C', 'o', 'l', 'o', 'n', 'C', 'o', 'l', 'o', 'n']
  | .ColonEqual => ['C', 'o', 'l', 'o', 'n', 'E', 'q', 'u', 'a', 'l']
  | .ColonGreater => ['C', 'o', 'l', 'o', 'n', 'G', 'r', 'e', 'a', 't', 'e', 'r']
  | .EqualEqual => ['E', 'q', 'u', 'a', 'l', 'E', 'q', 'u', 'a', 'l']
  | .UnderUnder => ['U', 'n', 'd', 'e', 'r', 'U', 'n', 'd', 'e', 'r']
  | .UnderDot => ['U', 'n', 'd', 'e', 'r', 'D', 'o', 't']
  | .LessBar => ['L', 'e', 's', 's', 'B', 'a', 'r']
  | .LessLess => ['L', 'e', 's', 's', 'L', 'e', 's', 's']
  | .LessGreater => ['L', 'e', 's', 's', 'G', 'r', 'e', 'a', 't', 'e', 'r']
  | .LessEqual => ['L', 'e', 's', 's', 'E', 'q', 'u', 'a', 'l']
  | .GreaterGreater => ['G', 'r', 'e', 'a', 't', 'e', 'r', 'G', 'r', 'e', 'a', 't', 'e', 'r']
  | .GreaterEqual => ['G', 'r', 'e', 'a', 't', 'e', 'r', 'E', 'q', 'u', 'a', 'l']
  | .MinusGreater => ['M', 'i', 'n', 'u', 's', 'G', 'r', 'e', 'a', 't', 'e', 'r']
  | .MinusMinus => ['M', 'i', 'n', 'u', 's', 'M', 'i', 'n', 'u', 's']
  | .MinusEqual => ['M', 'i', 'n', 'u', 's', 'E', 'q', 'u', 'a', 'l']
  | .BarBar => ['B', 'a', 'r', 'B', 'a', 'r']
  | .BarGreater => ['B', 'a', 'r', 'G', 'r', 'e', 'a', 't', 'e', 'r']
  | .SemiSemi => ['S', 'e', 'm', 'i', 'S', 'e', 'm', 'i']
  | .AmpAmp => ['A', 'm', 'p', 'A', 'm', 'p']
  | .SlashAt => ['S', 'l', 'a', 's', 'h', 'A', 't']
  | .SlashSemi => ['S', 'l', 'a', 's', 'h', 'S', 'e', 'm', 'i']
  | .SlashDot => ['S', 'l', 'a', 's', 'h', 'D', 'o', 't']
  | .SlashSlash => ['S', 'l', 'a', 's', 'h', 'S', 'l', 'a', 's', 'h']
  | .SlashColon => ['S', 'l', 'a', 's', 'h', 'C', 'o', 'l', 'o', 'n']
  | .SlashEqual => ['S', 'l', 'a', 's', 'h', 'E', 'q', 'u', 'a', 'l']
  | .SlashStar => ['S', 'l', 'a', 's', 'h', 'S', 't', 'a', 'r']
  | .AtAt => ['A', 't', 'A', 't']
  | .AtStar => ['A', 't', 'S', 't', 'a', 'r']
  | .PlusPlus => ['P', 'l', 'u', 's', 'P', 'l', 'u', 's']
  | .PlusEqual => ['P', 'l', 'u', 's', 'E', 'q', 'u', 'a', 'l']
  | .TildeTilde => ['T', 'i', 'l', 'd', 'e', 'T', 'i', 'l', 'd', 'e']
  | .StarEqual => ['S', 't', 'a', 'r', 'E', 'q', 'u', 'a', 'l']
  | .StarStar => ['S', 't', 'a', 'r', 'S', 't', 'a', 'r']
  | .CaretEqual => ['C', 'a', 'r', 'e', 't', 'E', 'q', 'u', 'a', 'l']
  | .HashHash => ['H', 'a', 's', 'h', 'H', 'a', 's', 'h']
  | .BangEqual => ['B', 'a', 'n', 'g', 'E', 'q', 'u', 'a', 'l']
  | .BangBang => ['B', 'a', 'n', 'g', 'B', 'a', 'n', 'g']
  | .QuestionQuestion => ['Q', 'u', 'e', 's', 't', 'i', 'o', 'n', 'Q', 'u', 'e', 's', 't', 'i', 'o', 'n']
  | .DotDotDot => ['D', 'o', 't', 'D', 'o', 't', 'D', 'o', 't']
  | .EqualEqualEqual => ['E', 'q', 'u', 'a', 'l', 'E', 'q', 'u', 'a', 'l', 'E', 'q', 'u', 'a', 'l']
  | .EqualBangEqual => ['E', 'q', 'u', 'a', 'l', 'B', 'a', 'n', 'g', 'E', 'q', 'u', 'a', 'l']
  | .UnderUnderUnder => ['U', 'n', 'd', 'e', 'r', 'U', 'n', 'd', 'e', 'r', 'U', 'n', 'd', 'e', 'r']
  | .SlashSlashDot => ['S', 'l', 'a', 's', 'h', 'S', 'l', 'a', 's', 'h', 'D', 'o', 't']
  | .AtAtAt => ['A', 't', 'A', 't', 'A', 't']
  | .LessMinusGreater => ['L', 'e', 's', 's', 'M', 'i', 'n', 'u', 's', 'G', 'r', 'e', 'a', 't', 'e', 'r']
  | .SlashSlashAt => ['S', 'l', 'a', 's', 'h', 'S', 'l', 'a', 's', 'h', 'A', 't']
  | .CaretColonEqual => ['C', 'a', 'r', 'e', 't', 'C', 'o', 'l', 'o', 'n', 'E', 'q', 'u', 'a', 'l']
  | .GreaterGreaterGreater => ['G', 'r', 'e', 'a', 't', 'e', 'r', 'G', 'r', 'e', 'a', 't', 'e', 'r', 'G', 'r', 'e', 'a', 't', 'e', 'r']
  | .BarMinusGreater => ['B', 'a', 'r', 'M', 'i', 'n', 'u', 's', 'G', 'r', 'e', 'a', 't', 'e', 'r']
  | .SlashSlashEqual => ['S', 'l', 'a', 's', 'h', 'S', 'l', 'a', 's', 'h', 'E', 'q', 'u', 'a', 'l']
  | .ColonColonOpenSquare => ['C', 'o', 'l', 'o', 'n', 'C', 'o', 'l', 'o', 'n', 'O', 'p', 'e', 'n', 'S', 'q', 'u', 'a', 'r', 'e']
  | .PercentPercent => ['P', 'e', 'r', 'c', 'e', 'n', 't', 'P', 'e', 'r', 'c', 'e', 'n', 't']
  | .LinearSyntax_Bang => ['L', 'i', 'n', 'e', 'a', 'r', 'S', 'y', 'n', 't', 'a', 'x', '_', 'B', 'a', 'n', 'g']
  | .LinearSyntax_CloseParen => ['L', 'i', 'n', 'e', 'a', 'r', 'S', 'y', 'n', 't', 'a', 'x', '_', 'C', 'l', 'o', 's', 'e', 'P', 'a', 'r', 'e', 'n']
  | .LinearSyntax_At => ['L', 'i', 'n', 'e', 'a', 'r', 'S', 'y', 'n', 't', 'a', 'x', '_', 'A', 't']
  | .LinearSyntax_Amp => ['L', 'i', 'n', 'e', 'a', 'r', 'S', 'y', 'n', 't', 'a', 'x', '_', 'A', 'm', 'p']
  | .LinearSyntax_Star => ['L', 'i', 'n', 'e', 'a', 'r', 'S', 'y', 'n', 't', 'a', 'x', '_', 'S', 't', 'a', 'r']
  | .LinearSyntax_Under => ['L', 'i', 'n', 'e', 'a', 'r', 'S', 'y', 'n', 't', 'a', 'x', '_', 'U', 'n', 'd', 'e', 'r']
  | .LinearSyntax_Caret => ['L', 'i', 'n', 'e', 'a', 'r', 'S', 'y', 'n', 't', 'a', 'x', '_', 'C', 'a', 'r', 'e', 't']
  | .LinearSyntax_Space => ['L', 'i', 'n', 'e', 'a', 'r', 'S', 'y', 'n', 't', 'a', 'x', '_', 'S', 'p', 'a', 'c', 'e']
  | .LinearSyntax_Percent => ['L', 'i', 'n', 'e', 'a', 'r', 'S', 'y', 'n', 't', 'a', 'x', '_', 'P', 'e', 'r', 'c', 'e', 'n', 't']
  | .LinearSyntax_Plus => ['L', 'i', 'n', 'e', 'a', 'r', 'S', 'y', 'n', 't', 'a', 'x', '_', 'P', 'l', 'u', 's']
  | .LinearSyntax_Slash => ['L', 'i', 'n', 'e', 'a', 'r', 'S', 'y', 'n', 't', 'a', 'x', '_', 'S', 'l', 'a', 's', 'h']
  | .LinearSyntax_BackTick => ['L', 'i', 'n', 'e', 'a', 'r', 'S', 'y', 'n', 't', 'a', 'x', '_', 'B', 'a', 'c', 'k', 'T', 'i', 'c', 'k']
  | .Fake_ImplicitTimes => ['F', 'a', 'k', 'e', '_', 'I', 'm', 'p', 'l', 'i', 'c', 'i', 't', 'T', 'i', 'm', 'e', 's']
  | .Fake_ImplicitNull => ['F', 'a', 'k', 'e', '_', 'I', 'm', 'p', 'l', 'i', 'c', 'i', 't', 'N', 'u', 'l', 'l']
  | .Fake_ImplicitOne => ['F', 'a', 'k', 'e', '_', 'I', 'm', 'p', 'l', 'i', 'c', 'i', 't', 'O', 'n', 'e']
  | .Fake_ImplicitAll => ['F', 'a', 'k', 'e', '_', 'I', 'm', 'p', 'l', 'i', 'c', 'i', 't', 'A', 'l', 'l']
  | .Boxes_OpenParenStar => ['B', 'o', 'x', 'e', 's', '_', 'O', 'p', 'e', 'n', 'P', 'a', 'r', 'e', 'n', 'S', 't', 'a', 'r']
  | .Boxes_StarCloseParen => ['B', 'o', 'x', 'e', 's', '_', 'S', 't', 'a', 'r', 'C', 'l', 'o', 's', 'e', 'P', 'a', 'r', 'e', 'n']
  | .Boxes_MultiSingleQuote => ['B', 'o', 'x', 'e', 's', '_', 'M', 'u', 'l', 't', 'i', 'S', 'i', 'n', 'g', 'l', 'e', 'Q', 'u', 'o', 't', 'e']
  | .Boxes_MultiWhitespace => ['B', 'o', 'x', 'e', 's', '_', 'M', 'u', 'l', 't', 'i', 'W', 'h', 'i', 't', 'e', 's', 'p', 'a', 'c', 'e']
  | .LongName_Not => ['L', 'o', 'n', 'g', 'N', 'a', 'm', 'e', '_', 'N', 'o', 't']
  | .LongName_PlusMinus => ['L', 'o', 'n', 'g', 'N', 'a', 'm', 'e', '_', 'P', 'l', 'u', 's', 'M', 'i', 'n', 'u', 's']
  | .LongName_CenterDot => ['L', 'o', 'n', 'g', 'N', 'a', 'm', 'e', '_', 'C', 'e', 'n', 't', 'e', 'r', 'D', 'o', 't']
  | .LongName_Times => ['L', 'o', 'n', 'g', 'N', 'a', 'm', 'e', '_', 'T', 'i', 'm', 'e', 's']
  | .LongName_Divide => ['L', 'o', 'n', 'g', 'N', 'a', 'm', 'e', '_', 'D', 'i', 'v', 'i', 'd', 'e']
  | .LongName_OpenCurlyQuote => ['L', 'o', 'n', 'g', 'N', 'a', 'm', 'e', '_', 'O', 'p', 'e', 'n', 'C', 'u', 'r', 'l', 'y', 'Q', 'u', 'o', 't', 'e']
  | .LongName_CloseCurlyQuote => ['L', 'o', 'n', 'g', 'N', 'a', 'm', 'e', '_', 'C', 'l', 'o', 's', 'e', 'C', 'u', 'r', 'l', 'y', 'Q', 'u', 'o', 't', 'e']
  | .LongName_OpenCurlyDoubleQuote => ['L', 'o', 'n', 'g', 'N', 'a', 'm', 'e', '_', 'O', 'p', 'e', 'n', 'C', 'u', 'r', 'l', 'y', 'D', 'o', 'u', 'b', 'l', 'e', 'Q', 'u', 'o', 't', 'e']
  | .LongName_CloseCurlyDoubleQuote => ['L', 'o', 'n', 'g', 'N', 'a', 'm', 'e', '_', 'C', 'l', 'o', 's', 'e', 'C', 'u', 'r', 'l', 'y', 'D', 'o', 'u', 'b', 'l', 'e', 'Q', 'u', 'o', 't', 'e']
  | .LongName_InvisibleTimes => ['L', 'o', 'n', 'g', 'N', 'a', 'm', 'e', '_', 'I', 'n', 'v', 'i', 's', 'i', 'b', 'l', 'e', 'T', 'i', 'm', 'e', 's']
  | .LongName_LeftArrow => ['L', 'o', 'n', 'g', 'N', 'a', 'm', 'e', '_', 'L', 'e', 'f', 't', 'A', 'r', 'r', 'o', 'w']
  | .LongName_UpArrow => ['L', 'o', 'n', 'g', 'N', 'a', 'm', 'e', '_', 'U', 'p', 'A', 'r', 'r', 'o', 'w']
  | .LongName_RightArrow => ['L', 'o', 'n', 'g', 'N', 'a', 'm', 'e', '_', 'R', 'i', 'g', 'h', 't', 'A', 'r', 'r', 'o', 'w']
  | .LongName_DownArrow => ['L', 'o', 'n', 'g', 'N', 'a', 'm', 'e', '_', 'D', 'o', 'w', 'n', 'A', 'r', 'r', 'o', 'w']
  | .LongName_LeftRightArrow => ['L', 'o', 'n', 'g', 'N', 'a', 'm', 'e', '_', 'L', 'e', 'f', 't', 'R', 'i', 'g', 'h', 't', 'A', 'r', 'r', 'o', 'w']
  | .LongName_UpDownArrow => ['L', 'o', 'n', 'g', 'N', 'a', 'm', 'e', '_', 'U', 'p', 'D', 'o', 'w', 'n', 'A', 'r', 'r', 'o', 'w']
  | .LongName_UpperLeftArrow => ['L', 'o', 'n', 'g', 'N', 'a', 'm', 'e', '_', 'U', 'p', 'p', 'e', 'r', 'L', 'e', 'f', 't', 'A', 'r', 'r', 'o', 'w']
  | .LongName_UpperRightArrow => ['L', 'o', 'n', 'g', 'N', 'a', 'm', 'e', '_', 'U', 'p', 'p', 'e', 'r', 'R', 'i', 'g', 'h', 't', 'A', 'r', 'r', 'o', 'w']
  | .LongName_LowerRightArrow => ['L', 'o', 'n', 'g', 'N', 'a', 'm', 'e', '_', 'L', 'o', 'w', 'e', 'r', 'R', 'i', 'g', 'h', 't', 'A', 'r', 'r', 'o', 'w']
  | .LongName_LowerLeftArrow => ['L', 'o', 'n', 'g', 'N', 'a', 'm', 'e', '_', 'L', 'o', 'w', 'e', 'r', 'L', 'e', 'f', 't', 'A', 'r', 'r', 'o', 'w']
  | .LongName_LeftTeeArrow => ['L', 'o', 'n', 'g', 'N', 'a', 'm', 'e', '_', 'L', 'e', 'f', 't', 'T', 'e', 'e', 'A', 'r', 'r', 'o', 'w']
  | .LongName_UpTeeArrow => ['L', 'o', 'n', 'g', 'N', 'a', 'm', 'e', '_', 'U', 'p', 'T', 'e', 'e', 'A', 'r', 'r', 'o', 'w']
  | .LongName_RightTeeArrow => ['L', 'o', 'n', 'g', 'N', 'a', 'm', 'e', '_', 'R', 'i', 'g', 'h', 't', 'T', 'e', 'e', 'A', 'r', 'r', 'o', 'w']
  | .LongName_DownTeeArrow => ['L', 'o', 'n', 'g', 'N', 'a', 'm', 'e', '_', 'D', 'o', 'w', 'n', 'T', 'e', 'e', 'A', 'r', 'r', 'o', 'w']
  | .LongName_LeftVector => ['L', 'o', 'n', 'g', 'N', 'a', 'm', 'e', '_', 'L', 'e', 'f', 't', 'V', 'e', 'c', 't', 'o', 'r']
  | .LongName_DownLeftVector => ['L', 'o', 'n', 'g', 'N', 'a', 'm', 'e', '_', 'D', 'o', 'w', 'n', 'L', 'e', 'f', 't', 'V', 'e', 'c', 't', 'o', 'r']
  | .LongName_RightUpVector => ['L', 'o', 'n', 'g', 'N', 'a', 'm', 'e', '_', 'R', 'i', 'g', 'h', 't', 'U', 'p', 'V', 'e', 'c', 't', 'o', 'r']
  | .LongName_LeftUpVector => ['L', 'o', 'n', 'g', 'N', 'a', 'm', 'e', '_', 'L', 'e', 'f', 't', 'U', 'p', 'V', 'e', 'c', 't', 'o', 'r']
  | .LongName_RightVector => ['L', 'o', 'n', 'g', 'N', 'a', 'm', 'e', '_', 'R', 'i', 'g', 'h', 't', 'V', 'e', 'c', 't', 'o', 'r']
  | .LongName_DownRightVector => ['L', 'o', 'n', 'g', 'N', 'a', 'm', 'e', '_', 'D', 'o', 'w', 'n', 'R', 'i', 'g', 'h', 't', 'V', 'e', 'c', 't', 'o', 'r']
  | .LongName_RightDownVector => ['L', 'o', 'n', 'g', 'N', 'a', 'm', 'e', '_', 'R', 'i', 'g', 'h', 't', 'D', 'o', 'w', 'n', 'V', 'e', 'c', 't', 'o', 'r']
  | .LongName_LeftDownVector => ['L', 'o', 'n', 'g', 'N', 'a', 'm', 'e', '_', 'L', 'e', 'f', 't', 'D', 'o', 'w', 'n', 'V', 'e', 'c', 't', 'o', 'r']
  | .LongName_RightArrowLeftArrow => ['L', 'o', 'n', 'g', 'N', 'a', 'm', 'e', '_', 'R', 'i', 'g', 'h', 't', 'A', 'r', 'r', 'o', 'w', 'L', 'e', 'f', 't', 'A', 'r', 'r', 'o', 'w']
  | .LongName_UpArrowDownArrow => ['L', 'o', 'n', 'g', 'N', 'a', 'm', 'e', '_', 'U', 'p', 'A', 'r', 'r', 'o', 'w', 'D', 'o', 'w', 'n', 'A', 'r', 'r', 'o', 'w']
  | .LongName_LeftArrowRightArrow => ['L', 'o', 'n', 'g', 'N', 'a', 'm', 'e', '_', 'L', 'e', 'f', 't', 'A', 'r', 'r', 'o', 'w', 'R', 'i', 'g', 'h', 't', 'A', 'r', 'r', 'o', 'w']
  | .LongName_ReverseEquilibrium => ['L', 'o', 'n', 'g', 'N', 'a', 'm', 'e', '_', 'R', 'e', 'v', 'e', 'r', 's', 'e', 'E', 'q', 'u', 'i', 'l', 'i', 'b', 'r', 'i', 'u', 'm']
  | .LongName_Equilibrium => ['L', 'o', 'n', 'g', 'N', 'a', 'm', 'e', '_', 'E', 'q', 'u', 'i', 'l', 'i', 'b', 'r', 'i', 'u', 'm']
  | .LongName_DoubleLeftArrow => ['L', 'o', 'n', 'g', 'N', 'a', 'm', 'e', '_', 'D', 'o', 'u', 'b', 'l', 'e', 'L', 'e', 'f', 't', 'A', 'r', 'r', 'o', 'w']
  | .LongName_DoubleUpArrow => ['L', 'o', 'n', 'g', 'N', 'a', 'm', 'e', '_', 'D', 'o', 'u', 'b', 'l', 'e', 'U', 'p', 'A', 'r', 'r', 'o', 'w']
  | .LongName_DoubleRightArrow => ['L', 'o', 'n', 'g', 'N', 'a', 'm', 'e', '_', 'D', 'o', 'u', 'b', 'l', 'e', 'R', 'i', 'g', 'h', 't', 'A', 'r', 'r', 'o', 'w']
  | .LongName_DoubleDownArrow => ['L', 'o', 'n', 'g', 'N', 'a', 'm', 'e', '_', 'D', 'o', 'u', 'b', 'l', 'e', 'D', 'o', 'w', 'n', 'A', 'r', 'r', 'o', 'w']
  | .LongName_DoubleLeftRightArrow => ['L', 'o', 'n', 'g', 'N', 'a', 'm', 'e', '_', 'D', 'o', 'u', 'b', 'l', 'e', 'L', 'e', 'f', 't', 'R', 'i', 'g', 'h', 't', 'A', 'r', 'r', 'o', 'w']
  | .LongName_DoubleUpDownArrow => ['L', 'o', 'n', 'g', 'N', 'a', 'm', 'e', '_', 'D', 'o', 'u', 'b', 'l', 'e', 'U', 'p', 'D', 'o', 'w', 'n', 'A', 'r', 'r', 'o', 'w']
  | .LongName_LeftArrowBar => ['L', 'o', 'n', 'g', 'N', 'a', 'm', 'e', '_', 'L', 'e', 'f', 't', 'A', 'r', 'r', 'o', 'w', 'B', 'a', 'r']
  | .LongName_RightArrowBar => ['L', 'o', 'n', 'g', 'N', 'a', 'm', 'e', '_', 'R', 'i', 'g', 'h', 't', 'A', 'r', 'r', 'o', 'w', 'B', 'a', 'r']
  | .LongName_DownArrowUpArrow => ['L', 'o', 'n', 'g', 'N', 'a', 'm', 'e', '_', 'D', 'o', 'w', 'n', 'A', 'r', 'r', 'o', 'w', 'U', 'p', 'A', 'r', 'r', 'o', 'w']
  | .LongName_ForAll => ['L', 'o', 'n', 'g', 'N', 'a', 'm', 'e', '_', 'F', 'o', 'r', 'A', 'l', 'l']
  | .LongName_PartialD => ['L', 'o', 'n', 'g', 'N', 'a', 'm', 'e', '_', 'P', 'a', 'r', 't', 'i', 'a', 'l', 'D']
  | .LongName_Exists => ['L', 'o', 'n', 'g', 'N', 'a', 'm', 'e', '_', 'E', 'x', 'i', 's', 't', 's']
  | .LongName_NotExists => ['L', 'o', 'n', 'g', 'N', 'a', 'm', 'e', '_', 'N', 'o', 't', 'E', 'x', 'i', 's', 't', 's']
  | .LongName_Del => ['L', 'o', 'n', 'g', 'N', 'a', 'm', 'e', '_', 'D', 'e', 'l']
  | .LongName_Element => ['L', 'o', 'n', 'g', 'N', 'a', 'm', 'e', '_', 'E', 'l', 'e', 'm', 'e', 'n', 't']
  | .LongName_NotElement => ['L', 'o', 'n', 'g', 'N', 'a', 'm', 'e', '_', 'N', 'o', 't', 'E', 'l', 'e', 'm', 'e', 'n', 't']
  | .LongName_ReverseElement => ['L', 'o', 'n', 'g', 'N', 'a', 'm', 'e', '_', 'R', 'e', 'v', 'e', 'r', 's', 'e', 'E', 'l', 'e', 'm', 'e', 'n', 't']
  | .LongName_NotReverseElement => ['L', 'o', 'n', 'g', 'N', 'a', 'm', 'e', '_', 'N', 'o', 't', 'R', 'e', 'v', 'e', 'r', 's', 'e', 'E', 'l', 'e', 'm', 'e', 'n', 't']
  | .LongName_SuchThat => ['L', 'o', 'n', 'g', 'N', 'a', 'm', 'e', '_', 'S', 'u', 'c', 'h', 'T', 'h', 'a', 't']
  | .LongName_Product => ['L', 'o', 'n', 'g', 'N', 'a', 'm', 'e', '_', 'P', 'r', 'o', 'd', 'u', 'c', 't']
  | .LongName_Coproduct => ['L', 'o', 'n', 'g', 'N', 'a', 'm', 'e', '_', 'C', 'o', 'p', 'r', 'o', 'd', 'u', 'c', 't']
  | .LongName_Sum => ['L', 'o', 'n', 'g', 'N', 'a', 'm', 'e', '_', 'S', 'u', 'm']
  | .LongName_Minus => ['L', 'o', 'n', 'g', 'N', 'a', 'm', 'e', '_', 'M', 'i', 'n', 'u', 's']
  | .LongName_MinusPlus => ['L', 'o', 'n', 'g', 'N', 'a', 'm', 'e', '_', 'M', 'i', 'n', 'u', 's', 'P', 'l', 'u', 's']
  | .LongName_DivisionSlash => ['L', 'o', 'n', 'g', 'N', 'a', 'm', 'e', '_', 'D', 'i', 'v', 'i', 's', 'i', 'o', 'n', 'S', 'l', 'a', 's', 'h']
  | .LongName_Backslash => ['L', 'o', 'n', 'g', 'N', 'a', 'm', 'e', '_', 'B', 'a', 'c', 'k', 's', 'l', 'a', 's', 'h']
  | .LongName_SmallCircle => ['L', 'o', 'n', 'g', 'N', 'a', 'm', 'e', '_', 'S', 'm', 'a', 'l', 'l', 'C', 'i', 'r', 'c', 'l', 'e']
  | .LongName_Sqrt => ['L', 'o', 'n', 'g', 'N', 'a', 'm', 'e', '_', 'S', 'q', 'r', 't']
  | .LongName_CubeRoot => ['L', 'o', 'n', 'g', 'N', 'a', 'm', 'e', '_', 'C', 'u', 'b', 'e', 'R', 'o', 'o', 't']
  | .LongName_Proportional => ['L', 'o', 'n', 'g', 'N', 'a', 'm', 'e', '_', 'P', 'r', 'o', 'p', 'o', 'r', 't', 'i', 'o', 'n', 'a', 'l']
  | .LongName_Divides => ['L', 'o', 'n', 'g', 'N', 'a', 'm', 'e', '_', 'D', 'i', 'v', 'i', 'd', 'e', 's']
  | .LongName_DoubleVerticalBar => ['L', 'o', 'n', 'g', 'N', 'a', 'm', 'e', '_', 'D', 'o', 'u', 'b', 'l', 'e', 'V', 'e', 'r', 't', 'i', 'c', 'a', 'l', 'B', 'a', 'r']
  | .LongName_NotDoubleVerticalBar => ['L', 'o', 'n', 'g', 'N', 'a', 'm', 'e', '_', 'N', 'o', 't', 'D', 'o', 'u', 'b', 'l', 'e', 'V', 'e', 'r', 't', 'i', 'c', 'a', 'l', 'B', 'a', 'r']
  | .LongName_And => ['L', 'o', 'n', 'g', 'N', 'a', 'm', 'e', '_', 'A', 'n', 'd']
  | .LongName_Or => ['L', 'o', 'n', 'g', 'N', 'a', 'm', 'e', '_', 'O', 'r']
  | .LongName_Integral => ['L', 'o', 'n', 'g', 'N', 'a', 'm', 'e', '_', 'I', 'n', 't', 'e', 'g', 'r', 'a', 'l']
  | .LongName_ContourIntegral => ['L', 'o', 'n', 'g', 'N', 'a', 'm', 'e', '_', 'C', 'o', 'n', 't', 'o', 'u', 'r', 'I', 'n', 't', 'e', 'g', 'r', 'a', 'l']
  | .LongName_DoubleContourIntegral => ['L', 'o', 'n', 'g', 'N', 'a', 'm', 'e', '_', 'D', 'o', 'u', 'b', 'l', 'e', 'C', 'o', 'n', 't', 'o', 'u', 'r', 'I', 'n', 't', 'e', 'g', 'r', 'a', 'l']
  | .LongName_ClockwiseContourIntegral => ['L', 'o', 'n', 'g', 'N', 'a', 'm', 'e', '_', 'C', 'l', 'o', 'c', 'k', 'w', 'i', 's', 'e', 'C', 'o', 'n', 't', 'o', 'u', 'r', 'I', 'n', 't', 'e', 'g', 'r', 'a', 'l']
  | .LongName_CounterClockwiseContourIntegral => ['L', 'o', 'n', 'g', 'N', 'a', 'm', 'e', '_', 'C', 'o', 'u', 'n', 't', 'e', 'r', 'C', 'l', 'o', 'c', 'k', 'w', 'i', 's', 'e', 'C', 'o', 'n', 't', 'o', 'u', 'r', 'I', 'n', 't', 'e', 'g', 'r', 'a', 'l']
  | .LongName_Therefore => ['L', 'o', 'n', 'g', 'N', 'a', 'm', 'e', '_', 'T', 'h', 'e', 'r', 'e', 'f', 'o', 'r', 'e']
  | .LongName_Because => ['L', 'o', 'n', 'g', 'N', 'a', 'm', 'e', '_', 'B', 'e', 'c', 'a', 'u', 's', 'e']
  | .LongName_Colon => ['L', 'o', 'n', 'g', 'N', 'a', 'm', 'e', '_', 'C', 'o', 'l', 'o', 'n']
  | .LongName_Proportion => ['L', 'o', 'n', 'g', 'N', 'a', 'm', 'e', '_', 'P', 'r', 'o', 'p', 'o', 'r', 't', 'i', 'o', 'n']
  | .LongName_Tilde => ['L', 'o', 'n', 'g', 'N', 'a', 'm', 'e', '_', 'T', 'i', 'l', 'd', 'e']
  | .LongName_VerticalTilde => ['L', 'o', 'n', 'g', 'N', 'a', 'm', 'e', '_', 'V', 'e', 'r', 't', 'i', 'c', 'a', 'l', 'T', 'i', 'l', 'd', 'e']
  | .LongName_NotTilde => ['L', 'o', 'n', 'g', 'N', 'a', 'm', 'e', '_', 'N', 'o', 't', 'T', 'i', 'l', 'd', 'e']
  | .LongName_EqualTilde => ['L', 'o', 'n', 'g', 'N', 'a', 'm', 'e', '_', 'E', 'q', 'u', 'a', 'l', 'T', 'i', 'l', 'd', 'e']
  | .LongName_TildeEqual => ['L', 'o', 'n', 'g', 'N', 'a', 'm', 'e', '_', 'T', 'i', 'l', 'd', 'e', 'E', 'q', 'u', 'a', 'l']
  | .LongName_NotTildeEqual => ['L', 'o', 'n', 'g', 'N', 'a', 'm', 'e', '_', 'N', 'o', 't', 'T', 'i', 'l', 'd', 'e', 'E', 'q', 'u', 'a', 'l']
  | .LongName_TildeFullEqual => ['L', 'o', 'n', 'g', 'N', 'a', 'm', 'e', '_', 'T', 'i', 'l', 'd', 'e', 'F', 'u', 'l', 'l', 'E', 'q', 'u', 'a', 'l']
  | .LongName_NotTildeFullEqual => ['L', 'o', 'n', 'g', 'N', 'a', 'm', 'e', '_', 'N', 'o', 't', 'T', 'i', 'l', 'd', 'e', 'F', 'u', 'l', 'l', 'E', 'q', 'u', 'a', 'l']
  | .LongName_TildeTilde => ['L', 'o', 'n', 'g', 'N', 'a', 'm', 'e', '_', 'T', 'i', 'l', 'd', 'e', 'T', 'i', 'l', 'd', 'e']
  | .LongName_NotTildeTilde => ['L', 'o', 'n', 'g', 'N', 'a', 'm', 'e', '_', 'N', 'o', 't', 'T', 'i', 'l', 'd', 'e', 'T', 'i', 'l', 'd', 'e']
  | .LongName_CupCap => ['L', 'o', 'n', 'g', 'N', 'a', 'm', 'e', '_', 'C', 'u', 'p', 'C', 'a', 'p']
  | .LongName_HumpDownHump => ['L', 'o', 'n', 'g', 'N', 'a', 'm', 'e', '_', 'H', 'u', 'm', 'p', 'D', 'o', 'w', 'n', 'H', 'u', 'm', 'p']
  | .LongName_HumpEqual => ['L', 'o', 'n', 'g', 'N', 'a', 'm', 'e', '_', 'H', 'u', 'm', 'p', 'E', 'q', 'u', 'a', 'l']
  | .LongName_DotEqual => ['L', 'o', 'n', 'g', 'N', 'a', 'm', 'e', '_', 'D', 'o', 't', 'E', 'q', 'u', 'a', 'l']
  | .LongName_NotEqual => ['L', 'o', 'n', 'g', 'N', 'a', 'm', 'e', '_', 'N', 'o', 't', 'E', 'q', 'u', 'a', 'l']
  | .LongName_Congruent => ['L', 'o', 'n', 'g', 'N', 'a', 'm', 'e', '_', 'C', 'o', 'n', 'g', 'r', 'u', 'e', 'n', 't']
  | .LongName_NotCongruent => ['L', 'o', 'n', 'g', 'N', 'a', 'm', 'e', '_', 'N', 'o', 't', 'C', 'o', 'n', 'g', 'r', 'u', 'e', 'n', 't']
  | .LongName_LessEqual => ['L', 'o', 'n', 'g', 'N', 'a', 'm', 'e', '_', 'L', 'e', 's', 's', 'E', 'q', 'u', 'a', 'l']
  | .LongName_GreaterEqual => ['L', 'o', 'n', 'g', 'N', 'a', 'm', 'e', '_', 'G', 'r', 'e', 'a', 't', 'e', 'r', 'E', 'q', 'u', 'a', 'l']
  | .LongName_LessFullEqual => ['L', 'o', 'n', 'g', 'N', 'a', 'm', 'e', '_', 'L', 'e', 's', 's', 'F', 'u', 'l', 'l', 'E', 'q', 'u', 'a', 'l']
  | .LongName_GreaterFullEqual => ['L', 'o', 'n', 'g', 'N', 'a', 'm', 'e', '_', 'G', 'r', 'e', 'a', 't', 'e', 'r', 'F', 'u', 'l', 'l', 'E', 'q', 'u', 'a', 'l']
  | .LongName_NotLessFullEqual => ['L', 'o', 'n', 'g', 'N', 'a', 'm', 'e', '_', 'N', 'o', 't', 'L', 'e', 's', 's', 'F', 'u', 'l', 'l', 'E', 'q', 'u', 'a', 'l']
  | .LongName_NotGreaterFullEqual => ['L', 'o', 'n', 'g', 'N', 'a', 'm', 'e', '_', 'N', 'o', 't', 'G', 'r', 'e', 'a', 't', 'e', 'r', 'F', 'u', 'l', 'l', 'E', 'q', 'u', 'a', 'l']
  | .LongName_LessLess => ['L', 'o', 'n', 'g', 'N', 'a', 'm', 'e', '_', 'L', 'e', 's', 's', 'L', 'e', 's', 's']
  | .LongName_GreaterGreater => ['L', 'o', 'n', 'g', 'N', 'a', 'm', 'e', '_', 'G', 'r', 'e', 'a', 't', 'e', 'r', 'G', 'r', 'e', 'a', 't', 'e', 'r']
  | .LongName_NotCupCap => ['L', 'o', 'n', 'g', 'N', 'a', 'm', 'e', '_', 'N', 'o', 't', 'C', 'u', 'p', 'C', 'a', 'p']
  | .LongName_NotLess => ['L', 'o', 'n', 'g', 'N', 'a', 'm', 'e', '_', 'N', 'o', 't', 'L', 'e', 's', 's']
  | .LongName_NotGreater => ['L', 'o', 'n', 'g', 'N', 'a', 'm', 'e', '_', 'N', 'o', 't', 'G', 'r', 'e', 'a', 't', 'e', 'r']
  | .LongName_NotLessEqual => ['L', 'o', 'n', 'g', 'N', 'a', 'm', 'e', '_', 'N', 'o', 't', 'L', 'e', 's', 's', 'E', 'q', 'u', 'a', 'l']
  | .LongName_NotGreaterEqual => ['L', 'o', 'n', 'g', 'N', 'a', 'm', 'e', '_', 'N', 'o', 't', 'G', 'r', 'e', 'a', 't', 'e', 'r', 'E', 'q', 'u', 'a', 'l']
  | .LongName_LessTilde => ['L', 'o', 'n', 'g', 'N', 'a', 'm', 'e', '_', 'L', 'e', 's', 's', 'T', 'i', 'l', 'd', 'e']
  | .LongName_GreaterTilde => ['L', 'o', 'n', 'g', 'N', 'a', 'm', 'e', '_', 'G', 'r', 'e', 'a', 't', 'e', 'r', 'T', 'i', 'l', 'd', 'e']
  | .LongName_NotLessTilde => ['L', 'o', 'n', 'g', 'N', 'a', 'm', 'e', '_', 'N', 'o', 't', 'L', 'e', 's', 's', 'T', 'i', 'l', 'd', 'e']
  | .LongName_NotGreaterTilde => ['L', 'o', 'n', 'g', 'N', 'a', 'm', 'e', '_', 'N', 'o', 't', 'G', 'r', 'e', 'a', 't', 'e', 'r', 'T', 'i', 'l', 'd', 'e']
  | .LongName_LessGreater => ['L', 'o', 'n', 'g', 'N', 'a', 'm', 'e', '_', 'L', 'e', 's', 's', 'G', 'r', 'e', 'a', 't', 'e', 'r']
  | .LongName_GreaterLess => ['L', 'o', 'n', 'g', 'N', 'a', 'm', 'e', '_', 'G', 'r', 'e', 'a', 't', 'e', 'r', 'L', 'e', 's', 's']
  | .LongName_NotLessGreater => ['L', 'o', 'n', 'g', 'N', 'a', 'm', 'e', '_', 'N', 'o', 't', 'L', 'e', 's', 's', 'G', 'r', 'e', 'a', 't', 'e', 'r']
  | .LongName_NotGreaterLess => ['L', 'o', 'n', 'g', 'N', 'a', 'm', 'e', '_', 'N', 'o', 't', 'G', 'r', 'e', 'a', 't', 'e', 'r', 'L', 'e', 's', 's']
  | .LongName_Precedes => ['L', 'o', 'n', 'g', 'N', 'a', 'm', 'e', '_', 'P', 'r', 'e', 'c', 'e', 'd', 'e', 's']
  | .LongName_Succeeds => ['L', 'o', 'n', 'g', 'N', 'a', 'm', 'e', '_', 'S', 'u', 'c', 'c', 'e', 'e', 'd', 's']
  | .LongName_PrecedesSlantEqual => ['L', 'o', 'n', 'g', 'N', 'a', 'm', 'e', '_', 'P', 'r', 'e', 'c', 'e', 'd', 'e', 's', 'S', 'l', 'a', 'n', 't', 'E', 'q', 'u', 'a', 'l']
  | .LongName_SucceedsSlantEqual => ['L', 'o', 'n', 'g', 'N', 'a', 'm', 'e', '_', 'S', 'u', 'c', 'c', 'e', 'e', 'd', 's', 'S', 'l', 'a', 'n', 't', 'E', 'q', 'u', 'a', 'l']
  | .LongName_PrecedesTilde => ['L', 'o', 'n', 'g', 'N', 'a', 'm', 'e', '_', 'P', 'r', 'e', 'c', 'e', 'd', 'e', 's', 'T', 'i', 'l', 'd', 'e']
  | .LongName_SucceedsTilde => ['L', 'o', 'n', 'g', 'N', 'a', 'm', 'e', '_', 'S', 'u', 'c', 'c', 'e', 'e', 'd', 's', 'T', 'i', 'l', 'd', 'e']
  | .LongName_NotPrecedes => ['L', 'o', 'n', 'g', 'N', 'a', 'm', 'e', '_', 'N', 'o', 't', 'P', 'r', 'e', 'c', 'e', 'd', 'e', 's']
  | .LongName_NotSucceeds => ['L', 'o', 'n', 'g', 'N', 'a', 'm', 'e', '_', 'N', 'o', 't', 'S', 'u', 'c', 'c', 'e', 'e', 'd', 's']
  | .LongName_Subset => ['L', 'o', 'n', 'g', 'N', 'a', 'm', 'e', '_', 'S', 'u', 'b', 's', 'e', 't']
  | .LongName_Superset => ['L', 'o', 'n', 'g', 'N', 'a', 'm', 'e', '_', 'S', 'u', 'p', 'e', 'r', 's', 'e', 't']
  | .LongName_NotSubset => ['L', 'o', 'n', 'g', 'N', 'a', 'm', 'e', '_', 'N', 'o', 't', 'S', 'u', 'b', 's', 'e', 't']
  | .LongName_NotSuperset => ['L', 'o', 'n', 'g', 'N', 'a', 'm', 'e', '_', 'N', 'o', 't', 'S', 'u', 'p', 'e', 'r', 's', 'e', 't']
  | .LongName_SubsetEqual => ['L', 'o', 'n', 'g', 'N', 'a', 'm', 'e', '_', 'S', 'u', 'b', 's', 'e', 't', 'E', 'q', 'u', 'a', 'l']
  | .LongName_SupersetEqual => ['L', 'o', 'n', 'g', 'N', 'a', 'm', 'e', '_', 'S', 'u', 'p', 'e', 'r', 's', 'e', 't', 'E', 'q', 'u', 'a', 'l']
  | .LongName_NotSubsetEqual => ['L', 'o', 'n', 'g', 'N', 'a', 'm', 'e', '_', 'N', 'o', 't', 'S', 'u', 'b', 's', 'e', 't', 'E', 'q', 'u', 'a', 'l']
  | .LongName_NotSupersetEqual => ['L', 'o', 'n', 'g', 'N', 'a', 'm', 'e', '_', 'N', 'o', 't', 'S', 'u', 'p', 'e', 'r', 's', 'e', 't', 'E', 'q', 'u', 'a', 'l']
  | .LongName_UnionPlus => ['L', 'o', 'n', 'g', 'N', 'a', 'm', 'e', '_', 'U', 'n', 'i', 'o', 'n', 'P', 'l', 'u', 's']
  | .LongName_SquareSubset => ['L', 'o', 'n', 'g', 'N', 'a', 'm', 'e', '_', 'S', 'q', 'u', 'a', 'r', 'e', 'S', 'u', 'b', 's', 'e', 't']
  | .LongName_SquareSuperset => ['L', 'o', 'n', 'g', 'N', 'a', 'm', 'e', '_', 'S', 'q', 'u', 'a', 'r', 'e', 'S', 'u', 'p', 'e', 'r', 's', 'e', 't']
  | .LongName_SquareSubsetEqual => ['L', 'o', 'n', 'g', 'N', 'a', 'm', 'e', '_', 'S', 'q', 'u', 'a', 'r', 'e', 'S', 'u', 'b', 's', 'e', 't', 'E', 'q', 'u', 'a', 'l']
  | .LongName_SquareSupersetEqual => ['L', 'o', 'n', 'g', 'N', 'a', 'm', 'e', '_', 'S', 'q', 'u', 'a', 'r', 'e', 'S', 'u', 'p', 'e', 'r', 's', 'e', 't', 'E', 'q', 'u', 'a', 'l']
  | .LongName_SquareIntersection => ['L', 'o', 'n', 'g', 'N', 'a', 'm', 'e', '_', 'S', 'q', 'u', 'a', 'r', 'e', 'I', 'n', 't', 'e', 'r', 's', 'e', 'c', 't', 'i', 'o', 'n']
  | .LongName_SquareUnion => ['L', 'o', 'n', 'g', 'N', 'a', 'm', 'e', '_', 'S', 'q', 'u', 'a', 'r', 'e', 'U', 'n', 'i', 'o', 'n']
  | .LongName_CirclePlus => ['L', 'o', 'n', 'g', 'N', 'a', 'm', 'e', '_', 'C', 'i', 'r', 'c', 'l', 'e', 'P', 'l', 'u', 's']
  | .LongName_CircleMinus => ['L', 'o', 'n', 'g', 'N', 'a', 'm', 'e', '_', 'C', 'i', 'r', 'c', 'l', 'e', 'M', 'i', 'n', 'u', 's']
  | .LongName_CircleTimes => ['L', 'o', 'n', 'g', 'N', 'a', 'm', 'e', '_', 'C', 'i', 'r', 'c', 'l', 'e', 'T', 'i', 'm', 'e', 's']
  | .LongName_CircleDot => ['L', 'o', 'n', 'g', 'N', 'a', 'm', 'e', '_', 'C', 'i', 'r', 'c', 'l', 'e', 'D', 'o', 't']
  | .LongName_RightTee => ['L', 'o', 'n', 'g', 'N', 'a', 'm', 'e', '_', 'R', 'i', 'g', 'h', 't', 'T', 'e', 'e']
  | .LongName_LeftTee => ['L', 'o', 'n', 'g', 'N', 'a', 'm', 'e', '_', 'L', 'e', 'f', 't', 'T', 'e', 'e']
  | .LongName_DownTee => ['L', 'o', 'n', 'g', 'N', 'a', 'm', 'e', '_', 'D', 'o', 'w', 'n', 'T', 'e', 'e']
  | .LongName_UpTee => ['L', 'o', 'n', 'g', 'N', 'a', 'm', 'e', '_', 'U', 'p', 'T', 'e', 'e']
  | .LongName_DoubleRightTee => ['L', 'o', 'n', 'g', 'N', 'a', 'm', 'e', '_', 'D', 'o', 'u', 'b', 'l', 'e', 'R', 'i', 'g', 'h', 't', 'T', 'e', 'e']
  | .LongName_LeftTriangle => ['L', 'o', 'n', 'g', 'N', 'a', 'm', 'e', '_', 'L', 'e', 'f', 't', 'T', 'r', 'i', 'a', 'n', 'g', 'l', 'e']
  | .LongName_RightTriangle => ['L', 'o', 'n', 'g', 'N', 'a', 'm', 'e', '_', 'R', 'i', 'g', 'h', 't', 'T', 'r', 'i', 'a', 'n', 'g', 'l', 'e']
  | .LongName_LeftTriangleEqual => ['L', 'o', 'n', 'g', 'N', 'a', 'm', 'e', '_', 'L', 'e', 'f', 't', 'T', 'r', 'i', 'a', 'n', 'g', 'l', 'e', 'E', 'q', 'u', 'a', 'l']
  | .LongName_RightTriangleEqual => ['L', 'o', 'n', 'g', 'N', 'a', 'm', 'e', '_', 'R', 'i', 'g', 'h', 't', 'T', 'r', 'i', 'a', 'n', 'g', 'l', 'e', 'E', 'q', 'u', 'a', 'l']
  | .LongName_Xor => ['L', 'o', 'n', 'g', 'N', 'a', 'm', 'e', '_', 'X', 'o', 'r']
  | .LongName_Nand => ['L', 'o', 'n', 'g', 'N', 'a', 'm', 'e', '_', 'N', 'a', 'n', 'd']
  | .LongName_Nor => ['L', 'o', 'n', 'g', 'N', 'a', 'm', 'e', '_', 'N', 'o', 'r']
  | .LongName_Wedge => ['L', 'o', 'n', 'g', 'N', 'a', 'm', 'e', '_', 'W', 'e', 'd', 'g', 'e']
  | .LongName_Vee => ['L', 'o', 'n', 'g', 'N', 'a', 'm', 'e', '_', 'V', 'e', 'e']
  | .LongName_Intersection => ['L', 'o', 'n', 'g', 'N', 'a', 'm', 'e', '_', 'I', 'n', 't', 'e', 'r', 's', 'e', 'c', 't', 'i', 'o', 'n']
  | .LongName_Union => ['L', 'o', 'n', 'g', 'N', 'a', 'm', 'e', '_', 'U', 'n', 'i', 'o', 'n']
  | .LongName_Diamond => ['L', 'o', 'n', 'g', 'N', 'a', 'm', 'e', '_', 'D', 'i', 'a', 'm', 'o', 'n', 'd']
  | .LongName_Star => ['L', 'o', 'n', 'g', 'N', 'a', 'm', 'e', '_', 'S', 't', 'a', 'r']
  | .LongName_LessEqualGreater => ['L', 'o', 'n', 'g', 'N', 'a', 'm', 'e', '_', 'L', 'e', 's', 's', 'E', 'q', 'u', 'a', 'l', 'G', 'r', 'e', 'a', 't', 'e', 'r']
  | .LongName_GreaterEqualLess => ['L', 'o', 'n', 'g', 'N', 'a', 'm', 'e', '_', 'G', 'r', 'e', 'a', 't', 'e', 'r', 'E', 'q', 'u', 'a', 'l', 'L', 'e', 's', 's']
  | .LongName_NotPrecedesSlantEqual => ['L', 'o', 'n', 'g', 'N', 'a', 'm', 'e', '_', 'N', 'o', 't', 'P', 'r', 'e', 'c', 'e', 'd', 'e', 's', 'S', 'l', 'a', 'n', 't', 'E', 'q', 'u', 'a', 'l']
  | .LongName_NotSucceedsSlantEqual => ['L', 'o', 'n', 'g', 'N', 'a', 'm', 'e', '_', 'N', 'o', 't', 'S', 'u', 'c', 'c', 'e', 'e', 'd', 's', 'S', 'l', 'a', 'n', 't', 'E', 'q', 'u', 'a', 'l']
  | .LongName_NotSquareSubsetEqual => ['L', 'o', 'n', 'g', 'N', 'a', 'm', 'e', '_', 'N', 'o', 't', 'S', 'q', 'u', 'a', 'r', 'e', 'S', 'u', 'b', 's', 'e', 't', 'E', 'q', 'u', 'a', 'l']
  | .LongName_NotSquareSupersetEqual => ['L', 'o', 'n', 'g', 'N', 'a', 'm', 'e', '_', 'N', 'o', 't', 'S', 'q', 'u', 'a', 'r', 'e', 'S', 'u', 'p', 'e', 'r', 's', 'e', 't', 'E', 'q', 'u', 'a', 'l']
  | .LongName_NotPrecedesTilde => ['L', 'o', 'n', 'g', 'N', 'a', 'm', 'e', '_', 'N', 'o', 't', 'P', 'r', 'e', 'c', 'e', 'd', 'e', 's', 'T', 'i', 'l', 'd', 'e']
  | .LongName_NotSucceedsTilde => ['L', 'o', 'n', 'g', 'N', 'a', 'm', 'e', '_', 'N', 'o', 't', 'S', 'u', 'c', 'c', 'e', 'e', 'd', 's', 'T', 'i', 'l', 'd', 'e']
  | .LongName_NotLeftTriangle => ['L', 'o', 'n', 'g', 'N', 'a', 'm', 'e', '_', 'N', 'o', 't', 'L', 'e', 'f', 't', 'T', 'r', 'i', 'a', 'n', 'g', 'l', 'e']
  | .LongName_NotRightTriangle => ['L', 'o', 'n', 'g', 'N', 'a', 'm', 'e', '_', 'N', 'o', 't', 'R', 'i', 'g', 'h', 't', 'T', 'r', 'i', 'a', 'n', 'g', 'l', 'e']
  | .LongName_NotLeftTriangleEqual => ['L', 'o', 'n', 'g', 'N', 'a', 'm', 'e', '_', 'N', 'o', 't', 'L', 'e', 'f', 't', 'T', 'r', 'i', 'a', 'n', 'g', 'l', 'e', 'E', 'q', 'u', 'a', 'l']
  | .LongName_NotRightTriangleEqual => ['L', 'o', 'n', 'g', 'N', 'a', 'm', 'e', '_', 'N', 'o', 't', 'R', 'i', 'g', 'h', 't', 'T', 'r', 'i', 'a', 'n', 'g', 'l', 'e', 'E', 'q', 'u', 'a', 'l']
  | .LongName_LeftCeiling => ['L', 'o', 'n', 'g', 'N', 'a', 'm', 'e', '_', 'L', 'e', 'f', 't', 'C', 'e', 'i', 'l', 'i', 'n', 'g']
  | .LongName_RightCeiling => ['L', 'o', 'n', 'g', 'N', 'a', 'm', 'e', '_', 'R', 'i', 'g', 'h', 't', 'C', 'e', 'i', 'l', 'i', 'n', 'g']
  | .LongName_LeftFloor => ['L', 'o', 'n', 'g', 'N', 'a', 'm', 'e', '_', 'L', 'e', 'f', 't', 'F', 'l', 'o', 'o', 'r']
  | .LongName_RightFloor => ['L', 'o', 'n', 'g', 'N', 'a', 'm', 'e', '_', 'R', 'i', 'g', 'h', 't', 'F', 'l', 'o', 'o', 'r']
  | .LongName_Cap => ['L', 'o', 'n', 'g', 'N', 'a', 'm', 'e', '_', 'C', 'a', 'p']
  | .LongName_Cup => ['L', 'o', 'n', 'g', 'N', 'a', 'm', 'e', '_', 'C', 'u', 'p']
  | .LongName_LeftAngleBracket => ['L', 'o', 'n', 'g', 'N', 'a', 'm', 'e', '_', 'L', 'e', 'f', 't', 'A', 'n', 'g', 'l', 'e', 'B', 'r', 'a', 'c', 'k', 'e', 't']
  | .LongName_RightAngleBracket => ['L', 'o', 'n', 'g', 'N', 'a', 'm', 'e', '_', 'R', 'i', 'g', 'h', 't', 'A', 'n', 'g', 'l', 'e', 'B', 'r', 'a', 'c', 'k', 'e', 't']
  | .LongName_Perpendicular => ['L', 'o', 'n', 'g', 'N', 'a', 'm', 'e', '_', 'P', 'e', 'r', 'p', 'e', 'n', 'd', 'i', 'c', 'u', 'l', 'a', 'r']
  | .LongName_LongLeftArrow => ['L', 'o', 'n', 'g', 'N', 'a', 'm', 'e', '_', 'L', 'o', 'n', 'g', 'L', 'e', 'f', 't', 'A', 'r', 'r', 'o', 'w']
  | .LongName_LongRightArrow => ['L', 'o', 'n', 'g', 'N', 'a', 'm', 'e', '_', 'L', 'o', 'n', 'g', 'R', 'i', 'g', 'h', 't', 'A', 'r', 'r', 'o', 'w']
  | .LongName_LongLeftRightArrow => ['L', 'o', 'n', 'g', 'N', 'a', 'm', 'e', '_', 'L', 'o', 'n', 'g', 'L', 'e', 'f', 't', 'R', 'i', 'g', 'h', 't', 'A', 'r', 'r', 'o', 'w']
  | .LongName_DoubleLongLeftArrow => ['L', 'o', 'n', 'g', 'N', 'a', 'm', 'e', '_', 'D', 'o', 'u', 'b', 'l', 'e', 'L', 'o', 'n', 'g', 'L', 'e', 'f', 't', 'A', 'r', 'r', 'o', 'w']
  | .LongName_DoubleLongRightArrow => ['L', 'o', 'n', 'g', 'N', 'a', 'm', 'e', '_', 'D', 'o', 'u', 'b', 'l', 'e', 'L', 'o', 'n', 'g', 'R', 'i', 'g', 'h', 't', 'A', 'r', 'r', 'o', 'w']
  | .LongName_DoubleLongLeftRightArrow => ['L', 'o', 'n', 'g', 'N', 'a', 'm', 'e', '_', 'D', 'o', 'u', 'b', 'l', 'e', 'L', 'o', 'n', 'g', 'L', 'e', 'f', 't', 'R', 'i', 'g', 'h', 't', 'A', 'r', 'r', 'o', 'w']
  | .LongName_UpArrowBar => ['L', 'o', 'n', 'g', 'N', 'a', 'm', 'e', '_', 'U', 'p', 'A', 'r', 'r', 'o', 'w', 'B', 'a', 'r']
  | .LongName_DownArrowBar => ['L', 'o', 'n', 'g', 'N', 'a', 'm', 'e', '_', 'D', 'o', 'w', 'n', 'A', 'r', 'r', 'o', 'w', 'B', 'a', 'r']
  | .LongName_LeftRightVector => ['L', 'o', 'n', 'g', 'N', 'a', 'm', 'e', '_', 'L', 'e', 'f', 't', 'R', 'i', 'g', 'h', 't', 'V', 'e', 'c', 't', 'o', 'r']
  | .LongName_RightUpDownVector => ['L', 'o', 'n', 'g', 'N', 'a', 'm', 'e', '_', 'R', 'i', 'g', 'h', 't', 'U', 'p', 'D', 'o', 'w', 'n', 'V', 'e', 'c', 't', 'o', 'r']
  | .LongName_DownLeftRightVector => ['L', 'o', 'n', 'g', 'N', 'a', 'm', 'e', '_', 'D', 'o', 'w', 'n', 'L', 'e', 'f', 't', 'R', 'i', 'g', 'h', 't', 'V', 'e', 'c', 't', 'o', 'r']
  | .LongName_LeftUpDownVector => ['L', 'o', 'n', 'g', 'N', 'a', 'm', 'e', '_', 'L', 'e', 'f', 't', 'U', 'p', 'D', 'o', 'w', 'n', 'V', 'e', 'c', 't', 'o', 'r']
  | .LongName_LeftVectorBar => ['L', 'o', 'n', 'g', 'N', 'a', 'm', 'e', '_', 'L', 'e', 'f', 't', 'V', 'e', 'c', 't', 'o', 'r', 'B', 'a', 'r']
  | .LongName_RightVectorBar => ['L', 'o', 'n', 'g', 'N', 'a', 'm', 'e', '_', 'R', 'i', 'g', 'h', 't', 'V', 'e', 'c', 't', 'o', 'r', 'B', 'a', 'r']
  | .LongName_RightUpVectorBar => ['L', 'o', 'n', 'g', 'N', 'a', 'm', 'e', '_', 'R', 'i', 'g', 'h', 't', 'U', 'p', 'V', 'e', 'c', 't', 'o', 'r', 'B', 'a', 'r']
  | .LongName_RightDownVectorBar => ['L', 'o', 'n', 'g', 'N', 'a', 'm', 'e', '_', 'R', 'i', 'g', 'h', 't', 'D', 'o', 'w', 'n', 'V', 'e', 'c', 't', 'o', 'r', 'B', 'a', 'r']
  | .LongName_DownLeftVectorBar => ['L', 'o', 'n', 'g', 'N', 'a', 'm', 'e', '_', 'D', 'o', 'w', 'n', 'L', 'e', 'f', 't', 'V', 'e', 'c', 't', 'o', 'r', 'B', 'a', 'r']
  | .LongName_DownRightVectorBar => ['L', 'o', 'n', 'g', 'N', 'a', 'm', 'e', '_', 'D', 'o', 'w', 'n', 'R', 'i', 'g', 'h', 't', 'V', 'e', 'c', 't', 'o', 'r', 'B', 'a', 'r']
  | .LongName_LeftUpVectorBar => ['L', 'o', 'n', 'g', 'N', 'a', 'm', 'e', '_', 'L', 'e', 'f', 't', 'U', 'p', 'V', 'e', 'c', 't', 'o', 'r', 'B', 'a', 'r']
  | .LongName_LeftDownVectorBar => ['L', 'o', 'n', 'g', 'N', 'a', 'm', 'e', '_', 'L', 'e', 'f', 't', 'D', 'o', 'w', 'n', 'V', 'e', 'c', 't', 'o', 'r', 'B', 'a', 'r']
  | .LongName_LeftTeeVector => ['L', 'o', 'n', 'g', 'N', 'a', 'm', 'e', '_', 'L', 'e', 'f', 't', 'T', 'e', 'e', 'V', 'e', 'c', 't', 'o', 'r']
  | .LongName_RightTeeVector => ['L', 'o', 'n', 'g', 'N', 'a', 'm', 'e', '_', 'R', 'i', 'g', 'h', 't', 'T', 'e', 'e', 'V', 'e', 'c', 't', 'o', 'r']
  | .LongName_RightUpTeeVector => ['L', 'o', 'n', 'g', 'N', 'a', 'm', 'e', '_', 'R', 'i', 'g', 'h', 't', 'U', 'p', 'T', 'e', 'e', 'V', 'e', 'c', 't', 'o', 'r']
  | .LongName_RightDownTeeVector => ['L', 'o', 'n', 'g', 'N', 'a', 'm', 'e', '_', 'R', 'i', 'g', 'h', 't', 'D', 'o', 'w', 'n', 'T', 'e', 'e', 'V', 'e', 'c', 't', 'o', 'r']
  | .LongName_DownLeftTeeVector => ['L', 'o', 'n', 'g', 'N', 'a', 'm', 'e', '_', 'D', 'o', 'w', 'n', 'L', 'e', 'f', 't', 'T', 'e', 'e', 'V', 'e', 'c', 't', 'o', 'r']
  | .LongName_DownRightTeeVector => ['L', 'o', 'n', 'g', 'N', 'a', 'm', 'e', '_', 'D', 'o', 'w', 'n', 'R', 'i', 'g', 'h', 't', 'T', 'e', 'e', 'V', 'e', 'c', 't', 'o', 'r']
  | .LongName_LeftUpTeeVector => ['L', 'o', 'n', 'g', 'N', 'a', 'm', 'e', '_', 'L', 'e', 'f', 't', 'U', 'p', 'T', 'e', 'e', 'V', 'e', 'c', 't', 'o', 'r']
  | .LongName_LeftDownTeeVector => ['L', 'o', 'n', 'g', 'N', 'a', 'm', 'e', '_', 'L', 'e', 'f', 't', 'D', 'o', 'w', 'n', 'T', 'e', 'e', 'V', 'e', 'c', 't', 'o', 'r']
  | .LongName_UpEquilibrium => ['L', 'o', 'n', 'g', 'N', 'a', 'm', 'e', '_', 'U', 'p', 'E', 'q', 'u', 'i', 'l', 'i', 'b', 'r', 'i', 'u', 'm']
  | .LongName_ReverseUpEquilibrium => ['L', 'o', 'n', 'g', 'N', 'a', 'm', 'e', '_', 'R', 'e', 'v', 'e', 'r', 's', 'e', 'U', 'p', 'E', 'q', 'u', 'i', 'l', 'i', 'b', 'r', 'i', 'u', 'm']
  | .LongName_RoundImplies => ['L', 'o', 'n', 'g', 'N', 'a', 'm', 'e', '_', 'R', 'o', 'u', 'n', 'd', 'I', 'm', 'p', 'l', 'i', 'e', 's']
  | .LongName_LeftTriangleBar => ['L', 'o', 'n', 'g', 'N', 'a', 'm', 'e', '_', 'L', 'e', 'f', 't', 'T', 'r', 'i', 'a', 'n', 'g', 'l', 'e', 'B', 'a', 'r']
  | .LongName_RightTriangleBar => ['L', 'o', 'n', 'g', 'N', 'a', 'm', 'e', '_', 'R', 'i', 'g', 'h', 't', 'T', 'r', 'i', 'a', 'n', 'g', 'l', 'e', 'B', 'a', 'r']
  | .LongName_Equivalent => ['L', 'o', 'n', 'g', 'N', 'a', 'm', 'e', '_', 'E', 'q', 'u', 'i', 'v', 'a', 'l', 'e', 'n', 't']
  | .LongName_LessSlantEqual => ['L', 'o', 'n', 'g', 'N', 'a', 'm', 'e', '_', 'L', 'e', 's', 's', 'S', 'l', 'a', 'n', 't', 'E', 'q', 'u', 'a', 'l']
  | .LongName_GreaterSlantEqual => ['L', 'o', 'n', 'g', 'N', 'a', 'm', 'e', '_', 'G', 'r', 'e', 'a', 't', 'e', 'r', 'S', 'l', 'a', 'n', 't', 'E', 'q', 'u', 'a', 'l']
  | .LongName_NestedLessLess => ['L', 'o', 'n', 'g', 'N', 'a', 'm', 'e', '_', 'N', 'e', 's', 't', 'e', 'd', 'L', 'e', 's', 's', 'L', 'e', 's', 's']
  | .LongName_NestedGreaterGreater => ['L', 'o', 'n', 'g', 'N', 'a', 'm', 'e', '_', 'N', 'e', 's', 't', 'e', 'd', 'G', 'r', 'e', 'a', 't', 'e', 'r', 'G', 'r', 'e', 'a', 't', 'e', 'r']
  | .LongName_PrecedesEqual => ['L', 'o', 'n', 'g', 'N', 'a', 'm', 'e', '_', 'P', 'r', 'e', 'c', 'e', 'd', 'e', 's', 'E', 'q', 'u', 'a', 'l']
  | .LongName_SucceedsEqual => ['L', 'o', 'n', 'g', 'N', 'a', 'm', 'e', '_', 'S', 'u', 'c', 'c', 'e', 'e', 'd', 's', 'E', 'q', 'u', 'a', 'l']
  | .LongName_DoubleLeftTee => ['L', 'o', 'n', 'g', 'N', 'a', 'm', 'e', '_', 'D', 'o', 'u', 'b', 'l', 'e', 'L', 'e', 'f', 't', 'T', 'e', 'e']
  | .LongName_LeftDoubleBracket => ['L', 'o', 'n', 'g', 'N', 'a', 'm', 'e', '_', 'L', 'e', 'f', 't', 'D', 'o', 'u', 'b', 'l', 'e', 'B', 'r', 'a', 'c', 'k', 'e', 't']
  | .LongName_RightDoubleBracket => ['L', 'o', 'n', 'g', 'N', 'a', 'm', 'e', '_', 'R', 'i', 'g', 'h', 't', 'D', 'o', 'u', 'b', 'l', 'e', 'B', 'r', 'a', 'c', 'k', 'e', 't']
  | .LongName_LeftAssociation => ['L', 'o', 'n', 'g', 'N', 'a', 'm', 'e', '_', 'L', 'e', 'f', 't', 'A', 's', 's', 'o', 'c', 'i', 'a', 't', 'i', 'o', 'n']
  | .LongName_RightAssociation => ['L', 'o', 'n', 'g', 'N', 'a', 'm', 'e', '_', 'R', 'i', 'g', 'h', 't', 'A', 's', 's', 'o', 'c', 'i', 'a', 't', 'i', 'o', 'n']
  | .LongName_TwoWayRule => ['L', 'o', 'n', 'g', 'N', 'a', 'm', 'e', '_', 'T', 'w', 'o', 'W', 'a', 'y', 'R', 'u', 'l', 'e']
  | .LongName_Piecewise => ['L', 'o', 'n', 'g', 'N', 'a', 'm', 'e', '_', 'P', 'i', 'e', 'c', 'e', 'w', 'i', 's', 'e']
  | .LongName_ImplicitPlus => ['L', 'o', 'n', 'g', 'N', 'a', 'm', 'e', '_', 'I', 'm', 'p', 'l', 'i', 'c', 'i', 't', 'P', 'l', 'u', 's']
  | .LongName_AutoLeftMatch => ['L', 'o', 'n', 'g', 'N', 'a', 'm', 'e', '_', 'A', 'u', 't', 'o', 'L', 'e', 'f', 't', 'M', 'a', 't', 'c', 'h']
  | .LongName_AutoRightMatch => ['L', 'o', 'n', 'g', 'N', 'a', 'm', 'e', '_', 'A', 'u', 't', 'o', 'R', 'i', 'g', 'h', 't', 'M', 'a', 't', 'c', 'h']
  | .LongName_InvisiblePrefixScriptBase => ['L', 'o', 'n', 'g', 'N', 'a', 'm', 'e', '_', 'I', 'n', 'v', 'i', 's', 'i', 'b', 'l', 'e', 'P', 'r', 'e', 'f', 'i', 'x', 'S', 'c', 'r', 'i', 'p', 't', 'B', 'a', 's', 'e']
  | .LongName_InvisiblePostfixScriptBase => ['L', 'o', 'n', 'g', 'N', 'a', 'm', 'e', '_', 'I', 'n', 'v', 'i', 's', 'i', 'b', 'l', 'e', 'P', 'o', 's', 't', 'f', 'i', 'x', 'S', 'c', 'r', 'i', 'p', 't', 'B', 'a', 's', 'e']
  | .LongName_Transpose => ['L', 'o', 'n', 'g', 'N', 'a', 'm', 'e', '_', 'T', 'r', 'a', 'n', 's', 'p', 'o', 's', 'e']
  | .LongName_Conjugate => ['L', 'o', 'n', 'g', 'N', 'a', 'm', 'e', '_', 'C', 'o', 'n', 'j', 'u', 'g', 'a', 't', 'e']
  | .LongName_ConjugateTranspose => ['L', 'o', 'n', 'g', 'N', 'a', 'm', 'e', '_', 'C', 'o', 'n', 'j', 'u', 'g', 'a', 't', 'e', 'T', 'r', 'a', 'n', 's', 'p', 'o', 's', 'e']
  | .LongName_HermitianConjugate => ['L', 'o', 'n', 'g', 'N', 'a', 'm', 'e', '_', 'H', 'e', 'r', 'm', 'i', 't', 'i', 'a', 'n', 'C', 'o', 'n', 'j', 'u', 'g', 'a', 't', 'e']
  | .LongName_VerticalBar => ['L', 'o', 'n', 'g', 'N', 'a', 'm', 'e', '_', 'V', 'e', 'r', 't', 'i', 'c', 'a', 'l', 'B', 'a', 'r']
  | .LongName_NotVerticalBar => ['L', 'o', 'n', 'g', 'N', 'a', 'm', 'e', '_', 'N', 'o', 't', 'V', 'e', 'r', 't', 'i', 'c', 'a', 'l', 'B', 'a', 'r']
  | .LongName_Distributed => ['L', 'o', 'n', 'g', 'N', 'a', 'm', 'e', '_', 'D', 'i', 's', 't', 'r', 'i', 'b', 'u', 't', 'e', 'd']
  | .LongName_Conditioned => ['L', 'o', 'n', 'g', 'N', 'a', 'm', 'e', '_', 'C', 'o', 'n', 'd', 'i', 't', 'i', 'o', 'n', 'e', 'd']
  | .LongName_UndirectedEdge => ['L', 'o', 'n', 'g', 'N', 'a', 'm', 'e', '_', 'U', 'n', 'd', 'i', 'r', 'e', 'c', 't', 'e', 'd', 'E', 'd', 'g', 'e']
  | .LongName_DirectedEdge => ['L', 'o', 'n', 'g', 'N', 'a', 'm', 'e', '_', 'D', 'i', 'r', 'e', 'c', 't', 'e', 'd', 'E', 'd', 'g', 'e']
  | .LongName_ContinuedFractionK => ['L', 'o', 'n', 'g', 'N', 'a', 'm', 'e', '_', 'C', 'o', 'n', 't', 'i', 'n', 'u', 'e', 'd', 'F', 'r', 'a', 'c', 't', 'i', 'o', 'n', 'K']
  | .LongName_TensorProduct => ['L', 'o', 'n', 'g', 'N', 'a', 'm', 'e', '_', 'T', 'e', 'n', 's', 'o', 'r', 'P', 'r', 'o', 'd', 'u', 'c', 't']
  | .LongName_TensorWedge => ['L', 'o', 'n', 'g', 'N', 'a', 'm', 'e', '_', 'T', 'e', 'n', 's', 'o', 'r', 'W', 'e', 'd', 'g', 'e']
  | .LongName_ProbabilityPr => ['L', 'o', 'n', 'g', 'N', 'a', 'm', 'e', '_', 'P', 'r', 'o', 'b', 'a', 'b', 'i', 'l', 'i', 't', 'y', 'P', 'r']
  | .LongName_ExpectationE => ['L', 'o', 'n', 'g', 'N', 'a', 'm', 'e', '_', 'E', 'x', 'p', 'e', 'c', 't', 'a', 't', 'i', 'o', 'n', 'E']
  | .LongName_PermutationProduct => ['L', 'o', 'n', 'g', 'N', 'a', 'm', 'e', '_', 'P', 'e', 'r', 'm', 'u', 't', 'a', 't', 'i', 'o', 'n', 'P', 'r', 'o', 'd', 'u', 'c', 't']
  | .LongName_NotEqualTilde => ['L', 'o', 'n', 'g', 'N', 'a', 'm', 'e', '_', 'N', 'o', 't', 'E', 'q', 'u', 'a', 'l', 'T', 'i', 'l', 'd', 'e']
  | .LongName_NotHumpEqual => ['L', 'o', 'n', 'g', 'N', 'a', 'm', 'e', '_', 'N', 'o', 't', 'H', 'u', 'm', 'p', 'E', 'q', 'u', 'a', 'l']
  | .LongName_NotHumpDownHump => ['L', 'o', 'n', 'g', 'N', 'a', 'm', 'e', '_', 'N', 'o', 't', 'H', 'u', 'm', 'p', 'D', 'o', 'w', 'n', 'H', 'u', 'm', 'p']
  | .LongName_NotLeftTriangleBar => ['L', 'o', 'n', 'g', 'N', 'a', 'm', 'e', '_', 'N', 'o', 't', 'L', 'e', 'f', 't', 'T', 'r', 'i', 'a', 'n', 'g', 'l', 'e', 'B', 'a', 'r']
  | .LongName_NotRightTriangleBar => ['L', 'o', 'n', 'g', 'N', 'a', 'm', 'e', '_', 'N', 'o', 't', 'R', 'i', 'g', 'h', 't', 'T', 'r', 'i', 'a', 'n', 'g', 'l', 'e', 'B', 'a', 'r']
  | .LongName_NotLessLess => ['L', 'o', 'n', 'g', 'N', 'a', 'm', 'e', '_', 'N', 'o', 't', 'L', 'e', 's', 's', 'L', 'e', 's', 's']
  | .LongName_NotNestedLessLess => ['L', 'o', 'n', 'g', 'N', 'a', 'm', 'e', '_', 'N', 'o', 't', 'N', 'e', 's', 't', 'e', 'd', 'L', 'e', 's', 's', 'L', 'e', 's', 's']
  | .LongName_NotLessSlantEqual => ['L', 'o', 'n', 'g', 'N', 'a', 'm', 'e', '_', 'N', 'o', 't', 'L', 'e', 's', 's', 'S', 'l', 'a', 'n', 't', 'E', 'q', 'u', 'a', 'l']
  | .LongName_NotGreaterGreater => ['L', 'o', 'n', 'g', 'N', 'a', 'm', 'e', '_', 'N', 'o', 't', 'G', 'r', 'e', 'a', 't', 'e', 'r', 'G', 'r', 'e', 'a', 't', 'e', 'r']
  | .LongName_NotNestedGreaterGreater => ['L', 'o', 'n', 'g', 'N', 'a', 'm', 'e', '_', 'N', 'o', 't', 'N', 'e', 's', 't', 'e', 'd', 'G', 'r', 'e', 'a', 't', 'e', 'r', 'G', 'r', 'e', 'a', 't', 'e', 'r']
  | .LongName_NotGreaterSlantEqual => ['L', 'o', 'n', 'g', 'N', 'a', 'm', 'e', '_', 'N', 'o', 't', 'G', 'r', 'e', 'a', 't', 'e', 'r', 'S', 'l', 'a', 'n', 't', 'E', 'q', 'u', 'a', 'l']
  | .LongName_NotPrecedesEqual => ['L', 'o', 'n', 'g', 'N', 'a', 'm', 'e', '_', 'N', 'o', 't', 'P', 'r', 'e', 'c', 'e', 'd', 'e', 's', 'E', 'q', 'u', 'a', 'l']
  | .LongName_NotSucceedsEqual => ['L', 'o', 'n', 'g', 'N', 'a', 'm', 'e', '_', 'N', 'o', 't', 'S', 'u', 'c', 'c', 'e', 'e', 'd', 's', 'E', 'q', 'u', 'a', 'l']
  | .LongName_NotSquareSubset => ['L', 'o', 'n', 'g', 'N', 'a', 'm', 'e', '_', 'N', 'o', 't', 'S', 'q', 'u', 'a', 'r', 'e', 'S', 'u', 'b', 's', 'e', 't']
  | .LongName_NotSquareSuperset => ['L', 'o', 'n', 'g', 'N', 'a', 'm', 'e', '_', 'N', 'o', 't', 'S', 'q', 'u', 'a', 'r', 'e', 'S', 'u', 'p', 'e', 'r', 's', 'e', 't']
  | .LongName_Equal => ['L', 'o', 'n', 'g', 'N', 'a', 'm', 'e', '_', 'E', 'q', 'u', 'a', 'l']
  | .LongName_VerticalSeparator => ['L', 'o', 'n', 'g', 'N', 'a', 'm', 'e', '_', 'V', 'e', 'r', 't', 'i', 'c', 'a', 'l', 'S', 'e', 'p', 'a', 'r', 'a', 't', 'o', 'r']
  | .LongName_VectorGreater => ['L', 'o', 'n', 'g', 'N', 'a', 'm', 'e', '_', 'V', 'e', 'c', 't', 'o', 'r', 'G', 'r', 'e', 'a', 't', 'e', 'r']
  | .LongName_VectorGreaterEqual => ['L', 'o', 'n', 'g', 'N', 'a', 'm', 'e', '_', 'V', 'e', 'c', 't', 'o', 'r', 'G', 'r', 'e', 'a', 't', 'e', 'r', 'E', 'q', 'u', 'a', 'l']
  | .LongName_VectorLess => ['L', 'o', 'n', 'g', 'N', 'a', 'm', 'e', '_', 'V', 'e', 'c', 't', 'o', 'r', 'L', 'e', 's', 's']
  | .LongName_VectorLessEqual => ['L', 'o', 'n', 'g', 'N', 'a', 'm', 'e', '_', 'V', 'e', 'c', 't', 'o', 'r', 'L', 'e', 's', 's', 'E', 'q', 'u', 'a', 'l']
  | .LongName_Limit => ['L', 'o', 'n', 'g', 'N', 'a', 'm', 'e', '_', 'L', 'i', 'm', 'i', 't']
  | .LongName_MaxLimit => ['L', 'o', 'n', 'g', 'N', 'a', 'm', 'e', '_', 'M', 'a', 'x', 'L', 'i', 'm', 'i', 't']
  | .LongName_MinLimit => ['L', 'o', 'n', 'g', 'N', 'a', 'm', 'e', '_', 'M', 'i', 'n', 'L', 'i', 'm', 'i', 't']
  | .LongName_Cross => ['L', 'o', 'n', 'g', 'N', 'a', 'm', 'e', '_', 'C', 'r', 'o', 's', 's']
  | .LongName_Function => ['L', 'o', 'n', 'g', 'N', 'a', 'm', 'e', '_', 'F', 'u', 'n', 'c', 't', 'i', 'o', 'n']
  | .LongName_Xnor => ['L', 'o', 'n', 'g', 'N', 'a', 'm', 'e', '_', 'X', 'n', 'o', 'r']
  | .LongName_DiscreteShift => ['L', 'o', 'n', 'g', 'N', 'a', 'm', 'e', '_', 'D', 'i', 's', 'c', 'r', 'e', 't', 'e', 'S', 'h', 'i', 'f', 't']
  | .LongName_DifferenceDelta => ['L', 'o', 'n', 'g', 'N', 'a', 'm', 'e', '_', 'D', 'i', 'f', 'f', 'e', 'r', 'e', 'n', 'c', 'e', 'D', 'e', 'l', 't', 'a']
  | .LongName_DiscreteRatio => ['L', 'o', 'n', 'g', 'N', 'a', 'm', 'e', '_', 'D', 'i', 's', 'c', 'r', 'e', 't', 'e', 'R', 'a', 't', 'i', 'o']
  | .LongName_RuleDelayed => ['L', 'o', 'n', 'g', 'N', 'a', 'm', 'e', '_', 'R', 'u', 'l', 'e', 'D', 'e', 'l', 'a', 'y', 'e', 'd']
  | .LongName_Square => ['L', 'o', 'n', 'g', 'N', 'a', 'm', 'e', '_', 'S', 'q', 'u', 'a', 'r', 'e']
  | .LongName_Rule => ['L', 'o', 'n', 'g', 'N', 'a', 'm', 'e', '_', 'R', 'u', 'l', 'e']
  | .LongName_Implies => ['L', 'o', 'n', 'g', 'N', 'a', 'm', 'e', '_', 'I', 'm', 'p', 'l', 'i', 'e', 's']
  | .LongName_ShortRightArrow => ['L', 'o', 'n', 'g', 'N', 'a', 'm', 'e', '_', 'S', 'h', 'o', 'r', 't', 'R', 'i', 'g', 'h', 't', 'A', 'r', 'r', 'o', 'w']
  | .LongName_ShortLeftArrow => ['L', 'o', 'n', 'g', 'N', 'a', 'm', 'e', '_', 'S', 'h', 'o', 'r', 't', 'L', 'e', 'f', 't', 'A', 'r', 'r', 'o', 'w']
  | .LongName_ShortUpArrow => ['L', 'o', 'n', 'g', 'N', 'a', 'm', 'e', '_', 'S', 'h', 'o', 'r', 't', 'U', 'p', 'A', 'r', 'r', 'o', 'w']
  | .LongName_ShortDownArrow => ['L', 'o', 'n', 'g', 'N', 'a', 'm', 'e', '_', 'S', 'h', 'o', 'r', 't', 'D', 'o', 'w', 'n', 'A', 'r', 'r', 'o', 'w']
  | .LongName_Application => ['L', 'o', 'n', 'g', 'N', 'a', 'm', 'e', '_', 'A', 'p', 'p', 'l', 'i', 'c', 'a', 't', 'i', 'o', 'n']
  | .LongName_LeftBracketingBar => ['L', 'o', 'n', 'g', 'N', 'a', 'm', 'e', '_', 'L', 'e', 'f', 't', 'B', 'r', 'a', 'c', 'k', 'e', 't', 'i', 'n', 'g', 'B', 'a', 'r']
  | .LongName_RightBracketingBar => ['L', 'o', 'n', 'g', 'N', 'a', 'm', 'e', '_', 'R', 'i', 'g', 'h', 't', 'B', 'r', 'a', 'c', 'k', 'e', 't', 'i', 'n', 'g', 'B', 'a', 'r']
  | .LongName_LeftDoubleBracketingBar => ['L', 'o', 'n', 'g', 'N', 'a', 'm', 'e', '_', 'L', 'e', 'f', 't', 'D', 'o', 'u', 'b', 'l', 'e', 'B', 'r', 'a', 'c', 'k', 'e', 't', 'i', 'n', 'g', 'B', 'a', 'r']
  | .LongName_RightDoubleBracketingBar => ['L', 'o', 'n', 'g', 'N', 'a', 'm', 'e', '_', 'R', 'i', 'g', 'h', 't', 'D', 'o', 'u', 'b', 'l', 'e', 'B', 'r', 'a', 'c', 'k', 'e', 't', 'i', 'n', 'g', 'B', 'a', 'r']
  | .LongName_CapitalDifferentialD => ['L', 'o', 'n', 'g', 'N', 'a', 'm', 'e', '_', 'C', 'a', 'p', 'i', 't', 'a', 'l', 'D', 'i', 'f', 'f', 'e', 'r', 'e', 'n', 't', 'i', 'a', 'l', 'D']
  | .LongName_DifferentialD => ['L', 'o', 'n', 'g', 'N', 'a', 'm', 'e', '_', 'D', 'i', 'f', 'f', 'e', 'r', 'e', 'n', 't', 'i', 'a', 'l', 'D']
  | .LongName_InvisibleComma => ['L', 'o', 'n', 'g', 'N', 'a', 'm', 'e', '_', 'I', 'n', 'v', 'i', 's', 'i', 'b', 'l', 'e', 'C', 'o', 'm', 'm', 'a']
  | .LongName_InvisibleApplication => ['L', 'o', 'n', 'g', 'N', 'a', 'm', 'e', '_', 'I', 'n', 'v', 'i', 's', 'i', 'b', 'l', 'e', 'A', 'p', 'p', 'l', 'i', 'c', 'a', 't', 'i', 'o', 'n']
  | .LongName_LongEqual => ['L', 'o', 'n', 'g', 'N', 'a', 'm', 'e', '_', 'L', 'o', 'n', 'g', 'E', 'q', 'u', 'a', 'l']

/-- `POSSIBLE_BEGINNING`, tokenize/token_kind.rs:38-123. The code lists names and compares them with
`stringify!(variant)`; the model lists the variants. -/
def possibleBeginningList : List TK := [
  .Symbol, .String, .Integer, .Real, .Rational, .LinearSyntaxBlob, .Percent, .PercentPercent,
  .Hash, .HashHash, .Under, .UnderUnder, .UnderUnderUnder, .UnderDot, .SemiSemi, .Bang, .Minus,
  .Plus, .LessLess, .MinusMinus, .PlusPlus, .BangBang, .OpenParen, .OpenCurly, .LessBar,
  .LongName_LeftCeiling, .LongName_LeftFloor, .LongName_LeftAngleBracket,
  .LongName_LeftBracketingBar, .LongName_LeftDoubleBracketingBar, .LongName_LeftAssociation,
  .LongName_OpenCurlyQuote, .LongName_OpenCurlyDoubleQuote, .LinearSyntax_Bang, .LongName_Integral,
  .LongName_ContourIntegral, .LongName_DoubleContourIntegral, .LongName_ClockwiseContourIntegral,
  .LongName_CounterClockwiseContourIntegral, .LongName_Not, .LongName_PlusMinus, .LongName_Sum,
  .LongName_ForAll, .LongName_Exists, .LongName_NotExists, .LongName_Del, .LongName_Product,
  .LongName_Coproduct, .LongName_Minus, .LongName_MinusPlus, .LongName_Sqrt, .LongName_CubeRoot,
  .LongName_CircleTimes, .LongName_Piecewise, .LongName_InvisiblePrefixScriptBase,
  .LongName_ContinuedFractionK, .LongName_ProbabilityPr, .LongName_ExpectationE,
  .LongName_CapitalDifferentialD, .LongName_DifferentialD, .LongName_Square]

/-- `EMPTY`, tokenize/token_kind.rs:125-145. The code lists names and compares them with
`stringify!(variant)`; the model lists the variants. -/
def emptyList : List TK := [
  .EndOfFile, .Fake_ImplicitTimes, .Error_Aborted, .Fake_ImplicitNull, .Fake_ImplicitOne,
  .Fake_ImplicitAll, .Error_ExpectedOperand, .Error_ExpectedTag, .Error_ExpectedFile,
  .Error_PrefixImplicitNull, .Error_InfixImplicitNull]

/-- `UNTERMINATED`, tokenize/token_kind.rs:147-152. The code lists names and compares them with
`stringify!(variant)`; the model lists the variants. -/
def unterminatedList : List TK := [
  .Error_UnterminatedComment, .Error_UnterminatedString, .Error_UnterminatedFileString,
  .Error_UnterminatedLinearSyntaxBlob]

/-- `CLOSERS`, tokenize/token_kind.rs:154-168. The code lists names and compares them with
`stringify!(variant)`; the model lists the variants. -/
def closersList : List TK := [
  .BarGreater, .CloseCurly, .CloseParen, .CloseSquare, .LongName_CloseCurlyDoubleQuote,
  .LongName_CloseCurlyQuote, .LongName_RightAngleBracket, .LongName_RightAssociation,
  .LongName_RightBracketingBar, .LongName_RightCeiling, .LongName_RightDoubleBracket,
  .LongName_RightDoubleBracketingBar, .LongName_RightFloor]

/-- `ERROR`, tokenize/token_kind.rs:170-189. The code lists names and compares them with
`stringify!(variant)`; the model lists the variants. -/
def errorList : List TK := [
  .Error_ExpectedEqual, .Error_Number, .Error_UnhandledCharacter, .Error_ExpectedLetterlike,
  .Error_Aborted, .Error_ExpectedOperand, .Error_ExpectedTag, .Error_ExpectedFile,
  .Error_UnsupportedToken, .Error_UnexpectedCloser, .Error_UnterminatedComment,
  .Error_UnterminatedString, .Error_UnterminatedFileString, .Error_UnterminatedLinearSyntaxBlob,
  .Error_PrefixImplicitNull, .Error_InfixImplicitNull, .Error_UnsafeCharacterEncoding,
  .Error_UnexpectedCommentCloser]

end TK

/-- `Closer`, tokenize/token_kind.rs:960-976. -/
inductive Closer where
  | BarGreater | CloseCurly | CloseParen | CloseSquare | LongName_CloseCurlyDoubleQuote
  | LongName_CloseCurlyQuote | LongName_RightAngleBracket | LongName_RightAssociation
  | LongName_RightBracketingBar | LongName_RightCeiling | LongName_RightDoubleBracket
  | LongName_RightDoubleBracketingBar | LongName_RightFloor | AssertFalse
deriving DecidableEq, Repr, Inhabited

/-- `GroupOpenerToCloser`, tokenize/token_kind.rs:983-1001; `none` is the panic "Unhandled token". -/
def groupOpenerToCloser : TK → Option Closer
  | .ColonColonOpenSquare => some .CloseSquare
  | .LongName_LeftAngleBracket => some .LongName_RightAngleBracket
  | .LongName_LeftAssociation => some .LongName_RightAssociation
  | .LongName_LeftBracketingBar => some .LongName_RightBracketingBar
  | .LongName_LeftCeiling => some .LongName_RightCeiling
  | .LongName_LeftDoubleBracket => some .LongName_RightDoubleBracket
  | .LongName_LeftDoubleBracketingBar => some .LongName_RightDoubleBracketingBar
  | .LongName_LeftFloor => some .LongName_RightFloor
  | .LessBar => some .BarGreater
  | .OpenCurly => some .CloseCurly
  | .LongName_OpenCurlyDoubleQuote => some .LongName_CloseCurlyDoubleQuote
  | .LongName_OpenCurlyQuote => some .LongName_CloseCurlyQuote
  | .OpenParen => some .CloseParen
  | .OpenSquare => some .CloseSquare
  | _ => none

/-- `TokenToCloser`, tokenize/token_kind.rs:1004-1021. -/
def tokenToCloser : TK → Closer
  | .BarGreater => .BarGreater
  | .CloseCurly => .CloseCurly
  | .LongName_CloseCurlyDoubleQuote => .LongName_CloseCurlyDoubleQuote
  | .LongName_CloseCurlyQuote => .LongName_CloseCurlyQuote
  | .CloseParen => .CloseParen
  | .CloseSquare => .CloseSquare
  | .LongName_RightAngleBracket => .LongName_RightAngleBracket
  | .LongName_RightAssociation => .LongName_RightAssociation
  | .LongName_RightBracketingBar => .LongName_RightBracketingBar
  | .LongName_RightCeiling => .LongName_RightCeiling
  | .LongName_RightDoubleBracket => .LongName_RightDoubleBracket
  | .LongName_RightDoubleBracketingBar => .LongName_RightDoubleBracketingBar
  | .LongName_RightFloor => .LongName_RightFloor
  | _ => .AssertFalse

end CodeParser
