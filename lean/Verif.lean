import Verif.Model.Reader
import Verif.Model.SafeString
import Verif.Spec.Reader
import Verif.Proofs.Reader
import Verif.Props.Reader
import Verif.Model.Issues
import Verif.Model.Util
import Verif.Props.Util
import Verif.Model.Gen.TokenKind
import Verif.Model.Gen.Operators
import Verif.Model.TokenKind
import Verif.Props.TokenKind
import Verif.Model.Monad
import Verif.Model.Gen.LongNames
import Verif.Model.LongNames
import Verif.Model.Char
import Verif.Spec.Char
import Verif.Props.LongNames
import Verif.Proofs.Wp
import Verif.Proofs.Char
import Verif.Proofs.Char2
import Verif.Proofs.Char3
import Verif.Proofs.Sim
import Verif.Props.Char
import Verif.Model.Tokenizer
import Verif.Spec.Token
import Verif.Proofs.Token1
import Verif.Proofs.Token2
import Verif.Proofs.Token3
import Verif.Proofs.TokenSim
import Verif.Proofs.Token4
import Verif.Proofs.TokenText
import Verif.Props.Tokenizer
import Verif.Proofs.Token5
import Verif.Model.Gen.Parselets
import Verif.Model.Cst
import Verif.Model.Parser
import Verif.Model.Recover
import Verif.Spec.Tree
import Verif.Proofs.Parser1
import Verif.Proofs.Parser2
import Verif.Proofs.Parser3
import Verif.Proofs.Parser4
import Verif.Proofs.Parser5
import Verif.Proofs.Parser6
import Verif.Proofs.Parser7
import Verif.Proofs.Recover1
import Verif.Proofs.Recover2
import Verif.Proofs.Recover3
import Verif.Proofs.Recover4
import Verif.Proofs.Recover5
import Verif.Proofs.Recover6
import Verif.Props.Parser
import Verif.Props.Newline
import Verif.Spec.Grouping
import Verif.Props.Grouping
import Verif.Proofs.Recover7
import Verif.Props.Tokenize
import Verif.Model.Gen.Symbols
import Verif.Model.Visit
import Verif.Spec.Visit
import Verif.Props.Visit
import Verif.Model.Aggregate
import Verif.Spec.Aggregate
import Verif.Proofs.Form
import Verif.Props.Aggregate
import Verif.Model.Ast
import Verif.Model.Abstract
import Verif.Spec.Abstract
import Verif.Proofs.Abstract1
import Verif.Proofs.Abstract2
import Verif.Proofs.Abstract3
import Verif.Proofs.Abstract4
import Verif.Props.Abstract
import Verif.Spec.FirstLine
import Verif.Props.FirstLine
import Verif.Spec.Lex
import Verif.Proofs.Lex1
import Verif.Proofs.Lex2
import Verif.Proofs.Lex3
import Verif.Proofs.Lex4
import Verif.Props.Lex
import Verif.Spec.Number
import Verif.Proofs.Lex5
import Verif.Proofs.Lex6
import Verif.Proofs.Lex7
import Verif.Proofs.Lex8
import Verif.Proofs.Lex9
import Verif.Props.Number
import Verif.Spec.LexText
import Verif.Props.LexText
import Verif.Spec.Syntax
import Verif.Proofs.Syntax1
import Verif.Proofs.Syntax2
import Verif.Proofs.Syntax3
import Verif.Proofs.Syntax4
import Verif.Proofs.Syntax5
import Verif.Proofs.Syntax6
import Verif.Proofs.Syntax7
import Verif.Proofs.Syntax8
import Verif.Props.Syntax
import Verif.Spec.Meaning
import Verif.Proofs.Meaning1
import Verif.Proofs.Meaning2
import Verif.Proofs.Meaning3
import Verif.Proofs.Meaning4
import Verif.Proofs.Meaning5
import Verif.Proofs.Meaning6
import Verif.Proofs.Meaning7
import Verif.Proofs.Meaning8
import Verif.Props.Meaning
import Verif.Spec.FullForm
import Verif.Proofs.FullForm
import Verif.Proofs.FullForm2
import Verif.Proofs.FullForm3
import Verif.Proofs.FullForm4
import Verif.Props.FullForm
import Verif.Spec.Parens
import Verif.Proofs.Parens
import Verif.Props.Parens
import Verif.Props.Recovery
import Verif.Model.Link
import Verif.Model.Put
import Verif.Model.FromExpr
import Verif.Spec.Link
import Verif.Proofs.Link1
import Verif.Proofs.Link2
import Verif.Proofs.Link3
import Verif.Proofs.Link4
import Verif.Proofs.Link5
import Verif.Proofs.Link6
import Verif.Proofs.Link7
import Verif.Props.Link
import Verif.Model.Show
import Verif.Spec.Show
import Verif.Proofs.Show
import Verif.Props.Show
import Verif.Spec.Chars
import Verif.Spec.CharTokens
import Verif.Proofs.Chars1
import Verif.Proofs.Chars2
import Verif.Proofs.Chars3
import Verif.Proofs.Chars4
import Verif.Proofs.Chars5
import Verif.Proofs.Chars6
import Verif.Proofs.Chars7
import Verif.Props.CharTokens
import Verif.Model.Check
import Verif.Model.CheckTokens
import Verif.Model.Gen.AsciiReplacements
import Verif.Proofs.Check1
import Verif.Proofs.Check2
import Verif.Proofs.Check3
import Verif.Proofs.Check4
import Verif.Proofs.Check5
import Verif.Proofs.Check6
import Verif.Proofs.Check7
import Verif.Proofs.Check8
import Verif.Spec.Check
import Verif.Proofs.Check9
import Verif.Proofs.Check10
import Verif.Proofs.Check11
import Verif.Proofs.Check12
import Verif.Props.Check
import Verif.Model.CheckParser
import Verif.Proofs.Check13
import Verif.Proofs.Check14
import Verif.Props.CheckParse
import Verif.Spec.Issue
import Verif.Proofs.CheckTold
import Verif.Props.IssueText
import Verif.Proofs.Cover1
import Verif.Proofs.Cover2
import Verif.Proofs.Cover3
import Verif.Proofs.Cover4
import Verif.Props.Complete
import Verif.Model.Iter
import Verif.Spec.Iter
import Verif.Props.Iter
import Verif.Model.Print
import Verif.Spec.Print
import Verif.Proofs.Print
import Verif.Props.Print
import Verif.Props.Places
import Verif.Props.Resume
import Verif.Props.Spots
import Verif.Props.Build
import Verif.Props.Words
import Verif.Model.Library
import Verif.Spec.Library
import Verif.Props.Library
import Verif.Model.AbstractCall
import Verif.Proofs.Erase
import Verif.Props.AbstractCall
import Verif.Proofs.Mail
import Verif.Props.Mail
