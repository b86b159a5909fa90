#!/usr/bin/env python3
"""Generates lean/Verif/Model/Gen/*.lean from the Rust tables in /repo."""
import re,os
R='/repo/crates/wolfram-parser/src/'
root=os.path.dirname(os.path.dirname(os.path.abspath(__file__)))
OUT=root+'/lean/Verif/Model/Gen/'
def read(f): return open(R+f).read()
def nocom(t):
    return re.sub(r'/\*.*?\*/|//[^\n]*','',t,flags=re.S)
def line_of(s,i): return s.count('\n',0,i)+1
def wrap(items,ind='  ',width=100,sep=', '):
    out=[];cur=ind
    for k,x in enumerate(items):
        y=x+(sep if k+1<len(items) else '')
        if len(cur)+len(y)>width: out.append(cur.rstrip());cur=ind
        cur+=y
    out.append(cur); return '\n'.join(out)
HEAD='/- Generated by tools/gen_tables.py from /repo. Do not edit.\nPaths are relative to /repo/crates/wolfram-parser/src. -/\n'
LEANKW={'open','end','at','from','in','do','let','if','then','else','match','with','section','namespace','import','export','where','instance','class','structure','inductive','theorem','def','example','Type','Sort','Prop','by','fun','have','show','return','for','infix','prefix','postfix','notation'}
def ident(n): return '«%s»'%n if n in LEANKW else n

# ---------------------------------------------------------------- token kinds
src=read('tokenize/token_kind.rs')
i=src.index('token_kind! {\n    Unknown'); j=src.index('\n}\n',i)
body=nocom(src[i:j])
kinds=[(m.group(1),int(m.group(2))) for m in re.finditer(r'(\w+)\s*=\s*(\d+)\s*,',body)]
names=[k for k,_ in kinds]
assert len(set(names))==len(names)
def strlist(const):
    m=re.search(r'const %s: &\[&str\] = &\[(.*?)\n\];'%const,src,re.S)
    return re.findall(r'"(\w+)"',nocom(m.group(1))), line_of(src,m.start()), line_of(src,m.end())
o=[HEAD,'namespace CodeParser\n']
o.append('/-- `TokenKind`, tokenize/token_kind.rs:%d-%d. -/\ninductive TK where'%(line_of(src,i),line_of(src,j)))
o.append(wrap(['| '+ident(n) for n in names],sep=' '))
o.append('deriving DecidableEq, Repr, Inhabited\n\nnamespace TK\n')
o.append('/-- The `id` literals of `token_kind!`, tokenize/token_kind.rs:%d-%d. -/\ndef id : TK → Nat'%(line_of(src,i),line_of(src,j)))
for n,v in kinds: o.append('  | .%s => %d'%(ident(n),v))
o.append('\n/-- `TokenKind::VARIANTS`, tokenize/token_kind.rs:273-275. -/\ndef all : List TK := [')
o.append(wrap(['.'+ident(n) for n in names])+']\n')
o.append('/-- `Debug` name of a kind (the identifiers in token_kind.rs:%d-%d). -/\ndef name : TK → _root_.List Char'%(line_of(src,i),line_of(src,j)))
for n,v in kinds: o.append('  | .%s => [%s]'%(ident(n),', '.join("'%s'"%c for c in n)))
for c,l in [('POSSIBLE_BEGINNING','possibleBeginningList'),('EMPTY','emptyList'),('UNTERMINATED','unterminatedList'),('CLOSERS','closersList'),('ERROR','errorList')]:
    xs,a,b=strlist(c)
    bad=[x for x in xs if x not in names]; assert not bad,bad
    o.append('\n/-- `%s`, tokenize/token_kind.rs:%d-%d. The code lists names and compares them with\n`stringify!(variant)`; the model lists the variants. -/\ndef %s : List TK := ['%(c,a,b,l))
    o.append(wrap(['.'+ident(n) for n in xs])+']')
o.append('\nend TK\n')
# closers
m=re.search(r'pub enum Closer \{(.*?)\n\}',src,re.S)
cl=re.findall(r'(\w+),',nocom(m.group(1)))
o.append('/-- `Closer`, tokenize/token_kind.rs:%d-%d. -/\ninductive Closer where'%(line_of(src,m.start()),line_of(src,m.end())))
o.append(wrap(['| '+n for n in cl],sep=' ')+'\nderiving DecidableEq, Repr, Inhabited\n')
def arms(fn):
    m=re.search(r'fn %s\(.*?\n\}'%fn,src,re.S)
    return re.findall(r'TokenKind::(\w+) => Closer::(\w+),',m.group(0)),line_of(src,m.start()),line_of(src,m.end())
xs,a,b=arms('GroupOpenerToCloser')
o.append('/-- `GroupOpenerToCloser`, tokenize/token_kind.rs:%d-%d; `none` is the panic "Unhandled token". -/\ndef groupOpenerToCloser : TK → Option Closer'%(a,b))
for k,c in xs: o.append('  | .%s => some .%s'%(ident(k),c))
o.append('  | _ => none\n')
xs,a,b=arms('TokenToCloser')
o.append('/-- `TokenToCloser`, tokenize/token_kind.rs:%d-%d. -/\ndef tokenToCloser : TK → Closer'%(a,b))
for k,c in xs: o.append('  | .%s => .%s'%(ident(k),c))
o.append('  | _ => .AssertFalse\n\nend CodeParser')
open(OUT+'TokenKind.lean','w').write('\n'.join(o)+'\n')

# ---------------------------------------------------------------- symbols and operators
ss=read('symbols.rs')
symtab={}   # rust path -> full name
def scan(t,prefix):
    for m in re.finditer(r'pub const (\w+): Symbol = unsafe \{ Symbol::unchecked_new\("([^"]*)"\) \};',t): symtab[prefix+m.group(1)]=m.group(2)
k=ss.index('pub mod Token {')
scan(ss[:k],''); scan(ss[k:],'Token::')
for m in re.finditer(r'crate::symbol::symbol! \{(.*?)\n\}',ss,re.S):
    for n in re.findall(r'(\w+);',nocom(m.group(1))): symtab.setdefault(n,'System`'+n)
for m in re.finditer(r'(\w+)::\{\s*([\w,\s]*?)\s*\}',ss):
    for n in re.findall(r'\w+',m.group(2)): symtab[m.group(1)+'::'+n]=m.group(1)+'`'+n
full=sorted(set(symtab.values()))
def symctor(f): return re.sub(r'[`$]','_',f)
assert len({symctor(f) for f in full})==len(full)
ops=read('parse/operators.rs')
enums=['Infix','Prefix','Postfix','Binary','Ternary','PrefixBinary','Compound','Group','Call']
used=set()
E={}
for e in enums:
    en=e+'Operator'
    m=re.search(r'pub enum %s \{(.*?)\n\}'%en,ops,re.S)
    vs=re.findall(r'(\w+),',nocom(m.group(1)))
    im=re.search(r'impl Operator for %s \{(.*?)\n\}\n'%en,ops+'\n',re.S)
    t=nocom(im.group(1)); q=t.index('fn try_from_symbol')
    to=re.findall(r'%s::(\w+)\s*=>\s*sym::([\w:]+)'%en,t[:q])
    fr=re.findall(r'sym::([\w:]+)\s*=>\s*%s::(\w+)'%en,t[q:])
    assert [a for a,_ in to]==[a for a,_ in to if a in vs] and {a for a,_ in to}==set(vs),(e,set(vs)-{a for a,_ in to})
    E[e]=(vs,to,fr,line_of(ops,m.start()),line_of(ops,m.end()),line_of(ops,im.start()+im.group(0).index('fn to_symbol')),line_of(ops,im.start()+im.group(0).index('fn try_from_symbol')),line_of(ops,im.end())-1)
    used|={symtab[s] for _,s in to}|{symtab[s] for s,_ in fr}
tksym={}
for m in re.finditer(r'\((\w+)\) => \{ st::([\w:]+) \};',src): tksym[m.group(1)]=m.group(2)
for n in names:
    if n not in tksym: tksym[n]='Token::'+n
used|={symtab[s] for s in tksym.values()}
# symbols used by abstraction are added as well
used|=set(full)
o=[HEAD,'import Verif.Model.Gen.TokenKind\nnamespace CodeParser\n']
o[0],o[1]=HEAD.strip()+'\n','' 
o=[ 'import Verif.Model.Gen.TokenKind\n'+HEAD+'namespace CodeParser\n']
o.append('/-- The symbols of symbols.rs:22-907, one constructor per distinct full name\n(``Context`Name`` is written `Context_Name`). -/\ninductive Sym where')
o.append(wrap(['| '+symctor(f) for f in full if f in used],sep=' '))
o.append('deriving DecidableEq, Repr, Inhabited\n')
for e in enums:
    vs,to,fr,a,b,c,d,f=E[e]
    en=e+'Op'
    o.append('/-- `%sOperator`, parse/operators.rs:%d-%d. -/\ninductive %s where'%(e,a,b,en))
    o.append(wrap(['| '+v for v in vs],sep=' ')+'\nderiving DecidableEq, Repr, Inhabited\n')
    o.append('/-- `%sOperator::to_symbol`, parse/operators.rs:%d-%d. -/\ndef %s.toSymbol : %s → Sym'%(e,c,d-2,en,en))
    for x,y in to: o.append('  | .%s => .%s'%(x,symctor(symtab[y])))
    o.append('\n/-- The arms of `%sOperator::try_from_symbol`, parse/operators.rs:%d-%d, in order. -/\ndef %s.arms : _root_.List (Sym × %s) := ['%(e,d,f,en,en))
    o.append(wrap(['(.%s, .%s)'%(symctor(symtab[x]),y) for x,y in fr])+']')
    o.append('\n/-- `%sOperator::try_from_symbol`, parse/operators.rs:%d-%d: the first arm that matches. -/\ndef %s.ofSymbol (s : Sym) : _root_.Option %s := %s.arms.lookup s\n'%(e,d,f,en,en,en))
o.append('/-- `TokenKind::to_symbol`, tokenize/token_kind.rs:295-301 with `token_to_symbol!` (307-331). -/\ndef TK.toSymbol : TK → Sym')
for n in names: o.append('  | .%s => .%s'%(ident(n),symctor(symtab[tksym[n]])))
o.append('''
/-- `TokenKind::from_symbol`, tokenize/token_kind.rs:279-293: the first kind, in
declaration order, whose symbol matches. -/
def TK.fromSymbol (s : Sym) : Option TK := TK.all.find? (fun k => k.toSymbol == s)
''')
m=re.search(r'pub\(crate\) fn try_to_call_operator.*?\n    \}\n',ops,re.S)
o.append('/-- `GroupOperator::try_to_call_operator`, parse/operators.rs:423-451; `none` is the panic. -/\ndef GroupOp.toCall : GroupOp → Option CallOp')
for x,y in re.findall(r'GroupOperator::(\w+) => \{\s*CallOperator::(\w+)',m.group(0)): o.append('  | .%s => some .%s'%(x,y))
o.append('  | _ => none\n')
o.append('end CodeParser')
open(OUT+'Operators.lean','w').write('\n'.join(o)+'\n')

# ---------------------------------------------------------------- names of symbols; inequalities
ab=read('abstract_cst.rs')
o=[ 'import Verif.Model.Gen.Operators\n'+HEAD+'namespace CodeParser\n']
o.append('/-- The full name of a symbol, symbols.rs:22-907. -/\ndef Sym.name : Sym → List Char')
for f in full: o.append('  | .%s => [%s]'%(symctor(f),','.join("'%s'"%c for c in f)))
m=re.search(r'fn inequalityOperatorToSymbol.*?\n\}\n',ab,re.S)
o.append('\n/-- `inequalityOperatorToSymbol`, abstract_cst.rs:%d-%d; `none` is the panic. -/\ndef inequalityOperatorToSymbol : TK → Option Sym'%(line_of(ab,m.start()),line_of(ab,m.end())-1))
for x,y in re.findall(r'((?:TK::\w+[\s|]*)+) => sym::(\w+)',nocom(m.group(0))):
    for k in re.findall(r'TK::(\w+)',x): o.append('  | .%s => some .%s'%(ident(k),symctor(symtab[y])))
o.append('  | _ => none\n')
m=re.search(r'fn vectorInequalityAffinity.*?\n\}\n',ab,re.S)
o.append('/-- `vectorInequalityAffinity`, abstract_cst.rs:%d-%d; the outer `none` is the panic. -/\ndef vectorInequalityAffinity : Sym → Option (Option Bool)'%(line_of(ab,m.start()),line_of(ab,m.end())-1))
for x,y in re.findall(r'((?:\|?\s*sym::\w+\s*)+)=> (return None|false|true)',nocom(m.group(0))):
    for k in re.findall(r'sym::(\w+)',x): o.append('  | .%s => some %s'%(symctor(symtab[k]),{'return None':'none','false':'(some false)','true':'(some true)'}[y]))
o.append('  | _ => none\n')
m=re.search(r'fn simplifyInfixInequality.*?\n\}\n',ab,re.S)
b=nocom(m.group(0))
o.append('/-- The operators `simplifyInfixInequality`, abstract_cst.rs:%d-%d, looks for, in this order; `true` if the\noperands become a list. -/\ndef simplifyRators : List (Sym × Bool) := ['%(line_of(ab,m.start()),line_of(ab,m.end())-1))
L=[]
for x,y in re.findall(r'all_rators\(st::(\w+)\) =>(.*?)(?=all_rators|affinity)',b,re.S):
    assert re.search(r'Ast::call\(\s*st::%s,'%x,y),(x,y)
    L.append('  (.%s, %s)'%(symctor(symtab[x]),'true' if 'st::List' in y else 'false'))
o.append(',\n'.join(L)+']\n\nend CodeParser')
open(OUT+'Symbols.lean','w').write('\n'.join(o)+'\n')
print(len(names),'kinds',len(full),'symbols')

# ---------------------------------------------------------------- long names
ln=read('generated/long_names_registration.rs')
const={}
for m in re.finditer(r"pub const (CODEPOINT_LONGNAME_\w+): char = '\\u\{([0-9a-fA-F]+)\}';",ln): const[m.group(1)]=int(m.group(2),16)
spec={'CodePoint::StringMeta_DoubleQuote':'.metaDoubleQuote','CodePoint::StringMeta_Backslash':'.metaBackslash','CodePoint::CRLF':'.crlf'}
cpconst={}
for m in re.finditer(r"pub const (CODEPOINT_LONGNAME_\w+): CodePoint = ([\w:]+);",ln): cpconst[m.group(1)]=spec[m.group(2)]
def cp(t):
    t=t.strip()
    m=re.fullmatch(r'CodePoint::from_char\((\w+)\)',t)
    if m: return '.char 0x%x'%const[m.group(1)]
    return cpconst.get(t) or spec[t]
def chars(n): return '['+', '.join("'%s'"%c for c in n)+']'
def arr(name):
    m=re.search(r'pub (?:const|static) %s: [^=]*= &?\[(.*?)\n\];'%name,ln,re.S)
    return m.group(1),line_of(ln,m.start()),line_of(ln,m.end())
o=[HEAD,'import Verif.Model.Reader','import Verif.Model.Gen.TokenKind\n','namespace CodeParser\n']
o=[HEAD.rstrip('\n')]+o[1:]+['set_option maxRecDepth 100000\n']
G='generated/long_names_registration.rs'
b,x,y=arr('LONGNAME_TO_CODEPOINT_MAP')
es=re.findall(r'\("(\w+)", (.*?)\),\n',b+'\n'); assert len(es)==1102,len(es)
o.append('/-- `LONGNAME_TO_CODEPOINT_MAP`, %s:%d-%d. -/\ndef longNameTable : List (List Char × CP) := ['%(G,x,y))
o.append(',\n'.join('  (%s, %s)'%(chars(n),cp(c)) for n,c in es)+']\n')
b,x,y=arr('CODEPOINT_TO_LONGNAME_MAP')
es=re.findall(r'\((CodePoint::from_char\(\w+\)|\w+), "(\w+)"\),',b); assert len(es)==1102,len(es)
o.append('/-- `CODEPOINT_TO_LONGNAME_MAP`, %s:%d-%d. -/\ndef codePointNameTable : List (CP × List Char) := ['%(G,x,y))
o.append(',\n'.join('  (%s, %s)'%(cp(c),chars(n)) for c,n in es)+']\n')
b,x,y=arr('RAW_SET'); es=re.findall(r'"(\w+)"',b); assert len(es)==37
o.append('/-- `RAW_SET`, %s:%d-%d. -/\ndef rawSet : List (List Char) := ['%(G,x,y))
o.append(',\n'.join('  '+chars(n) for n in es)+']\n')
for nm,l,cnt in [('MB_NOT_STRAGE_LETTERLIKE_CODE_POINTS','mbNotStrangeLetterlikeTable',296),('MB_PUNCTUATION_CODE_POINTS','mbPunctuationTable',301),('MB_WHITESPACE_CODE_POINTS','mbWhitespaceTable',20),('MB_UNINTERPRETABLE_CODE_POINTS','mbUninterpretableTable',4)]:
    b,x,y=arr(nm); es=re.findall(r'CODEPOINT_LONGNAME_\w+',b); assert len(es)==cnt
    o.append('/-- `%s`, %s:%d-%d. -/\ndef %s : List Nat := [\n%s]\n'%(nm,G,x,y,l,wrap(['0x%x'%const[e] for e in es])))
b,x,y=arr('MB_NEWLINE_CODE_POINTS'); es=re.findall(r'CodePoint::CRLF|CodePoint::from_char\(\w+\)',b); assert len(es)==6
o.append('/-- `MB_NEWLINE_CODE_POINTS`, %s:%d-%d. -/\ndef mbNewlineTable : List CP := [\n%s]\n'%(G,x,y,wrap([cp(e) for e in es])))
b,x,y=arr('ASCII_REPLACEMENTS_MAP'); es=re.findall(r'\((CODEPOINT_LONGNAME_\w+), \[',b)
o.append('/-- The keys of `ASCII_REPLACEMENTS_MAP`, %s:%d-%d (the replacement texts only appear in\nreported issues). -/\ndef asciiReplacementKeys : List Nat := [\n%s]\n'%(G,x,y,wrap(['0x%x'%const[e] for e in es])))
m=re.search(r'pub\(crate\) fn LongNameCodePointToOperator.*?\n\}',ln,re.S)
es=re.findall(r'(CODEPOINT_LONGNAME_\w+) => return (\w+),',m.group(0)); print('operators',len(es))
assert len(es)==m.group(0).count('=>')-1
o.append('/-- The arms of `LongNameCodePointToOperator`, %s:%d-%d, in order. -/\ndef longNameOperatorTable : List (Nat × TK) := [\n%s]\n'%(G,line_of(ln,m.start()),line_of(ln,m.end()),wrap(['(0x%x, .%s)'%(const[c],ident(t)) for c,t in es])))
o.append('attribute [irreducible] longNameTable codePointNameTable rawSet mbNotStrangeLetterlikeTable\n  mbPunctuationTable mbWhitespaceTable mbUninterpretableTable asciiReplacementKeys longNameOperatorTable\n')
o.append('end CodeParser')
open(OUT+'LongNames.lean','w').write('\n'.join(o)+'\n')

# ---------------------------------------------------------------- replacement texts
b,x,y=arr('ASCII_REPLACEMENTS_MAP'); es=re.findall(r'\((CODEPOINT_LONGNAME_\w+), \[(.*?), \]\.as_slice\(\)\)',b)
assert len(es)==b.count('CODEPOINT_')
def texts(t): return re.findall(r'"((?:[^"\\]|\\.)*)"',t)
def lchar(c): return {"'":"'\\''",'\\':"'\\\\'",'\n':"'\\n'"}.get(c,"'%s'"%c)
def unesc(t): return t.replace('\\n','\n').replace('\\"','"').replace('\\\\','\\')
o=[HEAD.rstrip('\n'),'namespace CodeParser\n','set_option maxRecDepth 100000\n']
o.append('/-- `ASCII_REPLACEMENTS_MAP`, %s:%d-%d. -/\ndef asciiReplacementTable : List (Nat × List (List Char)) := ['%(G,x,y))
o.append(',\n'.join('  (0x%x, [%s])'%(const[c],', '.join('['+', '.join(lchar(ch) for ch in unesc(t))+']' for t in texts(ts))) for c,ts in es)+']\n')
o.append('attribute [irreducible] asciiReplacementTable\n')
o.append('end CodeParser')
open(OUT+'AsciiReplacements.lean','w').write('\n'.join(o)+'\n')

# ---------------------------------------------------------------- precedences and parselet tables
src=read('generated/precedence_values.rs')
precs=[(m.group(1),int(m.group(2)),line_of(src,m.start(1))) for m in re.finditer(r'pub const (\w+): Precedence = Precedence::new\((\d+)\);',src)]
precv={n:v for n,v,_ in precs}
assert len(precv)==len(precs)
o=['import Verif.Model.Gen.TokenKind\nimport Verif.Model.Gen.Operators\n',HEAD,'namespace CodeParser\n']
o.append('/-! `Precedence` constants, generated/precedence_values.rs:%d-%d.  `Option<Precedence>` is a `Nat`\nwith `None` as 0 (`Precedence` is a `NonZeroU8`, precedence.rs:8). -/\nnamespace Prec'%(precs[0][2],precs[-1][2]))
for n,v,l in precs: o.append('def %s : Nat := %d'%(n,v))
o.append('end Prec\n')
src=read('parse/token_parselets.rs')
i=src.index('macro_rules! token_kind_to_prefix_parselet'); j=src.index('macro_rules! token_kind_to_infix_parselet')
def ptab(t):
    t=nocom(t); out=[]
    for m in re.finditer(r'((?:\|?\s*TK::\w+\s*)+)=>\s*\{?\s*(&[^\n]*?),\n',t):
        out.append((re.findall(r'TK::(\w+)',m.group(1)),m.group(2)))
    ks=[k for a,_ in out for k in a]
    assert len(ks)==len(set(ks)) and set(ks)<=set(names)
    # no arm of the table was missed
    assert len(re.findall(r'=>',t[t.index('match $kind'):]))-1==len(out), (len(re.findall(r'=>',t)),len(out))
    assert len(set(re.findall(r'TK::(\w+)',t)))==len(ks)
    return out
def prec(e):
    m=re.fullmatch(r'Precedence::(\w+)',e.strip()); return 'Prec.'+m.group(1)
def opr(e):
    m=re.fullmatch(r'\w+Operator::\s*(\w+)',e.strip())
    if not m: print('BAD',repr(e))
    return '.'+ident(m.group(1))
def args(v): return [a for a in re.search(r'::new\((.*)\)$',v).group(1).split(',')]
closer_of=dict()
def pre_ctor(v):
    f=re.match(r'&(\w+)',v).group(1)
    simple={'PrefixEndOfFileParselet':'eof','LeafParselet':'leaf','PrefixErrorParselet':'error','PrefixCloserParselet':'closer','PrefixCommaParselet':'comma','PrefixUnsupportedTokenParselet':'unsupported','SymbolParselet':'symbol','UnderDotParselet':'underDot','HashParselet':'hash','HashHashParselet':'hashHash','PercentParselet':'percent','SemiSemiParselet':'semiSemi','LessLessParselet':'lessLess','PrefixUnhandledParselet':'unhandled'}
    if f in simple: return '.'+simple[f]
    a=args(v)
    if f=='PrefixOperatorParselet': return '.op %s %s'%(prec(a[0]),opr(a[1]))
    if f=='GroupParselet': return '.group .%s %s'%(ident(re.fullmatch(r'TK::(\w+)',a[0].strip()).group(1)),opr(a[1]))
    if f=='UnderParselet': return '.under %s %s'%(opr(a[0]),opr(a[1]))
    if f=='IntegralParselet': return '.integral %s %s'%(opr(a[0]),opr(a[1]))
    raise Exception(v)
def inf_ctor(v):
    f=re.match(r'&(\w+)',v).group(1)
    simple={'InfixAssertFalseParselet':'assertFalse','InfixToplevelNewlineParselet':'toplevelNewline','InfixImplicitTimesParselet':'implicitTimes','InfixDifferentialDParselet':'differentialD','TimesParselet':'times','SemiParselet':'semi','CommaParselet':'comma','SemiSemiParselet':'semiSemi','TildeParselet':'tilde','ColonParselet':'colon','SlashColonParselet':'slashColon','EqualParselet':'equal','ColonEqualParselet':'colonEqual','ColonColonParselet':'colonColon','GreaterGreaterParselet':'greaterGreater','GreaterGreaterGreaterParselet':'greaterGreaterGreater'}
    if f in simple: return '.'+simple[f]
    if f=='CallParselet':
        m=re.fullmatch(r'&CallParselet::new\(GroupParselet::new\(TK::(\w+), GroupOperator::(\w+)\)\)',v)
        return '.call .%s .%s'%(ident(m.group(1)),ident(m.group(2)))
    a=args(v)
    if f=='BinaryOperatorParselet': return '.binary %s %s'%(prec(a[0]),opr(a[1]))
    if f=='InfixOperatorParselet': return '.infix %s %s'%(prec(a[0]),opr(a[1]))
    if f=='PostfixOperatorParselet': return '.postfix %s %s'%(prec(a[0]),opr(a[1]))
    raise Exception(v)
o.append('''/-- The implementors of `PrefixParselet`, parse/parselet.rs. -/
inductive PrefixParselet where
  | leaf | error | closer | eof | unsupported | comma | unhandled | symbol | underDot
  | hash | hashHash | percent | semiSemi | lessLess
  | op (prec : Nat) (op : PrefixOp)
  | group (opener : TK) (op : GroupOp)
  | under (blank patternBlank : CompoundOp)
  | integral (op1 : PrefixBinaryOp) (op2 : PrefixOp)
deriving DecidableEq, Repr

/-- The implementors of `InfixParselet`, parse/parselet.rs. -/
inductive InfixParselet where
  | assertFalse | toplevelNewline | implicitTimes | differentialD | times | semi | comma
  | semiSemi | tilde | colon | slashColon | equal | colonEqual | colonColon
  | greaterGreater | greaterGreaterGreater
  | binary (prec : Nat) (op : BinaryOp)
  | «infix» (prec : Nat) (op : InfixOp)
  | «postfix» (prec : Nat) (op : PostfixOp)
  | call (opener : TK) (op : GroupOp)
deriving DecidableEq, Repr
''')
def emit(nm,ty,what,a,b,default,ctor):
    tab=ptab(src[a:b])
    o.append('/-- `%s!`, parse/token_parselets.rs:%d-%d. -/\ndef TK.%s : TK → %s'%(what,line_of(src,a),line_of(src,b-1),nm,ty))
    for ks,v in tab:
        o.append(wrap(['| .'+ident(k) for k in ks],sep=' ')+'\n    => '+ctor(v))
    o.append('  | _ => .%s\n'%default)
emit('prefixParselet','PrefixParselet','token_kind_to_prefix_parselet',i,j,'unhandled',pre_ctor)
assert '_ => &PrefixUnhandledParselet {},' in src[i:j]
emit('infixParselet','InfixParselet','token_kind_to_infix_parselet',j,len(src),'implicitTimes',inf_ctor)
assert re.search(r'_ => \{\s*&InfixImplicitTimesParselet \{\}',src[j:])
o.append('end CodeParser')
open(OUT+'Parselets.lean','w').write('\n'.join(o)+'\n')
