import Verif.Model.Parser
/-!
Model of error.rs: the rewriting of unterminated tokens and groups, and with it of the
entry points `tokenize`, `tokenize_bytes`, `parse_cst_seq` and `parse_bytes_cst_seq`.

Line numbers refer to error.rs unless another file is named; paths are relative to
/repo/crates/wolfram-parser/src.  Simplifications common to the whole file: a `&str` is a
list of characters; counters are natural numbers (the `checked_add`s and `try_from`s that
fail on an input of 4 GB are not modelled); `debug_assert!`s are dropped (release build).
-/
namespace CodeParser

/-! ### Strings -/

/-- The number the first bytes of `bs` would stand for if they were the UTF-8 encoding of a
character. -/
def utf8Value : List UInt8 → Nat
  | [] => 0
  | b1 :: r =>
    let at' := fun i => (r.getD i 0).toNat % 0x40
    let n := b1.toNat
    if n < 0x80 then n
    else if n < 0xe0 then (n % 0x20) * 0x40 + at' 0
    else if n < 0xf0 then (n % 0x10) * 0x1000 + at' 0 * 0x40 + at' 1
    else (n % 0x8) * 0x40000 + at' 0 * 0x1000 + at' 1 * 0x40 + at' 2

/-- `std::str::from_utf8` with at most `n` characters. -/
def fromUtf8N : Nat → List UInt8 → Option (List Char)
  | _, [] => some []
  | 0, _ => none
  | n + 1, bs =>
    let c := Char.ofNat (utf8Value bs)
    let enc := String.utf8EncodeChar c
    if bs.take enc.length = enc then (fromUtf8N n (bs.drop enc.length)).map (c :: ·)
    else none

/-- `std::str::from_utf8` (used in parse.rs:1484, parse_cst.rs:180, lib.rs:413): the
characters `bs` encodes, `none` if it is not valid UTF-8. -/
def fromUtf8 (bs : List UInt8) : Option (List Char) := fromUtf8N bs.length bs

/-- `char::is_whitespace` of the Rust standard library (the Unicode property White_Space). -/
def isWhite (c : Char) : Bool :=
  let n := c.toNat
  inR 0x09 0x0d n || n == 0x20 || n == 0x85 || n == 0xa0 || n == 0x1680 || inR 0x2000 0x200a n
    || n == 0x2028 || n == 0x2029 || n == 0x202f || n == 0x205f || n == 0x3000

/-- `str::trim_start_matches("(*")`. -/
def trimOpeners : List Char → List Char
  | '(' :: '*' :: cs => trimOpeners cs
  | cs => cs

/-! ### Lines -/

/-- `Line`, 571-582. -/
structure Line where
  content : List Char
  newline : List Char
deriving DecidableEq, Repr, Inhabited

/-- `Line::split`, 584-591. -/
def Line.split (input : List Char) : List Line := (splitLines input).map fun l => ⟨l.1, l.2⟩

/-- `next_column`, 814-819, with `tab_next_column`, 821-830. -/
def nextColumn (cfg : Cfg) (column : Nat) (c : Char) : Nat :=
  if c = '\t' then cfg.tabWidth * ((column - 1) / cfg.tabWidth) + 1 + cfg.tabWidth else column + 1

/-- `line_column_width`, 801-812, = `Line::column_width`, 597-604. -/
def Line.width (cfg : Cfg) (l : Line) : Nat := l.content.foldl (nextColumn cfg) 1 - 1

/-- `Line::index_columns`, 606-639, with `char_indices_and_column_ranges`, 641-674: the part
of the line from the first character whose columns include `target`; `none` is the panic. -/
def indexColumns (cfg : Cfg) (target : Nat) : Nat → List Char → Option (List Char)
  | _, [] => none
  | column, c :: cs =>
    let next := nextColumn cfg column c
    if column ≤ target && target < next then some (c :: cs) else indexColumns cfg target next cs

/-- The length of a string in bytes (`StringLength`, 506-511). -/
def byteLength (cs : List Char) : Nat := (cs.flatMap String.utf8EncodeChar).length

/-- `lines_start_and_end_char_indexes`, 523-552. -/
def lineRanges : Nat → List Line → List (Line × CharacterSpan)
  | _, [] => []
  | i, l :: ls =>
    let j := i + byteLength l.content + byteLength l.newline
    (l, ⟨i, j⟩) :: lineRanges j ls

/-- The lines that intersect `src`, 243-254; the error is a failed assertion of
`intersection`. -/
def keepLines (src : CharacterSpan) : List (Line × CharacterSpan) → Except Err (List (Line × CharacterSpan))
  | [] => .ok []
  | (l, pos) :: ls =>
    match pos.intersects src with
    | none => .error (.panic .recovery)
    | some b =>
      match keepLines src ls with
      | .error e => .error e
      | .ok r => .ok (if b then (l, pos) :: r else r)

/-- Ask `isNew` about every line (the calls `split_into_chunks`, 359-363, makes, in order). -/
def askLines (isNew : List Char → Except Err Bool) : List Line → Except Err (List (Line × Bool))
  | [] => .ok []
  | l :: ls =>
    match isNew l.content with
    | .error e => .error e
    | .ok b =>
      match askLines isNew ls with
      | .error e => .error e
      | .ok r => .ok ((l, b) :: r)

/-- `split_into_chunks`, 359-363, and `chunks.iter().next().expect(..)`, 284-289: the first
chunk.  `split_by_pairs` asks about every line but the first, in order. -/
def firstChunk (isNew : List Char → Except Err Bool) : List Line → Except Err (List Line)
  | [] => .error (.panic .recovery)
  | l :: ls =>
    match askLines isNew ls with
    | .error e => .error e
    | .ok r =>
      match splitByPairs ((l, false) :: r) (fun _ right => !right.2) with
      | [] => .error (.panic .recovery)
      | c :: _ => .ok (c.map (·.1))

/-- The loop that looks for the last line that is not empty, 293-298, from line `i` on;
`none` is the panic when there is none. -/
def lastGood (ls : List Line) : Nat → Option Nat
  | 0 => if (ls.getD 0 default).content = [] then none else some 0
  | i + 1 => if (ls.getD (i + 1) default).content = [] then lastGood ls i else some (i + 1)

/-- `retain_range`, 554-562. -/
def retainRange {α} (l : List α) (start stop : Nat) : Except Err (List α) :=
  let l := l.take stop
  if start ≤ l.length then .ok (l.drop start) else .error (.panic .recovery)

/-- The lines `src` touches, 220-279, with the range of each if `src` is a range of
character indexes. -/
def linesOf (input : List Char) (src : Span) : Except Err (List Line × List CharacterSpan) :=
  match src.start, src.stop with
  | .lineCol l _, .lineCol l' _ =>
    match retainRange (Line.split input) (l - 1) (l' - 1 + 1) with
    | .error e => .error e
    | .ok ls => .ok (ls, [])
  | .index i, .index j =>
    match keepLines ⟨i, j⟩ (lineRanges 0 (Line.split input)) with
    | .error e => .error e
    | .ok ls => .ok (ls.map (·.1), ls.map (·.2))
  | _, _ => .error (.panic .recovery)

/-- `first_chunk_and_last_good_line`, 209-356. -/
def goodLines (cfg : Cfg) (isNew : List Char → Except Err Bool) (input : List Char) (src : Span) :
    Except Err (List Line × Nat × Span) :=
  match linesOf input src with
  | .error e => .error e
  | .ok (ls, ranges) =>
    match firstChunk isNew ls with
    | .error e => .error e
    | .ok chunk =>
      match lastGood chunk (chunk.length - 1) with
      | none => .error (.panic .recovery)
      | some i =>
        match src.start with
        | .lineCol l _ => .ok (chunk, i, ⟨src.start, .lineCol (l + i) ((chunk.getD i default).width cfg + 1)⟩)
        | .index _ => .ok (chunk, i, ⟨src.start, .index ((ranges.getD i ⟨0, 0⟩).stop + 1)⟩)

/-! ### Unterminated tokens -/

/-- `str[i..j]` on bytes; `none` is the panic: out of range, or not at the boundary of a
character. -/
def byteSlice (input : List Char) (i j : Nat) : Option (List Char) :=
  let bs := input.flatMap String.utf8EncodeChar
  if i ≤ j ∧ j ≤ bs.length then
    if (fromUtf8 (bs.take i)).isSome && (fromUtf8 (bs.take j)).isSome then fromUtf8 ((bs.take j).drop i)
    else none
  else none

/-- Whole lines with their newlines, but without the newline of the last. -/
def joinLines : List Line → List Char
  | [] => []
  | [l] => l.content
  | l :: ls => l.content ++ l.newline ++ joinLines ls

/-- The text of the rewritten token, 148-186. -/
def betterText (cfg : Cfg) (input : List Char) (chunk : List Line) (last : Nat) (better : Span) :
    Except Err (List Char) :=
  match better.start, better.stop with
  | .lineCol _ c, .lineCol _ _ =>
    match chunk with
    | [] => .error (.panic .recovery)
    | l :: ls =>
      match indexColumns cfg c 1 l.content with
      | none => .error (.panic .recovery)
      | some text =>
        -- `first_chunk[1..last]`, 157-163
        if 1 < chunk.length ∧ last < 1 then .error (.panic .recovery)
        else .ok (joinLines (⟨text, l.newline⟩ :: ls.take (last - 1)))
  | .index i, .index j =>
    match byteSlice input (i - 1) (j - 1) with
    | none => .error (.panic .recovery)
    | some text => .ok text
  | _, _ => .error (.panic .recovery)

/-- `reparse_unterminated_token_error_node`, 129-191.  The field `after` of a token is not part of the program's
tokens; it is left alone. -/
def fixTok (cfg : Cfg) (isNew : List Char → Except Err Bool) (input : List Char) (t : Tok) : Except Err Tok :=
  match goodLines cfg isNew input ⟨t.start, t.stop⟩ with
  | .error e => .error e
  | .ok (chunk, last, better) =>
    match betterText cfg input chunk last better with
    | .error e => .error e
    | .ok text => .ok { t with text := text.flatMap String.utf8EncodeChar, start := better.start, stop := better.stop }

/-- The condition under which a token is rewritten, 27, 47. -/
def Tok.unterminated (t : Tok) : Bool := t.kind.isError && t.kind.isUnterminated

/-- `reparse_unterminated_tokens`, 36-54. -/
def fixToks (cfg : Cfg) (isNew : List Char → Except Err Bool) (input : List Char) : List Tok → Except Err (List Tok)
  | [] => .ok []
  | t :: ts =>
    match (if t.unterminated then fixTok cfg isNew input t else .ok t) with
    | .error e => .error e
    | .ok t' =>
      match fixToks cfg isNew input ts with
      | .error e => .error e
      | .ok ts' => .ok (t' :: ts')

/-- The result of `tokenize_bytes`, lib.rs:385-422, given what decides whether a line starts
a new statement: tokens, or the encoding error. -/
def tokenizeBytesWith (isNew : List Char → Except Err Bool) (cfg : Cfg) (conv : Conv) (first : FirstLine)
    (bs : List UInt8) : Except Err (Except Unsafe (List Tok)) :=
  match tokens cfg conv first bs with
  | .error e => .error e
  | .ok (ts, s) =>
    match s.flag with
    | some f => .ok (.error f)
    | none =>
      match fromUtf8 bs with
      | none => .ok (.ok ts)
      | some input =>
        match fixToks cfg isNew input ts with
        | .error e => .error e
        | .ok ts => .ok (.ok ts)

/-- `tokenize`, lib.rs:376-382. -/
def tokenizeWith (isNew : List Char → Except Err Bool) (cfg : Cfg) (conv : Conv) (first : FirstLine)
    (input : List Char) : Except Err (List Tok) :=
  match tokenizeBytesWith isNew cfg conv first (input.flatMap String.utf8EncodeChar) with
  | .error e => .error e
  | .ok (.error _) => .error (.panic .encoding)
  | .ok (.ok ts) => .ok ts

/-! ### New statements -/

/-- `is_top_level_directive`, 470-495. -/
def directives : List (List Char) :=
  ["BeginPackage".toList, "Begin".toList, "Needs".toList, "End".toList, "EndPackage".toList,
   "Clear".toList, "ClearAll".toList, "SetOptions".toList, "SetAttributes".toList,
   "System`Private`NewContextPath".toList, "System`Private`RestoreContextPath".toList,
   "Protect".toList, "Unprotect".toList, "Package".toList, "PackageImport".toList,
   "PackageScope".toList, "PackageExport".toList, "Get".toList, "SetDelayed".toList,
   "UpSetDelayed".toList, "TagSetDelayed".toList]

/-- `matches!(tok.tok, TokenKind::Equal | TokenKind::ColonEqual)`, 416-419. -/
def isAssign (t : Tok) : Bool := t.kind == .Equal || t.kind == .ColonEqual

/-- The filter on the tokens of a line, 375-391. -/
def keepsTok (t : Tok) : Bool :=
  if t.kind = .Comment then true
  else if t.kind.isTrivia then
    match t.start with
    | .lineCol _ c => c == 1
    | .index i => i == 0
  else true

/-- The text of a token as a string (`as_str`, source.rs:89-92). -/
def Tok.str (t : Tok) : Except Err (List Char) :=
  match fromUtf8 t.text with
  | some cs => .ok cs
  | none => .error (.panic .recovery)

/-- The `match` of `is_new_statement_line`, 393-467. -/
def statementToks : List Tok → Except Err Bool
  | [] => .ok false
  | t :: ts =>
    match t.kind, ts with
    | .Symbol, t' :: rest =>
      if t'.kind = .OpenSquare then
        match t.str with
        | .error e => .error e
        | .ok name => .ok (directives.contains name || rest.any isAssign)
      else .ok (isAssign t')
    | .CloseSquare, t' :: _ => .ok (isAssign t')
    | .Comment, _ =>
      match t.str with
      | .error e => .error e
      | .ok text => .ok (((trimOpeners text).dropWhile isWhite).head? == some ':')
    | _, _ => .ok false

/-- The options of the nested call of `tokenize`, 372, `ParseOptions::default()`,
lib.rs:292-304. -/
def Cfg.nested (cfg : Cfg) : Cfg := { tabWidth := 4, pos := by decide, uniAlnum := cfg.uniAlnum }

/-- `is_new_statement_line`, 367-468, given what its call of `tokenize` asks about further
lines. -/
def isStatementWith (isNew : List Char → Except Err Bool) (cfg : Cfg) (line : List Char) : Except Err Bool :=
  match tokenizeWith isNew cfg.nested .lineColumn .notScript line with
  | .error e => .error e
  | .ok ts => statementToks (ts.filter keepsTok)

/-- `is_new_statement_line`, 367-468.  The nested call of `tokenize` gets a single line, so it
never asks about another one; the error standing for that question is proved never to
happen. -/
def isStatement (cfg : Cfg) : List Char → Except Err Bool :=
  isStatementWith (fun _ => .error .fuel) cfg

/-! ### The entry points -/

/-- `tokenize_bytes`, lib.rs:385-422. -/
def tokenizeBytes (cfg : Cfg) (conv : Conv) (first : FirstLine) (bs : List UInt8) :
    Except Err (Except Unsafe (List Tok)) :=
  tokenizeBytesWith (isStatement cfg) cfg conv first bs

/-- `tokenize`, lib.rs:376-382. -/
def tokenize (cfg : Cfg) (conv : Conv) (first : FirstLine) (input : List Char) : Except Err (List Tok) :=
  tokenizeWith (isStatement cfg) cfg conv first input

/-- The tokens overlapping `better`, 84-99. -/
def keepLeaves (better : Span) : List Tok → Except Err (List Cst)
  | [] => .ok []
  | t :: ts =>
    match better.overlaps ⟨t.start, t.stop⟩ with
    | none => .error (.panic .recovery)
    | some b =>
      match keepLeaves better ts with
      | .error e => .error e
      | .ok r => .ok (if b then .tok t :: r else r)

/-- `NodeSeq::get_source`, cst.rs:338-346. -/
def sourceOf (cs : List Cst) : Except Err Span :=
  match cs with
  | [] => .error (.panic .recovery)
  | c :: _ =>
    match c.start, Cst.stopL cs with
    | some a, some b =>
      match Span.new a b with
      | some sp => .ok sp
      | none => .error (.panic .span)
    | _, _ => .error (.panic .recovery)

/-- `reduce_unterminated_group`, parse.rs:1484-1486, and `reparse_unterminated_group_node`,
64-120: the children of the rewritten group. -/
def recoverGroup (cfg : Cfg) (bs : List UInt8) (_op : GroupOp) (cs : List Cst) : Except Err (List Cst) :=
  match fromUtf8 bs with
  | none => .error (.panic .utf8)
  | some input =>
    match sourceOf cs with
    | .error e => .error e
    | .ok src =>
      match goodLines cfg (isStatement cfg) input src with
      | .error e => .error e
      | .ok (_, _, better) => keepLeaves better (Cst.leavesL cs)

mutual
/-- `reparse_unterminated`, 17-34, on one tree. -/
def fixCst (cfg : Cfg) (isNew : List Char → Except Err Bool) (input : List Char) : Cst → Except Err Cst
  | .tok t =>
    match (if t.unterminated then fixTok cfg isNew input t else .ok t) with
    | .error e => .error e
    | .ok t' => .ok (.tok t')
  | .node k cs =>
    match fixCsts cfg isNew input cs with
    | .error e => .error e
    | .ok cs' => .ok (.node k cs')
  | .call h m op b =>
    match fixCsts cfg isNew input h with
    | .error e => .error e
    | .ok h' =>
      match fixCsts cfg isNew input b with
      | .error e => .error e
      | .ok b' => .ok (.call h' m op b')
  | .callAgg h m op b =>
    match fixCst cfg isNew input h with
    | .error e => .error e
    | .ok h' =>
      match fixCsts cfg isNew input b with
      | .error e => .error e
      | .ok b' => .ok (.callAgg h' m op b')
  | .box k cs =>
    match fixCsts cfg isNew input cs with
    | .error e => .error e
    | .ok cs' => .ok (.box k cs')
  | .code n => .ok (.code n)
/-- `reparse_unterminated`, 17-34. -/
def fixCsts (cfg : Cfg) (isNew : List Char → Except Err Bool) (input : List Char) : List Cst → Except Err (List Cst)
  | [] => .ok []
  | c :: cs =>
    match fixCst cfg isNew input c with
    | .error e => .error e
    | .ok c' =>
      match fixCsts cfg isNew input cs with
      | .error e => .error e
      | .ok cs' => .ok (c' :: cs')
end

/-- `ParseResult`, lib.rs:200-216, without the issues and the tracked locations. -/
structure ParseResult where
  syntax' : List Cst
  unsafeEncoding : Option Unsafe
deriving Repr

/-- `parse_bytes_cst_seq`, lib.rs:500-505, = `parse::<ParseCst>`, parse.rs:94-112, with
`ParseCst::finish`, parse_cst.rs:167-189. -/
def parseBytesCst (cfg : Cfg) (conv : Conv) (first : FirstLine) (bs : List UInt8) : Except Err ParseResult :=
  match doParse ⟨cfg, recoverGroup cfg bs⟩ conv first bs with
  | .error e => .error e
  | .ok (cs, s) =>
    match fromUtf8 bs with
    | none => .ok ⟨cs, s.st.flag⟩
    | some input =>
      match fixCsts cfg (isStatement cfg) input cs with
      | .error e => .error e
      | .ok cs' => .ok ⟨cs', s.st.flag⟩

/-- `parse_cst_seq`, lib.rs:493-498. -/
def parseCst (cfg : Cfg) (conv : Conv) (first : FirstLine) (input : List Char) : Except Err ParseResult :=
  parseBytesCst cfg conv first (input.flatMap String.utf8EncodeChar)

end CodeParser
