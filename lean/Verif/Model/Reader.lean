/-
Model of the byte level of the reader: `Reader`, `ByteBuffer`, `ByteDecoder`
and the `SourceManager` that maintains source locations.

All paths below are relative to /repo/crates/wolfram-parser/src.
-/
namespace CodeParser

/-- `CodePoint`, read/code_point.rs:21-75.  `char` carries the number of a Unicode
scalar value (the code uses Rust's `char`; that every value the model puts there
is a scalar value is the theorem `Props.C01_scalar`). -/
inductive CP where
  | char (n : Nat)
  | eof
  | linearSyntaxSpace
  | metaOpen | metaClose | metaDoubleQuote | metaBackslash | metaBackspace
  | metaFormFeed | metaLineFeed | metaCarriageReturn | metaTab
  | crlf
  | unsafe1 | unsafe2 | unsafe3
  | contLF | contCR | contCRLF
deriving DecidableEq, Repr, Inhabited

/-- `UnsafeCharacterEncoding`, tokenize/tokenizer.rs:48-54. -/
inductive Unsafe where
  | incompleteUTF8Sequence | straySurrogate | bom
deriving DecidableEq, Repr, Inhabited

/-- `Location`, source.rs:413-417: a line/column pair or a 1-based character index.
Simplification: `NonZeroU32`/`u32` counters are natural numbers, so the
saturation of `non_zero_u32_incr` (utils.rs:576-584) at 2^32-1 is not modelled. -/
inductive Loc where
  | lineCol (line col : Nat)
  | index (i : Nat)
deriving DecidableEq, Repr, Inhabited

/-- The part of `ParseOptions` (lib.rs:282-290) the reader looks at: the tab width.
Simplification: `tab_width = 0` is excluded by the field `pos`; with it the
program divides by zero on the first tab character.
`uniAlnum` stands for Rust's `char::is_alphanumeric` on characters above U+007F
(a Unicode data table outside the repository); nothing is assumed about it. -/
structure Cfg where
  tabWidth : Nat
  pos : 0 < tabWidth
  uniAlnum : Nat → Bool := fun _ => false

/-- Default options: `tab_width: 4`, lib.rs:298 (`DEFAULT_TAB_WIDTH`, source.rs:367). -/
def Cfg.default : Cfg := { tabWidth := 4, pos := by decide }

/-- The mutable part of `Reader`, read.rs:24-60.  Instead of `input` and `offset`
the model keeps the not yet consumed suffix `rest = input[offset..]`.
`fatal_issues`/`non_fatal_issues` are modelled separately (Model/Issues.lean),
they are never read back by the reader. -/
structure St where
  rest : List UInt8
  loc : Loc
  eof : Bool
  flag : Option Unsafe
deriving DecidableEq, Repr, Inhabited

/-- `SourceConvention`, source.rs:351-357. -/
inductive Conv where
  | lineColumn | characterIndex
deriving DecidableEq, Repr

/-- `SourceConvention::newSourceLocation`, read/byte_decoder.rs:1135-1145. -/
def Conv.start : Conv → Loc
  | .lineColumn => .lineCol 1 1
  | .characterIndex => .index 1

/-- `Reader::new`, read.rs:76-103. -/
def St.init (conv : Conv) (input : List UInt8) : St :=
  { rest := input, loc := conv.start, eof := false, flag := none }

/-- `SourceManager::newline`, read/byte_decoder.rs:1149-1159. -/
def Loc.newline : Loc → Loc
  | .lineCol l _ => .lineCol (l + 1) 1
  | .index i => .index (i + 1)

/-- `SourceManager::windowsNewline`, read/byte_decoder.rs:1161-1171. -/
def Loc.windowsNewline : Loc → Loc
  | .lineCol l _ => .lineCol (l + 1) 1
  | .index i => .index (i + 2)

/-- `SourceManager::tab`, read/byte_decoder.rs:1173-1186. -/
def Loc.tab (cfg : Cfg) : Loc → Loc
  | .lineCol l c => .lineCol l (cfg.tabWidth * ((c - 1) / cfg.tabWidth) + 1 + cfg.tabWidth)
  | .index i => .index (i + 1)

/-- `SourceManager::increment`, read/byte_decoder.rs:1188-1195. -/
def Loc.increment : Loc → Loc
  | .lineCol l c => .lineCol l (c + 1)
  | .index i => .index (i + 1)

/-- `ByteBuffer_nextByte`, read/byte_buffer.rs:11-28. -/
def nextByte (s : St) : UInt8 × St :=
  match s.rest with
  | [] => (0xff, { s with eof := true })
  | b :: r => (b, { s with rest := r })

/-- `ByteBuffer_currentByte`, read/byte_buffer.rs:30-41. -/
def currentByte (s : St) : UInt8 :=
  match s.rest with
  | [] => 0xff
  | b :: _ => b

/-- `Reader::seek`, read.rs:221-234, for a mark taken by `Reader::mark`
(read.rs:211-217).  The encoding flag (and the issues) survive a seek. -/
def St.seek (s mark : St) : St :=
  { s with rest := mark.rest, loc := mark.loc, eof := mark.eof }

/-- `ByteDecoder_validStrange` (read/byte_decoder.rs:928-949) and
`ByteDecoder_validMB` (951-980): advance the location by one and return the
character; the rest of both functions only reports issues. -/
def validChar (n : Nat) (s : St) : CP × St :=
  (.char n, { s with loc := s.loc.increment })

/-- `ByteDecoder_incomplete1/2/3ByteSequence`, `ByteDecoder_straySurrogate`,
`ByteDecoder_bom`, read/byte_decoder.rs:982-1133: advance the location by one,
raise the encoding flag, return one of the "unsafe" characters. -/
def invalidChar (c : CP) (f : Unsafe) (s : St) : CP × St :=
  (c, { s with loc := s.loc.increment, flag := some f })

/-- The range test `lo <= n && n <= hi` used throughout the decoder. -/
def inR (lo hi n : Nat) : Bool := lo ≤ n && n ≤ hi

/-- The continuation-byte test `lo <= b && b <= hi`. -/
def inRange (lo hi : Nat) (b : UInt8) : Bool := inR lo hi b.toNat

/-- `utils::isStraySurrogate`, utils.rs:186-192. -/
def isStraySurrogate (n : Nat) : Bool := 0xd800 ≤ n && n ≤ 0xdfff

/-- Two byte sequences, read/byte_decoder.rs:198-245. -/
def decode2 (b1 : UInt8) (s : St) : CP × St :=
  let mark := s
  let (b2, s) := nextByte s
  if s.eof then invalidChar .unsafe1 .incompleteUTF8Sequence s
  else if !inRange 0x80 0xbf b2 then
    invalidChar .unsafe1 .incompleteUTF8Sequence (s.seek mark)
  else validChar ((b1.toNat % 0x20) * 0x40 + b2.toNat % 0x40) s

/-- Three byte sequences, read/byte_decoder.rs:249-326 (`E0`, second byte
`A0..BF`) and 330-427 (`E1..EF`, second byte `80..BF`).  The two arms of the
code differ in the bounds on the second byte and in that only the second one
tests for surrogates and for the byte order mark.  `x & 0x0f` etc. are written
`x % 0x10`, and the disjoint `|` of shifted values as a sum. -/
def decode3 (lo : Nat) (check : Bool) (b1 : UInt8) (s : St) : CP × St :=
  let mark := s
  let (b2, s) := nextByte s
  if s.eof then invalidChar .unsafe1 .incompleteUTF8Sequence s
  else if !inRange lo 0xbf b2 then
    invalidChar .unsafe1 .incompleteUTF8Sequence (s.seek mark)
  else
  let mark := s
  let (b3, s) := nextByte s
  if s.eof then invalidChar .unsafe2 .incompleteUTF8Sequence (s.seek mark)
  else if !inRange 0x80 0xbf b3 then
    invalidChar .unsafe2 .incompleteUTF8Sequence (s.seek mark)
  else
  let n := (b1.toNat % 0x10) * 0x1000 + (b2.toNat % 0x40) * 0x40 + b3.toNat % 0x40
  if check && isStraySurrogate n then invalidChar .unsafe3 .straySurrogate s
  else if check && n == 0xfeff then invalidChar .unsafe3 .bom s
  else validChar n s

/-- Four byte sequences, read/byte_decoder.rs:431-539 (`F0`, second byte
`90..BF`), 543-651 (`F1..F3`, `80..BF`), 655-762 (`F4`, `80..8F`). -/
def decode4 (lo hi : Nat) (b1 : UInt8) (s : St) : CP × St :=
  let mark := s
  let (b2, s) := nextByte s
  if s.eof then invalidChar .unsafe1 .incompleteUTF8Sequence s
  else if !inRange lo hi b2 then
    invalidChar .unsafe1 .incompleteUTF8Sequence (s.seek mark)
  else
  let mark := s
  let (b3, s) := nextByte s
  if s.eof then invalidChar .unsafe2 .incompleteUTF8Sequence (s.seek mark)
  else if !inRange 0x80 0xbf b3 then
    invalidChar .unsafe2 .incompleteUTF8Sequence (s.seek mark)
  else
  let mark := s
  let (b4, s) := nextByte s
  if s.eof then invalidChar .unsafe3 .incompleteUTF8Sequence (s.seek mark)
  else if !inRange 0x80 0xbf b4 then
    invalidChar .unsafe3 .incompleteUTF8Sequence (s.seek mark)
  else
  validChar ((b1.toNat % 0x8) * 0x40000 + (b2.toNat % 0x40) * 0x1000
    + (b3.toNat % 0x40) * 0x40 + b4.toNat % 0x40) s

/-- `ByteDecoder_nextSourceCharacter_uncommon`, read/byte_decoder.rs:105-799. -/
def nextSourceUncommon (cfg : Cfg) (s : St) : CP × St :=
  let (b, s) := nextByte s
  let n := b.toNat
  if n == 0x09 then (.char 0x09, { s with loc := s.loc.tab cfg })
  else if n == 0x0d then
    if (currentByte s).toNat == 0x0a then
      let (_, s) := nextByte s
      (.crlf, { s with loc := s.loc.windowsNewline })
    else (.char 0x0d, { s with loc := s.loc.newline })
  else if inR 0 0x1f n || n == 0x7f then validChar n s
  else if inR 0xc2 0xdf n then decode2 b s
  else if n == 0xe0 then decode3 0xa0 false b s
  else if inR 0xe1 0xef n then decode3 0x80 true b s
  else if n == 0xf0 then decode4 0x90 0xbf b s
  else if inR 0xf1 0xf3 n then decode4 0x80 0xbf b s
  else if n == 0xf4 then decode4 0x80 0x8f b s
  else if n == 0xff then
    if s.eof then (.eof, s) else invalidChar .unsafe1 .incompleteUTF8Sequence s
  else invalidChar .unsafe1 .incompleteUTF8Sequence s

/-- `ByteDecoder_nextSourceCharacter`, read/byte_decoder.rs:64-103
(= `Reader::next_source_char`, read.rs:161-166). -/
def nextSource (cfg : Cfg) (s : St) : CP × St :=
  let b := (currentByte s).toNat
  if inR 0x20 0x7e b then
    let (_, s) := nextByte s
    (.char b, { s with loc := s.loc.increment })
  else if b == 0x0a then
    let (_, s) := nextByte s
    (.char b, { s with loc := s.loc.newline })
  else nextSourceUncommon cfg s

/-- `Reader::peek_source_char`, read.rs:148-159. -/
def peekSource (cfg : Cfg) (s : St) : CP × St :=
  let mark := s
  let (c, s) := nextSource cfg s
  (c, s.seek mark)

end CodeParser
