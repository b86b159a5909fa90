import Verif.Model.Reader
import Verif.Model.Gen.LongNames
/-!
Model of long_names.rs: lookups in the generated, sorted tables.
-/
namespace CodeParser

/-- The loop of `slice::binary_search_by` between the indices `l` and `r`
(Rust's standard library; the toolchain is not pinned by the repository, so the
textbook version is modelled: probe the middle, go left or right, stop when
equal).  `n` bounds the number of probes. -/
def bsearchGo {α} (cmp : α → Ordering) (xs : List α) : Nat → Nat → Nat → Option Nat
  | 0, _, _ => none
  | n + 1, l, r =>
    if l < r then
      let mid := l + (r - l) / 2
      match xs[mid]? with
      | none => none
      | some a =>
        match cmp a with
        | .lt => bsearchGo cmp xs n (mid + 1) r
        | .gt => bsearchGo cmp xs n l mid
        | .eq => some mid
    else none

/-- `slice::binary_search_by`: the index of an element on which `cmp` gives
`Equal`, if the search finds one. -/
def bsearch {α} (cmp : α → Ordering) (xs : List α) : Option Nat :=
  bsearchGo cmp xs (xs.length + 1) 0 xs.length

/-- `str::cmp`: lexicographic comparison of the bytes. -/
def cmpBytes : List Nat → List Nat → Ordering
  | [], [] => .eq
  | [], _ :: _ => .lt
  | _ :: _, [] => .gt
  | a :: as, b :: bs => if a < b then .lt else if b < a then .gt else cmpBytes as bs

/-- `char::cmp`, `u32::cmp`. -/
def cmpNat (a b : Nat) : Ordering := if a < b then .lt else if b < a then .gt else .eq

/-- The bytes of a name (all names in the tables are ASCII). -/
def nameBytes (n : List Char) : List Nat := n.map Char.toNat

/-- `CodePoint::as_i32` for the special code points, read/code_point.rs:141-171,
shifted by 19 so that it is a natural number; `char` values are moved behind
them.  Comparing ranks is `CodePoint::cmp`, read/code_point.rs:84-97. -/
def CP.rank : CP → Nat
  | .char n => n + 19
  | .eof => 18
  | .linearSyntaxSpace => 16
  | .metaOpen => 15
  | .metaClose => 14
  | .metaDoubleQuote => 13
  | .metaBackslash => 12
  | .metaBackspace => 11
  | .metaFormFeed => 10
  | .metaLineFeed => 9
  | .metaCarriageReturn => 8
  | .metaTab => 7
  | .crlf => 6
  | .unsafe1 => 5
  | .unsafe2 => 4
  | .unsafe3 => 3
  | .contLF => 2
  | .contCR => 1
  | .contCRLF => 0

/-- `CodePoint::cmp`, read/code_point.rs:84-97. -/
def CP.cmp (a b : CP) : Ordering := cmpNat a.rank b.rank

/-- `longname_to_codepoint`, long_names.rs:47-60. -/
def longnameToCodepoint (name : List UInt8) : Option CP :=
  match bsearch (fun e => cmpBytes (nameBytes e.1) (name.map UInt8.toNat)) longNameTable with
  | none => none
  | some i => (longNameTable[i]?).map (·.2)

/-- `codepoint_to_longname`, long_names.rs:29-45. -/
def codepointToLongname (p : CP) : Option (List Char) :=
  match bsearch (fun e => e.1.cmp p) codePointNameTable with
  | none => none
  | some i => (codePointNameTable[i]?).map (·.2)

/-- `isRaw`, long_names.rs:62-65. -/
def isRaw (name : List UInt8) : Bool :=
  (bsearch (fun e => cmpBytes (nameBytes e) (name.map UInt8.toNat)) rawSet).isSome

/-- Membership test by binary search in a table of characters. -/
def charIn (table : List Nat) (p : CP) : Bool :=
  match p with
  | .char n => (bsearch (fun e => cmpNat e n) table).isSome
  | _ => false

/-- `isMBNotStrangeLetterlike`, long_names.rs:67-76. -/
def CP.isMBNotStrangeLetterlike (p : CP) : Bool := charIn mbNotStrangeLetterlikeTable p

/-- Whether `asciiReplacements` (long_names.rs:78-100) has an entry. -/
def CP.hasAsciiReplacement (p : CP) : Bool := charIn asciiReplacementKeys p

/-- `isMBPunctuation`, long_names.rs:118-125; read/wl_character.rs:709-711. -/
def CP.isMBPunctuation (p : CP) : Bool := charIn mbPunctuationTable p

/-- `isMBWhitespace`, long_names.rs:127-134, together with
`WLCharacter::isMBWhitespace`, read/wl_character.rs:689-707 (U+F3A2). -/
def CP.isMBWhitespace (p : CP) : Bool :=
  p == .char 0xf3a2 || charIn mbWhitespaceTable p

/-- `isMBNewline`, long_names.rs:136-139; read/wl_character.rs:683-687. -/
def CP.isMBNewline (p : CP) : Bool := (bsearch (fun e => e.cmp p) mbNewlineTable).isSome

/-- `isMBUninterpretable`, long_names.rs:141-150; read/wl_character.rs:713-715. -/
def CP.isMBUninterpretable (p : CP) : Bool := charIn mbUninterpretableTable p

/-- `LongNameCodePointToOperator`, generated/long_names_registration.rs:4223-end;
`none` is the panic "Need to add operator". -/
def longNameCodePointToOperator (c : Nat) : Option TK :=
  longNameOperatorTable.lookup c

end CodeParser
