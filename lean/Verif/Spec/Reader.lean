import Verif.Model.Reader
/-!
Independent specification of what reading source characters should do.
Uses only Lean's own notion of a Unicode scalar value (`Char`) and of its UTF-8
encoding (`String.utf8EncodeChar`), and counting functions on lists.
-/
namespace CodeParser.Spec

/-- The UTF-8 encoding of a sequence of scalar values (Lean core's encoder). -/
def encode (cs : List Char) : List UInt8 := cs.flatMap String.utf8EncodeChar

/-- U+FEFF, the byte order mark. -/
def BOM : Char := Char.ofNat 0xfeff

/-- The source characters a text consists of: every scalar value, except that
CR LF is one character. -/
def chars : List Char → List CP
  | [] => []
  | c :: cs =>
    match cs with
    | [] => [.char c.toNat]
    | d :: ds =>
      if c = '\r' ∧ d = '\n' then .crlf :: chars ds
      else .char c.toNat :: chars (d :: ds)

/-- Well-formed UTF-8. -/
def ValidUTF8 (bs : List UInt8) : Prop := ∃ cs : List Char, bs = encode cs

/-- A line terminator. -/
def isTerminator : CP → Bool
  | .char n => n == 10 || n == 13
  | .crlf => true
  | _ => false

/-- Reading `n` source characters one after the other, keeping each character
together with the bytes it consumed. -/
def readN (cfg : Cfg) : Nat → St → List (CP × List UInt8) × St
  | 0, s => ([], s)
  | n + 1, s =>
    let r := nextSource cfg s
    let consumed := s.rest.take (s.rest.length - r.2.rest.length)
    let q := readN cfg n r.2
    ((r.1, consumed) :: q.1, q.2)

/-- Reading source characters until end of file is reported (the end of file
itself is not included).  The first argument bounds the number of reads; that
`bs.length` reads always reach the end of file is part of the theorems. -/
def readAll (cfg : Cfg) : Nat → St → List (CP × List UInt8) × St
  | 0, s => ([], s)
  | n + 1, s =>
    let r := nextSource cfg s
    if r.1 = .eof then ([], r.2)
    else
      let consumed := s.rest.take (s.rest.length - r.2.rest.length)
      let q := readAll cfg n r.2
      ((r.1, consumed) :: q.1, q.2)

/-- The line of a line/column location. -/
def line : Loc → Nat
  | .lineCol l _ => l
  | .index _ => 0

/-- The column of a line/column location. -/
def col : Loc → Nat
  | .lineCol _ c => c
  | .index _ => 0

/-- Strict order on locations of the same convention: lexicographic on
line/column, numeric on indices. -/
def before : Loc → Loc → Prop
  | .lineCol l c, .lineCol l' c' => l < l' ∨ (l = l' ∧ c < c')
  | .index i, .index j => i < j
  | _, _ => False

end CodeParser.Spec
