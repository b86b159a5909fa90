import Verif.Model.Char
/-!
Model of how characters are displayed: byte_encoder.rs, `Display for SourceCharacter`
(source.rs:1297-1490) and `Display for WLCharacter` (read/wl_character.rs:161-371), as used in the
descriptions of issues and in the replacements that are offered.  `none` is a panic.
-/
namespace CodeParser

/-- `encodeBytes`, byte_encoder.rs:5-33. -/
def encodeBytes : CP → Option (List UInt8)
  | .char n => some (String.utf8EncodeChar (Char.ofNat n))
  | .crlf => some [13, 10]
  | .unsafe1 | .unsafe2 | .unsafe3 => some (String.utf8EncodeChar (Char.ofNat 0xfffd))
  | _ => none

/-- `fromDigit`, read/wl_character.rs:735-759; the digits of interest are the first sixteen. -/
def fromDigit (d : Nat) : Char :=
  ['0', '1', '2', '3', '4', '5', '6', '7', '8', '9', 'a', 'b', 'c', 'd', 'e', 'f'].getD d '!'

/-- The last `k` digits of a number, the most significant one first; what the repeated `i % 16` and
`i /= 16` of read/wl_character.rs:257-368 give. -/
def lastDigits (base : Nat) : Nat → Nat → List Nat
  | 0, _ => []
  | k + 1, i => lastDigits base k (i / base) ++ [i % base]

/-- What is written behind the backslash of `Escape::Single`, read/wl_character.rs:186-226, except for
the line continuation CR LF. -/
def singleChar : CP → Option Char
  | .metaBackspace => some 'b'
  | .metaFormFeed => some 'f'
  | .metaLineFeed => some 'n'
  | .metaCarriageReturn => some 'r'
  | .metaTab => some 't'
  | .metaOpen => some '<'
  | .metaClose => some '>'
  | .metaDoubleQuote => some '"'
  | .metaBackslash => some '\\'
  | .contLF => some '\n'
  | .contCR => some '\r'
  | .linearSyntaxSpace => some ' '
  | .char n =>
    if n = 0xf7c1 then some '!'
    else if n = 0xf7c5 then some '%'
    else if n = 0xf7c7 then some '&'
    else if n = 0xf7c9 then some '('
    else if n = 0xf7c0 then some ')'
    else if n = 0xf7c8 then some '*'
    else if n = 0xf7cb then some '+'
    else if n = 0xf7cc then some '/'
    else if n = 0xf7c2 then some '@'
    else if n = 0xf7c6 then some '^'
    else if n = 0xf7ca then some '_'
    else if n = 0xf7cd then some '`'
    else none
  | _ => none

/-- The replacement of the string meta characters in numeric escapes, read/wl_character.rs:247-255, and
`as_char().unwrap()`. -/
def numberOfCP : CP → Option Nat
  | .metaDoubleQuote => some 0x22
  | .metaBackslash => some 0x5c
  | .char n => some n
  | _ => none

/-- Several characters, each formatted with `src`. -/
def showAll (src : CP → Option (List UInt8)) : List Char → Option (List UInt8)
  | [] => some []
  | c :: cs => do
    let a ← src (ch c)
    let b ← showAll src cs
    return a ++ b

/-- A numeric escape: the backslash, its introducing character if it has one, and the digits,
read/wl_character.rs:245-368. -/
def showNumber (src : CP → Option (List UInt8)) (intro : List Char) (base k : Nat) (p : CP) :
    Option (List UInt8) := do
  let i ← numberOfCP p
  showAll src ('\\' :: (intro ++ (lastDigits base k i).map fromDigit))

/-- `Display for WLCharacter`, read/wl_character.rs:161-371; `src` is `format_char`. -/
def WLC.showWith (src : CP → Option (List UInt8)) (c : WLC) : Option (List UInt8) :=
  match c.escape with
  | .none | .raw => src c.point
  | .single =>
    if c.point = .contCRLF then showAll src ['\\', '\r', '\n']
    else do
      let x ← singleChar c.point
      showAll src ['\\', x]
  | .longName => do
    let name ← codepointToLongname c.point
    showAll src ('\\' :: '[' :: (name ++ [']']))
  | .octal => showNumber src [] 8 3 c.point
  | .hex2 => showNumber src ['.'] 16 2 c.point
  | .hex4 => showNumber src [':'] 16 4 c.point
  | .hex6 => showNumber src ['|'] 16 6 c.point

/-- The control characters that are formatted with two hexadecimal digits, source.rs:1435-1446: those
that have no escape of their own. -/
def isControlHex (n : Nat) : Bool :=
  inR 0 0x07 n || n == 0x0b || inR 0x0e 0x1a n || inR 0x1c 0x1f n || n == 0x7f || inR 0x80 0x9f n

/-- The code points of the linear syntax characters, source.rs:1398-1411. -/
def isLinearSyntax (n : Nat) : Bool := (singleChar (.char n)).isSome

/-- `Display for SourceCharacter` with the alternate flag, source.rs:1325-1489.  The fuel bounds the
nesting of the calls of `Display for WLCharacter` and of this function. -/
def graphicalGo : Nat → CP → Option (List UInt8)
  | 0, _ => none
  | f + 1, p =>
    let wl (q : CP) (e : Escape) := WLC.showWith (graphicalGo f) ⟨q, e⟩
    match p with
    | .metaDoubleQuote => wl .metaDoubleQuote .single
    | .metaBackslash => wl .metaBackslash .single
    | .crlf => do
      let a ← wl .metaCarriageReturn .single
      let b ← wl .metaLineFeed .single
      return a ++ b
    | .char n =>
      if n = 0x08 then wl .metaBackspace .single
      else if n = 0x0c then wl .metaFormFeed .single
      else if n = 0x09 then wl .metaTab .single
      else if n = 0x0a then wl .metaLineFeed .single
      else if n = 0x0d then wl .metaCarriageReturn .single
      else if isLinearSyntax n then wl (.char n) .single
      else if n = 0x1b then wl (.char n) .longName
      else if isControlHex n then wl (.char n) .hex2
      else if 0x7f < n && (codepointToLongname (.char n)).isSome then wl (.char n) .longName
      else if 0xffff < n then wl (.char n) .hex6
      else if 0xff < n then wl (.char n) .hex4
      else if 0x7f < n then wl (.char n) .hex2
      else encodeBytes (.char n)
    | _ => none

/-- `SourceCharacter::graphicalString`, source.rs:1278-1282: what is offered as a replacement of an
unexpected or non-ASCII character, read/byte_decoder.rs:829-836, 896-900. -/
def CP.graphical (p : CP) : Option (List UInt8) := graphicalGo 2 p

/-- `Display for SourceCharacter` without the flag, source.rs:1305-1313. -/
def CP.display (p : CP) : Option (List UInt8) := encodeBytes p

/-- `WLCharacter::to_string`, read/wl_character.rs:161-371. -/
def WLC.display (c : WLC) : Option (List UInt8) := c.showWith CP.display

/-- `WLCharacter::graphicalString`, read/wl_character.rs:374-382: how a character is named in the
descriptions of issues. -/
def WLC.graphical (c : WLC) : Option (List UInt8) := c.showWith CP.graphical

end CodeParser
