import Verif.Spec.Check
import Verif.Spec.Show
/-!
# Specification: what an issue says about the text, and what its code actions do

Used to state C70 to C73.  Texts are bytes; `Escapes` (Spec/Char.lean) is the grammar of escapes.
-/
namespace CodeParser.Spec
open CodeParser.Chk (Report Action)

/-- The bytes of a printable text that spells the character with the number `n` by an escape. -/
def Spells (text : List UInt8) (n : Nat) : Prop :=
  Printable text ∧ ∃ r p e, text = byte '\\' :: r ∧ value p = some n ∧ ∀ rest, Escapes (r ++ rest) p e rest

/-- Not a printable ASCII character, a tab or the end of a line. -/
def Unusual (n : Nat) : Prop := (n < 0x20 ∧ n ≠ 9 ∧ n ≠ 10 ∧ n ≠ 13) ∨ 0x7f ≤ n

/-- The text behind a backslash is no escape. -/
def NoEscape (r : List UInt8) : Prop := ∀ p e rest, ¬ Escapes r p e rest

/-- The bytes are the long name of a character. -/
def Named (name : List UInt8) : Prop := ∃ cs p, name = bytes cs ∧ (cs, p) ∈ longNameTable

/-- The action is about the span of the issue and removes or replaces the text there. -/
def InPlace (sp : Span) (a : Action) : Prop := a = .delete sp ∨ ∃ new, a = .replace sp new

/-- What a code action for a backslash that starts no escape does; `piece` is the text at the span `sp`
of the issue. -/
inductive Mends (piece : List UInt8) (sp : Span) : Action → Prop
  /-- the backslash is doubled -/
  | doubled : Mends piece sp (.replace sp (byte '\\' :: piece))
  /-- `\[Name` gets its closing bracket -/
  | closed {name} : Named name → piece = byte '\\' :: byte '[' :: name →
      Mends piece sp (.insert ⟨sp.stop, sp.stop⟩ [byte ']'])
  /-- `\Name]` gets its opening bracket behind the backslash, at the location `l` -/
  | opened {name l} : Named name → piece = byte '\\' :: (name ++ [byte ']']) → l = Chk.Loc.next sp.start →
      Mends piece sp (.insert ⟨l, l⟩ [byte '['])
  /-- a name that is not known is replaced by one that is -/
  | named {old name} : piece = byte '\\' :: byte '[' :: (old ++ [byte ']']) → ¬ Named old → Named name →
      Mends piece sp (.replace sp (byte '\\' :: byte '[' :: (name ++ [byte ']'])))
  /-- `\A` and `\a` get a text with places to fill in: `\[AXXX]`, `\:AXXX`, `\:axxx` -/
  | template {b new} : piece = [byte '\\', b] →
      new ∈ [bytes ['\\', '['] ++ [b] ++ bytes ['X', 'X', 'X', ']'], bytes ['\\', ':'] ++ [b] ++ bytes ['X', 'X', 'X'],
        bytes ['\\', ':'] ++ [b] ++ bytes ['x', 'x', 'x']] → Mends piece sp (.replace sp new)

/-- `Becomes piece sp a new`: applying the action `a` to a text with `piece` at `sp` puts `new` there. -/
inductive Becomes (piece : List UInt8) (sp : Span) : Action → List UInt8 → Prop
  | replace {new} : Becomes piece sp (.replace sp new) new
  | delete : Becomes piece sp (.delete sp) []
  /-- a text is inserted at the end of the piece -/
  | behind {new} : Becomes piece sp (.insert ⟨sp.stop, sp.stop⟩ new) (piece ++ new)
  /-- a text is inserted behind the first character of the piece, a backslash -/
  | inside {r l new} : piece = byte '\\' :: r → l = Chk.Loc.next sp.start → Becomes piece sp (.insert ⟨l, l⟩ new) (byte '\\' :: (new ++ r))

/-- The texts with places to fill in that are suggested for a backslash and a character. -/
def Template (piece new : List UInt8) : Prop :=
  ∃ b, piece = [byte '\\', b] ∧ new ∈ [bytes ['\\', '['] ++ [b] ++ bytes ['X', 'X', 'X', ']'],
    bytes ['\\', ':'] ++ [b] ++ bytes ['X', 'X', 'X'], bytes ['\\', ':'] ++ [b] ++ bytes ['x', 'x', 'x']]

/-- The text starts with the character, or with a backslash that starts another way of writing it. -/
def StartsWith (x : Char) (text : List UInt8) : Prop :=
  text.head? = some (byte x) ∨ text.head? = some (byte '\\')

/-- `Says before piece after i`: the issue `i` is justified by the text `piece` at its source, between
`before` and `after`, and its code actions are sound. -/
inductive Says (before piece after : List UInt8) : Report → Prop
  /-- a character beyond ASCII -/
  | nonASCII {c : Char} {g sp as} : piece = String.utf8EncodeChar c → 0x80 ≤ c.toNat → Spells g c.toNat →
      (∀ a ∈ as, InPlace sp a) → Says before piece after ⟨.enc, .nonASCIICharacter, .remark, sp, 100, .replace sp g :: as⟩
  /-- a control character or a character with a confusing meaning -/
  | strange {c : Char} {g sev sp as bs} : piece = String.utf8EncodeChar c → Unusual c.toNat → Spells g c.toNat →
      (∀ a ∈ as ++ bs, InPlace sp a) → sev = .remark ∨ sev = .warning →
      Says before piece after ⟨.enc, .unexpectedCharacter, sev, sp, 95, as ++ [.replace sp g] ++ bs⟩
  /-- a carriage return that is not part of CR LF -/
  | carriageReturn {sp} : piece = [] → before.getLast? = some 13 → after.head? ≠ some 10 →
      Says before piece after ⟨.enc, .unexpectedCarriageReturn, .warning, sp, 100, []⟩
  /-- bytes that encode no character -/
  | incomplete {sp} : piece ≠ [] → (∀ c : Char, piece ≠ String.utf8EncodeChar c) → (∀ b ∈ piece, 0x80 ≤ b.toNat) →
      Says before piece after ⟨.enc, .incompleteUTF8Sequence, .fatal, sp, 100, []⟩
  /-- a surrogate, encoded like a character -/
  | surrogate {a b sp} : piece = [0xed, a, b] → 0xa0 ≤ a.toNat ∧ a.toNat ≤ 0xbf → 0x80 ≤ b.toNat ∧ b.toNat ≤ 0xbf →
      Says before piece after ⟨.enc, .straySurrogate, .fatal, sp, 100, []⟩
  /-- a byte order mark -/
  | bom {sp} : piece = [0xef, 0xbb, 0xbf] → Says before piece after ⟨.enc, .bom, .fatal, sp, 100, []⟩
  /-- an escape for an unusual character -/
  | escaped {r n e sev sp conf as} : piece = byte '\\' :: r → Escapes (r ++ after) (.char n) e after → Unusual n →
      (∀ a ∈ as, InPlace sp a) → sev = .remark ∨ sev = .warning → conf = 85 ∨ conf = 95 →
      Says before piece after ⟨.syn, .unexpectedCharacter, sev, sp, conf, as⟩
  /-- `\<`, `\>`, `\b`, `\f` -/
  | oddEscape {x sp} : piece = [byte '\\', byte x] → x ∈ ['<', '>', 'b', 'f'] →
      Says before piece after ⟨.syn, .unexpectedCharacter, .remark, sp, 95, []⟩
  /-- a backslash that starts no escape -/
  | unhandled {r sp as} : piece = byte '\\' :: r → NoEscape (r ++ after) → (∀ a ∈ as, Mends piece sp a) →
      Says before piece after ⟨.syn, .unhandledCharacter, .fatal, sp, 100, as⟩
  /-- `\\[Name]` where the name is not known, so that the first backslash is probably too much -/
  | unrecognized {old sp as} : piece = byte '\\' :: byte '\\' :: byte '[' :: (old ++ [byte ']']) → ¬ Named old →
      (∀ a ∈ as, ∃ name, Named name ∧ a = .replace sp (byte '\\' :: byte '\\' :: byte '[' :: (name ++ [byte ']']))) →
      Says before piece after ⟨.syn, .unrecognizedLongName, .error, sp, 75, as⟩
  /-- a letter of a slot -/
  | slot {sp} : Says before piece after ⟨.syn, .undocumentedSlotSyntax, .warning, sp, 33, []⟩
  /-- a letter, a space or a newline that is easily mistaken for another one -/
  | confusable {tag sp conf as} : tag ∈ [.unexpectedLetterlikeCharacter, .unexpectedSpaceCharacter, .unexpectedNewlineCharacter] →
      conf = 80 ∨ conf = 85 ∨ conf = 95 → (∀ a ∈ as, InPlace sp a) → Says before piece after ⟨.syn, tag, .warning, sp, conf, as⟩
  /-- a character of a tag slot that is not a letter -/
  | tagSlot {sp} : Says before piece after ⟨.syn, .unexpectedCharacter, .warning, sp, 85, []⟩
  /-- a place where a space makes the text clearer -/
  | ambiguous {sp} : piece = [] → Says before piece after ⟨.fmt, .ambiguous, .formatting, sp, 100, [.insert sp [byte ' ']]⟩
  /-- `_..` -/
  | dot {sp} : piece = [] → StartsWith '.' after → Says before piece after ⟨.syn, .unexpectedDot, .error, sp, 95, [.insert sp [byte ' ']]⟩
  /-- `-->` -/
  | arrow {sp} : StartsWith '>' after → Says before piece after
      ⟨.syn, .ambiguous, .error, sp, 95, [.replace sp [byte '-'], .insert ⟨sp.stop, sp.stop⟩ [byte ' ']]⟩
  /-- `1.2.3` -/
  | implicitTimes {sp} : piece = [] → Says before piece after ⟨.syn, .unexpectedImplicitTimes, .error, sp, 99, [.insert sp [byte '*']]⟩
  /-- the sign of a precision -/
  | sign {sp} : piece = [] → StartsWith '-' after ∨ StartsWith '+' after → Says before piece after ⟨.syn, .unexpectedSign, .warning, sp, 95, []⟩

/-- A character that is reported wherever it occurs: not a printable ASCII character, a tab or the end of
a line, and not a vertical tab, a form feed or U+F3A2, which are spaces.  (The byte order mark counts as a
broken encoding.) -/
def Noticed (c : Char) : Prop := Unusual c.toNat ∧ c.toNat ∉ [0x0b, 0x0c, 0xf3a2] ∧ c ≠ BOM

/-- The issue is about a character that is not ASCII or confusing. -/
def aboutCharacter (i : Report) : Prop :=
  i.maker = .enc ∧ i.sev ≠ .fatal ∧ (i.tag = .nonASCIICharacter ∨ i.tag = .unexpectedCharacter)

/-- Every character of the text that is to be noticed has its issue: reading the text from `start` on, it
is read between the two locations of the issue. -/
def CharactersTold (cfg : Cfg) (text : List UInt8) (start : Loc) (told : Report → Prop) : Prop :=
  ∀ before c after l, text = before ++ (String.utf8EncodeChar c ++ after) →
    Moves cfg before (String.utf8EncodeChar c ++ after) start l → Noticed c →
    ∃ i, told i ∧ aboutCharacter i ∧ i.span.start = l ∧ Moves cfg (String.utf8EncodeChar c) after l i.span.stop

/-- Every place of the text where the bytes do not start with the encoding of a character, or start with
a byte order mark, has its issue. -/
def BreaksTold (cfg : Cfg) (text : List UInt8) (start : Loc) (told : Report → Prop) : Prop :=
  ∀ before rest l, text = before ++ rest → rest ≠ [] → Moves cfg before rest start l →
    (∀ c after, rest = String.utf8EncodeChar c ++ after → c = BOM) →
    ∃ i, told i ∧ aboutEncoding (.issue i) ∧ i.span.start = l

/-- The issue is justified by the text that reading from `start` on comes to at its source. -/
def Justified (cfg : Cfg) (text : List UInt8) (start : Loc) (i : Report) : Prop :=
  ∃ before piece after, text = before ++ piece ++ after ∧ Moves cfg before (piece ++ after) start i.span.start ∧
    Moves cfg piece after i.span.start i.span.stop ∧ Says before piece after i

end CodeParser.Spec
