import Verif.Spec.Meaning
/-!
Independent specification of full form: every expression is a name, a number, a string or a call
`f[x, y]`, and these are written as they are.
-/
namespace CodeParser.Spec

/-- A character inside of a string: quotation marks and backslashes have a backslash in front of them. -/
def escaped (c : Char) : List Char := if c = '"' ∨ c = '\\' then ['\\', c] else [c]

/-- How the string that contains the characters `s` is written. -/
def quoted (s : List Char) : List Char := '"' :: (s.flatMap escaped ++ ['"'])

/-- A segment of a name: a letter, of any alphabet, followed by letters and digits. -/
def Word (cs : List Char) : Prop := ∃ c q, cs = c :: q ∧ Letter (ch c) ∧ ∀ x ∈ q, Letter (ch x) ∨ Digit (ch x)

/-- A name with letters of any alphabet, possibly with contexts. -/
inductive WideName : List Char → Prop
  | plain {seg segs} : Word seg → (∀ s ∈ segs, Word s) → WideName (seg ++ contexts segs)
  | relative {segs} : segs ≠ [] → (∀ s ∈ segs, Word s) → WideName (contexts segs)

/-- A name, other than those that stand for another symbol, like `π`, a number, or a string of any characters but the byte order mark, and its text. -/
inductive PlainAtom : TK → List UInt8 → Prop
  | name {n} : Name n → PlainAtom .Symbol (bytes n)
  | word {n} : WideName n → BOM ∉ n → constant (encode n) = none → PlainAtom .Symbol (encode n)
  | number {l : Literal} : l.Valid → ¬ l.badDigits → PlainAtom l.kind (bytes l.text)
  | string {s : List Char} : BOM ∉ s → PlainAtom .String (encode (quoted s))

/-- An integer or real number with a minus sign; `-0` is not one. -/
inductive Negative : TK → List UInt8 → Prop
  | mk {l : Literal} : l.Valid → l.kind = .Integer ∨ l.kind = .Real → l.text ≠ ['0'] → Negative l.kind (byte '-' :: bytes l.text)

/-- What can be in front of square brackets: anything but a number with a minus sign. -/
def Expr.Head : Expr → Prop
  | .leaf k t => PlainAtom k t
  | _ => True

mutual
/-- The expression can be written in full form.  Left out is a call of ``CodeParser`Comma``, the
symbol the code has for commas, that is the only argument of a call. -/
def Expr.Writable : Expr → Prop
  | .leaf k t => PlainAtom k t ∨ Negative k t
  | .call h as => h.Writable ∧ h.Head ∧ Expr.AllWritable as ∧ ∀ a, as = [a] → isComma a = false
  | .error => False
/-- All of the expressions can be written. -/
def Expr.AllWritable : List Expr → Prop
  | [] => True
  | e :: es => e.Writable ∧ Expr.AllWritable es
end

mutual
/-- The expression in full form. -/
def Expr.text : Expr → List UInt8
  | .leaf _ t => t
  | .call h as => h.text ++ byte '[' :: (Expr.texts as ++ [byte ']'])
  | .error => []
/-- Expressions with commas between them. -/
def Expr.texts : List Expr → List UInt8
  | [] => []
  | e :: es => match es with
    | [] => e.text
    | _ :: _ => e.text ++ byte ',' :: byte ' ' :: Expr.texts es
end

/-- The end of a line: a line feed or, with `crlf`, a carriage return and a line feed. -/
def lineEnd (crlf : Bool) : List UInt8 := if crlf then [byte '\r', byte '\n'] else [byte '\n']

/-- Expressions in full form, each on a line of its own. -/
def Expr.lines (crlf : Bool) (es : List Expr) : List UInt8 := es.flatMap fun e => e.text ++ lineEnd crlf

/-! ### White space and comments -/

/-- White space and comments; `g` says whether it is inside of brackets, where there may be line breaks. -/
inductive Gap (g : Bool) : List UInt8 → Prop
  | none : Gap g []
  | space {w} : Gap g w → Gap g (byte ' ' :: w)
  | tab {w} : Gap g w → Gap g (byte '\t' :: w)
  | newline {w crlf} : g = true → Gap g w → Gap g (lineEnd crlf ++ w)
  | comment {body w} : commentEnd 1 body = some [] → Gap g w → Gap g (byte '(' :: byte '*' :: body ++ w)

mutual
/-- `Spelled g e t`: the text `t` is the expression `e` in full form, with white space and comments
anywhere between its parts; `g` says whether it is inside of brackets. -/
inductive Spelled : Bool → Expr → List UInt8 → Prop
  | leaf {g k t} : PlainAtom k t ∨ Negative k t → Spelled g (.leaf k t) t
  | call {g h t w as ts} : Spelled g h t → h.Head → Gap g w → Arguments as ts → (∀ a, as = [a] → isComma a = false) →
      Spelled g (.call h as) (t ++ (w ++ byte '[' :: (ts ++ [byte ']'])))
/-- The text is the expressions, with commas between them. -/
inductive Arguments : List Expr → List UInt8 → Prop
  | none {w} : Gap true w → Arguments [] w
  | one {w e t w'} : Gap true w → Spelled true e t → Gap true w' → Arguments [e] (w ++ (t ++ w'))
  | more {w e t w' e' es ts} : Gap true w → Spelled true e t → Gap true w' → Arguments (e' :: es) ts →
      Arguments (e :: e' :: es) (w ++ (t ++ (w' ++ byte ',' :: ts)))
end

end CodeParser.Spec
