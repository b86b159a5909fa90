import Verif.Spec.FullForm
/-!
Independent specification of operators with their operands in parentheses.
-/
namespace CodeParser.Spec

/-- The operators between two operands, and the symbols they stand for.  Left out are those that do not
stand for one symbol: `a-b`, `a/b`, `f@x` and `x//f`, which are below, and `a@@@b`, where it depends on a setting. -/
def operatorsBetween : List (String × String) :=
  [(":=", "SetDelayed"), (":>", "RuleDelayed"), ("=", "Set"), ("<->", "TwoWayRule"), ("->", "Rule"), ("-=", "SubtractFrom"),
   ("|->", "Function"), ("?", "PatternTest"), ("/@", "Map"), ("/;", "Condition"), ("/.", "ReplaceAll"), ("//.", "ReplaceRepeated"),
   ("//@", "MapAll"), ("//=", "ApplyTo"), ("/=", "DivideBy"), ("@@", "Apply"), ("+=", "AddTo"), ("*=", "TimesBy"), ("^", "Power"),
   ("^=", "UpSet"), ("^:=", "UpSetDelayed"), (".", "Dot"), ("==", "Equal"), ("===", "SameQ"), ("=!=", "UnsameQ"), ("<", "Less"),
   ("<>", "StringJoin"), ("<=", "LessEqual"), (">", "Greater"), (">=", "GreaterEqual"), ("|", "Alternatives"), ("||", "Or"),
   ("&&", "And"), ("~~", "StringExpression"), ("!=", "Unequal"), ("/*", "RightComposition"), ("@*", "Composition"), ("+", "Plus"),
   ("*", "Times"), ("**", "NonCommutativeMultiply")]

/-- The operators before one operand; left out are signs and `!!`, which are below. -/
def operatorsBefore : List (String × String) := [("!", "Not"), ("++", "PreIncrement"), ("--", "PreDecrement")]

/-- The operators behind one operand; left out are primes. -/
def operatorsBehind : List (String × String) :=
  [("..", "Repeated"), ("...", "RepeatedNull"), ("--", "Decrement"), ("&", "Function"), ("!", "Factorial"), ("!!", "Factorial2"),
   ("++", "Increment")]

/-- The text in parentheses. -/
def parens (t : List UInt8) : List UInt8 := byte '(' :: (t ++ [byte ')'])

/-- The expression behind a minus sign: a number gets the sign, except for `0` and numbers that have one. -/
def Expr.negative : Expr → Expr
  | .leaf k t => if (k = .Integer ∨ k = .Real) ∧ t.head? ≠ some (byte '-') then negativeNumber (k, t) else opposite (.leaf k t)
  | e => opposite e

mutual
/-- `Notated e t`: the text `t` is the expression `e`, written with operators that have all of their
operands in parentheses; besides there are calls, lists in curly brackets, and more parentheses.  Calls
of the symbol the code has for commas are left out. -/
inductive Notated : Expr → List UInt8 → Prop
  | plain {e} : e.Writable → isComma e = false → Notated e e.text
  | inside {e t} : Notated e t → Notated e (parens t)
  | call {h as ts} : h.Writable → h.Head → isComma (.call h as) = false → NotatedAll as ts →
      Notated (.call h as) (h.text ++ byte '[' :: (ts ++ [byte ']']))
  | list {as ts} : NotatedAll as ts → Notated (.call (word "List") as) (byte '{' :: (ts ++ [byte '}']))
  | between {s name l r tl tr} : (s, name) ∈ operatorsBetween → Notated l tl → Notated r tr →
      Notated (.call (word name) [l, r]) (parens tl ++ (utf8 s.toList ++ parens tr))
  | minus {l r tl tr} : Notated l tl → Notated r tr → Notated (.call (word "Plus") [l, r.negative]) (parens tl ++ (utf8 "-".toList ++ parens tr))
  | divide {l r tl tr} : Notated l tl → Notated r tr →
      Notated (.call (word "Times") [l, .call (word "Power") [r, minusOne]]) (parens tl ++ (utf8 "/".toList ++ parens tr))
  | apply {f x tf tx} : isComma (.call f [x]) = false → Notated f tf → Notated x tx →
      Notated (.call f [x]) (parens tf ++ (utf8 "@".toList ++ parens tx))
  | applyBehind {f x tf tx} : isComma (.call f [x]) = false → Notated x tx → Notated f tf →
      Notated (.call f [x]) (parens tx ++ (utf8 "//".toList ++ parens tf))
  | steps {l r tl tr} : Notated l tl → Notated r tr →
      Notated (.call (word "CompoundExpression") [l, r]) (parens tl ++ (utf8 ";".toList ++ parens tr))
  | stop {e t} : Notated e t → Notated (.call (word "CompoundExpression") [e, word "Null"]) (parens t ++ utf8 ";".toList)
  | span {l r tl tr} : Notated l tl → Notated r tr → Notated (.call (word "Span") [l, r]) (parens tl ++ (utf8 ";;".toList ++ parens tr))
  | infix {l f r tl tf tr} : isComma (.call f [l, r]) = false → Notated l tl → Notated f tf → Notated r tr →
      Notated (.call f [l, r]) (parens tl ++ (utf8 "~".toList ++ (parens tf ++ (utf8 "~".toList ++ parens tr))))
  | tagSet {l m r tl tm tr} : Notated l tl → Notated m tm → Notated r tr →
      Notated (.call (word "TagSet") [l, m, r]) (parens tl ++ (utf8 "/:".toList ++ (parens tm ++ (utf8 "=".toList ++ parens tr))))
  | tagSetDelayed {l m r tl tm tr} : Notated l tl → Notated m tm → Notated r tr →
      Notated (.call (word "TagSetDelayed") [l, m, r]) (parens tl ++ (utf8 "/:".toList ++ (parens tm ++ (utf8 ":=".toList ++ parens tr))))
  | positive {e t} : Notated e t → Notated (.call (word "Plus") [e]) (utf8 "+".toList ++ parens t)
  | notNot {e t} : Notated e t → Notated (.call (word "Not") [.call (word "Not") [e]]) (utf8 "!!".toList ++ parens t)
  | negative {e t} : Notated e t → Notated e.negative (utf8 "-".toList ++ parens t)
  | before {s name e t} : (s, name) ∈ operatorsBefore → Notated e t → Notated (.call (word name) [e]) (utf8 s.toList ++ parens t)
  | behind {s name e t} : (s, name) ∈ operatorsBehind → Notated e t → Notated (.call (word name) [e]) (parens t ++ utf8 s.toList)
/-- The expressions, with commas between them. -/
inductive NotatedAll : List Expr → List UInt8 → Prop
  | none : NotatedAll [] []
  | one {e t} : Notated e t → NotatedAll [e] t
  | more {e t e' es ts} : Notated e t → NotatedAll (e' :: es) ts → NotatedAll (e :: e' :: es) (t ++ byte ',' :: byte ' ' :: ts)
end

/-- The text begins with a sign. -/
def signed (t : List UInt8) : Bool := t.head? == some (byte '-') || t.head? == some (byte '+')

/-- Texts of expressions, each on a line of its own. -/
def notatedLines (crlf : Bool) (xs : List (Expr × List UInt8)) : List UInt8 := xs.flatMap fun x => x.2 ++ lineEnd crlf

end CodeParser.Spec
