import Verif.Model.Recover
import Verif.Spec.Reader
/-!
Independent specification of where recovery lets something end that is left open: at the
end of the last line with text before the next statement.
-/
namespace CodeParser.Spec

/-- The functions that a file of definitions calls at its top level. -/
def directiveNames : List String :=
  ["BeginPackage", "Begin", "Needs", "End", "EndPackage",
   "Clear", "ClearAll", "SetOptions", "SetAttributes",
   "System`Private`NewContextPath", "System`Private`RestoreContextPath",
   "Protect", "Unprotect", "Package", "PackageImport", "PackageScope", "PackageExport",
   "Get", "SetDelayed", "UpSetDelayed", "TagSetDelayed"]

/-- `=` and `:=`. -/
def Assigns (k : Tok) : Prop := k.kind = .Equal ∨ k.kind = .ColonEqual

/-- Comments of the form `(*:…`, with any number of openings and with blanks. -/
def Annotation (text : List Char) : Prop :=
  ∃ n blanks rest, text = (List.replicate n ['(', '*']).flatten ++ blanks ++ ':' :: rest ∧
    ∀ c ∈ blanks, isWhite c = true

/-- Tokens at the beginning of a line that are taken for the beginning of a statement. -/
inductive Begins : List Tok → Prop
  /-- `Begin[…` -/
  | directive {n o : Tok} {ts : List Tok} {name : String} (hn : n.kind = .Symbol) (ho : o.kind = .OpenSquare)
      (hd : name ∈ directiveNames) (ht : n.text = encode name.toList) : Begins (n :: o :: ts)
  /-- `f[…] = …`, `f[…] := …` -/
  | definition {n o a : Tok} {ts : List Tok} (hn : n.kind = .Symbol) (ho : o.kind = .OpenSquare)
      (ha : a ∈ ts) (h : Assigns a) : Begins (n :: o :: ts)
  /-- `x = …`, `x := …` -/
  | assignment {n a : Tok} {ts : List Tok} (hn : n.kind = .Symbol) (h : Assigns a) : Begins (n :: a :: ts)
  /-- `] = …`, `] := …` -/
  | closing {n a : Tok} {ts : List Tok} (hn : n.kind = .CloseSquare) (h : Assigns a) : Begins (n :: a :: ts)
  /-- `(* ::Section:: *)` -/
  | annotation {k : Tok} {ts : List Tok} {text : List Char} (hk : k.kind = .Comment) (ht : k.text = encode text)
      (h : Annotation text) : Begins (k :: ts)

/-- Blanks other than at the beginning of a line (comments are no blanks). -/
def inner (k : Tok) : Bool := k.kind.isTrivia && k.kind != .Comment && col k.start != 1

/-- The options a single line is read with: those that are the default. -/
def lineOptions (cfg : Cfg) : Cfg := { tabWidth := 4, pos := by decide, uniAlnum := cfg.uniAlnum }

/-- The line looks like the first one of a statement. -/
def NewStatement (cfg : Cfg) (line : List Char) : Prop :=
  ∃ ts, tokenize (lineOptions cfg) .lineColumn .notScript line = .ok ts ∧ Begins (ts.filter fun k => !inner k)

/-- Line `n` of a text, the first being line 1: what is on it, and its line end. -/
def lineAt (input : List Char) (n : Nat) : Option (List Char × List Char) := (splitLines input)[n - 1]?

/-- The column behind the characters of a line, tabs going to the next multiple of the
width of a tab. -/
def columnOf (tab : Nat) (cs : List Char) : Nat :=
  cs.foldl (fun col c => if c = '\t' then col + (tab - (col - 1) % tab) else col + 1) 1

/-- Something that begins on line `l` and that was found to be open at line `l'` is cut off
behind line `n`: the lines after `l` up to some line `e` begin no statement; line `e` is
the last one, or the following line begins a statement; and `n` is the last of
the lines up to `e` that is not empty. -/
structure CutAt (cfg : Cfg) (input : List Char) (l l' n e : Nat) : Prop where
  first : l ≤ n
  last : n ≤ e
  within : e ≤ l'
  real : ∃ x, lineAt input e = some x
  none' : ∀ m x, l < m → m ≤ e → lineAt input m = some x → ¬ NewStatement cfg x.1
  next : e = l' ∨ lineAt input (e + 1) = none ∨ ∃ x, lineAt input (e + 1) = some x ∧ NewStatement cfg x.1
  blank : ∀ m x, n < m → m ≤ e → lineAt input m = some x → x.1 = []
  text : ∃ x, lineAt input n = some x ∧ x.1 ≠ []

/-- What recovery makes of an unterminated token `k`: it keeps its beginning, ends behind the
last line with text before the next statement, and its text are the lines from there on,
but not the last one of several. -/
def CutOff (cfg : Cfg) (input : List Char) (k k' : Tok) : Prop :=
  ∃ l c l' c' n e x, k.start = .lineCol l c ∧ k.stop = .lineCol l' c' ∧
    k'.kind = k.kind ∧ k'.start = k.start ∧
    CutAt cfg input l l' n e ∧ lineAt input n = some x ∧ k'.stop = .lineCol n (columnOf cfg.tabWidth x.1) ∧
    ∃ before rest nl y, lineAt input l = some (before ++ rest, nl) ∧ columnOf cfg.tabWidth before = c ∧
      lineAt input (max l (n - 1)) = some y ∧
      encode (rest ++ nl ++ (((splitLines input).drop l).take (n - 1 - l)).flatMap fun z => z.1 ++ z.2) = k'.text ++ encode y.2

end CodeParser.Spec
