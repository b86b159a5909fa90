import Verif.Props.Number
import Verif.Props.Tokenizer
/-!
The next token (helper definitions and lemmas for C47 and C57–C61).
-/
namespace CodeParser.Props
open CodeParser Spec

section
variable {cfg : Cfg} {g : Bool} {s t : St} {r : List UInt8} {E : Err → Prop}

theorem no_escape {bs : List UInt8} (h : byte '\\' ∉ bs) : ¬ HasSurrogateEscape bs := by
  rintro ⟨pre, r, rfl, -⟩
  exact h (by simp)

theorem stringEnd_body {body r : List UInt8} (h : byte '"' ∉ body) (h' : byte '\\' ∉ body) :
    stringEnd (body ++ byte '"' :: r) = some r := by
  induction body with
  | nil =>
    cases r with
    | nil => rfl
    | cons b r => simp [stringEnd]
  | cons a body ih =>
    have ih := ih (fun h1 => h (by simp [h1])) (fun h1 => h' (by simp [h1]))
    have ha : a ≠ byte '"' := fun e => h (by simp [e])
    have ha' : a ≠ byte '\\' := fun e => h' (by simp [e])
    obtain ⟨x, q, hq⟩ : ∃ x q, body ++ byte '"' :: r = x :: q := by
      cases body with
      | nil => exact ⟨_, _, rfl⟩
      | cons y body => exact ⟨_, _, rfl⟩
    rw [List.cons_append, hq]
    unfold stringEnd
    rw [if_neg ha, if_neg (fun h => ha' h.1), ← hq]
    exact ih

/-- The kind of the token of a lexeme: inside of brackets, a line break is not the end of an
expression. -/
def kindIn (g : Bool) (k : TK) : TK := if g = true ∧ k = .ToplevelNewline then .InternalNewline else k

theorem kindIn_false {k : TK} : kindIn false k = k := by simp [kindIn]

theorem kindIn_other {g : Bool} {k : TK} (h : k ≠ .ToplevelNewline) : kindIn g k = k := by simp [kindIn, h]

/-- The policy for looking at the next token, inside of brackets or not. -/
def polIn (pol : Pol) (g : Bool) : Pol := { pol with toplevel := pol.toplevel && !g }

/-- The kind of the token of a lexeme, with a policy: behind `#`, a name is a string. -/
def kindWith (pol : Pol) (g : Bool) (k : TK) : TK :=
  if k = .ToplevelNewline then (polIn pol g).newline else if k = .Symbol ∧ pol.insideSlot = true then .String else k

theorem kindWith_other {pol : Pol} {g : Bool} {k : TK} (h : k ≠ .ToplevelNewline) (h' : k ≠ .Symbol) : kindWith pol g k = k := by
  simp [kindWith, h, h']

theorem kindWith_top {g : Bool} {k : TK} : kindWith Pol.top g k = kindIn g k := by
  unfold kindWith kindIn
  by_cases h : k = .ToplevelNewline
  · subst h; cases g <;> rfl
  · rw [if_neg h, if_neg (fun h => by cases h.2), if_neg (fun h' => h h'.2)]

/-- The next token, with a policy, inside of brackets or not, has the kind and text. -/
def NextWith (cfg : Cfg) (pol : Pol) (g : Bool) (s : St) (k : TK) (text r : List UInt8) : Prop :=
  ∃ x t, peekTokenWith cfg pol g s = .ok (x, t) ∧ x.kind = k ∧ x.text = text ∧ x.after = r

/-- The next token, inside of brackets or not, has the kind and text. -/
def Next (cfg : Cfg) (g : Bool) (s : St) (k : TK) (text r : List UInt8) : Prop :=
  ∃ x t, peekToken cfg g s = .ok (x, t) ∧ x.kind = k ∧ x.text = text ∧ x.after = r

theorem next_of_gives {pol : Pol} {k : TK} {text : List UInt8} (h : wp (fun _ => False) (nextToken cfg (polIn pol g)) s (Gives s k text r)) :
    NextWith cfg pol g s k text r := by
  obtain ⟨x, t, u, h1, h2⟩ := peek_of_wp (pol := pol) (g := g) h
  exact ⟨x, t, h1, h2.kind, h2.text_eq, h2.after⟩

theorem next_single {pol : Pol} {b : UInt8} {k : TK} (h0 : s.eof = false) (hs : s.rest = b :: r) (hb : b.toNat < 128) (h92 : b ≠ byte '\\')
    (h13 : b.toNat ≠ 13) (hd : ∀ s, dispatch cfg (polIn pol g) s ⟨.char b.toNat, .none⟩ = tok k s) : NextWith cfg pol g s k [b] r := by
  have hwf : WF s := by intro h; rw [h0] at h; cases h
  refine next_of_gives (lex_start hwf hs hb h92 h13 fun t ht => ?_)
  rw [hd]
  exact lex_tok ht hs

theorem starts_notMem {x : Char} (h : byte x ∉ r) : ¬ Starts x r := by
  rintro ⟨q, rfl⟩
  exact h (by simp)

/-- The kinds of numbers. -/
def numberKind : TK → Bool
  | .Integer | .Real | .Rational | .Error_Number => true
  | _ => false

theorem literal_kind (l : Literal) : numberKind l.kind = true := by
  unfold Literal.kind
  repeat' split
  all_goals decide

end

end CodeParser.Props
