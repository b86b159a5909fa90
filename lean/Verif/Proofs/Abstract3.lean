import Verif.Model.Abstract
/-!
More steps of recursion do not change what abstraction gives (helper lemmas).
-/
namespace CodeParser.Abs

/-- `x` ran out of steps, or is the same as `y`. -/
def Le (x y : A α) : Prop := x = .error .fuel ∨ x = y

theorem Le.refl {x : A α} : Le x x := Or.inr rfl

theorem Le.bind {m m' : A α} {f f' : α → A β} (h : Le m m') (hf : ∀ a, Le (f a) (f' a)) : Le (m >>= f) (m' >>= f') := by
  rcases h with rfl | rfl
  · exact Or.inl rfl
  · cases m with
    | error e => exact Or.inr rfl
    | ok a => exact hf a

theorem Le.bind' {m : A α} {f f' : α → A β} (hf : ∀ a, Le (f a) (f' a)) : Le (m >>= f) (m >>= f') := Le.refl.bind hf

theorem Le.map {f f' : α → A β} : ∀ {as : List α}, (∀ a ∈ as, Le (f a) (f' a)) → Le (mapA f as) (mapA f' as)
  | [], _ => .refl
  | a :: as, h => by
    rw [mapA, mapA]
    rcases h a (by simp) with h1 | h1
    · exact Or.inl (by rw [h1])
    · rw [h1]
      cases f' a with
      | error e => exact .refl
      | ok b =>
        rcases Le.map (f := f) (f' := f') (as := as) fun a ha => h a (by simp [ha]) with h2 | h2
        · exact Or.inl (by rw [h2])
        · rw [h2]; exact .refl

section
variable {env : AEnv} {rec rec' : Req → A Ast} {cs : List Cst} {d : ASrc} (H : ∀ r, Le (rec r) (rec' r))
include H

macro "le" : tactic => `(tactic| repeat' first
  | exact Le.refl
  | (apply_assumption; done)
  | (apply Le.bind' ; intro _)
  | (apply Le.bind)
  | (apply Le.map)
  | (intro _)
  | split)

theorem recipAst_le {c : Cst} : Le (recipAst rec c d) (recipAst rec' c d) := by unfold recipAst; le

theorem operandAst_le {f : Cst → A Cst} {o : AOperand} : Le (operandAst rec f o) (operandAst rec' f o) := by
  have := fun c d => recipAst_le H (c := c) (d := d)
  cases o <;> unfold operandAst <;> le

theorem timesAst_le : Le (timesAst env rec cs d) (timesAst env rec' cs d) := by
  have := fun f o => operandAst_le H (f := f) (o := o)
  unfold timesAst; le

theorem divideAst_le {l r : Cst} : Le (divideAst env rec l r d) (divideAst env rec' l r d) := by
  have := fun f o => operandAst_le H (f := f) (o := o)
  have := fun c d => recipAst_le H (c := c) (d := d)
  unfold divideAst; le

theorem negatedAst_le {g : Negated} : Le (negatedAst env rec g d) (negatedAst env rec' g d) := by
  have := fun cs d => timesAst_le H (env := env) (cs := cs) (d := d)
  unfold negatedAst; le

theorem plusAst_le : Le (plusAst env rec cs d) (plusAst env rec' cs d) := by
  have := fun f o => operandAst_le H (f := f) (o := o)
  unfold plusAst; le

theorem quirkAst_le {name : List UInt8} {c : Cst} : Le (quirkAst env rec name c) (quirkAst env rec' name c) := by
  unfold quirkAst; le

theorem messageAst_le : Le (messageAst env rec cs d) (messageAst env rec' cs d) := by
  unfold messageAst; le

theorem inequalityLoop_le : ∀ {ps : List (Tok × Cst)} {a : Ast} {l : List (Sym × Ast)} {f : Option Bool},
    Le (inequalityLoop rec d ps a l f) (inequalityLoop rec' d ps a l f)
  | [], _, _, _ => .refl
  | p :: ps, a, l, f => by
    have ih := fun a l f => inequalityLoop_le (ps := ps) (a := a) (l := l) (f := f)
    unfold inequalityLoop; le

theorem inequalityAst_le : Le (inequalityAst rec cs d) (inequalityAst rec' cs d) := by
  have := fun ps a l f => inequalityLoop_le H (d := d) (ps := ps) (a := a) (l := l) (f := f)
  unfold inequalityAst; le

theorem tildeRest_le : ∀ {cs : List Cst} {d : AMeta} {a : Ast}, Le (tildeRest rec d a cs) (tildeRest rec' d a cs)
  | [], _, _ => by unfold tildeRest; le
  | [m], _, _ => by unfold tildeRest; le
  | [m, r], _, _ => by unfold tildeRest; le
  | m :: r :: x :: rest, _, _ => by
    have ih := fun d a => tildeRest_le (cs := x :: rest) (d := d) (a := a)
    unfold tildeRest; le

theorem tildeAst_le {d : AMeta} : Le (tildeAst rec d cs) (tildeAst rec' d cs) := by
  have := fun cs d a => tildeRest_le H (cs := cs) (d := d) (a := a)
  unfold tildeAst; le

theorem groupArgs_le : Le (groupArgs rec cs) (groupArgs rec' cs) := by unfold groupArgs; le

theorem groupAst_le : Le (groupAst rec cs) (groupAst rec' cs) := by
  have := fun cs => groupArgs_le H (cs := cs)
  unfold groupAst; le

theorem missingAst_le : Le (missingAst rec cs) (missingAst rec' cs) := by
  have := fun cs => groupArgs_le H (cs := cs)
  unfold missingAst; le

theorem nakedAst_le {err : AbstractError} : Le (nakedAst rec err cs d) (nakedAst rec' err cs d) := by unfold nakedAst; le

theorem parenAst_le : Le (parenAst rec cs d) (parenAst rec' cs d) := by unfold parenAst; le

theorem compoundAst_le {op : CompoundOp} : Le (compoundAst env rec op cs d) (compoundAst env rec' op cs d) := by
  unfold compoundAst; le

theorem prefixAst_le {op : PrefixOp} : Le (prefixAst env rec op cs d) (prefixAst env rec' op cs d) := by
  unfold prefixAst; le

theorem postfixAst_le {op : PostfixOp} : Le (postfixAst rec op cs d) (postfixAst rec' op cs d) := by
  unfold postfixAst; le

theorem binaryAst_le {op : BinaryOp} : Le (binaryAst env rec op cs d) (binaryAst env rec' op cs d) := by
  have := fun l r d => divideAst_le H (env := env) (l := l) (r := r) (d := d)
  unfold binaryAst; le

theorem infixAst_le {op : InfixOp} : Le (infixAst env rec op cs d) (infixAst env rec' op cs d) := by
  have := fun cs d => inequalityAst_le H (cs := cs) (d := d)
  have := fun cs d => plusAst_le H (env := env) (cs := cs) (d := d)
  have := fun cs d => timesAst_le H (env := env) (cs := cs) (d := d)
  have := fun cs d => messageAst_le H (env := env) (cs := cs) (d := d)
  have := fun cs d => tildeAst_le H (cs := cs) (d := d)
  have := fun n c => quirkAst_le H (env := env) (name := n) (c := c)
  unfold infixAst; le

theorem ternaryAst_le {op : TernaryOp} : Le (ternaryAst rec op cs d) (ternaryAst rec' op cs d) := by
  unfold ternaryAst; le

theorem prefixBinaryAst_le {op : PrefixBinaryOp} : Le (prefixBinaryAst rec op cs d) (prefixBinaryAst rec' op cs d) := by
  unfold prefixBinaryAst; le

theorem groupNodeAst_le {op : GroupOp} : Le (groupNodeAst rec op cs d) (groupNodeAst rec' op cs d) := by
  have := fun cs => groupAst_le H (cs := cs)
  have := fun cs d => parenAst_le H (cs := cs) (d := d)
  have := fun e cs d => nakedAst_le H (err := e) (cs := cs) (d := d)
  unfold groupNodeAst; le

theorem syntaxErrorAst_le {err : SyntaxErrorKind} : Le (syntaxErrorAst rec err cs d) (syntaxErrorAst rec' err cs d) := by
  unfold syntaxErrorAst; le

theorem callAst_le {h : Cst} {m : Bool} {op : CallOp} : Le (callAst rec h m op cs d) (callAst rec' h m op cs d) := by
  have := fun cs => groupAst_le H (cs := cs)
  have := fun cs => missingAst_le H (cs := cs)
  unfold callAst; le

theorem nodeAst_le {k : NodeKind} : Le (nodeAst env rec k cs d) (nodeAst env rec' k cs d) := by
  have := fun cs => missingAst_le H (cs := cs)
  have := fun cs => groupArgs_le H (cs := cs)
  cases k <;> unfold nodeAst
  · exact prefixAst_le H
  · exact infixAst_le H
  · exact postfixAst_le H
  · exact binaryAst_le H
  · exact ternaryAst_le H
  · exact prefixBinaryAst_le H
  · exact compoundAst_le H
  · exact groupNodeAst_le H
  · le
  · le
  · exact syntaxErrorAst_le H

theorem step_le {r : Req} : Le (step env rec r) (step env rec' r) := by
  have := fun g d => negatedAst_le H (env := env) (g := g) (d := d)
  have := fun k cs d => nodeAst_le H (env := env) (k := k) (cs := cs) (d := d)
  have := fun h m op cs d => callAst_le H (h := h) (m := m) (op := op) (cs := cs) (d := d)
  unfold step; le

end

theorem run_le {env : AEnv} : ∀ {n m : Nat}, n ≤ m → ∀ r, Le (run env n r) (run env m r)
  | 0, _, _, _ => Or.inl rfl
  | n + 1, 0, h, _ => by omega
  | n + 1, m + 1, h, r => by
    rw [run, run]
    exact step_le fun r => run_le (by omega) r

/-- What abstraction gives does not depend on how many steps are allowed. -/
theorem run_unique {env : AEnv} {n m : Nat} {r : Req} {a b : Ast} (h1 : run env n r = .ok a) (h2 : run env m r = .ok b) : a = b := by
  rcases Nat.le_total n m with h | h
  · rcases run_le h r (env := env) with h3 | h3
    · rw [h1] at h3; cases h3
    · rw [h1, h2] at h3; cases h3; rfl
  · rcases run_le h r (env := env) with h3 | h3
    · rw [h2] at h3; cases h3
    · rw [h1, h2] at h3; cases h3; rfl

end CodeParser.Abs
