import Verif.Proofs.Stop2
/-!
Abstraction ends (helper lemmas): more fuel gives the same result.
-/
namespace CodeParser.Stop
open Abs Lean.Order

/-- Running out of fuel is below everything. -/
instance instOrder {α : Type} : PartialOrder (A α) := inferInstanceAs (PartialOrder (FlatOrder (.error .fuel : A α)))

instance instMono : MonoBind A where
  bind_mono_left {_ _ a b f} h := by
    cases h with
    | bot => exact FlatOrder.rel.bot
    | refl => exact FlatOrder.rel.refl
  bind_mono_right {_ _ a f g} h := by
    cases a with
    | error e => exact FlatOrder.rel.refl
    | ok a => exact h a

theorem mapA_eq {α β : Type} {f : α → A β} {a : α} {as : List α} : mapA f (a :: as) = (do let b ← f a; let bs ← mapA f as; .ok (b :: bs)) := by
  simp only [mapA]
  cases f a with
  | error e => rfl
  | ok b => cases mapA f as <;> rfl

@[partial_fixpoint_monotone]
theorem mapA_mono {γ α β : Type} [PartialOrder γ] {f : γ → α → A β} (hf : ∀ a, monotone fun x => f x a) {as : List α} : monotone fun x => mapA (f x) as := by
  induction as with
  | nil => exact monotone_const _
  | cons a as ih =>
    simp only [mapA_eq]
    have h1 := hf a
    repeat' first | assumption | monotonicity

section
variable {env : AEnv} {cs : List Cst} {c l r : Cst} {d : ASrc} {m : AMeta}

theorem recC_mono : monotone fun rec => recC rec c := fun _ _ h => h _

theorem recipAst_mono : monotone fun rec => recipAst rec c d := by
  unfold recipAst
  repeat' first | exact recC_mono | monotonicity

@[partial_fixpoint_monotone]
theorem recipAst_mono' {γ : Type} [PartialOrder γ] {g : γ → Req → A Ast} (hg : monotone g) :
    monotone fun x => recipAst (g x) c d := fun x y h => recipAst_mono _ _ (hg x y h)

theorem operandAst_mono {f : Cst → A Cst} {o : AOperand} : monotone fun rec => operandAst rec f o := by
  unfold operandAst
  repeat' first | exact recC_mono | monotonicity

@[partial_fixpoint_monotone]
theorem operandAst_mono' {γ : Type} [PartialOrder γ] {g : γ → Req → A Ast} (hg : monotone g) {f : Cst → A Cst} {o : AOperand} :
    monotone fun x => operandAst (g x) f o := fun x y h => operandAst_mono _ _ (hg x y h)

theorem timesAst_mono : monotone fun rec => timesAst env rec cs d := by
  unfold timesAst
  repeat' first | exact recC_mono | monotonicity

@[partial_fixpoint_monotone]
theorem timesAst_mono' {γ : Type} [PartialOrder γ] {g : γ → Req → A Ast} (hg : monotone g) :
    monotone fun x => timesAst env (g x) cs d := fun x y h => timesAst_mono _ _ (hg x y h)

theorem divideAst_mono : monotone fun rec => divideAst env rec l r d := by
  unfold divideAst
  repeat' first | exact recC_mono | monotonicity

@[partial_fixpoint_monotone]
theorem divideAst_mono' {γ : Type} [PartialOrder γ] {g : γ → Req → A Ast} (hg : monotone g) :
    monotone fun x => divideAst env (g x) l r d := fun x y h => divideAst_mono _ _ (hg x y h)

theorem negatedAst_mono {g : Negated} : monotone fun rec => negatedAst env rec g d := by
  unfold negatedAst
  repeat' first | exact recC_mono | monotonicity

@[partial_fixpoint_monotone]
theorem negatedAst_mono' {γ : Type} [PartialOrder γ] {g : γ → Req → A Ast} (hg : monotone g) {n : Negated} :
    monotone fun x => negatedAst env (g x) n d := fun x y h => negatedAst_mono _ _ (hg x y h)

theorem plusAst_mono : monotone fun rec => plusAst env rec cs d := by
  unfold plusAst
  repeat' first | exact recC_mono | monotonicity

@[partial_fixpoint_monotone]
theorem plusAst_mono' {γ : Type} [PartialOrder γ] {g : γ → Req → A Ast} (hg : monotone g) :
    monotone fun x => plusAst env (g x) cs d := fun x y h => plusAst_mono _ _ (hg x y h)

theorem quirkAst_mono {name : List UInt8} : monotone fun rec => quirkAst env rec name c := by
  unfold quirkAst
  repeat' first | exact recC_mono | monotonicity

@[partial_fixpoint_monotone]
theorem quirkAst_mono' {γ : Type} [PartialOrder γ] {g : γ → Req → A Ast} (hg : monotone g) {name : List UInt8} :
    monotone fun x => quirkAst env (g x) name c := fun x y h => quirkAst_mono _ _ (hg x y h)

theorem messageAst_mono : monotone fun rec => messageAst env rec cs d := by
  unfold messageAst
  repeat' first | exact recC_mono | monotonicity

@[partial_fixpoint_monotone]
theorem messageAst_mono' {γ : Type} [PartialOrder γ] {g : γ → Req → A Ast} (hg : monotone g) :
    monotone fun x => messageAst env (g x) cs d := fun x y h => messageAst_mono _ _ (hg x y h)

theorem inequalityLoop_mono {ps : List (Tok × Cst)} {first : Ast} {rest : List (Sym × Ast)} {aff : Option Bool} :
    monotone fun rec => inequalityLoop rec d ps first rest aff := by
  induction ps generalizing first rest aff with
  | nil => unfold inequalityLoop; exact monotone_const _
  | cons p ps ih =>
    unfold inequalityLoop
    repeat' first | exact ih | monotonicity

@[partial_fixpoint_monotone]
theorem inequalityLoop_mono' {γ : Type} [PartialOrder γ] {g : γ → Req → A Ast} (hg : monotone g) {ps : List (Tok × Cst)} {first : Ast} {rest : List (Sym × Ast)} {aff : Option Bool} :
    monotone fun x => inequalityLoop (g x) d ps first rest aff := fun x y h => inequalityLoop_mono _ _ (hg x y h)

theorem inequalityAst_mono : monotone fun rec => inequalityAst rec cs d := by
  unfold inequalityAst
  repeat' first | exact recC_mono | monotonicity

@[partial_fixpoint_monotone]
theorem inequalityAst_mono' {γ : Type} [PartialOrder γ] {g : γ → Req → A Ast} (hg : monotone g) :
    monotone fun x => inequalityAst (g x) cs d := fun x y h => inequalityAst_mono _ _ (hg x y h)

theorem tildeRest_mono {m : AMeta} : ∀ {a : Ast} {cs : List Cst}, monotone fun rec => Abs.tildeRest rec m a cs
  | _, [] => by unfold Abs.tildeRest; exact monotone_const _
  | a, [x] => by unfold Abs.tildeRest; repeat' first | exact recC_mono | monotonicity
  | a, [x, y] => by unfold Abs.tildeRest; repeat' first | exact recC_mono | monotonicity
  | a, x :: y :: z :: zs => by
    unfold Abs.tildeRest
    repeat' first | exact tildeRest_mono | monotonicity

@[partial_fixpoint_monotone]
theorem tildeRest_mono' {γ : Type} [PartialOrder γ] {g : γ → Req → A Ast} (hg : monotone g) {a : Ast} :
    monotone fun x => Abs.tildeRest (g x) m a cs := fun x y h => tildeRest_mono _ _ (hg x y h)

theorem tildeAst_mono : monotone fun rec => tildeAst rec m cs := by
  unfold tildeAst
  repeat' first | exact recC_mono | monotonicity

@[partial_fixpoint_monotone]
theorem tildeAst_mono' {γ : Type} [PartialOrder γ] {g : γ → Req → A Ast} (hg : monotone g) :
    monotone fun x => tildeAst (g x) m cs := fun x y h => tildeAst_mono _ _ (hg x y h)

theorem groupArgs_mono : monotone fun rec => groupArgs rec cs := by
  unfold groupArgs
  repeat' first | exact recC_mono | monotonicity

@[partial_fixpoint_monotone]
theorem groupArgs_mono' {γ : Type} [PartialOrder γ] {g : γ → Req → A Ast} (hg : monotone g) :
    monotone fun x => groupArgs (g x) cs := fun x y h => groupArgs_mono _ _ (hg x y h)

theorem groupAst_mono : monotone fun rec => groupAst rec cs := by
  unfold groupAst
  repeat' first | exact recC_mono | monotonicity

@[partial_fixpoint_monotone]
theorem groupAst_mono' {γ : Type} [PartialOrder γ] {g : γ → Req → A Ast} (hg : monotone g) :
    monotone fun x => groupAst (g x) cs := fun x y h => groupAst_mono _ _ (hg x y h)

theorem missingAst_mono : monotone fun rec => missingAst rec cs := by
  unfold missingAst
  repeat' first | exact recC_mono | monotonicity

@[partial_fixpoint_monotone]
theorem missingAst_mono' {γ : Type} [PartialOrder γ] {g : γ → Req → A Ast} (hg : monotone g) :
    monotone fun x => missingAst (g x) cs := fun x y h => missingAst_mono _ _ (hg x y h)

theorem nakedAst_mono {err : AbstractError} : monotone fun rec => nakedAst rec err cs d := by
  unfold nakedAst
  repeat' first | exact recC_mono | monotonicity

@[partial_fixpoint_monotone]
theorem nakedAst_mono' {γ : Type} [PartialOrder γ] {g : γ → Req → A Ast} (hg : monotone g) {err : AbstractError} :
    monotone fun x => nakedAst (g x) err cs d := fun x y h => nakedAst_mono _ _ (hg x y h)

theorem parenAst_mono : monotone fun rec => parenAst rec cs d := by
  unfold parenAst
  repeat' first | exact recC_mono | monotonicity

@[partial_fixpoint_monotone]
theorem parenAst_mono' {γ : Type} [PartialOrder γ] {g : γ → Req → A Ast} (hg : monotone g) :
    monotone fun x => parenAst (g x) cs d := fun x y h => parenAst_mono _ _ (hg x y h)

theorem compoundAst_mono {op : CompoundOp} : monotone fun rec => compoundAst env rec op cs d := by
  unfold compoundAst
  repeat' first | exact recC_mono | monotonicity

@[partial_fixpoint_monotone]
theorem compoundAst_mono' {γ : Type} [PartialOrder γ] {g : γ → Req → A Ast} (hg : monotone g) {op : CompoundOp} :
    monotone fun x => compoundAst env (g x) op cs d := fun x y h => compoundAst_mono _ _ (hg x y h)

theorem prefixAst_mono {op : PrefixOp} : monotone fun rec => prefixAst env rec op cs d := by
  unfold prefixAst
  repeat' first | exact recC_mono | monotonicity

@[partial_fixpoint_monotone]
theorem prefixAst_mono' {γ : Type} [PartialOrder γ] {g : γ → Req → A Ast} (hg : monotone g) {op : PrefixOp} :
    monotone fun x => prefixAst env (g x) op cs d := fun x y h => prefixAst_mono _ _ (hg x y h)

theorem postfixAst_mono {op : PostfixOp} : monotone fun rec => postfixAst rec op cs d := by
  unfold postfixAst
  repeat' first | exact recC_mono | monotonicity

@[partial_fixpoint_monotone]
theorem postfixAst_mono' {γ : Type} [PartialOrder γ] {g : γ → Req → A Ast} (hg : monotone g) {op : PostfixOp} :
    monotone fun x => postfixAst (g x) op cs d := fun x y h => postfixAst_mono _ _ (hg x y h)

theorem binaryAst_mono {op : BinaryOp} : monotone fun rec => binaryAst env rec op cs d := by
  unfold binaryAst
  repeat' first | exact recC_mono | monotonicity

@[partial_fixpoint_monotone]
theorem binaryAst_mono' {γ : Type} [PartialOrder γ] {g : γ → Req → A Ast} (hg : monotone g) {op : BinaryOp} :
    monotone fun x => binaryAst env (g x) op cs d := fun x y h => binaryAst_mono _ _ (hg x y h)

theorem infixAst_mono {op : InfixOp} : monotone fun rec => infixAst env rec op cs d := by
  unfold infixAst
  repeat' first | exact recC_mono | monotonicity

@[partial_fixpoint_monotone]
theorem infixAst_mono' {γ : Type} [PartialOrder γ] {g : γ → Req → A Ast} (hg : monotone g) {op : InfixOp} :
    monotone fun x => infixAst env (g x) op cs d := fun x y h => infixAst_mono _ _ (hg x y h)

theorem ternaryAst_mono {op : TernaryOp} : monotone fun rec => ternaryAst rec op cs d := by
  unfold ternaryAst
  repeat' first | exact recC_mono | monotonicity

@[partial_fixpoint_monotone]
theorem ternaryAst_mono' {γ : Type} [PartialOrder γ] {g : γ → Req → A Ast} (hg : monotone g) {op : TernaryOp} :
    monotone fun x => ternaryAst (g x) op cs d := fun x y h => ternaryAst_mono _ _ (hg x y h)

theorem prefixBinaryAst_mono {op : PrefixBinaryOp} : monotone fun rec => prefixBinaryAst rec op cs d := by
  unfold prefixBinaryAst
  repeat' first | exact recC_mono | monotonicity

@[partial_fixpoint_monotone]
theorem prefixBinaryAst_mono' {γ : Type} [PartialOrder γ] {g : γ → Req → A Ast} (hg : monotone g) {op : PrefixBinaryOp} :
    monotone fun x => prefixBinaryAst (g x) op cs d := fun x y h => prefixBinaryAst_mono _ _ (hg x y h)

theorem groupNodeAst_mono {op : GroupOp} : monotone fun rec => groupNodeAst rec op cs d := by
  unfold groupNodeAst
  repeat' first | exact recC_mono | monotonicity

@[partial_fixpoint_monotone]
theorem groupNodeAst_mono' {γ : Type} [PartialOrder γ] {g : γ → Req → A Ast} (hg : monotone g) {op : GroupOp} :
    monotone fun x => groupNodeAst (g x) op cs d := fun x y h => groupNodeAst_mono _ _ (hg x y h)

theorem syntaxErrorAst_mono {err : SyntaxErrorKind} : monotone fun rec => syntaxErrorAst rec err cs d := by
  unfold syntaxErrorAst
  repeat' first | exact recC_mono | monotonicity

@[partial_fixpoint_monotone]
theorem syntaxErrorAst_mono' {γ : Type} [PartialOrder γ] {g : γ → Req → A Ast} (hg : monotone g) {err : SyntaxErrorKind} :
    monotone fun x => syntaxErrorAst (g x) err cs d := fun x y h => syntaxErrorAst_mono _ _ (hg x y h)

theorem callAst_mono {h : Cst} {m : Bool} {op : CallOp} : monotone fun rec => callAst rec h m op cs d := by
  unfold callAst
  repeat' first | exact recC_mono | monotonicity

@[partial_fixpoint_monotone]
theorem callAst_mono' {γ : Type} [PartialOrder γ] {g : γ → Req → A Ast} (hg : monotone g) {h : Cst} {m : Bool} {op : CallOp} :
    monotone fun x => callAst (g x) h m op cs d := fun x y h => callAst_mono _ _ (hg x y h)

theorem nodeAst_mono {k : NodeKind} : monotone fun rec => nodeAst env rec k cs d := by
  unfold nodeAst
  repeat' first | exact recC_mono | monotonicity

@[partial_fixpoint_monotone]
theorem nodeAst_mono' {γ : Type} [PartialOrder γ] {g : γ → Req → A Ast} (hg : monotone g) {k : NodeKind} :
    monotone fun x => nodeAst env (g x) k cs d := fun x y h => nodeAst_mono _ _ (hg x y h)

theorem step_mono {q : Req} : monotone fun rec => Abs.step env rec q := by
  unfold Abs.step
  repeat' first | exact recC_mono | monotonicity
end

theorem run_mono {env : AEnv} : ∀ {n m : Nat}, n ≤ m → ∀ r, PartialOrder.rel (Abs.run env n r) (Abs.run env m r)
  | 0, _, _ => fun _ => FlatOrder.rel.bot
  | n + 1, m + 1, h => fun r => by
    unfold Abs.run
    exact step_mono (Abs.run env n) (Abs.run env m) fun q => run_mono (Nat.le_of_succ_le_succ h) q

theorem eq_of_rel {α : Type} {x y : A α} (h : PartialOrder.rel x y) (hx : Ends x) : x = y := by
  cases h with
  | bot => exact absurd rfl hx
  | refl => rfl

/-- Abstraction abstracts the parts and puts the results together. -/
theorem abstractR_eq {env : AEnv} (r : Req) : abstractR env r = Abs.step env (abstractR env) r := by
  have h1 : ∀ (n : Nat) (q : Req), PartialOrder.rel (Abs.run env n q) (abstractR env q) := by
    intro n q
    rcases Nat.le_total n (q.meas + 1) with h | h
    · exact run_mono h q
    · have : abstractR env q = Abs.run env n q := eq_of_rel (run_mono h q) abstractR_ends
      rw [this]
      exact FlatOrder.rel.refl
  have h2 : abstractR env r = Abs.step env (Abs.run env r.meas) r := rfl
  refine eq_of_rel ?_ abstractR_ends
  rw [h2]
  exact step_mono _ _ (h1 r.meas)

mutual
theorem aggregate_ends : ∀ (c : Cst), aggregate c ≠ .error .fuel
  | .tok t => by unfold aggregate; split <;> nofun
  | .node k cs => by
    have := aggregateL_ends cs
    unfold aggregate
    split
    · nofun
    · split
      · rename_i e _
        intro h
        cases h
        exact this (by assumption)
      · nofun
  | .call h m op b => by
    have h1 := aggregateL_ends h
    have h2 := aggregateL_ends b
    unfold aggregate
    split
    · intro h
      cases h
      exact h1 (by assumption)
    · nofun
    · split
      · intro h
        cases h
        exact h2 (by assumption)
      · nofun
  | .callAgg .. => by unfold aggregate; nofun
  | .box k cs => by
    have := aggregateL_ends cs
    unfold aggregate
    split
    · intro h
      cases h
      exact this (by assumption)
    · nofun
  | .code .. => by unfold aggregate; nofun
theorem aggregateL_ends : ∀ (cs : List Cst), aggregateL cs ≠ .error .fuel
  | [] => by unfold aggregateL; nofun
  | c :: cs => by
    have h1 := aggregate_ends c
    have h2 := aggregateL_ends cs
    unfold aggregateL
    split
    · intro h
      cases h
      exact h1 (by assumption)
    · split
      · intro h
        cases h
        exact h2 (by assumption)
      · nofun
end

end CodeParser.Stop
