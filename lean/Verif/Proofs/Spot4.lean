import Verif.Proofs.Spot3
/-!
Positions in abstract syntax trees (helper lemmas): the position of the whole.
-/
namespace CodeParser.Spot
open Spec Abs Cst Props

/-- The node has this position. -/
def Top (d : ASrc) (a : Ast) : Prop := a.data.source = some d

/-- The function gives the expected positions. -/
structure RecTop (rec : Req → A Ast) : Prop where
  cst : ∀ c, Sat (OwnPosition c) (rec (.cst c))
  neg : ∀ g d, Sat (Top d) (rec (.neg g d))

section
variable {env : AEnv} {rec : Req → A Ast} {d : ASrc} {cs : List Cst} {c : Cst}

theorem simplify_top {first : Ast} {rest : List (Sym × Ast)} {aff : Option Bool} : Top d (simplify first rest aff d) := by
  unfold simplify
  dsimp only
  split
  · rfl
  · rfl
  · split <;> rfl

theorem inequalityLoop_top : ∀ {ps : List (Tok × Cst)} {first : Ast} {rest : List (Sym × Ast)} {aff : Option Bool},
    Sat (Top d) (inequalityLoop rec d ps first rest aff)
  | [], _, _, _ => Sat.ok simplify_top
  | (o, c) :: ps, first, rest, aff => by
    unfold inequalityLoop
    split
    · exact Sat.fail
    · refine Sat.any fun a => ?_
      split
      · exact Sat.fail
      · exact inequalityLoop_top
      · exact Sat.ite (fun _ => inequalityLoop_top) fun _ => inequalityLoop_top

theorem tildeRest_top : ∀ {cs : List Cst} {a : Ast}, Sat (Top d) (Abs.tildeRest rec (.of d) a cs)
  | [], a => by unfold Abs.tildeRest; exact Sat.fail
  | [x], a => by unfold Abs.tildeRest; exact Sat.any fun _ => Sat.ok rfl
  | [x, y], a => by unfold Abs.tildeRest; exact Sat.any fun _ => Sat.any fun _ => Sat.ok rfl
  | x :: y :: z :: cs, a => by unfold Abs.tildeRest; exact Sat.any fun _ => Sat.any fun _ => tildeRest_top

theorem timesAst_top : Sat (Top d) (timesAst env rec cs d) := Sat.any fun _ => Sat.any fun _ => Sat.ok rfl

theorem negatedAst_top {g : Negated} : Sat (Top d) (negatedAst env rec g d) := by
  cases g with
  | zero => exact Sat.ok rfl
  | integer t => exact Sat.any fun _ => Sat.ok rfl
  | real t => exact Sat.any fun _ => Sat.ok rfl
  | times cs =>
    unfold negatedAst
    refine Sat.bind timesAst_top fun a ha => ?_
    cases a <;> first | exact Sat.fail | exact Sat.ok ha

theorem tokenAst_top {t : Tok} : Sat (Top (t.start, t.stop)) (tokenAst t) := by
  unfold tokenAst
  dsimp only
  split
  all_goals first
    | exact Sat.ok rfl
    | exact Sat.any fun _ => Sat.ok rfl
    | skip
  refine Sat.ite (fun _ => Sat.ok rfl) fun _ => Sat.ite (fun _ => Sat.any fun s => ?_) fun _ => Sat.ok rfl
  split <;> exact Sat.ok rfl

theorem issueAt_top {i : Option (AIssueTag × Severity)} : Sat (fun m => m.source = some d) (issueAt i cs d) := by
  unfold issueAt
  split
  · exact Sat.ok rfl
  · exact Sat.any fun _ => Sat.any fun _ => Sat.ok rfl

theorem compoundAst_top {op : CompoundOp} : Sat (Top d) (compoundAst env rec op cs d) := by
  unfold compoundAst
  split
  all_goals first
    | exact Sat.any fun _ => Sat.any fun _ => Sat.ok rfl
    | exact Sat.any fun _ => Sat.any fun _ => Sat.any fun _ => Sat.ok rfl
    | exact Sat.any fun _ => Sat.ite (fun _ => Sat.any fun _ => Sat.ok rfl) fun _ => Sat.fail
    | skip
  · refine Sat.any ?_
    rintro ⟨x, y⟩
    simp only
    split
    · exact Sat.ite (fun _ => Sat.any fun _ => Sat.ok rfl) fun _ => Sat.fail
    · exact Sat.fail
  · refine Sat.any ?_
    rintro ⟨x, y⟩
    simp only
    split
    · exact Sat.ite (fun _ => Sat.any fun _ => Sat.ok rfl) fun _ => Sat.ite (fun _ => Sat.any fun _ => Sat.ok rfl) fun _ => Sat.fail
    · exact Sat.fail

theorem prefixAst_top (hr : RecTop rec) {op : PrefixOp} : Sat (Top d) (prefixAst env rec op cs d) := by
  unfold prefixAst
  split
  · exact Sat.any fun _ => Sat.any fun _ => hr.neg _ _
  · exact Sat.any fun _ => Sat.any fun _ => Sat.any fun _ => Sat.ok rfl
  · exact Sat.any fun _ => Sat.any fun _ => Sat.any fun _ => Sat.ok rfl
  · split
    · exact Sat.ite (fun _ => Sat.any fun _ => Sat.any fun _ => Sat.ok rfl) fun _ => Sat.any fun _ => Sat.ok rfl
    · exact Sat.fail
  · exact Sat.any fun _ => Sat.any fun _ => Sat.ok rfl
  · exact Sat.any fun _ => Sat.any fun _ => Sat.ok rfl

theorem postfixAst_top {op : PostfixOp} : Sat (fun a => a.data.source = if op = .Derivative then none else some d) (postfixAst rec op cs d) := by
  unfold postfixAst
  refine Sat.any ?_
  rintro ⟨x, y⟩
  simp only
  by_cases ho : op = .Derivative
  · subst ho
    rw [if_pos rfl]
    simp only
    split
    · exact Sat.ite (fun _ => Sat.any fun _ => Sat.any fun _ => Sat.ok rfl) fun _ => Sat.ite (fun _ => Sat.any fun _ => Sat.any fun _ => Sat.ok rfl) fun _ => Sat.fail
    · exact Sat.fail
  · rw [if_neg ho]
    cases op <;> first | exact absurd rfl ho | exact Sat.any fun _ => Sat.ok rfl

theorem binaryAst_top {op : BinaryOp} : Sat (Top d) (binaryAst env rec op cs d) := by
  unfold binaryAst
  refine Sat.any ?_
  rintro ⟨l, m, r⟩
  simp only
  split
  · exact Sat.any fun _ => Sat.any fun _ => Sat.any fun _ => Sat.ok rfl
  · exact Sat.any fun _ => Sat.any fun _ => Sat.ok rfl
  · exact Sat.any fun _ => Sat.any fun _ => Sat.ite (fun _ => Sat.ok rfl) fun _ => Sat.ok rfl
  · exact Sat.any fun _ => Sat.any fun _ => Sat.ok rfl
  · exact Sat.any fun _ => Sat.any fun _ => Sat.ok rfl
  · exact Sat.any fun _ => Sat.any fun _ => Sat.ok rfl
  · exact Sat.ite (fun _ => Sat.any fun _ => Sat.ok rfl) fun _ => Sat.fail
  · exact Sat.any fun _ => Sat.any fun _ => Sat.ite (fun _ => Sat.ok rfl) fun _ => Sat.ok rfl

theorem infixAst_top {op : InfixOp} : Sat (Top d) (infixAst env rec op cs d) := by
  unfold infixAst
  split
  · unfold inequalityAst
    split
    · exact Sat.fail
    · exact Sat.any fun _ => Sat.any fun _ => Sat.any fun _ => inequalityLoop_top
  · unfold plusAst
    split
    · exact Sat.fail
    · exact Sat.any fun _ => Sat.any fun _ => Sat.any fun _ => Sat.ok rfl
  · exact timesAst_top
  · exact Sat.any fun _ => Sat.ok rfl
  · exact Sat.any fun _ => Sat.ok rfl
  · unfold messageAst
    split
    · exact Sat.fail
    · exact Sat.any fun _ => Sat.any fun _ => Sat.ok rfl
  · unfold tildeAst
    split
    · exact Sat.any fun _ => Sat.any fun _ => Sat.ok rfl
    · exact Sat.any fun _ => tildeRest_top
    · exact Sat.any fun _ => Sat.any fun _ => tildeRest_top
    · exact Sat.fail
  · exact Sat.ite (fun _ => Sat.ite (fun _ => Sat.any fun _ => Sat.ok rfl) fun _ => Sat.any fun _ => Sat.ok rfl) fun _ => Sat.fail

theorem ternaryAst_top {op : TernaryOp} : Sat (Top d) (ternaryAst rec op cs d) := by
  unfold ternaryAst
  refine Sat.any ?_
  rintro ⟨l, x, m, o, r⟩
  simp only
  split
  · exact Sat.ite (fun _ => Sat.any fun _ => Sat.any fun _ => Sat.any fun _ => Sat.any fun _ => Sat.ok rfl) fun _ =>
      Sat.any fun _ => Sat.any fun _ => Sat.any fun _ => Sat.ok rfl
  · exact Sat.ite (fun _ => Sat.any fun _ => Sat.any fun _ => Sat.ok rfl) fun _ => Sat.fail
  all_goals exact Sat.any fun _ => Sat.any fun _ => Sat.any fun _ => Sat.ok rfl

theorem prefixBinaryAst_top {op : PrefixBinaryOp} : Sat (Top d) (prefixBinaryAst rec op cs d) := by
  unfold prefixBinaryAst
  refine Sat.any ?_
  rintro ⟨l, m, r⟩
  simp only
  split
  · exact Sat.any fun _ => Sat.any fun _ => Sat.any fun _ => Sat.ok rfl
  · exact Sat.any fun _ => Sat.any fun _ => Sat.any fun _ => Sat.ok rfl
  · exact Sat.any fun _ => Sat.any fun _ => Sat.ok rfl

theorem nakedAst_top {err : AbstractError} : Sat (Top d) (nakedAst rec err cs d) := by
  unfold nakedAst
  split
  · split
    · exact Sat.any fun _ => Sat.ok rfl
    · exact Sat.any fun _ => Sat.ok rfl
  · exact Sat.ok rfl
  · exact Sat.fail

theorem callAst_top {h : Cst} {m : Bool} {op : CallOp} : Sat (Top d) (callAst rec h m op cs d) := by
  unfold callAst
  split
  · split
    · exact Sat.fail
    · split
      · exact Sat.any fun _ => Sat.bind issueAt_top fun _ hi => Sat.any fun _ => Sat.any fun _ => Sat.ok hi
      · exact Sat.bind issueAt_top fun _ hi => Sat.any fun _ => Sat.any fun _ => Sat.ok hi
  · have tail : ∀ {m : AMeta}, m.source = some d →
        Sat (Top d) (do let a ← rec (.cst h); let (_, as) ← groupAst rec cs; .ok (.call (.callS .System_TypeSpecifier [a] .none) as m) : A Ast) :=
      fun hi => Sat.any fun _ => Sat.any fun _ => Sat.ok hi
    refine Sat.ite (fun _ => ?_) fun _ => ?_
    · exact tail rfl
    · exact Sat.any fun _ => tail rfl
  · exact Sat.bind issueAt_top fun _ hi => Sat.any fun _ => Sat.any fun _ => Sat.ok hi
  · exact Sat.any fun _ => Sat.any fun _ => Sat.ok rfl
  · exact Sat.any fun _ => Sat.any fun _ => Sat.ok rfl
  · exact Sat.any fun _ => Sat.any fun _ => Sat.ok rfl

/-- Trees without parentheses around them. -/
theorem own_of (c : Cst) {d : ASrc} (hu : unparen c = c) (hn : isDerivative c = false) (hd : Hulls (leaves c) d) {a : Ast} (h : Top d a) : OwnPosition c a := by
  unfold OwnPosition
  rw [hu, hn]
  exact ⟨d, h, hd⟩
end

section
variable {env : AEnv} {rec : Req → A Ast} (hr : RecTop rec) {d : ASrc} {cs : List Cst}
include hr

theorem parenAst_top (hd : Hulls (leavesL cs) d) : Sat (OwnPosition (.node (.group .CodeParser_GroupParen) cs)) (parenAst rec cs d) := by
  unfold parenAst
  split
  · split
    · exact Sat.any fun _ => Sat.ok (own_of (.node (.group .CodeParser_GroupParen) _) rfl rfl hd rfl)
    · rename_i o c e _ hc
      have hu : unparen (.node (.group .CodeParser_GroupParen) [o, c, e]) = unparen c := by
        rw [unparen]
        exact hc
      refine Sat.mono (hr.cst c) fun a ha => ?_
      unfold OwnPosition at ha ⊢
      rw [hu]
      exact ha
  · rename_i hn
    have hu : unparen (.node (.group .CodeParser_GroupParen) cs) = .node (.group .CodeParser_GroupParen) cs := by
      rcases cs with _ | ⟨x, _ | ⟨y, _ | ⟨z, _ | ⟨w, cs⟩⟩⟩⟩ <;> first | rfl | exact absurd rfl (hn _ _ _)
    exact Sat.any fun _ => Sat.any fun _ => Sat.ok (own_of (.node (.group .CodeParser_GroupParen) cs) hu rfl hd rfl)

theorem nodeAst_top {k : NodeKind} (hd : Hulls (leavesL cs) d) : Sat (OwnPosition (.node k cs)) (nodeAst env rec k cs d) := by
  have other : (unparen (.node k cs) = .node k cs) → isDerivative (.node k cs) = false → Sat (Top d) (nodeAst env rec k cs d) →
      Sat (OwnPosition (.node k cs)) (nodeAst env rec k cs d) := fun hu hn h => Sat.mono h fun a ha => own_of _ hu hn hd ha
  cases k with
  | «prefix» op => exact other rfl rfl (prefixAst_top hr)
  | «infix» op => exact other rfl rfl infixAst_top
  | «postfix» op =>
    by_cases ho : op = .Derivative
    · subst ho
      refine Sat.mono (postfixAst_top (rec := rec) (op := .Derivative) (cs := cs) (d := d)) fun a ha => ?_
      unfold OwnPosition
      exact ha
    · refine other rfl ?_ (Sat.mono (postfixAst_top (rec := rec) (op := op) (cs := cs) (d := d)) fun a ha => ?_)
      · cases op <;> first | rfl | exact absurd rfl ho
      · rw [if_neg ho] at ha; exact ha
  | binary op => exact other rfl rfl binaryAst_top
  | ternary op => exact other rfl rfl ternaryAst_top
  | prefixBinary op => exact other rfl rfl prefixBinaryAst_top
  | compound op => exact other rfl rfl compoundAst_top
  | group op =>
    by_cases ho : op = .CodeParser_GroupParen
    · subst ho; exact parenAst_top hr hd
    · have hu : unparen (.node (.group op) cs) = .node (.group op) cs := by
        cases op <;> first | rfl | exact absurd rfl ho
      unfold nodeAst groupNodeAst
      simp only
      split
      · exact absurd rfl ho
      · exact Sat.mono nakedAst_top fun a ha => own_of (.node _ cs) hu rfl hd ha
      · exact Sat.mono nakedAst_top fun a ha => own_of (.node _ cs) hu rfl hd ha
      · exact Sat.mono nakedAst_top fun a ha => own_of (.node _ cs) hu rfl hd ha
      · refine Sat.bind (P := fun p : ASrc × List Ast => Hulls (leavesL cs) p.1) ?_ fun p hp => Sat.ok (own_of (.node (.group op) cs) (d := p.1) hu rfl hp rfl)
        exact Sat.bind (P := Hulls (leavesL cs)) (fun _ hs => seqSource_hull hs) fun _ hs => Sat.any fun _ => Sat.any fun _ => Sat.ok hs
  | groupMissingCloser op =>
    refine Sat.bind (P := fun p : ASrc × List Ast => Hulls (leavesL cs) p.1) ?_ fun p hp => Sat.ok (own_of (.node (.groupMissingCloser op) cs) (d := p.1) rfl rfl hp rfl)
    refine Sat.bind (P := Hulls (leavesL cs)) (fun _ hs => seqSource_hull hs) fun _ hs => ?_
    split
    · exact Sat.fail
    · exact Sat.any fun _ => Sat.ok hs
  | groupMissingOpener op => exact other rfl rfl (Sat.any fun _ => Sat.ok rfl)
  | syntaxError err =>
    refine other rfl rfl ?_
    unfold nodeAst syntaxErrorAst
    simp only
    split
    · exact Sat.any fun _ => Sat.any fun _ => Sat.ok rfl
    · exact Sat.fail

theorem step_top : RecTop (Abs.step env rec) := by
  refine ⟨fun c => ?_, fun g d => negatedAst_top⟩
  refine Sat.bind (P := Hulls (leaves c)) (fun _ hs => getSource_hull c hs) fun d hd => ?_
  cases c with
  | tok t => exact Sat.mono tokenAst_top fun a ha => own_of (.tok t) rfl rfl tok_hull ha
  | node k cs => exact nodeAst_top hr hd
  | call => exact Sat.fail
  | callAgg h m op b => exact Sat.mono callAst_top fun a ha => own_of (.callAgg h m op b) rfl rfl hd ha
  | box => exact Sat.fail
  | code => exact Sat.fail
end

theorem run_top {env : AEnv} (n : Nat) : RecTop (Abs.run env n) := by
  induction n with
  | zero => exact ⟨(fun c a h => by cases h), (fun g d a h => by cases h)⟩
  | succ n ih => exact step_top ih

theorem abstractCst_top {env : AEnv} {c : Cst} : Sat (OwnPosition c) (abstractCst env c) := (run_top _).cst c

theorem mapA_forall {α β : Type} {f : α → A β} {R : α → β → Prop} : ∀ {as : List α} {bs : List β}, mapA f as = .ok bs →
    (∀ a ∈ as, ∀ b, f a = .ok b → R a b) → List.Forall₂ R as bs
  | [], bs, h, _ => by cases h; exact .nil
  | a :: as, bs, h, hr => by
    unfold mapA at h
    rcases e1 : f a with x | b <;> rw [e1] at h
    · cases h
    simp only at h
    rcases e2 : mapA f as with x | bs' <;> rw [e2] at h
    · cases h
    cases h
    exact .cons (hr a List.mem_cons_self b e1) (mapA_forall e2 fun x hx => hr x (List.mem_cons_of_mem _ hx))

theorem forall_left {α β : Type} {R : α → β → Prop} {as : List α} {bs : List β} (h : List.Forall₂ R as bs) {b : β} (hb : b ∈ bs) :
    ∃ a ∈ as, R a b := by
  induction h with
  | nil => cases hb
  | cons h _ ih =>
    rcases List.mem_cons.mp hb with rfl | hb
    · exact ⟨_, List.mem_cons_self, h⟩
    · obtain ⟨a, h1, h2⟩ := ih hb
      exact ⟨a, List.mem_cons_of_mem _ h1, h2⟩

end CodeParser.Spot
