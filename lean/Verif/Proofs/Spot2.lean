import Verif.Proofs.Spot1
/-!
Positions in abstract syntax trees (helper lemmas): sums, products, comparisons, groups.
-/
namespace CodeParser.Spot
open Spec Abs Cst Props

/-- What is negated is made of the tokens `ks`. -/
def NegOf (ks : List Tok) : Negated → Prop
  | .times cs => OfL ks cs
  | _ => True

/-- What is abstracted is made of the tokens `ks`. -/
def ReqOf (ks : List Tok) : Req → Prop
  | .cst c => Of ks c
  | .neg g d => Hulls ks d ∧ NegOf ks g

/-- The function gives nested trees. -/
def RecFits (rec : Req → A Ast) : Prop := ∀ ks, Ordered ks → ∀ r, ReqOf ks r → Sat (Fits ks) (rec r)

/-- An operand is made of the tokens `ks`. -/
def OpOf (ks : List Tok) : AOperand → Prop
  | .cst c => Of ks c
  | .recip c d => Of ks c ∧ Hulls ks d
  | .negOne => True
  | .neg g d => Hulls ks d ∧ NegOf ks g

section
variable {ks : List Tok}

theorem expect2_of {cs : List Cst} (h : OfL ks cs) : Sat (fun p => Of ks p.1 ∧ Of ks p.2) (expect2 cs) := by
  unfold expect2
  split
  · exact Sat.ok ⟨h _ (by simp), h _ (by simp)⟩
  · exact Sat.fail

theorem expect3_of {cs : List Cst} (h : OfL ks cs) : Sat (fun p => Of ks p.1 ∧ Of ks p.2.1 ∧ Of ks p.2.2) (expect3 cs) := by
  unfold expect3
  split
  · exact Sat.ok ⟨h _ (by simp), h _ (by simp), h _ (by simp)⟩
  · exact Sat.fail

theorem expect5_of {cs : List Cst} (h : OfL ks cs) :
    Sat (fun p => Of ks p.1 ∧ Of ks p.2.1 ∧ Of ks p.2.2.1 ∧ Of ks p.2.2.2.1 ∧ Of ks p.2.2.2.2) (expect5 cs) := by
  unfold expect5
  split
  · exact Sat.ok ⟨h _ (by simp), h _ (by simp), h _ (by simp), h _ (by simp), h _ (by simp)⟩
  · exact Sat.fail

theorem evens_mem {α : Type} : ∀ {as : List α} {a : α}, a ∈ evens as → a ∈ as
  | [], _, h => h
  | [a], _, h => h
  | a :: b :: as, x, h => by
    unfold evens at h
    rcases List.mem_cons.mp h with rfl | h
    · exact List.mem_cons_self
    · exact List.mem_cons_of_mem _ (List.mem_cons_of_mem _ (evens_mem h))

theorem evens_of {cs : List Cst} (h : OfL ks cs) : OfL ks (evens cs) := fun c hc => h c (evens_mem hc)

theorem dropEnds_of {cs : List Cst} (h : OfL ks cs) : Sat (OfL ks) (dropEnds cs) := by
  unfold dropEnds
  split
  · exact Sat.ok fun c hc => h c (List.mem_cons_of_mem _ (List.dropLast_subset _ hc))
  · exact Sat.fail

theorem pairs_of : ∀ {cs : List Cst}, (leavesL cs).Sublist ks →
    Sat (fun ps => ∀ p ∈ ps, (leaves p.1 ++ leaves p.2).Sublist ks) (pairs cs)
  | [], _ => Sat.ok (by simp)
  | [_], _ => Sat.fail
  | a :: b :: cs, h => by
    unfold pairs
    have h' : (leaves a ++ (leaves b ++ leavesL cs)).Sublist ks := h
    refine Sat.bind (pairs_of ((List.sublist_append_right _ _).trans ((List.sublist_append_right _ _).trans h'))) fun ps hp => Sat.ok ?_
    intro p hm
    rcases List.mem_cons.mp hm with rfl | hm
    · rw [← List.append_assoc] at h'
      exact (List.sublist_append_left _ _).trans h'
    · exact hp p hm

theorem ofL_one {c : Cst} (h : Of ks c) : OfL ks [c] := fun x hx => by cases List.mem_singleton.mp hx; exact h

theorem negate_of : ∀ (c : Cst), Of ks c → Sat (NegOf ks) (negate c)
  | .tok t, h => by
    simp only [negate]
    refine Sat.ite (fun _ => Sat.any fun s => Sat.ok ?_) fun _ => Sat.ite (fun _ => Sat.ok trivial) fun _ => Sat.ok (ofL_one h)
    split <;> trivial
  | .node k [o, c, e], h => by
    have hc : Of ks c := Of.node h _ (by simp)
    simp only [negate]
    refine Sat.ite (fun _ => Sat.any fun z => Sat.ite (fun _ => negate_of c hc) fun _ => Sat.any fun z =>
      Sat.ite (fun _ => negate_of c hc) fun _ => Sat.ok (ofL_one h)) fun _ => ?_
    refine Sat.ite (fun _ => Sat.any fun z => Sat.ite (fun _ => negate_of c hc) fun _ => Sat.ok (ofL_one h)) fun _ => ?_
    exact Sat.ite (fun _ => Sat.ok (Of.node h)) fun _ => Sat.ok (ofL_one h)
  | .node k [], h => by
    simp only [negate]
    exact Sat.ite (fun _ => Sat.fail) fun _ => Sat.ite (fun _ => Sat.fail) fun _ => Sat.ite (fun _ => Sat.ok (Of.node h)) fun _ => Sat.ok (ofL_one h)
  | .node k [_], h => by
    simp only [negate]
    exact Sat.ite (fun _ => Sat.fail) fun _ => Sat.ite (fun _ => Sat.fail) fun _ => Sat.ite (fun _ => Sat.ok (Of.node h)) fun _ => Sat.ok (ofL_one h)
  | .node k [_, c], h => by
    have hc : Of ks c := Of.node h _ (by simp)
    simp only [negate]
    refine Sat.ite (fun _ => Sat.any fun z => Sat.ite (fun _ => negate_of c hc) fun _ => Sat.fail) fun _ => ?_
    refine Sat.ite (fun _ => Sat.any fun z => Sat.ite (fun _ => negate_of c hc) fun _ => Sat.ok (ofL_one h)) fun _ => ?_
    exact Sat.ite (fun _ => Sat.ok (Of.node h)) fun _ => Sat.ok (ofL_one h)
  | .node k (_ :: c :: _ :: _ :: _), h => by
    have hc : Of ks c := Of.node h _ (by simp)
    simp only [negate]
    refine Sat.ite (fun _ => Sat.any fun z => Sat.ite (fun _ => negate_of c hc) fun _ => Sat.fail) fun _ => ?_
    refine Sat.ite (fun _ => Sat.any fun z => Sat.ite (fun _ => negate_of c hc) fun _ => Sat.ok (ofL_one h)) fun _ => ?_
    exact Sat.ite (fun _ => Sat.ok (Of.node h)) fun _ => Sat.ok (ofL_one h)
  | .call .., h => Sat.ok (ofL_one h)
  | .callAgg .., h => Sat.ok (ofL_one h)
  | .box .., h => Sat.ok (ofL_one h)
  | .code .., h => Sat.ok (ofL_one h)

/-- Operands made of the tokens `ks`. -/
def OpsOf (ks : List Tok) (os : List AOperand) : Prop := ∀ o ∈ os, OpOf ks o

theorem opsOf_one {o : AOperand} (h : OpOf ks o) : OpsOf ks [o] := fun x hx => by cases List.mem_singleton.mp hx; exact h
theorem opsOf_append {os ps : List AOperand} (h : OpsOf ks os) (h' : OpsOf ks ps) : OpsOf ks (os ++ ps) := fun x hx =>
  (List.mem_append.mp hx).elim (h x) (h' x)

section
variable {q : Bool} {d : ASrc} (hd : Hulls ks d)
include hd

mutual
theorem flat_of : ∀ (c : Cst), Of ks c → Sat (OpsOf ks) (flat q d c)
  | .node k cs, h => by
    unfold flat
    exact Sat.ite (fun _ => flatMinus_of _ cs h (Of.node h)) fun _ => Sat.ite (fun _ => flatEvens_of cs (Of.node h)) fun _ =>
      Sat.ite (fun _ => flatDivide_of _ cs h (Of.node h)) fun _ => Sat.ok (opsOf_one h)
  | .tok _, h => by unfold flat; exact Sat.ok (opsOf_one h)
  | .call .., h => by unfold flat; exact Sat.ok (opsOf_one h)
  | .callAgg .., h => by unfold flat; exact Sat.ok (opsOf_one h)
  | .box .., h => by unfold flat; exact Sat.ok (opsOf_one h)
  | .code .., h => by unfold flat; exact Sat.ok (opsOf_one h)
theorem flatEvens_of : ∀ (cs : List Cst), OfL ks cs → Sat (OpsOf ks) (flatEvens q d cs)
  | [], _ => by unfold flatEvens; exact Sat.ok (by intro x hx; cases hx)
  | [c], h => by unfold flatEvens; exact flat_of c (h c (by simp))
  | c :: _ :: cs, h => by
    unfold flatEvens
    exact Sat.bind (flat_of c (h c (by simp))) fun a ha => Sat.bind (flatEvens_of cs fun x hx => h x (by simp [hx])) fun b hb =>
      Sat.ok (opsOf_append ha hb)
theorem flatMinus_of (node : Cst) : ∀ (cs : List Cst), Of ks node → OfL ks cs → Sat (OpsOf ks) (flatMinus q d node cs)
  | [_, c], hn, h => by
    have hc : Of ks c := h c (by simp)
    unfold flatMinus
    exact Sat.any fun z => Sat.ite (fun _ => Sat.bind (negate_of c hc) fun g hg => Sat.ok (opsOf_one ⟨hd, hg⟩)) fun _ =>
      Sat.ite (fun _ => Sat.bind (flat_of c hc) fun a ha => Sat.ok (opsOf_append (opsOf_one (o := .negOne) trivial) ha)) fun _ => Sat.ok (opsOf_one hn)
  | [], _, _ => by unfold flatMinus; exact Sat.fail
  | [_], _, _ => by unfold flatMinus; exact Sat.fail
  | _ :: _ :: _ :: _, _, _ => by unfold flatMinus; exact Sat.fail
theorem flatDivide_of (node : Cst) : ∀ (cs : List Cst), Of ks node → OfL ks cs → Sat (OpsOf ks) (flatDivide q d node cs)
  | [l, _, r], hn, h => by
    unfold flatDivide
    exact Sat.ite (fun _ => Sat.bind (flat_of l (h l (by simp))) fun a ha => Sat.ok (opsOf_append ha (opsOf_one ⟨h r (by simp), hd⟩))) fun _ =>
      Sat.ok (opsOf_one hn)
  | [], hn, _ => by unfold flatDivide; exact Sat.ite (fun _ => Sat.fail) fun _ => Sat.ok (opsOf_one hn)
  | [_], hn, _ => by unfold flatDivide; exact Sat.ite (fun _ => Sat.fail) fun _ => Sat.ok (opsOf_one hn)
  | [_, _], hn, _ => by unfold flatDivide; exact Sat.ite (fun _ => Sat.fail) fun _ => Sat.ok (opsOf_one hn)
  | _ :: _ :: _ :: _ :: _, hn, _ => by unfold flatDivide; exact Sat.ite (fun _ => Sat.fail) fun _ => Sat.ok (opsOf_one hn)
end

theorem flatL_of : ∀ (cs : List Cst), OfL ks cs → Sat (OpsOf ks) (flatL q d cs)
  | [], _ => by unfold flatL; exact Sat.ok (by intro x hx; cases hx)
  | c :: cs, h => by
    unfold flatL
    exact Sat.bind (flat_of hd c (h c (by simp))) fun a ha => Sat.bind (flatL_of cs fun x hx => h x (by simp [hx])) fun b hb =>
      Sat.ok (opsOf_append ha hb)
end

theorem flattenPlus_of : ∀ (c : Cst), Of ks c → Sat (Of ks) (flattenPlus c)
  | .node k [o, c], h => by
    unfold flattenPlus
    exact Sat.ite (fun _ => flattenPlus_of c (Of.node h c (by simp))) fun _ => Sat.ok h
  | .node k [], h => by simp only [flattenPlus]; exact Sat.ite (fun _ => Sat.fail) fun _ => Sat.ok h
  | .node k [_], h => by simp only [flattenPlus]; exact Sat.ite (fun _ => Sat.fail) fun _ => Sat.ok h
  | .node k (_ :: _ :: _ :: _), h => by simp only [flattenPlus]; exact Sat.ite (fun _ => Sat.fail) fun _ => Sat.ok h
  | .tok _, h => Sat.ok h
  | .call .., h => Sat.ok h
  | .callAgg .., h => Sat.ok h
  | .box .., h => Sat.ok h
  | .code .., h => Sat.ok h

theorem derivativeBody_of : ∀ (c : Cst), Of ks c → Sat (fun p => Of ks p.2) (derivativeBody c)
  | .node k [r, o], h => by
    unfold derivativeBody
    exact Sat.ite (fun _ => Sat.bind (derivativeBody_of r (Of.node h r (by simp))) fun p hp => Sat.ok hp) fun _ => Sat.ok h
  | .node k [], h => by simp only [derivativeBody]; exact Sat.ite (fun _ => Sat.fail) fun _ => Sat.ok h
  | .node k [_], h => by simp only [derivativeBody]; exact Sat.ite (fun _ => Sat.fail) fun _ => Sat.ok h
  | .node k (_ :: _ :: _ :: _), h => by simp only [derivativeBody]; exact Sat.ite (fun _ => Sat.fail) fun _ => Sat.ok h
  | .tok _, h => Sat.ok h
  | .call .., h => Sat.ok h
  | .callAgg .., h => Sat.ok h
  | .box .., h => Sat.ok h
  | .code .., h => Sat.ok h

theorem binaryAt_of {env : AEnv} {name : List UInt8} {c : Cst} (h : Of ks c) : Sat (Of ks) (binaryAt env name c) := by
  unfold binaryAt
  refine Sat.ite (fun _ => Sat.ok h) fun _ => ?_
  split
  · refine Sat.ite (fun _ => Sat.bind (expect3_of (Of.node h)) fun p hp => ?_) fun _ => Sat.ok h
    obtain ⟨l, m, r⟩ := p
    simp only at hp ⊢
    split
    · refine Sat.ite (fun _ => Sat.any fun s => ?_) fun _ => Sat.ok h
      exact Sat.ite (fun _ => Sat.ite (fun _ => Sat.ok hp.2.2) fun _ => Sat.fail) fun _ => Sat.ok h
    · exact Sat.ok h
  · exact Sat.ok h

theorem selectChildren_fits {a : Ast} (h : Fits ks a) : FitsL ks (selectChildren a) := by
  unfold selectChildren
  split
  · split
    · split
      · exact h.inv_call
      · exact .one h
    · exact .one h
  · exact .one h

theorem issueAt_fits (ho : Ordered ks) {i : Option (AIssueTag × Severity)} {cs : List Cst} {d : ASrc} (hd : Hulls ks d)
    (hc : (leavesL cs).Sublist ks) : Sat (FitsM ks) (issueAt i cs d) := by
  unfold issueAt
  split
  · exact Sat.ok (FitsM.of hd)
  · intro m h
    rcases e1 : firstSource cs with x | a <;> rw [e1] at h
    · cases h
    rcases e2 : lastSource cs with x | b <;> rw [e2] at h
    · cases h
    cases h
    obtain ⟨c, ds, rfl, h1⟩ := first_is e1
    obtain ⟨c', ds', h2, h3⟩ := last_is e2
    have hL := ofL_of hc
    have ha := source_on ho (hL c (by simp)) _ h1
    have hb := source_on ho (hL c' (by rw [h2]; simp)) _ h3
    refine ⟨fun t ht => by cases ht; exact hd, fun i hi => ?_⟩
    cases List.mem_singleton.mp hi
    refine ⟨ha, fun m hm => ?_⟩
    cases List.mem_singleton.mp hm
    refine ⟨hb, ?_⟩
    cases ds' with
    | nil =>
      cases h2
      rw [h1] at h3
      cases h3
      exact ⟨Loc.le_refl _, Loc.le_refl _⟩
    | cons x ds' =>
      cases h2
      have ho' := ho.sub hc
      rw [leavesL] at ho'
      obtain ⟨x1, x2, g1, g2, rfl⟩ := getSource_hull _ h1
      obtain ⟨y1, y2, g3, g4, rfl⟩ := getSource_hull _ h3
      have m1 := List.mem_of_head? g1
      have m2 := List.mem_of_getLast? g2
      have m3 : y1 ∈ leavesL (ds' ++ [c']) := mem_leavesL (by simp) _ (List.mem_of_head? g3)
      have m4 : y2 ∈ leavesL (ds' ++ [c']) := mem_leavesL (by simp) _ (List.mem_of_getLast? g4)
      have hp := (List.pairwise_append.mp ho'.1).2.2
      have hh := ho'.2
      exact ⟨Loc.le_trans (hh x1 (List.mem_append_left _ m1)) (hp x1 m1 y1 m3),
        Loc.le_trans (hp x2 m2 y2 m4) (hh y2 (List.mem_append_right _ m4))⟩
end

section
variable {env : AEnv} {rec : Req → A Ast} (hr : RecFits rec) {ks : List Tok} (ho : Ordered ks) {d : ASrc} {cs : List Cst} {c : Cst}
include hr ho

theorem rec_fits (h : Of ks c) : Sat (Fits ks) (rec (.cst c)) := hr ks ho _ h

theorem recs_fits (h : OfL ks cs) : Sat (FitsL ks) (mapA (recC rec) cs) := Sat.mapA fun c hc => rec_fits hr ho (h c hc)

theorem recipAst_fits (hd : Hulls ks d) (h : Of ks c) : Sat (Fits ks) (recipAst rec c d) :=
  Sat.bind (rec_fits hr ho h) fun _ ha => Sat.ok (Fits.callS ho (.two ha (Fits.neg ho)) (FitsM.of hd))

theorem operandAst_fits {f : Cst → A Cst} (hf : ∀ c, Of ks c → Sat (Of ks) (f c)) {o : AOperand} (h : OpOf ks o) :
    Sat (Fits ks) (operandAst rec f o) := by
  cases o with
  | cst c => exact Sat.bind (hf c h) fun _ h => rec_fits hr ho h
  | recip c d => exact recipAst_fits hr ho h.2 h.1
  | negOne => exact Sat.ok (Fits.neg ho)
  | neg g d => exact hr ks ho _ h

theorem timesAst_fits (hd : Hulls ks d) (h : OfL ks cs) : Sat (Fits ks) (timesAst env rec cs d) :=
  Sat.bind (flatL_of hd cs h) fun _ hs => Sat.bind (Sat.mapA fun o hm => operandAst_fits hr ho (fun _ h => binaryAt_of h) (hs o hm))
    fun _ ha => Sat.ok (Fits.callS ho ha (FitsM.of hd))

theorem divideAst_fits {l r : Cst} (hd : Hulls ks d) (hl : Of ks l) (h : Of ks r) : Sat (Fits ks) (divideAst env rec l r d) :=
  Sat.bind (flat_of hd l hl) fun _ hs => Sat.bind (Sat.mapA fun o hm => operandAst_fits hr ho (fun _ h => Sat.ok h) (hs o hm))
    fun _ ha => Sat.bind (recipAst_fits hr ho hd h) fun _ hb => Sat.ok (Fits.callS ho (FitsL.append ha (.one hb)) (FitsM.of hd))

theorem negatedAst_fits {g : Negated} (hd : Hulls ks d) (h : NegOf ks g) : Sat (Fits ks) (negatedAst env rec g d) := by
  cases g with
  | zero => exact Sat.ok (Fits.leaf ho (FitsM.of hd))
  | integer t => exact Sat.any fun s => Sat.ok (Fits.leaf ho (FitsM.of hd))
  | real t => exact Sat.any fun s => Sat.ok (Fits.leaf ho (FitsM.of hd))
  | times cs =>
    unfold negatedAst timesAst
    refine Sat.bind (P := fun a => ∃ as, FitsL ks as ∧ a = .callS .System_Times as (.of d)) ?_ ?_
    · exact Sat.bind (flatL_of hd _ (evens_of h)) fun _ hs => Sat.bind (Sat.mapA fun o hm => operandAst_fits hr ho (fun _ h => binaryAt_of h) (hs o hm))
        fun _ ha => Sat.ok ⟨_, ha, rfl⟩
    · rintro _ ⟨as, ha, rfl⟩
      exact Sat.ok (Fits.callS ho (FitsL.cons (Fits.neg ho) ha) (FitsM.of hd))

omit hr in
theorem plusPair_of {p : Cst × Cst} (h : (leaves p.1 ++ leaves p.2).Sublist ks) :
    Sat (fun o => ∃ js, js.Sublist ks ∧ OpOf js o) (plusPair p) := by
  unfold plusPair
  split
  · rename_i o rand
    have h : ([o] ++ leaves rand).Sublist ks := h
    refine Sat.ite (fun _ => Sat.ok ⟨ks, List.Sublist.refl _, (List.sublist_append_right _ _).trans h⟩) fun _ =>
      Sat.ite (fun _ => ?_) fun _ => Sat.fail
    intro x hx
    rcases e1 : getSource rand with e | s <;> rw [e1] at hx
    · cases hx
    rcases e2 : Abs.between (o.start, o.stop) s with e | t
    · have hx : (Abs.between (o.start, o.stop) s >>= fun data => negate rand >>= fun g => Except.ok (AOperand.neg g data)) = .ok x := hx
      rw [e2] at hx
      cases hx
    · have hx : (Abs.between (o.start, o.stop) s >>= fun data => negate rand >>= fun g => Except.ok (AOperand.neg g data)) = .ok x := hx
      rw [e2] at hx
      rcases e3 : negate rand with e | g
      · have hx : (negate rand >>= fun g => Except.ok (AOperand.neg g t)) = .ok x := hx
        rw [e3] at hx; cases hx
      · have hx : (negate rand >>= fun g => Except.ok (AOperand.neg g t)) = .ok x := hx
        rw [e3] at hx
        cases hx
        refine ⟨[o] ++ leaves rand, h, ?_, negate_of rand (List.sublist_append_right _ _) _ e3⟩
        rw [between_inv e2]
        exact hulls_append tok_hull (getSource_hull _ e1)
  · exact Sat.fail

theorem plusAst_fits (hd : Hulls ks d) (h : (leavesL cs).Sublist ks) : Sat (Fits ks) (plusAst env rec cs d) := by
  unfold plusAst
  split
  · exact Sat.fail
  · rename_i c cs
    have h1 : Of ks c := ofL_of h c (by simp)
    have h2 : (leavesL cs).Sublist ks := (List.sublist_append_right _ _).trans h
    have hf : ∀ {js : List Tok} (c : Cst), Of js c → Sat (Of js) (do let c ← binaryAt env Sym.System_Plus.short c; flattenPlus c) :=
      fun c h => Sat.bind (binaryAt_of h) fun _ h => flattenPlus_of _ h
    refine Sat.bind (pairs_of h2) fun ps hp => ?_
    refine Sat.bind (operandAst_fits hr ho hf (o := .cst c) h1) fun a ha => ?_
    refine Sat.bind (P := FitsL ks) (Sat.mapA fun p hm => ?_) fun as hs => Sat.ok (Fits.callS ho (.cons ha hs) (FitsM.of hd))
    refine Sat.bind (plusPair_of ho (hp p hm)) ?_
    rintro o ⟨js, hj, hoj⟩
    exact Sat.mono (operandAst_fits hr (ho.sub hj) hf hoj) fun a ha => ha.mono hj

theorem quirkAst_fits {name : List UInt8} (h : Of ks c) : Sat (Fits ks) (quirkAst env rec name c) :=
  Sat.bind (binaryAt_of h) fun _ h => rec_fits hr ho h

theorem messageAst_fits (hd : Hulls ks d) (h : OfL ks cs) : Sat (Fits ks) (messageAst env rec cs d) := by
  unfold messageAst
  split
  · exact Sat.fail
  · rename_i l rest
    refine Sat.bind (rec_fits hr ho (h l (by simp))) fun a ha => ?_
    refine Sat.bind (P := FitsL ks) (Sat.mapA fun c hm => ?_) fun as hs => Sat.ok (Fits.callS ho (.cons ha hs) ?_)
    · have hc : Of ks c := h c (by simp [hm])
      split
      · exact Sat.ite (fun _ => Sat.any fun s => Sat.ok (tok_fits ho hc)) fun _ => rec_fits hr ho hc
      · exact rec_fits hr ho hc
    · by_cases hl : rest.length > 2
      · rw [if_pos hl]; exact FitsM.issue hd (hull_on ho hd)
      · rw [if_neg hl]; exact FitsM.of hd

omit hr in
theorem simplify_fits {first : Ast} {rest : List (Sym × Ast)} {aff : Option Bool} (hd : Hulls ks d) (h1 : Fits ks first)
    (h2 : ∀ r ∈ rest, Fits ks r.2) : Fits ks (simplify first rest aff d) := by
  have hm := FitsM.of hd
  have hs : FitsL ks (first :: rest.map (·.2)) := .cons h1 fun a ha => by
    obtain ⟨r, hr, rfl⟩ := List.mem_map.mp ha
    exact h2 r hr
  have ha : FitsL ks (first :: rest.flatMap fun r => [Ast.symbol r.1, r.2]) := .cons h1 fun a ha => by
    obtain ⟨r, hr, hm⟩ := List.mem_flatMap.mp ha
    exact FitsL.two (Fits.bare ho) (h2 r hr) a hm
  unfold simplify
  dsimp only
  split
  · exact Fits.callS ho hs hm
  · exact Fits.callS ho (.one (Fits.callS ho hs FitsM.none)) hm
  · split
    · exact Fits.callS ho ha hm
    · exact Fits.callS ho ha hm

theorem inequalityLoop_fits (hd : Hulls ks d) : ∀ {ps : List (Tok × Cst)} {first : Ast} {rest : List (Sym × Ast)} {aff : Option Bool},
    (∀ p ∈ ps, Of ks p.2) → Fits ks first → (∀ r ∈ rest, Fits ks r.2) → Sat (Fits ks) (inequalityLoop rec d ps first rest aff)
  | [], first, rest, aff, _, h1, h2 => Sat.ok (simplify_fits ho hd h1 h2)
  | (o, c) :: ps, first, rest, aff, hp, h1, h2 => by
    have hp' : ∀ p ∈ ps, Of ks p.2 := fun p h => hp p (List.mem_cons_of_mem _ h)
    unfold inequalityLoop
    split
    · exact Sat.fail
    · rename_i s _
      refine Sat.bind (rec_fits hr ho (hp (o, c) List.mem_cons_self)) fun a ha => ?_
      have hs : ∀ r ∈ rest ++ [(s, a)], Fits ks r.2 := fun r hr => by
        rcases List.mem_append.mp hr with hr | hr
        · exact h2 r hr
        · cases List.mem_singleton.mp hr; exact ha
      split
      · exact Sat.fail
      · exact inequalityLoop_fits hd hp' h1 hs
      · exact Sat.ite (fun _ => inequalityLoop_fits hd hp' (simplify_fits ho hd h1 h2) fun r hr => by
          cases List.mem_singleton.mp hr; exact ha) fun _ => inequalityLoop_fits hd hp' h1 hs

theorem inequalityAst_fits (hd : Hulls ks d) (h : (leavesL cs).Sublist ks) : Sat (Fits ks) (inequalityAst rec cs d) := by
  unfold inequalityAst
  split
  · exact Sat.fail
  · rename_i c cs
    refine Sat.bind (rec_fits hr ho (ofL_of h c (by simp))) fun a ha => ?_
    refine Sat.bind (pairs_of ((List.sublist_append_right _ _).trans h)) fun ps hp => ?_
    refine Sat.bind (P := fun qs => ∀ q ∈ qs, Of ks q.2) (Sat.mapA fun p hm => ?_) fun qs hq => inequalityLoop_fits hr ho hd hq ha (by simp)
    unfold withTok
    split
    · exact Sat.ok ((List.sublist_append_right _ _).trans (hp p hm))
    · exact Sat.fail

theorem tildeRest_fits {m : AMeta} (hm : FitsM ks m) : ∀ {cs : List Cst} {a : Ast}, Fits ks a → OfL ks cs → Sat (Fits ks) (Abs.tildeRest rec m a cs)
  | [], a, _, _ => by unfold Abs.tildeRest; exact Sat.fail
  | [x], a, ha, h => by
    unfold Abs.tildeRest
    exact Sat.bind (rec_fits hr ho (h x (by simp))) fun _ hx => Sat.ok (Fits.abstractError ho (.two ha hx) hm)
  | [x, y], a, ha, h => by
    unfold Abs.tildeRest
    exact Sat.bind (rec_fits hr ho (h x (by simp))) fun _ hx => Sat.bind (rec_fits hr ho (h y (by simp))) fun _ hy =>
      Sat.ok (Fits.call ho hx (.two ha hy) hm)
  | x :: y :: z :: cs, a, ha, h => by
    unfold Abs.tildeRest
    exact Sat.bind (rec_fits hr ho (h x (by simp))) fun _ hx => Sat.bind (rec_fits hr ho (h y (by simp))) fun _ hy =>
      tildeRest_fits hm (Fits.call ho hx (.two ha hy) FitsM.none) fun w hw => h w (List.mem_cons_of_mem _ (List.mem_cons_of_mem _ hw))

theorem tildeAst_fits {m : AMeta} (hm : FitsM ks m) (h : OfL ks cs) : Sat (Fits ks) (tildeAst rec m cs) := by
  unfold tildeAst
  split
  · exact Sat.bind (rec_fits hr ho (h _ (by simp))) fun _ hx => Sat.bind (rec_fits hr ho (h _ (by simp))) fun _ hy =>
      Sat.ok (Fits.abstractError ho (.two hx hy) hm)
  · exact Sat.bind (rec_fits hr ho (h _ (by simp))) fun _ hx => tildeRest_fits hr ho hm hx fun w hw => h w (List.mem_cons_of_mem _ hw)
  · rename_i l m' r rest _
    refine Sat.bind (rec_fits hr ho (h _ (by simp))) fun _ hx => Sat.bind (tildeRest_fits hr ho FitsM.none hx (cs := [m', r]) fun w hw => h w ?_) fun _ ha =>
      tildeRest_fits hr ho hm ha fun w hw => h w (by simp [hw])
    rcases List.mem_cons.mp hw with rfl | hw
    · simp
    · cases List.mem_singleton.mp hw; simp
  · exact Sat.fail

theorem groupArgs_fits (h : OfL ks cs) : Sat (FitsL ks) (groupArgs rec cs) :=
  Sat.bind (recs_fits hr ho h) fun as ha => Sat.ok fun a hm => by
    obtain ⟨b, hb, hm⟩ := List.mem_flatMap.mp hm
    exact selectChildren_fits (ha b hb) a hm

theorem groupAst_fits (h : (leavesL cs).Sublist ks) : Sat (fun p => Hulls (leavesL cs) p.1 ∧ FitsL ks p.2) (groupAst rec cs) :=
  Sat.bind (P := Hulls (leavesL cs)) (fun _ hs => seqSource_hull hs) fun _ hs => Sat.bind (dropEnds_of (ofL_of h)) fun _ hc =>
    Sat.bind (groupArgs_fits hr ho hc) fun _ ha => Sat.ok ⟨hs, ha⟩

theorem missingAst_fits (h : (leavesL cs).Sublist ks) : Sat (fun p => Hulls (leavesL cs) p.1 ∧ FitsL ks p.2) (missingAst rec cs) := by
  refine Sat.bind (P := Hulls (leavesL cs)) (fun _ hs => seqSource_hull hs) fun _ hs => ?_
  split
  · exact Sat.fail
  · exact Sat.bind (groupArgs_fits hr ho fun c hc => ofL_of h c (List.mem_cons_of_mem _ hc)) fun _ ha => Sat.ok ⟨hs, ha⟩

theorem nakedAst_fits {err : AbstractError} (hd : Hulls ks d) (h : OfL ks cs) : Sat (Fits ks) (nakedAst rec err cs d) := by
  unfold nakedAst
  split
  · split
    · exact Sat.bind (recs_fits hr ho (evens_of (Of.node (k := .infix .CodeParser_Comma) (h _ (by simp))))) fun _ ha => Sat.ok (Fits.abstractError ho ha (FitsM.of hd))
    · exact Sat.bind (rec_fits hr ho (h _ (by simp))) fun _ ha => Sat.ok (Fits.abstractError ho (.one ha) (FitsM.of hd))
  · exact Sat.ok (Fits.abstractError ho .nil (FitsM.of hd))
  · exact Sat.fail

theorem parenAst_fits (hd : Hulls ks d) (h : OfL ks cs) : Sat (Fits ks) (parenAst rec cs d) := by
  unfold parenAst
  split
  · split
    · exact Sat.bind (recs_fits hr ho (evens_of (Of.node (k := .infix .CodeParser_Comma) (h _ (by simp))))) fun _ ha => Sat.ok (Fits.abstractError ho ha (FitsM.of hd))
    · exact rec_fits hr ho (h _ (by simp))
  · exact Sat.bind (dropEnds_of h) fun _ hc => Sat.bind (recs_fits hr ho hc) fun _ ha => Sat.ok (Fits.abstractError ho ha (FitsM.of hd))
end
end CodeParser.Spot
