import Verif.Model.Abstract
/-!
Abstraction ends (helper lemmas): the recursion always goes to smaller things.
-/
namespace CodeParser.Stop
open Abs

/-- The computation does not run out of fuel; if it succeeds, then with such a result. -/
def Fin {α : Type} (P : α → Prop) : A α → Prop
  | .ok a => P a
  | .error e => e ≠ .fuel

section
variable {α β : Type} {P : α → Prop} {Q : β → Prop}

theorem Fin.ok {a : α} (h : P a) : Fin P (.ok a) := h
theorem Fin.fail {p : APanic} : Fin P (Abs.fail p) := nofun
theorem Fin.mono {P' : α → Prop} {x : A α} (h : Fin P x) (hp : ∀ a, P a → P' a) : Fin P' x := by
  cases x with
  | error e => exact h
  | ok a => exact hp a h

theorem Fin.bind {x : A α} {f : α → A β} (h : Fin P x) (hf : ∀ a, P a → Fin Q (f a)) : Fin Q (x >>= f) := by
  cases x with
  | error e => exact h
  | ok a => exact hf a h

theorem Fin.ite {c : Prop} [Decidable c] {x y : A α} (h1 : c → Fin P x) (h2 : ¬ c → Fin P y) : Fin P (if c then x else y) := by
  by_cases h : c
  · rw [if_pos h]; exact h1 h
  · rw [if_neg h]; exact h2 h

theorem Fin.mapA {f : β → A α} : ∀ {bs : List β}, (∀ b ∈ bs, Fin P (f b)) → Fin (fun as => ∀ a ∈ as, P a) (mapA f bs)
  | [], _ => Fin.ok (by simp)
  | b :: bs, h => by
    unfold Abs.mapA
    have h1 := h b List.mem_cons_self
    have h2 := Fin.mapA (f := f) (bs := bs) fun b hb => h b (List.mem_cons_of_mem _ hb)
    cases e1 : f b with
    | error e => rw [e1] at h1; exact h1
    | ok a =>
      simp only
      rw [e1] at h1
      cases e2 : Abs.mapA f bs with
      | error e => rw [e2] at h2; exact h2
      | ok as =>
        rw [e2] at h2
        intro x hx
        rcases List.mem_cons.mp hx with rfl | hx
        · exact h1
        · exact h2 x hx
end

/-- It ends. -/
abbrev Ends {α : Type} (x : A α) : Prop := Fin (fun _ => True) x

theorem Ends.all {α β : Type} {f : α → A β} {as : List α} (h : ∀ a ∈ as, Ends (f a)) : Ends (mapA f as) :=
  (Fin.mapA h).mono fun _ _ => trivial

theorem Ends.bind {α β : Type} {x : A α} {f : α → A β} {Q : β → Prop} (h : Ends x) (hf : ∀ a, Fin Q (f a)) : Fin Q (x >>= f) :=
  Fin.bind h fun a _ => hf a

theorem Ends.ok {α : Type} {a : α} : Ends (.ok a) := trivial
theorem Ends.fail {α : Type} {p : APanic} : Ends (Abs.fail p : A α) := nofun

/-! ### Computations without recursion -/

theorem asStr_ends {t : List UInt8} : Ends (asStr t) := Fin.ite (fun _ => Ends.ok) fun _ => Ends.fail
theorem between_ends {a b : ASrc} : Ends (Abs.between a b) := Fin.ite (fun _ => Ends.ok) fun _ => Ends.fail

mutual
theorem getSource_ends : ∀ (c : Cst), Ends (getSource c)
  | .tok t => by unfold getSource; exact Ends.ok
  | .node _ cs => by
    unfold getSource
    exact (firstSource_ends cs).bind fun _ => (lastSource_ends cs).bind fun _ => between_ends
  | .call h _ _ cs => by
    unfold getSource
    exact (firstSource_ends h).bind fun _ => (firstSource_ends cs).bind fun _ => (lastSource_ends cs).bind fun _ =>
      between_ends.bind fun _ => between_ends
  | .callAgg h _ _ cs => by
    unfold getSource
    exact (getSource_ends h).bind fun _ => (firstSource_ends cs).bind fun _ => (lastSource_ends cs).bind fun _ =>
      between_ends.bind fun _ => between_ends
  | .box .. => by unfold getSource; exact Ends.fail
  | .code .. => by unfold getSource; exact Ends.fail
theorem firstSource_ends : ∀ (cs : List Cst), Ends (firstSource cs)
  | [] => by unfold firstSource; exact Ends.fail
  | c :: _ => by unfold firstSource; exact getSource_ends c
theorem lastSource_ends : ∀ (cs : List Cst), Ends (lastSource cs)
  | [] => by unfold lastSource; exact Ends.fail
  | [c] => by unfold lastSource; exact getSource_ends c
  | _ :: c :: cs => by unfold lastSource; exact lastSource_ends (c :: cs)
end

theorem seqSource_ends {cs : List Cst} : Ends (seqSource cs) :=
  (firstSource_ends cs).bind fun _ => (lastSource_ends cs).bind fun _ => between_ends

theorem issueAt_ends {i : Option (AIssueTag × Severity)} {cs : List Cst} {d : ASrc} : Ends (issueAt i cs d) := by
  unfold issueAt
  split
  · exact Ends.ok
  · exact (firstSource_ends cs).bind fun _ => (lastSource_ends cs).bind fun _ => Ends.ok

theorem tokenAst_ends {t : Tok} : Ends (tokenAst t) := by
  unfold tokenAst
  dsimp only
  split
  all_goals first
    | exact Ends.ok
    | exact asStr_ends.bind fun _ => Ends.ok
    | skip
  refine Fin.ite (fun _ => Ends.ok) fun _ => Fin.ite (fun _ => asStr_ends.bind fun s => ?_) fun _ => Ends.ok
  split <;> exact Ends.ok

theorem numberQ_ends : ∀ (c : Cst), Ends (numberQ c)
  | .tok t => Ends.ok
  | .node k [_, c, _] => by
    simp only [numberQ]
    exact Fin.ite (fun _ => numberQ_ends c) fun _ => Ends.ok
  | .node k [] => by simp only [numberQ]; exact Fin.ite (fun _ => Ends.fail) fun _ => Ends.ok
  | .node k [_] => by simp only [numberQ]; exact Fin.ite (fun _ => Ends.fail) fun _ => Ends.ok
  | .node k [_, _] => by simp only [numberQ]; exact Fin.ite (fun _ => Ends.fail) fun _ => Ends.ok
  | .node k (_ :: _ :: _ :: _ :: _) => by simp only [numberQ]; exact Fin.ite (fun _ => Ends.fail) fun _ => Ends.ok
  | .call .. => Ends.ok
  | .callAgg .. => Ends.ok
  | .box .. => Ends.ok
  | .code .. => Ends.ok

theorem zeroQ_ends : ∀ (c : Cst), Ends (zeroQ c)
  | .tok t => by
    simp only [zeroQ]
    exact Fin.ite (fun _ => asStr_ends.bind fun _ => Ends.ok) fun _ => Ends.ok
  | .node k [_, c, _] => by
    simp only [zeroQ]
    exact Fin.ite (fun _ => zeroQ_ends c) fun _ => Fin.ite (fun _ => Ends.fail) fun _ => Ends.ok
  | .node k [] => by simp only [zeroQ]; exact Fin.ite (fun _ => Ends.fail) fun _ => Fin.ite (fun _ => Ends.fail) fun _ => Ends.ok
  | .node k [_] => by simp only [zeroQ]; exact Fin.ite (fun _ => Ends.fail) fun _ => Fin.ite (fun _ => Ends.fail) fun _ => Ends.ok
  | .node k [_, c] => by
    simp only [zeroQ]
    exact Fin.ite (fun _ => Ends.fail) fun _ => Fin.ite (fun _ => zeroQ_ends c) fun _ => Ends.ok
  | .node k (_ :: _ :: _ :: _ :: _) => by simp only [zeroQ]; exact Fin.ite (fun _ => Ends.fail) fun _ => Fin.ite (fun _ => Ends.fail) fun _ => Ends.ok
  | .call .. => Ends.ok
  | .callAgg .. => Ends.ok
  | .box .. => Ends.ok
  | .code .. => Ends.ok

/-! ### Sizes -/

theorem csize_mem {c : Cst} : ∀ {cs : List Cst}, c ∈ cs → csize c ≤ csizeL cs
  | d :: cs, h => by
    rw [csizeL]
    rcases List.mem_cons.mp h with rfl | h
    · omega
    · have := csize_mem h; omega

theorem csizeL_sub : ∀ {cs ds : List Cst}, cs.Sublist ds → csizeL cs ≤ csizeL ds
  | _, _, .slnil => Nat.le_refl _
  | _, _, .cons a h => by rw [csizeL]; have := csizeL_sub h; omega
  | _, _, .cons_cons a h => by rw [csizeL, csizeL]; have := csizeL_sub h; omega

theorem evens_sub {α : Type} : ∀ (as : List α), (evens as).Sublist as
  | [] => .slnil
  | [a] => .refl _
  | a :: b :: as => by unfold evens; exact .cons_cons a (.cons b (evens_sub as))

/-- The size is at most `n`. -/
abbrev Le (n : Nat) (c : Cst) : Prop := csize c ≤ n
/-- The same for each of several. -/
abbrev LeL (n : Nat) (cs : List Cst) : Prop := ∀ c ∈ cs, csize c ≤ n

theorem leL_of {n : Nat} {cs : List Cst} (h : csizeL cs ≤ n) : LeL n cs := fun _ hc => Nat.le_trans (csize_mem hc) h

/-- The size of what is negated is at most `n`. -/
def NegLe (n : Nat) : Negated → Prop
  | .times cs => csizeL cs ≤ n
  | _ => True

/-- What is abstracted for an operand is of a measure of at most `m`. -/
def OpLe (m : Nat) : AOperand → Prop
  | .cst c => 2 * csize c ≤ m
  | .recip c _ => 2 * csize c ≤ m
  | .negOne => True
  | .neg g d => (Req.neg g d).meas ≤ m

/-- The same for several operands. -/
def OpsLe (m : Nat) (os : List AOperand) : Prop := ∀ o ∈ os, OpLe m o

theorem OpsLe.one {m : Nat} {o : AOperand} (h : OpLe m o) : OpsLe m [o] := fun x hx => by cases List.mem_singleton.mp hx; exact h
theorem OpsLe.append {m : Nat} {os ps : List AOperand} (h : OpsLe m os) (h' : OpsLe m ps) : OpsLe m (os ++ ps) := fun x hx =>
  (List.mem_append.mp hx).elim (h x) (h' x)
theorem OpsLe.mono {m n : Nat} {os : List AOperand} (h : OpsLe m os) (hn : m ≤ n) : OpsLe n os := fun o ho => by
  have := h o ho
  cases o <;> simp only [OpLe] at this ⊢ <;> omega

theorem neg_meas {n m : Nat} {g : Negated} {d : ASrc} (h : NegLe n g) (hm : 2 * n + 1 ≤ m) : (Req.neg g d).meas ≤ m := by
  cases g <;> simp only [Req.meas, NegLe] at h ⊢ <;> omega

theorem NegLe.mono {n m : Nat} {g : Negated} (h : NegLe n g) (hm : n ≤ m) : NegLe m g := by
  cases g <;> simp only [NegLe] at h ⊢; omega

theorem csize_one {c : Cst} : csizeL [c] = csize c := by simp [csizeL]

theorem expect2_fin {cs : List Cst} : Fin (fun p => cs = [p.1, p.2]) (expect2 cs) := by
  unfold expect2
  split
  · exact Fin.ok rfl
  · exact Fin.fail

theorem expect3_fin {cs : List Cst} : Fin (fun p => cs = [p.1, p.2.1, p.2.2]) (expect3 cs) := by
  unfold expect3
  split
  · exact Fin.ok rfl
  · exact Fin.fail

theorem expect5_fin {cs : List Cst} : Fin (fun p => cs = [p.1, p.2.1, p.2.2.1, p.2.2.2.1, p.2.2.2.2]) (expect5 cs) := by
  unfold expect5
  split
  · exact Fin.ok rfl
  · exact Fin.fail

theorem dropEnds_fin {cs : List Cst} : Fin (fun ds => ∀ d ∈ ds, d ∈ cs) (dropEnds cs) := by
  unfold dropEnds
  split
  · exact Fin.ok fun c hc => List.mem_cons_of_mem _ (List.dropLast_subset _ hc)
  · exact Fin.fail

theorem pairs_fin : ∀ {cs : List Cst}, Fin (fun ps => ∀ p ∈ ps, csize p.1 + csize p.2 ≤ csizeL cs) (pairs cs)
  | [] => Fin.ok (by simp)
  | [_] => Fin.fail
  | a :: b :: cs => by
    unfold pairs
    refine Fin.bind (pairs_fin (cs := cs)) fun ps hp => Fin.ok ?_
    intro p hm
    simp only [csizeL]
    rcases List.mem_cons.mp hm with rfl | hm
    · simp only; omega
    · have := hp p hm; omega

theorem negate_fin : ∀ (c : Cst), Fin (NegLe (csize c)) (negate c)
  | .tok t => by
    simp only [negate]
    refine Fin.ite (fun _ => asStr_ends.bind fun s => Fin.ok ?_) fun _ => Fin.ite (fun _ => Fin.ok trivial) fun _ => Fin.ok ?_
    · split <;> trivial
    · exact Nat.le_of_eq csize_one
  | .node k [o, c, e] => by
    have hc : Fin (NegLe (csize (.node k [o, c, e]))) (negate c) := (negate_fin c).mono fun g hg => hg.mono (by simp only [csize, csizeL]; omega)
    have h1 : NegLe (csize (.node k [o, c, e])) (.times [.node k [o, c, e]]) := Nat.le_of_eq csize_one
    have h2 : NegLe (csize (.node k [o, c, e])) (.times [o, c, e]) := by simp only [NegLe, csize, csizeL]; omega
    simp only [negate]
    refine Fin.ite (fun _ => (zeroQ_ends c).bind fun z => Fin.ite (fun _ => hc) fun _ => (numberQ_ends c).bind fun z =>
      Fin.ite (fun _ => hc) fun _ => Fin.ok h1) fun _ => ?_
    refine Fin.ite (fun _ => (zeroQ_ends c).bind fun z => Fin.ite (fun _ => hc) fun _ => Fin.ok h1) fun _ => ?_
    exact Fin.ite (fun _ => Fin.ok h2) fun _ => Fin.ok h1
  | .node k [] => by
    simp only [negate]
    exact Fin.ite (fun _ => Fin.fail) fun _ => Fin.ite (fun _ => Fin.fail) fun _ => Fin.ite (fun _ => Fin.ok (by simp [NegLe, csizeL])) fun _ =>
      Fin.ok (Nat.le_of_eq csize_one)
  | .node k [_] => by
    simp only [negate]
    exact Fin.ite (fun _ => Fin.fail) fun _ => Fin.ite (fun _ => Fin.fail) fun _ => Fin.ite (fun _ => Fin.ok (by simp only [NegLe, csize, csizeL]; omega)) fun _ =>
      Fin.ok (Nat.le_of_eq csize_one)
  | .node k [o, c] => by
    have hc : Fin (NegLe (csize (.node k [o, c]))) (negate c) := (negate_fin c).mono fun g hg => hg.mono (by simp only [csize, csizeL]; omega)
    have h1 : NegLe (csize (.node k [o, c])) (.times [.node k [o, c]]) := Nat.le_of_eq csize_one
    have h2 : NegLe (csize (.node k [o, c])) (.times [o, c]) := by simp only [NegLe, csize, csizeL]; omega
    simp only [negate]
    refine Fin.ite (fun _ => (zeroQ_ends c).bind fun z => Fin.ite (fun _ => hc) fun _ => Fin.fail) fun _ => ?_
    refine Fin.ite (fun _ => (zeroQ_ends c).bind fun z => Fin.ite (fun _ => hc) fun _ => Fin.ok h1) fun _ => ?_
    exact Fin.ite (fun _ => Fin.ok h2) fun _ => Fin.ok h1
  | .node k (o :: c :: a :: b :: cs) => by
    have hc : Fin (NegLe (csize (.node k (o :: c :: a :: b :: cs)))) (negate c) := (negate_fin c).mono fun g hg => hg.mono (by simp only [csize, csizeL]; omega)
    have h1 : NegLe (csize (.node k (o :: c :: a :: b :: cs))) (.times [.node k (o :: c :: a :: b :: cs)]) := Nat.le_of_eq csize_one
    have h2 : NegLe (csize (.node k (o :: c :: a :: b :: cs))) (.times (o :: c :: a :: b :: cs)) := by simp only [NegLe, csize, csizeL]; omega
    simp only [negate]
    refine Fin.ite (fun _ => (zeroQ_ends c).bind fun z => Fin.ite (fun _ => hc) fun _ => Fin.fail) fun _ => ?_
    refine Fin.ite (fun _ => (zeroQ_ends c).bind fun z => Fin.ite (fun _ => hc) fun _ => Fin.ok h1) fun _ => ?_
    exact Fin.ite (fun _ => Fin.ok h2) fun _ => Fin.ok h1
  | .call .. => Fin.ok (Nat.le_of_eq csize_one)
  | .callAgg .. => Fin.ok (Nat.le_of_eq csize_one)
  | .box .. => Fin.ok (Nat.le_of_eq csize_one)
  | .code .. => Fin.ok (Nat.le_of_eq csize_one)

section
variable {q : Bool} {d : ASrc}

theorem self_le {c : Cst} : OpsLe (2 * csize c) [.cst c] := .one (Nat.le_refl _)

mutual
theorem flat_fin : ∀ (c : Cst), Fin (OpsLe (2 * csize c)) (flat q d c)
  | .node k cs => by
    unfold flat
    exact Fin.ite (fun _ => flatMinus_fin k cs) fun _ =>
      Fin.ite (fun _ => (flatEvens_fin cs).mono fun _ h => h.mono (by simp only [csize]; omega)) fun _ =>
      Fin.ite (fun _ => flatDivide_fin k cs) fun _ => Fin.ok self_le
  | .tok _ => by unfold flat; exact Fin.ok self_le
  | .call .. => by unfold flat; exact Fin.ok self_le
  | .callAgg .. => by unfold flat; exact Fin.ok self_le
  | .box .. => by unfold flat; exact Fin.ok self_le
  | .code .. => by unfold flat; exact Fin.ok self_le
theorem flatEvens_fin : ∀ (cs : List Cst), Fin (OpsLe (2 * csizeL cs)) (flatEvens q d cs)
  | [] => by unfold flatEvens; exact Fin.ok (by intro x hx; cases hx)
  | [c] => by unfold flatEvens; exact (flat_fin c).mono fun _ h => h.mono (by simp only [csizeL]; omega)
  | c :: _ :: cs => by
    unfold flatEvens
    exact Fin.bind (flat_fin c) fun a ha => Fin.bind (flatEvens_fin cs) fun b hb =>
      Fin.ok (.append (ha.mono (by simp only [csizeL]; omega)) (hb.mono (by simp only [csizeL]; omega)))
theorem flatMinus_fin (k : NodeKind) : ∀ (cs : List Cst), Fin (OpsLe (2 * csize (.node k cs))) (flatMinus q d (.node k cs) cs)
  | [_, c] => by
    unfold flatMinus
    refine (numberQ_ends c).bind fun z => Fin.ite (fun _ => Fin.bind (negate_fin c) fun g hg => Fin.ok (.one ?_)) fun _ =>
      Fin.ite (fun _ => Fin.bind (flat_fin c) fun a ha => Fin.ok ?_) fun _ => Fin.ok self_le
    · exact neg_meas hg (by simp only [csize, csizeL]; omega)
    · exact OpsLe.append (os := [.negOne]) (.one trivial) (ha.mono (by simp only [csize, csizeL]; omega))
  | [] => by unfold flatMinus; exact Fin.fail
  | [_] => by unfold flatMinus; exact Fin.fail
  | _ :: _ :: _ :: _ => by unfold flatMinus; exact Fin.fail
theorem flatDivide_fin (k : NodeKind) : ∀ (cs : List Cst), Fin (OpsLe (2 * csize (.node k cs))) (flatDivide q d (.node k cs) cs)
  | [l, _, r] => by
    unfold flatDivide
    refine Fin.ite (fun _ => Fin.bind (flat_fin l) fun a ha => Fin.ok (.append (ha.mono ?_) (.one ?_))) fun _ => Fin.ok self_le
    · simp only [csize, csizeL]; omega
    · simp only [OpLe, csize, csizeL]; omega
  | [] => by unfold flatDivide; exact Fin.ite (fun _ => Fin.fail) fun _ => Fin.ok self_le
  | [_] => by unfold flatDivide; exact Fin.ite (fun _ => Fin.fail) fun _ => Fin.ok self_le
  | [_, _] => by unfold flatDivide; exact Fin.ite (fun _ => Fin.fail) fun _ => Fin.ok self_le
  | _ :: _ :: _ :: _ :: _ => by unfold flatDivide; exact Fin.ite (fun _ => Fin.fail) fun _ => Fin.ok self_le
end

theorem flatL_fin : ∀ (cs : List Cst), Fin (OpsLe (2 * csizeL cs)) (flatL q d cs)
  | [] => by unfold flatL; exact Fin.ok (by intro x hx; cases hx)
  | c :: cs => by
    unfold flatL
    exact Fin.bind (flat_fin c) fun a ha => Fin.bind (flatL_fin cs) fun b hb =>
      Fin.ok (.append (ha.mono (by simp only [csizeL]; omega)) (hb.mono (by simp only [csizeL]; omega)))
end

theorem flattenPlus_fin : ∀ (c : Cst), Fin (Le (csize c)) (flattenPlus c)
  | .node k [o, c] => by
    unfold flattenPlus
    exact Fin.ite (fun _ => (flattenPlus_fin c).mono fun x (hx : csize x ≤ _) => by simp only [Le, csize, csizeL]; omega) fun _ => Fin.ok (Nat.le_refl _)
  | .node k [] => by simp only [flattenPlus]; exact Fin.ite (fun _ => Fin.fail) fun _ => Fin.ok (Nat.le_refl _)
  | .node k [_] => by simp only [flattenPlus]; exact Fin.ite (fun _ => Fin.fail) fun _ => Fin.ok (Nat.le_refl _)
  | .node k (_ :: _ :: _ :: _) => by simp only [flattenPlus]; exact Fin.ite (fun _ => Fin.fail) fun _ => Fin.ok (Nat.le_refl _)
  | .tok _ => Fin.ok (Nat.le_refl _)
  | .call .. => Fin.ok (Nat.le_refl _)
  | .callAgg .. => Fin.ok (Nat.le_refl _)
  | .box .. => Fin.ok (Nat.le_refl _)
  | .code .. => Fin.ok (Nat.le_refl _)

theorem derivativeBody_fin : ∀ (c : Cst), Fin (fun p => csize p.2 ≤ csize c) (derivativeBody c)
  | .node k [r, o] => by
    unfold derivativeBody
    exact Fin.ite (fun _ => Fin.bind (derivativeBody_fin r) fun p hp => Fin.ok (by simp only [csize, csizeL]; omega)) fun _ => Fin.ok (Nat.le_refl _)
  | .node k [] => by simp only [derivativeBody]; exact Fin.ite (fun _ => Fin.fail) fun _ => Fin.ok (Nat.le_refl _)
  | .node k [_] => by simp only [derivativeBody]; exact Fin.ite (fun _ => Fin.fail) fun _ => Fin.ok (Nat.le_refl _)
  | .node k (_ :: _ :: _ :: _) => by simp only [derivativeBody]; exact Fin.ite (fun _ => Fin.fail) fun _ => Fin.ok (Nat.le_refl _)
  | .tok _ => Fin.ok (Nat.le_refl _)
  | .call .. => Fin.ok (Nat.le_refl _)
  | .callAgg .. => Fin.ok (Nat.le_refl _)
  | .box .. => Fin.ok (Nat.le_refl _)
  | .code .. => Fin.ok (Nat.le_refl _)

theorem binaryAt_fin {env : AEnv} {name : List UInt8} {c : Cst} : Fin (Le (csize c)) (binaryAt env name c) := by
  unfold binaryAt
  refine Fin.ite (fun _ => Fin.ok (Nat.le_refl _)) fun _ => ?_
  split
  · refine Fin.ite (fun _ => Fin.bind expect3_fin fun p hp => ?_) fun _ => Fin.ok (Nat.le_refl _)
    obtain ⟨l, m, r⟩ := p
    simp only at hp ⊢
    subst hp
    split
    · refine Fin.ite (fun _ => asStr_ends.bind fun s => ?_) fun _ => Fin.ok (Nat.le_refl _)
      exact Fin.ite (fun _ => Fin.ite (fun _ => Fin.ok (by simp only [Le, csize, csizeL]; omega)) fun _ => Fin.fail) fun _ => Fin.ok (Nat.le_refl _)
    · exact Fin.ok (Nat.le_refl _)
  · exact Fin.ok (Nat.le_refl _)

end CodeParser.Stop
