import Verif.Proofs.Stop1
/-!
Abstraction ends (helper lemmas): the recursion.
-/
namespace CodeParser.Stop
open Abs

section
variable {env : AEnv} {rec : Req → A Ast} {M : Nat} (H : ∀ r, r.meas ≤ M → Ends (rec r)) {d : ASrc} {cs : List Cst}
include H

theorem rec_ends {c : Cst} (h : 2 * csize c ≤ M) : Ends (rec (.cst c)) := H _ h

theorem recs_ends {ds : List Cst} (h : 2 * csizeL cs ≤ M) (hs : ∀ c ∈ ds, c ∈ cs) : Ends (mapA (recC rec) ds) :=
  Ends.all fun c hc => H _ (by have := csize_mem (hs c hc); simp only [Req.meas]; omega)

theorem recipAst_ends {c : Cst} (h : 2 * csize c ≤ M) : Ends (recipAst rec c d) := (rec_ends H h).bind fun _ => Ends.ok

theorem operandAst_ends {f : Cst → A Cst} (hf : ∀ c, Fin (Le (csize c)) (f c)) {o : AOperand} (h : OpLe M o) : Ends (operandAst rec f o) := by
  unfold operandAst
  split
  · rename_i c
    exact Fin.bind (hf c) fun a (ha : csize a ≤ _) => H _ (by simp only [OpLe, Req.meas] at h ⊢; omega)
  · exact recipAst_ends H h
  · exact Ends.ok
  · exact H _ h

theorem timesAst_ends (h : 2 * csizeL cs ≤ M) : Ends (timesAst env rec cs d) :=
  Fin.bind (flatL_fin cs) fun _ ho => (Ends.all fun o hm => operandAst_ends H (fun _ => binaryAt_fin) ((ho.mono h) o hm)).bind fun _ => Ends.ok

theorem divideAst_ends {l r : Cst} (hl : 2 * csize l ≤ M) (hr : 2 * csize r ≤ M) : Ends (divideAst env rec l r d) :=
  Fin.bind (flat_fin l) fun _ ho => (Ends.all fun o hm => operandAst_ends H (fun _ => Fin.ok (Nat.le_refl _)) ((ho.mono hl) o hm)).bind fun _ =>
    (recipAst_ends H hr).bind fun _ => Ends.ok

theorem negatedAst_ends {g : Negated} (h : (Req.neg g d).meas ≤ M + 1) : Ends (negatedAst env rec g d) := by
  unfold negatedAst
  split
  · exact Ends.ok
  · exact asStr_ends.bind fun _ => Ends.ok
  · exact asStr_ends.bind fun _ => Ends.ok
  · rename_i cs
    refine (timesAst_ends H ?_).bind fun a => ?_
    · have := csizeL_sub (evens_sub cs)
      simp only [Req.meas] at h; omega
    · split
      · exact Ends.ok
      · exact Ends.fail

omit H in
theorem plusPair_fin {p : Cst × Cst} (h : 2 * (csize p.1 + csize p.2) ≤ M) : Fin (OpLe M) (plusPair p) := by
  unfold plusPair
  split
  · rename_i o rand
    simp only [csize] at h
    refine Fin.ite (fun _ => Fin.ok ?_) fun _ => Fin.ite (fun _ => ?_) fun _ => Fin.fail
    · simp only [OpLe]; omega
    · exact (getSource_ends rand).bind fun _ => between_ends.bind fun _ => Fin.bind (negate_fin rand) fun g hg => Fin.ok (neg_meas hg (by omega))
  · exact Fin.fail

theorem plusAst_ends (h : 2 * csizeL cs ≤ M) : Ends (plusAst env rec cs d) := by
  unfold plusAst
  split
  · exact Ends.fail
  · rename_i c cs
    simp only [csizeL] at h
    have hf : ∀ c : Cst, Fin (Le (csize c)) (binaryAt env Sym.System_Plus.short c >>= fun c => flattenPlus c) := fun c =>
      Fin.bind binaryAt_fin fun x (hx : csize x ≤ _) => (flattenPlus_fin x).mono fun y (hy : csize y ≤ _) => Nat.le_trans hy hx
    refine Fin.bind pairs_fin fun ps hp => ?_
    refine (operandAst_ends H hf (o := .cst c) ?_).bind fun a => ?_
    · simp only [OpLe]; omega
    refine (Ends.all fun p hm => ?_).bind fun as => Ends.ok
    exact Fin.bind (plusPair_fin (by have := hp p hm; omega)) fun o ho => operandAst_ends H hf ho

theorem quirkAst_ends {name : List UInt8} {c : Cst} (h : 2 * csize c ≤ M) : Ends (quirkAst env rec name c) :=
  Fin.bind binaryAt_fin fun x (hx : csize x ≤ _) => rec_ends H (by omega)

theorem messageAst_ends (h : 2 * csizeL cs ≤ M) : Ends (messageAst env rec cs d) := by
  unfold messageAst
  split
  · exact Ends.fail
  · rename_i l rest
    simp only [csizeL] at h
    refine (rec_ends H (by omega)).bind fun a => ?_
    refine (Ends.all fun c hc => ?_).bind fun as => Ends.ok
    have := csize_mem hc
    split
    · exact Fin.ite (fun _ => asStr_ends.bind fun _ => Ends.ok) fun _ => rec_ends H (by omega)
    · exact rec_ends H (by omega)

theorem inequalityLoop_ends {ps : List (Tok × Cst)} (h : ∀ p ∈ ps, 2 * csize p.2 ≤ M) :
    ∀ {first : Ast} {rest : List (Sym × Ast)} {aff : Option Bool}, Ends (inequalityLoop rec d ps first rest aff) := by
  induction ps with
  | nil => intro _ _ _; unfold inequalityLoop; exact Ends.ok
  | cons p ps ih =>
    intro first rest aff
    have ih' := @ih fun q hq => h q (List.mem_cons_of_mem _ hq)
    unfold inequalityLoop
    split
    · exact Ends.fail
    · refine (rec_ends H (h p List.mem_cons_self)).bind fun a => ?_
      split
      · exact Ends.fail
      · exact ih'
      · exact Fin.ite (fun _ => ih') fun _ => ih'

theorem inequalityAst_ends (h : 2 * csizeL cs ≤ M) : Ends (inequalityAst rec cs d) := by
  unfold inequalityAst
  split
  · exact Ends.fail
  · rename_i c cs
    simp only [csizeL] at h
    refine (rec_ends H (by omega)).bind fun a => Fin.bind pairs_fin fun ps hp => ?_
    refine Fin.bind (P := fun qs => ∀ q ∈ qs, 2 * csize q.2 ≤ M) (Fin.mapA fun p hm => ?_) fun qs hq => inequalityLoop_ends H hq
    have := hp p hm
    unfold withTok
    split
    · exact Fin.ok (by simp only; omega)
    · exact Fin.fail

theorem tildeRest_ends {m : AMeta} : ∀ {a : Ast} {cs : List Cst}, 2 * csizeL cs ≤ M → Ends (Abs.tildeRest rec m a cs)
  | _, [], _ => by unfold Abs.tildeRest; exact Ends.fail
  | a, [x], h => by
    simp only [csizeL] at h
    unfold Abs.tildeRest
    exact (rec_ends H (by omega)).bind fun _ => Ends.ok
  | a, [x, y], h => by
    simp only [csizeL] at h
    unfold Abs.tildeRest
    exact (rec_ends H (by omega)).bind fun _ => (rec_ends H (by omega)).bind fun _ => Ends.ok
  | a, x :: y :: z :: zs, h => by
    simp only [csizeL] at h
    unfold Abs.tildeRest
    exact (rec_ends H (by omega)).bind fun _ => (rec_ends H (by omega)).bind fun _ => tildeRest_ends (cs := z :: zs) (by simp only [csizeL]; omega)

theorem tildeAst_ends {m : AMeta} (h : 2 * csizeL cs ≤ M) : Ends (tildeAst rec m cs) := by
  unfold tildeAst
  split
  · simp only [csizeL] at h
    exact (rec_ends H (by omega)).bind fun _ => (rec_ends H (by omega)).bind fun _ => Ends.ok
  · simp only [csizeL] at h
    exact (rec_ends H (by omega)).bind fun _ => tildeRest_ends H (by simp only [csizeL]; omega)
  · simp only [csizeL] at h
    exact (rec_ends H (by omega)).bind fun _ => (tildeRest_ends H (by simp only [csizeL]; omega)).bind fun _ => tildeRest_ends H (by omega)
  · exact Ends.fail

theorem groupArgs_ends {ds : List Cst} (h : 2 * csizeL cs ≤ M) (hs : ∀ c ∈ ds, c ∈ cs) : Ends (groupArgs rec ds) :=
  (recs_ends H h hs).bind fun _ => Ends.ok

theorem groupAst_ends (h : 2 * csizeL cs ≤ M) : Ends (groupAst rec cs) :=
  seqSource_ends.bind fun _ => Fin.bind dropEnds_fin fun _ hd => (groupArgs_ends H h hd).bind fun _ => Ends.ok

theorem missingAst_ends (h : 2 * csizeL cs ≤ M) : Ends (missingAst rec cs) := by
  unfold missingAst
  refine seqSource_ends.bind fun _ => ?_
  split
  · exact Ends.fail
  · exact (groupArgs_ends H h fun c hc => List.mem_cons_of_mem _ hc).bind fun _ => Ends.ok

theorem nakedAst_ends {err : AbstractError} (h : 2 * csizeL cs ≤ M) : Ends (nakedAst rec err cs d) := by
  unfold nakedAst
  split
  · simp only [csizeL] at h
    split
    · simp only [csize] at h
      exact (recs_ends (cs := _) H (by omega) fun c hc => (evens_sub _).subset hc).bind fun _ => Ends.ok
    · exact (rec_ends H (by omega)).bind fun _ => Ends.ok
  · exact Ends.ok
  · exact Ends.fail

theorem parenAst_ends (h : 2 * csizeL cs ≤ M) : Ends (parenAst rec cs d) := by
  unfold parenAst
  split
  · simp only [csizeL] at h
    split
    · simp only [csize] at h
      exact (recs_ends (cs := _) H (by omega) fun c hc => (evens_sub _).subset hc).bind fun _ => Ends.ok
    · exact rec_ends H (by omega)
  · exact Fin.bind dropEnds_fin fun _ hd => (recs_ends H h hd).bind fun _ => Ends.ok

theorem compoundAst_ends {op : CompoundOp} (h : 2 * csizeL cs ≤ M) : Ends (compoundAst env rec op cs d) := by
  have two : ∀ {β : Type} {f : Cst × Cst → A β}, (∀ x y, cs = [x, y] → 2 * csize x ≤ M → 2 * csize y ≤ M → Ends (f (x, y))) → Ends (expect2 cs >>= f) := by
    intro β f hf
    refine Fin.bind expect2_fin fun p hp => ?_
    obtain ⟨x, y⟩ := p
    simp only at hp
    subst hp
    simp only [csizeL] at h
    exact hf x y rfl (by omega) (by omega)
  unfold compoundAst
  split
  · exact two fun x y _ hx hy => (rec_ends H hy).bind fun _ => Ends.ok
  · exact two fun x y _ hx hy => (rec_ends H hy).bind fun _ => Ends.ok
  · exact two fun x y _ hx hy => (rec_ends H hy).bind fun _ => Ends.ok
  · exact two fun x y _ hx hy => (rec_ends H hx).bind fun _ => (rec_ends H hy).bind fun _ => Ends.ok
  · exact two fun x y _ hx hy => (rec_ends H hx).bind fun _ => (rec_ends H hy).bind fun _ => Ends.ok
  · exact two fun x y _ hx hy => (rec_ends H hx).bind fun _ => (rec_ends H hy).bind fun _ => Ends.ok
  · refine two fun x y _ hx hy => ?_
    simp only
    split
    · exact Fin.ite (fun _ => (rec_ends H hx).bind fun _ => Ends.ok) fun _ => Ends.fail
    · exact Ends.fail
  · refine two fun x y _ hx hy => ?_
    simp only
    split
    · exact Fin.ite (fun _ => tokenAst_ends.bind fun _ => Ends.ok) fun _ => Fin.ite (fun _ => asStr_ends.bind fun _ => Ends.ok) fun _ => Ends.fail
    · exact Ends.fail
  all_goals
    exact two fun x y _ hx hy => Fin.ite (fun _ => (rec_ends H hy).bind fun _ => Ends.ok) fun _ => Ends.fail

omit H in
theorem fileAst_ends {c : Cst} : Ends (fileAst env c) := by
  unfold fileAst
  split
  · exact Fin.ite (fun _ => asStr_ends.bind fun _ => Ends.ok) fun _ => Ends.fail
  · exact Ends.fail

theorem prefixAst_ends {op : PrefixOp} (h : 2 * csizeL cs + 1 ≤ M) : Ends (prefixAst env rec op cs d) := by
  have two : ∀ {β : Type} {f : Cst × Cst → A β}, (∀ x y, cs = [x, y] → 2 * csize x + 1 ≤ M → 2 * csize y + 1 ≤ M → Ends (f (x, y))) → Ends (expect2 cs >>= f) := by
    intro β f hf
    refine Fin.bind expect2_fin fun p hp => ?_
    obtain ⟨x, y⟩ := p
    simp only at hp
    subst hp
    simp only [csizeL] at h
    exact hf x y rfl (by omega) (by omega)
  unfold prefixAst
  split
  · exact two fun x y _ hx hy => Fin.bind (negate_fin y) fun g hg => H _ (neg_meas hg hy)
  · exact two fun x y _ hx hy => Fin.bind (flattenPlus_fin y) fun z (hz : csize z ≤ _) => (rec_ends H (by omega)).bind fun _ => Ends.ok
  · exact two fun x y _ hx hy => (getSource_ends x).bind fun _ => (rec_ends H (by omega)).bind fun _ => Ends.ok
  · split
    · simp only [csizeL] at h
      exact Fin.ite (fun _ => (rec_ends H (by omega)).bind fun _ => (rec_ends H (by omega)).bind fun _ => Ends.ok) fun _ =>
        (rec_ends H (by omega)).bind fun _ => Ends.ok
    · exact Ends.fail
  · exact two fun x y _ hx hy => fileAst_ends.bind fun _ => Ends.ok
  · exact two fun x y _ hx hy => (rec_ends H (by omega)).bind fun _ => Ends.ok

theorem postfixAst_ends {op : PostfixOp} (h : 2 * csizeL cs ≤ M) : Ends (postfixAst rec op cs d) := by
  unfold postfixAst
  refine Fin.bind expect2_fin fun p hp => ?_
  obtain ⟨x, y⟩ := p
  simp only at hp
  subst hp
  simp only [csizeL] at h
  have hx : 2 * csize x ≤ M := by omega
  simp only
  split
  · exact (rec_ends H hx).bind fun _ => Ends.ok
  · split
    · exact Fin.ite (fun _ => Fin.bind (derivativeBody_fin x) fun q hq => (rec_ends H (by omega)).bind fun _ => Ends.ok) fun _ =>
        Fin.ite (fun _ => asStr_ends.bind fun _ => (rec_ends H hx).bind fun _ => Ends.ok) fun _ => Ends.fail
    · exact Ends.fail
  · exact (rec_ends H hx).bind fun _ => Ends.ok

theorem binaryAst_ends {op : BinaryOp} (h : 2 * csizeL cs ≤ M) : Ends (binaryAst env rec op cs d) := by
  unfold binaryAst
  refine Fin.bind expect3_fin fun p hp => ?_
  obtain ⟨l, m, r⟩ := p
  simp only at hp
  subst hp
  simp only [csizeL] at h
  have hl : 2 * csize l ≤ M := by omega
  have hr : 2 * csize r ≤ M := by omega
  have L := rec_ends H hl
  have R := rec_ends H hr
  simp only
  split
  · exact divideAst_ends H hl hr
  · exact L.bind fun _ => R.bind fun _ => Ends.ok
  · exact L.bind fun _ => R.bind fun _ => Fin.ite (fun _ => Ends.ok) fun _ => Ends.ok
  · exact R.bind fun _ => L.bind fun _ => Ends.ok
  · exact fileAst_ends.bind fun _ => L.bind fun _ => Ends.ok
  · exact fileAst_ends.bind fun _ => L.bind fun _ => Ends.ok
  · exact Fin.ite (fun _ => L.bind fun _ => Ends.ok) fun _ => Ends.fail
  · exact L.bind fun _ => R.bind fun _ => Fin.ite (fun _ => Ends.ok) fun _ => Ends.ok

theorem infixAst_ends {op : InfixOp} (h : 2 * csizeL cs ≤ M) : Ends (infixAst env rec op cs d) := by
  have he : 2 * csizeL (evens cs) ≤ M := by have := csizeL_sub (evens_sub cs); omega
  have hm : ∀ c ∈ evens cs, 2 * csize c ≤ M := fun c hc => by have := csize_mem hc; omega
  unfold infixAst
  split
  · exact inequalityAst_ends H h
  · exact plusAst_ends H h
  · exact timesAst_ends H he
  · exact (Ends.all fun c hc => quirkAst_ends H (hm c (List.mem_reverse.mp hc))).bind fun _ => Ends.ok
  · refine (Ends.all fun c hc => ?_).bind fun _ => Ends.ok
    split
    · exact Fin.ite (fun _ => Ends.ok) fun _ => rec_ends H (hm _ hc)
    · exact rec_ends H (hm _ hc)
  · exact messageAst_ends H he
  · exact tildeAst_ends H he
  · refine Fin.ite (fun _ => Fin.ite (fun _ => ?_) fun _ => ?_) fun _ => Ends.fail
    · exact (recs_ends H he fun _ hc => hc).bind fun _ => Ends.ok
    · exact (Ends.all fun c hc => quirkAst_ends H (hm c hc)).bind fun _ => Ends.ok

omit H in
theorem childrenSource_ends {a : Ast} : Ends (childrenSource a) := by
  cases a <;> first | exact Ends.ok | exact Ends.fail

theorem ternaryAst_ends {op : TernaryOp} (h : 2 * csizeL cs ≤ M) : Ends (ternaryAst rec op cs d) := by
  unfold ternaryAst
  refine Fin.bind expect5_fin fun p hp => ?_
  obtain ⟨l, x, m, o, r⟩ := p
  simp only at hp
  subst hp
  simp only [csizeL] at h
  have L : Ends (rec (.cst l)) := rec_ends H (by omega)
  have K : Ends (rec (.cst m)) := rec_ends H (by omega)
  have R : Ends (rec (.cst r)) := rec_ends H (by omega)
  simp only
  split
  · exact Fin.ite (fun _ => K.bind fun _ => childrenSource_ends.bind fun _ => L.bind fun _ => R.bind fun _ => Ends.ok) fun _ =>
      K.bind fun _ => L.bind fun _ => R.bind fun _ => Ends.ok
  · exact Fin.ite (fun _ => L.bind fun _ => K.bind fun _ => Ends.ok) fun _ => Ends.fail
  · exact L.bind fun _ => K.bind fun _ => R.bind fun _ => Ends.ok
  all_goals
    exact L.bind fun _ => K.bind fun _ => R.bind fun _ => Ends.ok

theorem prefixBinaryAst_ends {op : PrefixBinaryOp} (h : 2 * csizeL cs ≤ M) : Ends (prefixBinaryAst rec op cs d) := by
  unfold prefixBinaryAst
  refine Fin.bind expect3_fin fun p hp => ?_
  obtain ⟨l, m, r⟩ := p
  simp only at hp
  subst hp
  simp only [csizeL] at h
  have L : Ends (rec (.cst m)) := rec_ends H (by omega)
  have inner : ∀ {ds : List Cst}, 2 * csizeL ds ≤ M → Ends (do let (_, v) ← expect2 ds; let a ← rec (.cst m); let b ← rec (.cst v); .ok (.callS op.toSymbol [a, b] (.of d)) : A Ast) := by
    intro ds hds
    refine Fin.bind expect2_fin fun p hp => ?_
    obtain ⟨x, y⟩ := p
    simp only at hp
    subst hp
    simp only [csizeL] at hds
    exact L.bind fun _ => (rec_ends H (by omega)).bind fun _ => Ends.ok
  simp only
  split
  · simp only [csize] at h
    exact inner (by omega)
  · simp only [csize] at h
    exact inner (by omega)
  · exact L.bind fun _ => (rec_ends H (by omega)).bind fun _ => Ends.ok

theorem groupNodeAst_ends {op : GroupOp} (h : 2 * csizeL cs ≤ M) : Ends (groupNodeAst rec op cs d) := by
  unfold groupNodeAst
  split
  · exact parenAst_ends H h
  · exact nakedAst_ends H h
  · exact nakedAst_ends H h
  · exact nakedAst_ends H h
  · exact (groupAst_ends H h).bind fun _ => Ends.ok

theorem syntaxErrorAst_ends {err : SyntaxErrorKind} (h : 2 * csizeL cs ≤ M) : Ends (syntaxErrorAst rec err cs d) := by
  unfold syntaxErrorAst
  split
  · simp only [csizeL] at h
    exact (rec_ends H (by omega)).bind fun _ => (rec_ends H (by omega)).bind fun _ => Ends.ok
  · exact Ends.fail

theorem callAst_ends {hd : Cst} {m : Bool} {op : CallOp} (hh : 2 * csize hd ≤ M) (h : 2 * csizeL cs ≤ M) : Ends (callAst rec hd m op cs d) := by
  have F := rec_ends H hh
  unfold callAst
  split
  · split
    · exact Ends.fail
    · rename_i c hc1
      have hco := csize_mem (List.mem_of_getElem? hc1)
      split
      · simp only [csize] at hco
        exact Fin.bind expect3_fin fun _ _ => issueAt_ends.bind fun _ => F.bind fun _ => (groupAst_ends H (by omega)).bind fun _ => Ends.ok
      · exact issueAt_ends.bind fun _ => F.bind fun _ => (groupAst_ends H h).bind fun _ => Ends.ok
  · have tail : ∀ {m : AMeta},
        Ends (do let a ← rec (.cst hd); let (_, as) ← groupAst rec cs; .ok (.call (.callS .System_TypeSpecifier [a] .none) as m) : A Ast) :=
      F.bind fun _ => (groupAst_ends H h).bind fun _ => Ends.ok
    refine Fin.ite (fun _ => ?_) fun _ => ?_
    · exact tail
    · exact (getSource_ends hd).bind fun _ => tail
  · exact issueAt_ends.bind fun _ => F.bind fun _ => (groupAst_ends H h).bind fun _ => Ends.ok
  all_goals
    exact F.bind fun _ => (missingAst_ends H h).bind fun _ => Ends.ok

theorem nodeAst_ends {k : NodeKind} (h : 2 * csizeL cs + 1 ≤ M) : Ends (nodeAst env rec k cs d) := by
  have h' : 2 * csizeL cs ≤ M := by omega
  cases k with
  | «prefix» op => exact prefixAst_ends H h
  | «infix» op => exact infixAst_ends H h'
  | «postfix» op => exact postfixAst_ends H h'
  | binary op => exact binaryAst_ends H h'
  | ternary op => exact ternaryAst_ends H h'
  | prefixBinary op => exact prefixBinaryAst_ends H h'
  | compound op => exact compoundAst_ends H h'
  | group op => exact groupNodeAst_ends H h'
  | groupMissingCloser op => exact (missingAst_ends H h').bind fun _ => Ends.ok
  | groupMissingOpener op => exact (groupArgs_ends H h' fun c hc => List.dropLast_subset _ hc).bind fun _ => Ends.ok
  | syntaxError err => exact syntaxErrorAst_ends H h'

theorem step_ends {r : Req} (h : r.meas ≤ M + 1) : Ends (Abs.step env rec r) := by
  cases r with
  | neg g d => exact negatedAst_ends H h
  | cst c =>
    refine (getSource_ends c).bind fun d => ?_
    cases c with
    | tok t => exact tokenAst_ends
    | node k cs => exact nodeAst_ends H (by simp only [Req.meas, csize] at h; omega)
    | call => exact Ends.fail
    | callAgg hd' m op b => exact callAst_ends H (by simp only [Req.meas, csize] at h; omega) (by simp only [Req.meas, csize] at h; omega)
    | box => exact Ends.fail
    | code => exact Ends.fail
end

theorem run_ends {env : AEnv} : ∀ (n : Nat) (r : Req), r.meas < n → Ends (Abs.run env n r)
  | n + 1, r, h => by
    cases n with
    | zero =>
      -- measures are positive
      exfalso
      have : 0 < r.meas := by
        cases r with
        | neg g d => cases g <;> simp [Req.meas]
        | cst c => cases c <;> simp [Req.meas, csize] <;> omega
      omega
    | succ n =>
      unfold Abs.run
      exact step_ends (M := n) (fun r hr => run_ends (n + 1) r (by omega)) (by omega)

theorem abstractR_ends {env : AEnv} {r : Req} : Ends (abstractR env r) := run_ends _ r (Nat.lt_succ_self _)

end CodeParser.Stop
