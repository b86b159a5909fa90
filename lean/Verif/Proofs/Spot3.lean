import Verif.Proofs.Spot2
/-!
Positions in abstract syntax trees (helper lemmas): operators and calls.
-/
namespace CodeParser.Spot
open Spec Abs Cst Props

section
variable {env : AEnv} {rec : Req → A Ast} {ks : List Tok} {d : ASrc} {cs : List Cst} {c : Cst}

theorem fileAst_fits (ho : Ordered ks) (h : Of ks c) : Sat (Fits ks) (fileAst env c) := by
  unfold fileAst
  split
  · exact Sat.ite (fun _ => Sat.any fun s => Sat.ok (tok_fits ho h)) fun _ => Sat.fail
  · exact Sat.fail

/-- The parts of a node stay inside of its position. -/
theorem childrenSource_fits {a : Ast} (h : Fits ks a) :
    Sat (fun p => Fits ks (.abstractError .CommaTopLevel p.1 ⟨p.2, []⟩)) (childrenSource a) := by
  have key : ∀ {as : List Ast} {m : AMeta} {below : List ASrc}, Encloses m below → (∀ s ∈ positionsL as, s ∈ below) → NestedL as →
      (∀ s ∈ metaPositions m ++ below, OnTokens ks s) → Fits ks (.abstractError .CommaTopLevel as ⟨m.source, []⟩) := by
    intro as m below h1 h2 h3 h4
    have h5 : ∀ s, s ∈ metaPositions ⟨m.source, []⟩ → s ∈ metaPositions m := by
      intro s hs
      unfold metaPositions at hs ⊢
      simp only [List.flatMap_nil, List.append_nil] at hs
      exact List.mem_append_left _ hs
    refine ⟨⟨⟨fun t ht s hs => h1.1 t ht s ?_, fun i hi => by cases hi⟩, h3⟩, fun s hs => h4 s ?_⟩
    · rcases List.mem_append.mp hs with hs | hs
      · exact List.mem_append_left _ (h5 s hs)
      · exact List.mem_append_right _ (h2 s hs)
    · rcases List.mem_append.mp hs with hs | hs
      · exact List.mem_append_left _ (h5 s hs)
      · exact List.mem_append_right _ (h2 s hs)
  cases a with
  | call hd as m => exact Sat.ok (key h.1.1 (fun s hs => List.mem_append_right _ hs) h.1.2.2 h.2)
  | callMissing hd as m => exact Sat.ok (key h.1.1 (fun s hs => List.mem_append_right _ hs) h.1.2.2 h.2)
  | syntaxError k as m => exact Sat.ok (key h.1.1 (fun s hs => hs) h.1.2 h.2)
  | abstractError k as m => exact Sat.ok (key h.1.1 (fun s hs => hs) h.1.2 h.2)
  | linearBang x y m =>
    refine Sat.ok (key h.1.1 (fun s hs => ?_) ⟨h.1.2.1, h.1.2.2, trivial⟩ h.2)
    simp only [positionsL, List.append_nil] at hs
    exact hs
  | leaf => exact Sat.fail
  | error => exact Sat.fail
  | missingCloser => exact Sat.fail
  | missingOpener => exact Sat.fail
end

section
variable {env : AEnv} {rec : Req → A Ast} (hr : RecFits rec) {ks : List Tok} (ho : Ordered ks) {d : ASrc} (hd : Hulls ks d) {cs : List Cst}
include hr ho hd

theorem compoundAst_fits {op : CompoundOp} (h : OfL ks cs) : Sat (Fits ks) (compoundAst env rec op cs d) := by
  have hm := FitsM.of hd
  unfold compoundAst
  split
  · exact Sat.bind (expect2_of h) fun p hp => Sat.bind (rec_fits hr ho hp.2) fun _ ha => Sat.ok (Fits.callS ho (.one ha) hm)
  · exact Sat.bind (expect2_of h) fun p hp => Sat.bind (rec_fits hr ho hp.2) fun _ ha => Sat.ok (Fits.callS ho (.one ha) hm)
  · exact Sat.bind (expect2_of h) fun p hp => Sat.bind (rec_fits hr ho hp.2) fun _ ha => Sat.ok (Fits.callS ho (.one ha) hm)
  · exact Sat.bind (expect2_of h) fun p hp => Sat.bind (rec_fits hr ho hp.1) fun _ ha => Sat.bind (rec_fits hr ho hp.2) fun _ hb =>
      Sat.ok (Fits.callS ho (.two ha hb) hm)
  · exact Sat.bind (expect2_of h) fun p hp => Sat.bind (rec_fits hr ho hp.1) fun _ ha => Sat.bind (rec_fits hr ho hp.2) fun _ hb =>
      Sat.ok (Fits.callS ho (.two ha hb) hm)
  · exact Sat.bind (expect2_of h) fun p hp => Sat.bind (rec_fits hr ho hp.1) fun _ ha => Sat.bind (rec_fits hr ho hp.2) fun _ hb =>
      Sat.ok (Fits.callS ho (.two ha hb) hm)
  · refine Sat.bind (expect2_of h) ?_
    rintro ⟨x, y⟩ ⟨h1, h2⟩
    simp only at h1 h2 ⊢
    split
    · refine Sat.ite (fun _ => Sat.bind (rec_fits hr ho h1) fun _ ha => Sat.ok ?_) fun _ => Sat.fail
      exact Fits.callS ho (.one (Fits.callS ho (.two ha ((Fits.callS (ordered_one ho h2) .nil (FitsM.of tok_hull)).mono h2)) hm)) hm
    · exact Sat.fail
  · refine Sat.bind (expect2_of h) ?_
    rintro ⟨x, y⟩ ⟨h1, h2⟩
    simp only at h1 h2 ⊢
    split
    · refine Sat.ite (fun _ => Sat.bind (tokenAst_fits ho h2) fun _ ha => Sat.ok (Fits.callS ho (.one ha) hm)) fun _ =>
        Sat.ite (fun _ => Sat.any fun s => Sat.ok (Fits.callS ho (.one (tok_fits ho h2)) hm)) fun _ => Sat.fail
    · exact Sat.fail
  all_goals
    exact Sat.bind (expect2_of h) fun p hp => Sat.ite (fun _ => Sat.bind (rec_fits hr ho hp.2) fun _ ha => Sat.ok (Fits.callS ho (.one ha) hm))
      fun _ => Sat.fail

theorem prefixAst_fits {op : PrefixOp} (h : OfL ks cs) : Sat (Fits ks) (prefixAst env rec op cs d) := by
  have hm := FitsM.of hd
  unfold prefixAst
  split
  · exact Sat.bind (expect2_of h) fun p hp => Sat.bind (negate_of _ hp.2) fun _ hg => hr ks ho _ ⟨hd, hg⟩
  · exact Sat.bind (expect2_of h) fun p hp => Sat.bind (flattenPlus_of _ hp.2) fun _ hc => Sat.bind (rec_fits hr ho hc) fun _ ha =>
      Sat.ok (Fits.callS ho (.one ha) hm)
  · exact Sat.bind (expect2_of h) fun p hp => Sat.bind (source_on ho hp.1) fun _ hs => Sat.bind (rec_fits hr ho hp.2) fun _ ha =>
      Sat.ok (Fits.callS ho (.one (Fits.callS ho (.one ha) FitsM.none)) (FitsM.issue hd hs))
  · split
    · exact Sat.ite (fun _ => Sat.bind (rec_fits hr ho (h _ (by simp))) fun _ ha => Sat.bind (rec_fits hr ho (h _ (by simp))) fun _ hb =>
        Sat.ok (Fits.linearBang ho ha hb hm)) fun _ => Sat.bind (rec_fits hr ho (h _ (by simp))) fun _ ha => Sat.ok (Fits.abstractError ho (.one ha) hm)
    · exact Sat.fail
  · exact Sat.bind (expect2_of h) fun p hp => Sat.bind (fileAst_fits ho hp.2) fun _ ha => Sat.ok (Fits.callS ho (.one ha) hm)
  · exact Sat.bind (expect2_of h) fun p hp => Sat.bind (rec_fits hr ho hp.2) fun _ ha => Sat.ok (Fits.callS ho (.one ha) hm)

theorem postfixAst_fits {op : PostfixOp} (h : OfL ks cs) : Sat (Fits ks) (postfixAst rec op cs d) := by
  have hm := FitsM.of hd
  unfold postfixAst
  refine Sat.bind (expect2_of h) ?_
  rintro ⟨x, y⟩ ⟨h1, h2⟩
  simp only at h1 h2 ⊢
  have dv : ∀ {n : Nat} {a : Ast}, Fits ks a → Fits ks (.call (.callS .System_Derivative [.nat n] .none) [a] .none) := fun ha =>
    Fits.call ho (Fits.callS ho (.one (Fits.nat ho)) FitsM.none) (.one ha) FitsM.none
  split
  · exact Sat.bind (rec_fits hr ho h1) fun _ ha => Sat.ok (Fits.callS ho (.one ha) hm)
  · split
    · exact Sat.ite (fun _ => Sat.bind (derivativeBody_of _ h1) fun p hp => Sat.bind (rec_fits hr ho hp) fun _ ha => Sat.ok (dv ha)) fun _ =>
        Sat.ite (fun _ => Sat.any fun s => Sat.bind (rec_fits hr ho h1) fun _ ha => Sat.ok (dv ha)) fun _ => Sat.fail
    · exact Sat.fail
  · exact Sat.bind (rec_fits hr ho h1) fun _ ha => Sat.ok (Fits.callS ho (.one ha) hm)

theorem binaryAst_fits {op : BinaryOp} (h : OfL ks cs) : Sat (Fits ks) (binaryAst env rec op cs d) := by
  have hm := FitsM.of hd
  unfold binaryAst
  refine Sat.bind (expect3_of h) ?_
  rintro ⟨l, m, r⟩ ⟨h1, h2, h3⟩
  simp only at h1 h2 h3 ⊢
  split
  · exact divideAst_fits hr ho hd h1 h3
  · exact Sat.bind (rec_fits hr ho h1) fun _ ha => Sat.bind (rec_fits hr ho h3) fun _ hb => Sat.ok (Fits.call ho ha (.one hb) hm)
  · exact Sat.bind (rec_fits hr ho h1) fun _ ha => Sat.bind (rec_fits hr ho h3) fun _ hb =>
      Sat.ite (fun _ => Sat.ok (Fits.callS ho (.three ha hb (Fits.callS ho (.one (Fits.nat ho)) FitsM.none)) hm)) fun _ =>
        Sat.ok (Fits.callS ho (.two ha hb) hm)
  · exact Sat.bind (rec_fits hr ho h3) fun _ ha => Sat.bind (rec_fits hr ho h1) fun _ hb => Sat.ok (Fits.call ho ha (.one hb) hm)
  · exact Sat.bind (fileAst_fits ho h3) fun _ hb => Sat.bind (rec_fits hr ho h1) fun _ ha => Sat.ok (Fits.callS ho (.two ha hb) hm)
  · exact Sat.bind (fileAst_fits ho h3) fun _ hb => Sat.bind (rec_fits hr ho h1) fun _ ha => Sat.ok (Fits.callS ho (.two ha hb) hm)
  · exact Sat.ite (fun _ => Sat.bind (rec_fits hr ho h1) fun _ ha => Sat.ok (Fits.callS ho (.one ha) hm)) fun _ => Sat.fail
  · exact Sat.bind (rec_fits hr ho h1) fun _ ha => Sat.bind (rec_fits hr ho h3) fun _ hb =>
      Sat.ite (fun _ => Sat.ok (Fits.abstractError ho (.two ha hb) hm)) fun _ => Sat.ok (Fits.callS ho (.two ha hb) hm)

theorem infixAst_fits {op : InfixOp} (h : (leavesL cs).Sublist ks) : Sat (Fits ks) (infixAst env rec op cs d) := by
  have hm := FitsM.of hd
  have he := evens_of (ofL_of h)
  unfold infixAst
  split
  · exact inequalityAst_fits hr ho hd h
  · exact plusAst_fits hr ho hd h
  · exact timesAst_fits hr ho hd he
  · exact Sat.bind (P := FitsL ks) (Sat.mapA fun c hc => quirkAst_fits hr ho (he c (List.mem_reverse.mp hc))) fun _ ha => Sat.ok (Fits.callS ho ha hm)
  · refine Sat.bind (P := FitsL ks) (Sat.mapA fun c hc => ?_) fun _ ha => Sat.ok (Fits.callS ho ha hm)
    split
    · exact Sat.ite (fun _ => Sat.ok (tok_fits ho (he _ hc))) fun _ => rec_fits hr ho (he _ hc)
    · exact rec_fits hr ho (he _ hc)
  · exact messageAst_fits hr ho hd he
  · exact tildeAst_fits hr ho hm he
  · refine Sat.ite (fun _ => Sat.ite (fun _ => ?_) fun _ => ?_) fun _ => Sat.fail
    · exact Sat.bind (recs_fits hr ho he) fun _ ha => Sat.ok (Fits.callS ho ha hm)
    · exact Sat.bind (P := FitsL ks) (Sat.mapA fun c hc => quirkAst_fits hr ho (he c hc)) fun _ ha => Sat.ok (Fits.callS ho ha hm)

theorem ternaryAst_fits {op : TernaryOp} (h : OfL ks cs) : Sat (Fits ks) (ternaryAst rec op cs d) := by
  have hm := FitsM.of hd
  unfold ternaryAst
  refine Sat.bind (expect5_of h) ?_
  rintro ⟨l, x, m, o, r⟩ ⟨h1, h2, h3, h4, h5⟩
  simp only at h1 h2 h3 h4 h5 ⊢
  split
  · refine Sat.ite (fun _ => Sat.bind (rec_fits hr ho h3) fun _ hb => Sat.bind (childrenSource_fits hb) fun p hp =>
      Sat.bind (rec_fits hr ho h1) fun _ ha => Sat.bind (rec_fits hr ho h5) fun _ hc => Sat.ok (Fits.call ho hp (.two ha hc) hm)) fun _ => ?_
    exact Sat.bind (rec_fits hr ho h3) fun _ hb => Sat.bind (rec_fits hr ho h1) fun _ ha => Sat.bind (rec_fits hr ho h5) fun _ hc =>
      Sat.ok (Fits.call ho hb (.two ha hc) hm)
  · exact Sat.ite (fun _ => Sat.bind (rec_fits hr ho h1) fun _ ha => Sat.bind (rec_fits hr ho h3) fun _ hb =>
      Sat.ok (Fits.callS ho (.two ha hb) hm)) fun _ => Sat.fail
  · exact Sat.bind (rec_fits hr ho h1) fun _ ha => Sat.bind (rec_fits hr ho h3) fun _ hb => Sat.bind (rec_fits hr ho h5) fun _ hc =>
      Sat.ok (Fits.callS ho (.two (Fits.callS ho (.two ha hb) FitsM.none) hc) hm)
  all_goals
    exact Sat.bind (rec_fits hr ho h1) fun _ ha => Sat.bind (rec_fits hr ho h3) fun _ hb => Sat.bind (rec_fits hr ho h5) fun _ hc =>
      Sat.ok (Fits.callS ho (.three ha hb hc) hm)

theorem prefixBinaryAst_fits {op : PrefixBinaryOp} (h : OfL ks cs) : Sat (Fits ks) (prefixBinaryAst rec op cs d) := by
  have hm := FitsM.of hd
  unfold prefixBinaryAst
  refine Sat.bind (expect3_of h) ?_
  rintro ⟨l, m, r⟩ ⟨h1, h2, h3⟩
  simp only at h1 h2 h3 ⊢
  split
  · exact Sat.bind (expect2_of (Of.node (k := .prefix .DifferentialD) h3)) fun p hp => Sat.bind (rec_fits hr ho h2) fun _ ha => Sat.bind (rec_fits hr ho hp.2) fun _ hb =>
      Sat.ok (Fits.callS ho (.two ha hb) hm)
  · exact Sat.bind (expect2_of (Of.node (k := .prefix .CapitalDifferentialD) h3)) fun p hp => Sat.bind (rec_fits hr ho h2) fun _ ha => Sat.bind (rec_fits hr ho hp.2) fun _ hb =>
      Sat.ok (Fits.callS ho (.two ha hb) hm)
  · exact Sat.bind (rec_fits hr ho h2) fun _ ha => Sat.bind (rec_fits hr ho h3) fun _ hb =>
      Sat.ok (Fits.callS ho (.two ha hb) hm)

theorem syntaxErrorAst_fits {err : SyntaxErrorKind} (h : OfL ks cs) : Sat (Fits ks) (syntaxErrorAst rec err cs d) := by
  unfold syntaxErrorAst
  split
  · exact Sat.bind (rec_fits hr ho (h _ (by simp))) fun _ ha => Sat.bind (rec_fits hr ho (h _ (by simp))) fun _ hb =>
      Sat.ok (Fits.syntaxError ho (.two ha hb) (FitsM.of hd))
  · exact Sat.fail

theorem callAst_fits {h : Cst} {m : Bool} {op : CallOp} (hh : Of ks h) (hc : (leavesL cs).Sublist ks) :
    Sat (Fits ks) (callAst rec h m op cs d) := by
  have hm := FitsM.of hd
  unfold callAst
  split
  · split
    · exact Sat.fail
    · rename_i c hc1
      have hco : Of ks c := ofL_of hc c (List.mem_of_getElem? hc1)
      split
      · exact Sat.any fun _ => Sat.bind (issueAt_fits ho hd hc) fun _ hi => Sat.bind (rec_fits hr ho hh) fun _ ha =>
          Sat.bind (groupAst_fits hr ho hco) fun p hp => Sat.ok (Fits.callS ho (.cons ha hp.2) hi)
      · exact Sat.bind (issueAt_fits ho hd hc) fun _ hi => Sat.bind (rec_fits hr ho hh) fun _ ha =>
          Sat.bind (groupAst_fits hr ho hc) fun p hp => Sat.ok (Fits.call ho ha hp.2 hi)
  · have tail : ∀ {m : AMeta}, FitsM ks m →
        Sat (Fits ks) (do let a ← rec (.cst h); let (_, as) ← groupAst rec cs; .ok (.call (.callS .System_TypeSpecifier [a] .none) as m) : A Ast) :=
      fun hi => Sat.bind (rec_fits hr ho hh) fun _ ha => Sat.bind (groupAst_fits hr ho hc) fun p hp =>
        Sat.ok (Fits.call ho (Fits.callS ho (.one ha) FitsM.none) hp.2 hi)
    refine Sat.ite (fun _ => ?_) fun _ => ?_
    · exact tail hm
    · exact Sat.bind (source_on ho hh) fun _ hs => tail (FitsM.issue hd hs)
  · exact Sat.bind (issueAt_fits ho hd hc) fun _ hi => Sat.bind (rec_fits hr ho hh) fun _ ha =>
      Sat.bind (groupAst_fits hr ho hc) fun p hp => Sat.ok (Fits.callS ho (.cons ha hp.2) hi)
  · exact Sat.bind (rec_fits hr ho hh) fun _ ha => Sat.bind (missingAst_fits hr ho hc) fun p hp => Sat.ok (Fits.callMissing ho ha hp.2 hm)
  · exact Sat.bind (rec_fits hr ho hh) fun _ ha => Sat.bind (missingAst_fits hr ho hc) fun p hp =>
      Sat.ok (Fits.callMissing ho (Fits.callS ho (.one ha) FitsM.none) hp.2 hm)
  · exact Sat.bind (rec_fits hr ho hh) fun _ ha => Sat.bind (missingAst_fits hr ho hc) fun p hp =>
      Sat.ok (Fits.callMissing ho (Fits.bare ho) (.cons ha hp.2) hm)

end

section
variable {env : AEnv} {rec : Req → A Ast} (hr : RecFits rec)
include hr

theorem groupNodeAst_fits {cs : List Cst} {d : ASrc} {op : GroupOp} (ho : Ordered (leavesL cs)) (hd : Hulls (leavesL cs) d) :
    Sat (Fits (leavesL cs)) (groupNodeAst rec op cs d) := by
  have h := ofL_of (List.Sublist.refl (leavesL cs))
  unfold groupNodeAst
  split
  · exact parenAst_fits hr ho hd h
  · exact nakedAst_fits hr ho hd h
  · exact nakedAst_fits hr ho hd h
  · exact nakedAst_fits hr ho hd h
  · exact Sat.bind (groupAst_fits hr ho (List.Sublist.refl _)) fun p hp => Sat.ok (Fits.call ho (Fits.bare ho) hp.2 (FitsM.of hp.1))

theorem nodeAst_fits {k : NodeKind} {cs : List Cst} {d : ASrc} (ho : Ordered (leavesL cs)) (hd : Hulls (leavesL cs) d) :
    Sat (Fits (leavesL cs)) (nodeAst env rec k cs d) := by
  have hs := List.Sublist.refl (leavesL cs)
  have h := ofL_of hs
  cases k with
  | «prefix» op => exact prefixAst_fits hr ho hd h
  | «infix» op => exact infixAst_fits hr ho hd hs
  | «postfix» op => exact postfixAst_fits hr ho hd h
  | binary op => exact binaryAst_fits hr ho hd h
  | ternary op => exact ternaryAst_fits hr ho hd h
  | prefixBinary op => exact prefixBinaryAst_fits hr ho hd h
  | compound op => exact compoundAst_fits hr ho hd h
  | group op => exact groupNodeAst_fits hr ho hd
  | groupMissingCloser op => exact Sat.bind (missingAst_fits hr ho hs) fun p hp => Sat.ok (Fits.missingCloser ho hp.2 (FitsM.of hp.1))
  | groupMissingOpener op =>
    exact Sat.bind (groupArgs_fits hr ho fun c hc => h c (List.dropLast_subset _ hc)) fun _ ha => Sat.ok (Fits.missingOpener ho ha (FitsM.of hd))
  | syntaxError err => exact syntaxErrorAst_fits hr ho hd h

theorem step_fits : RecFits (Abs.step env rec) := by
  intro ks ho r h
  cases r with
  | neg g d => exact negatedAst_fits hr ho h.1 h.2
  | cst c =>
    have ho' := ho.sub h
    refine Sat.mono (P := Fits (leaves c)) ?_ fun a ha => ha.mono h
    refine Sat.bind (P := Hulls (leaves c)) (fun _ hs => getSource_hull c hs) fun d hd => ?_
    cases c with
    | tok t => exact tokenAst_fits ho' (List.Sublist.refl _)
    | node k cs => exact nodeAst_fits hr ho' hd
    | call => exact Sat.fail
    | callAgg hd' m op b => exact callAst_fits hr ho' hd (List.sublist_append_left _ _) (List.sublist_append_right _ _)
    | box => exact Sat.fail
    | code => exact Sat.fail
end

theorem run_fits {env : AEnv} (n : Nat) : RecFits (Abs.run env n) := by
  induction n with
  | zero => intro ks _ r _ a h; cases h
  | succ n ih => exact step_fits ih

theorem abstractCst_fits {env : AEnv} {c : Cst} (ho : Ordered (leaves c)) : Sat (Fits (leaves c)) (abstractCst env c) :=
  run_fits _ _ ho _ (List.Sublist.refl _)

end CodeParser.Spot
