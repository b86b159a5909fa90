import Verif.Proofs.Abstract2
import Verif.Proofs.Abstract3
/-!
Chains of inequalities (helper lemmas).
-/
namespace CodeParser.Abs
open Spec Props Cst

/-- What the tables say about a symbol. -/
def Known (s : Sym) : Bool :=
  simplifyRators.any (·.1 == s) &&
    vectorInequalityAffinity s == some (if isVector s then some true else if isPlain s then none else some false)

def knownTok (k : TK) : Bool := match inequalityOperatorToSymbol k with | none => true | some s => Known s

theorem knownTok_all : ∀ k : TK, knownTok k = true := forall_of_all (by decide +kernel)

theorem known {k : TK} {s : Sym} (h : inequalityOperatorToSymbol k = some s) : Known s = true := by
  have := knownTok_all k
  unfold knownTok at this
  rw [h] at this
  exact this

theorem rators_vector : ∀ r ∈ simplifyRators, r.2 = isVector r.1 := by decide +kernel

/-- What is known about the affinity. -/
def Inv (rest : List (Sym × Ast)) : Option Bool → Prop
  | none => ∀ p ∈ rest, isPlain p.1 = true
  | some true => (∃ p ∈ rest, isVector p.1 = true) ∧ ∀ p ∈ rest, isVector p.1 = true ∨ isPlain p.1 = true
  | some false => (∃ p ∈ rest, isVector p.1 = false ∧ isPlain p.1 = false) ∧ ∀ p ∈ rest, isVector p.1 = false

theorem plain_vector {s : Sym} (h : isPlain s = true) : isVector s = false := by
  unfold isPlain at h
  split at h <;> first | rfl | cases h

theorem simplify_eq {x : Ast} {rest : List (Sym × Ast)} {aff : Option Bool} {d : ASrc} (hk : ∀ p ∈ rest, Known p.1 = true)
    (hi : Inv rest aff) (h0 : rest ≠ []) : simplify x rest aff d = comparison (.of d) x rest := by
  match rest, h0 with
  | (s, y) :: rest, _ =>
    unfold simplify comparison
    cases hf : simplifyRators.find? fun r => ((s, y) :: rest).all fun p => p.1 == r.1 with
    | some r =>
      have h1 := List.find?_some hf
      have h2 := rators_vector r (List.mem_of_find?_eq_some hf)
      simp only [List.all_cons, Bool.and_eq_true, beq_iff_eq] at h1
      obtain ⟨rfl, h3⟩ := h1
      have h4 : (rest.all fun p => p.1 == r.1) = true := h3
      obtain ⟨s, b⟩ := r
      simp only at h2 h4
      subst h2
      simp only [h4, if_true, flatCall]
      cases isVector s <;> rfl
    | none =>
      have h1 := List.find?_eq_none.mp hf
      have h4 : ¬ (rest.all fun p => p.1 == s) = true := by
        intro h4
        have := hk (s, y) (by simp)
        simp only [Known, Bool.and_eq_true, List.any_eq_true, beq_iff_eq] at this
        obtain ⟨⟨r, hr, rfl⟩, -⟩ := this
        refine h1 r hr ?_
        simpa using h4
      simp only [h4, if_false]
      have h5 : (((s, y) :: rest).any fun p => isVector p.1) = (aff == some true) := by
        match aff, hi with
        | none, hi =>
          show _ = false
          rw [List.any_eq_false]
          intro p hp
          rw [plain_vector (hi p hp)]; simp
        | some true, hi =>
          show _ = true
          rw [List.any_eq_true]
          exact hi.1
        | some false, hi =>
          show _ = false
          rw [List.any_eq_false]
          intro p hp
          rw [hi.2 p hp]; simp
      rw [h5]
      match aff with
      | none => rfl
      | some true => rfl
      | some false => rfl

/-- `inequalityLoop`, once the operands are abstracted. -/
def loop (d : ASrc) : List (Sym × Ast) → Ast → List (Sym × Ast) → Option Bool → Ast
  | [], x, rest, aff => simplify x rest aff d
  | p :: ps, x, rest, aff =>
    if isPlain p.1 then loop d ps x (rest ++ [p]) aff
    else if aff = some !(isVector p.1) then loop d ps (simplify x rest aff d) [p] (some (isVector p.1))
    else loop d ps x (rest ++ [p]) (some (isVector p.1))

theorem inequalityLoop_loop {rec : Req → A Ast} {d : ASrc} : ∀ {ps : List (Tok × Cst)} {x : Ast} {rest : List (Sym × Ast)} {aff : Option Bool} {a : Ast},
    inequalityLoop rec d ps x rest aff = .ok a →
    ∃ ls : List Link, ps = ls.map (fun l => (l.op, l.operand)) ∧
      (∀ l ∈ ls, inequalityOperatorToSymbol l.op.kind = some l.sym ∧ rec (.cst l.operand) = .ok l.expr) ∧
      loop d (ls.map fun l => (l.sym, l.expr)) x rest aff = a
  | [], x, rest, aff, a, h => ⟨[], rfl, by simp, by cases h; rfl⟩
  | (o, c) :: ps, x, rest, aff, a, h => by
    unfold inequalityLoop at h
    split at h
    · cases h
    · rename_i s hs
      cases hr : rec (.cst c) with
      | error e => rw [hr] at h; cases h
      | ok b =>
        rw [hr, ok_bind] at h
        have hk := known hs
        simp only [Known, Bool.and_eq_true, beq_iff_eq] at hk
        rw [hk.2] at h
        by_cases hv : isVector s = true
        · have hp : isPlain s = false := by
            cases hp : isPlain s with
            | false => rfl
            | true => rw [plain_vector hp] at hv; cases hv
          simp only [hv, if_true] at h
          split at h
          · rename_i ha
            obtain ⟨qs, rfl, h1, h2⟩ := inequalityLoop_loop h
            exact ⟨⟨o, c, s, b⟩ :: qs, rfl, List.forall_mem_cons.mpr ⟨⟨hs, hr⟩, h1⟩, by rw [List.map_cons, loop]; rw [if_neg (by simp [hp]), if_pos (by rw [ha, hv]), hv]; exact h2⟩
          · rename_i ha
            obtain ⟨qs, rfl, h1, h2⟩ := inequalityLoop_loop h
            exact ⟨⟨o, c, s, b⟩ :: qs, rfl, List.forall_mem_cons.mpr ⟨⟨hs, hr⟩, h1⟩, by rw [List.map_cons, loop]; rw [if_neg (by simp [hp]), if_neg (by rw [hv]; exact ha), hv]; exact h2⟩
        · have hv : isVector s = false := by simpa using hv
          by_cases hp : isPlain s = true
          · simp only [hv, hp, if_true, Bool.false_eq_true, if_false] at h
            obtain ⟨qs, rfl, h1, h2⟩ := inequalityLoop_loop h
            exact ⟨⟨o, c, s, b⟩ :: qs, rfl, List.forall_mem_cons.mpr ⟨⟨hs, hr⟩, h1⟩, by rw [List.map_cons, loop]; simp only [hp, if_true]; exact h2⟩
          · have hp : isPlain s = false := by simpa using hp
            simp only [hv, hp, Bool.false_eq_true, if_false] at h
            split at h
            · rename_i ha
              obtain ⟨qs, rfl, h1, h2⟩ := inequalityLoop_loop h
              exact ⟨⟨o, c, s, b⟩ :: qs, rfl, List.forall_mem_cons.mpr ⟨⟨hs, hr⟩, h1⟩, by rw [List.map_cons, loop]; rw [if_neg (by simp [hp]), if_pos (by rw [ha, hv]), hv]; exact h2⟩
            · rename_i ha
              obtain ⟨qs, rfl, h1, h2⟩ := inequalityLoop_loop h
              exact ⟨⟨o, c, s, b⟩ :: qs, rfl, List.forall_mem_cons.mpr ⟨⟨hs, hr⟩, h1⟩, by rw [List.map_cons, loop]; rw [if_neg (by simp [hp]), if_neg (by rw [hv]; exact ha), hv]; exact h2⟩

theorem inv_whole {rest : List (Sym × Ast)} : ∀ {aff : Option Bool}, Inv rest aff → ∀ p ∈ rest, ∀ q ∈ rest, clash p.1 q.1 = false
  | none, h, p, hp, q, hq => by
    have := plain_vector (h p hp); have := plain_vector (h q hq); simp_all [clash]
  | some true, h, p, hp, q, hq => by
    have h1 := h.2 p hp; have h2 := h.2 q hq
    rcases h1 with h1 | h1 <;> rcases h2 with h2 | h2 <;> simp [clash, h1, h2]
  | some false, h, p, hp, q, hq => by
    have h1 := h.2 p hp; have h2 := h.2 q hq
    simp [clash, h1, h2]

theorem loop_cut {d : ASrc} : ∀ {ps : List (Sym × Ast)} {x : Ast} {rest : List (Sym × Ast)} {aff : Option Bool},
    (∀ p ∈ rest, Known p.1 = true) → (∀ p ∈ ps, Known p.1 = true) → Inv rest aff → rest ++ ps ≠ [] →
    ∃ g gs, loop d ps x rest aff = (g :: gs).foldl (comparison (.of d)) x ∧ Cut (rest ++ ps) (g :: gs) ∧ rest <+: g
  | [], x, rest, aff, hk, _, hi, h0 => by
    rw [List.append_nil] at h0 ⊢
    refine ⟨rest, [], ?_, ⟨by simp, by simpa using h0, ?_, ?_⟩, List.prefix_rfl⟩
    · rw [loop, simplify_eq hk hi h0]; rfl
    · intro g hg; simp only [List.mem_singleton] at hg; subst hg; exact inv_whole hi
    · intro a g g' b h
      have := congrArg List.length h
      simp at this
      omega
  | p :: ps, x, rest, aff, hk, hk', hi, h0 => by
    have hkp := hk' p (by simp)
    have hkps : ∀ p ∈ ps, Known p.1 = true := fun p hp => hk' p (by simp [hp])
    have push : ∀ {aff'}, Inv (rest ++ [p]) aff' → ∃ g gs, loop d ps x (rest ++ [p]) aff' = (g :: gs).foldl (comparison (.of d)) x ∧
        Cut (rest ++ p :: ps) (g :: gs) ∧ rest <+: g := by
      intro aff' hi'
      obtain ⟨g, gs, h1, h2, h3⟩ := loop_cut (d := d) (ps := ps) (x := x) (rest := rest ++ [p]) (aff := aff')
        (by intro q hq; rcases List.mem_append.mp hq with hq | hq
            · exact hk q hq
            · rw [List.mem_singleton.mp hq]; exact hkp) hkps hi' (by simp)
      exact ⟨g, gs, h1, by simpa using h2, (List.prefix_append _ _).trans h3⟩
    rw [loop]
    split
    · rename_i hp
      refine push ?_
      have hv := plain_vector hp
      match aff, hi with
      | none, hi => intro q hq; rcases List.mem_append.mp hq with hq | hq
                    · exact hi q hq
                    · rw [List.mem_singleton.mp hq]; exact hp
      | some true, hi =>
        refine ⟨by obtain ⟨⟨q, h1, h2⟩, -⟩ := hi; exact ⟨q, by simp [h1], h2⟩, ?_⟩
        intro q hq; rcases List.mem_append.mp hq with hq | hq
        · exact hi.2 q hq
        · rw [List.mem_singleton.mp hq]; exact Or.inr hp
      | some false, hi =>
        refine ⟨by obtain ⟨⟨q, h1, h2⟩, -⟩ := hi; exact ⟨q, by simp [h1], h2⟩, ?_⟩
        intro q hq; rcases List.mem_append.mp hq with hq | hq
        · exact hi.2 q hq
        · rw [List.mem_singleton.mp hq]; exact hv
    · rename_i hp
      have hp : isPlain p.1 = false := by simpa using hp
      split
      · rename_i ha
        have hc : ∃ q ∈ rest, clash q.1 p.1 = true := by
          cases hv : isVector p.1 with
          | true =>
            rw [ha, hv] at hi
            obtain ⟨⟨q, h1, h2, h3⟩, -⟩ := hi
            exact ⟨q, h1, by simp [clash, h2, h3, hv]⟩
          | false =>
            rw [ha, hv] at hi
            obtain ⟨⟨q, h1, h2⟩, -⟩ := hi
            exact ⟨q, h1, by simp [clash, h2, hp, hv]⟩
        have hne : rest ≠ [] := by obtain ⟨q, hq, -⟩ := hc; intro h; rw [h] at hq; cases hq
        have hi' : Inv [p] (some (isVector p.1)) := by
          cases hv : isVector p.1 with
          | true => exact ⟨⟨p, by simp, hv⟩, by simp [hv]⟩
          | false => exact ⟨⟨p, by simp, hv, hp⟩, by simp [hv]⟩
        obtain ⟨g, gs, h1, h2, h3⟩ := loop_cut (d := d) (ps := ps) (x := simplify x rest aff d) (rest := [p]) (aff := some (isVector p.1))
          (by intro q hq; rw [List.mem_singleton.mp hq]; exact hkp) hkps hi' (by simp)
        refine ⟨rest, g :: gs, ?_, ⟨?_, ?_, ?_, ?_⟩, List.prefix_rfl⟩
        · rw [h1, simplify_eq hk hi hne]; rfl
        · have := h2.all; simp only [List.flatten_cons, List.singleton_append] at this ⊢; rw [this]
        · intro g' hg'; rcases List.mem_cons.mp hg' with rfl | hg'
          · exact hne
          · exact h2.ne g' hg'
        · intro g' hg'; rcases List.mem_cons.mp hg' with rfl | hg'
          · exact inv_whole hi
          · exact h2.whole g' hg'
        · intro a g1 g2 b he
          cases a with
          | nil =>
            cases he
            obtain ⟨q, h4, h5⟩ := hc
            obtain ⟨t, rfl⟩ := h3
            exact ⟨q, h4, p, rfl, h5⟩
          | cons y a =>
            rw [List.cons_append] at he
            exact h2.cuts a g1 g2 b (List.cons.inj he).2
      · rename_i ha
        refine push ?_
        cases hv : isVector p.1 with
        | true =>
          rw [hv] at ha
          refine ⟨⟨p, by simp, hv⟩, ?_⟩
          intro q hq; rcases List.mem_append.mp hq with hq | hq
          · match aff, hi, ha with
            | none, hi, _ => exact Or.inr (hi q hq)
            | some true, hi, _ => exact hi.2 q hq
            | some false, _, ha => exact absurd rfl ha
          · rw [List.mem_singleton.mp hq]; exact Or.inl hv
        | false =>
          rw [hv] at ha
          refine ⟨⟨p, by simp, hv, hp⟩, ?_⟩
          intro q hq; rcases List.mem_append.mp hq with hq | hq
          · match aff, hi, ha with
            | none, hi, _ => exact plain_vector (hi q hq)
            | some true, _, ha => exact absurd rfl ha
            | some false, hi, _ => exact hi.2 q hq
          · rw [List.mem_singleton.mp hq]; exact hv

/-- The expression of a tree, with any number of steps. -/
def Abstracts (env : AEnv) (c : Cst) (a : Ast) : Prop := ∃ n, run env n (.cst c) = .ok a

theorem pairs_eq : ∀ {cs : List Cst} {ps : List (Cst × Cst)}, pairs cs = .ok ps → cs = ps.flatMap fun p => [p.1, p.2]
  | [], _, h => by cases h; rfl
  | [_], _, h => by cases h
  | a :: b :: cs, ps, h => by
    rw [pairs] at h
    cases h1 : pairs cs with
    | error e => rw [h1] at h; cases h
    | ok qs =>
      rw [h1] at h
      cases h
      simp only [List.flatMap_cons, ← pairs_eq h1]
      rfl

theorem withTok_eq : ∀ {ps : List (Cst × Cst)} {qs : List (Tok × Cst)}, mapA withTok ps = .ok qs →
    ps = qs.map fun q => (.tok q.1, q.2)
  | [], _, h => by cases h; rfl
  | (a, b) :: ps, qs, h => by
    rw [mapA, withTok] at h
    cases a with
    | tok t =>
      simp only at h
      cases h1 : mapA withTok ps with
      | error e => rw [h1] at h; cases h
      | ok rs =>
        rw [h1] at h
        cases h
        rw [List.map_cons, ← withTok_eq h1]
    | _ => cases h

theorem inequalityAst_cut {rec : Req → A Ast} {d : ASrc} {cs : List Cst} {a : Ast} (h : inequalityAst rec cs d = .ok a) (hl : 2 ≤ cs.length) :
    ∃ (c : Cst) (x : Ast) (ls : List Link) (gs : List (List (Sym × Ast))), cs = c :: ls.flatMap (fun l => [.tok l.op, l.operand]) ∧
      rec (.cst c) = .ok x ∧ (∀ l ∈ ls, inequalityOperatorToSymbol l.op.kind = some l.sym ∧ rec (.cst l.operand) = .ok l.expr) ∧
      ls ≠ [] ∧ Cut (ls.map fun l => (l.sym, l.expr)) gs ∧ a = gs.foldl (comparison (.of d)) x := by
  cases cs with
  | nil => simp at hl
  | cons c cs =>
    unfold inequalityAst at h
    simp only at h
    cases h1 : rec (.cst c) with
    | error e => rw [h1] at h; cases h
    | ok x =>
      cases h2 : pairs cs with
      | error e => rw [h1, h2] at h; cases h
      | ok ps =>
        cases h3 : mapA withTok ps with
        | error e => rw [h1, h2, ok_bind, ok_bind, h3] at h; cases h
        | ok qs =>
          rw [h1, h2, ok_bind, ok_bind, h3, ok_bind] at h
          obtain ⟨ls, rfl, h4, h5⟩ := inequalityLoop_loop h
          have hcs : cs = ls.flatMap fun l => [.tok l.op, l.operand] := by
            rw [pairs_eq h2, withTok_eq h3, List.map_map, List.flatMap_map]
            rfl
          have h0 : ls ≠ [] := by rintro rfl; simp [hcs] at hl
          obtain ⟨g, gs, h6, h7, -⟩ := loop_cut (d := d) (ps := ls.map fun l => (l.sym, l.expr)) (x := x) (rest := []) (aff := none)
            (by simp) (by
              intro p hp
              obtain ⟨l, hl, rfl⟩ := List.mem_map.mp hp
              exact known (h4 l hl).1) (by intro p hp; cases hp) (by simpa using h0)
          exact ⟨c, x, ls, g :: gs, by rw [hcs], h1, h4, h0, h7, by rw [← h5, h6]⟩

/-! ### When there is only one inequality -/

theorem text_known : ∀ a ∈ simplifyRators, a.1.text ≠ Sym.System_Inequality.text ∧ a.1.text ≠ Sym.Developer_VectorInequality.text ∧
    ∀ b ∈ simplifyRators, a.1.text = b.1.text → a.1 = b.1 := by decide +kernel

theorem known_mem {s : Sym} (h : Known s = true) : ∃ r ∈ simplifyRators, r.1 = s := by
  simp only [Known, Bool.and_eq_true, List.any_eq_true, beq_iff_eq] at h
  exact h.1

theorem flatCall_head {s : Sym} {xs : List Ast} {d : AMeta} : ∃ ys, flatCall s xs d = .callS s ys d := by
  unfold flatCall; split <;> exact ⟨_, rfl⟩

theorem flatCall_inj {s t : Sym} {xs ys : List Ast} {d e : AMeta} (hs : Known s = true) (ht : Known t = true)
    (h : flatCall s xs d = flatCall t ys e) : s = t ∧ xs = ys := by
  obtain ⟨x, hx⟩ := flatCall_head (s := s) (xs := xs) (d := d)
  obtain ⟨y, hy⟩ := flatCall_head (s := t) (xs := ys) (d := e)
  have h' := h
  rw [hx, hy] at h'
  simp only [Ast.callS, Ast.symbol, Ast.call.injEq, Ast.leaf.injEq] at h'
  obtain ⟨r, hr, rfl⟩ := known_mem hs
  obtain ⟨r', hr', rfl⟩ := known_mem ht
  have he := (text_known r hr).2.2 r' hr' h'.1.2.1
  refine ⟨he, ?_⟩
  unfold flatCall at h
  rw [he] at h
  split at h
  · simp only [Ast.callS, Ast.call.injEq, List.cons.injEq] at h
    exact h.2.1.1.2.1
  · simp only [Ast.callS, Ast.call.injEq] at h
    exact h.2.1

theorem comparison_same {s : Sym} {d : AMeta} {x : Ast} {g : List (Sym × Ast)} (h0 : g ≠ []) (h : ∀ p ∈ g, p.1 = s) :
    comparison d x g = flatCall s (x :: g.map (·.2)) d := by
  match g, h0 with
  | (t, y) :: rest, _ =>
    have ht : t = s := h (t, y) (by simp)
    subst ht
    unfold comparison
    simp only
    rw [if_pos]
    · rfl
    · rw [List.all_eq_true]; intro p hp; simp [h p (by simp [hp])]

theorem cut_whole {ps : List (Sym × Ast)} {gs : List (List (Sym × Ast))} (h : Cut ps gs) (h0 : ps ≠ [])
    (hc : ∀ p ∈ ps, ∀ q ∈ ps, clash p.1 q.1 = false) : gs = [ps] := by
  match gs, h with
  | [], h => exact absurd h.all.symm h0
  | [g], h => rw [← h.all]; simp
  | g :: g' :: gs, h =>
    obtain ⟨p, hp, q, hq, hpq⟩ := h.cuts [] g g' gs rfl
    have hps := h.all
    rw [hc p (by rw [← hps]; simp [hp]) q (by rw [← hps]; simp [List.mem_of_head? hq])] at hpq
    cases hpq

theorem clash_self (s : Sym) : clash s s = false := by unfold clash; cases isVector s <;> simp

theorem flat_iff {d : AMeta} {x : Ast} {ps : List (Sym × Ast)} {gs : List (List (Sym × Ast))} (h : Cut ps gs) (h0 : ps ≠ [])
    (hk : ∀ p ∈ ps, Known p.1 = true) {s : Sym} (hs : Known s = true) :
    (∃ e, gs.foldl (comparison d) x = flatCall s (x :: ps.map (·.2)) e) ↔ ∀ p ∈ ps, p.1 = s := by
  constructor
  · rintro ⟨e, he⟩
    have hne : gs ≠ [] := by rintro rfl; exact h0 h.all.symm
    obtain ⟨gs', g, rfl⟩ : ∃ gs' g, gs = gs' ++ [g] := ⟨gs.dropLast, gs.getLast hne, (List.dropLast_append_getLast hne).symm⟩
    rw [List.foldl_append] at he
    simp only [List.foldl_cons, List.foldl_nil] at he
    generalize gs'.foldl (comparison d) x = y at he
    have hg := h.ne g (by simp)
    match g, hg, h with
    | (t, z) :: rest, _, h =>
      have hps := h.all
      have hkt : Known t = true := hk (t, z) (by rw [← hps]; simp)
      unfold comparison at he
      simp only at he
      split at he
      · rename_i hall
        obtain ⟨rfl, hxs⟩ := flatCall_inj hkt hs he
        have hlen := congrArg List.length hxs
        rw [← hps] at hlen
        simp only [List.flatten_append, List.flatten_cons, List.flatten_nil, List.length_cons, List.length_map, List.length_append,
          List.append_nil] at hlen
        have hgs : gs'.flatten = [] := List.eq_nil_of_length_eq_zero (by omega)
        rw [← hps]
        simp only [List.flatten_append, hgs, List.flatten_cons, List.flatten_nil, List.nil_append, List.append_nil]
        intro p hp
        rcases List.mem_cons.mp hp with rfl | hp
        · rfl
        · rw [List.all_eq_true] at hall; simpa using hall p hp
      · exfalso
        obtain ⟨ys, hy⟩ := flatCall_head (s := s) (xs := x :: ps.map (·.2)) (d := e)
        rw [hy] at he
        simp only [Ast.callS, Ast.symbol, Ast.call.injEq, Ast.leaf.injEq] at he
        obtain ⟨r, hr, rfl⟩ := known_mem hs
        obtain ⟨h1, h2, -⟩ := text_known r hr
        have := he.1.2.1
        split at this
        · exact h2 this.symm
        · exact h1 this.symm
  · intro hp
    have := cut_whole h h0 fun p hp' q hq => by rw [hp p hp', hp q hq]; exact clash_self s
    subst this
    exact ⟨d, by rw [List.foldl_cons, List.foldl_nil, comparison_same h0 hp]⟩

end CodeParser.Abs
