import Verif.Model.Abstract
import Verif.Spec.Places
/-!
Positions do not influence abstraction (helper lemmas).
-/
namespace CodeParser.Place
open Spec Abs

/-- Trees that differ in positions only. -/
inductive Twin : Cst → Cst → Prop
  | tok {t t' : Tok} : t.kind = t'.kind → t.text = t'.text → Twin (.tok t) (.tok t')
  | node {k cs cs'} : List.Forall₂ Twin cs cs' → Twin (.node k cs) (.node k cs')
  | call {h h' m op b b'} : List.Forall₂ Twin h h' → List.Forall₂ Twin b b' → Twin (.call h m op b) (.call h' m op b')
  | callAgg {h h' m op b b'} : Twin h h' → List.Forall₂ Twin b b' → Twin (.callAgg h m op b) (.callAgg h' m op b')
  | box {k cs cs'} : List.Forall₂ Twin cs cs' → Twin (.box k cs) (.box k cs')
  | code {n} : Twin (.code n) (.code n)

/-- Lists of such trees. -/
abbrev Twins : List Cst → List Cst → Prop := List.Forall₂ Twin

mutual
theorem twin_of_bare : ∀ (c : Cst) {c' : Cst}, bare c = bare c' → Twin c c'
  | .tok t, c', h => by
    cases c' <;> simp only [bare, reduceCtorEq, Cst.tok.injEq, bareTok, Tok.mk.injEq, and_true] at h
    exact .tok h.1 h.2
  | .node k cs, c', h => by
    cases c' <;> simp only [bare, reduceCtorEq, Cst.node.injEq] at h
    obtain ⟨rfl, h⟩ := h
    exact .node (twins_of_bare cs h)
  | .call hd m op b, c', h => by
    cases c' <;> simp only [bare, reduceCtorEq, Cst.call.injEq] at h
    obtain ⟨h1, rfl, rfl, h2⟩ := h
    exact .call (twins_of_bare hd h1) (twins_of_bare b h2)
  | .callAgg hd m op b, c', h => by
    cases c' <;> simp only [bare, reduceCtorEq, Cst.callAgg.injEq] at h
    obtain ⟨h1, rfl, rfl, h2⟩ := h
    exact .callAgg (twin_of_bare hd h1) (twins_of_bare b h2)
  | .box k cs, c', h => by
    cases c' <;> simp only [bare, reduceCtorEq, Cst.box.injEq] at h
    obtain ⟨rfl, h⟩ := h
    exact .box (twins_of_bare cs h)
  | .code n, c', h => by
    cases c' <;> simp only [bare, reduceCtorEq, Cst.code.injEq] at h
    subst h
    exact .code
theorem twins_of_bare : ∀ (cs : List Cst) {cs' : List Cst}, bares cs = bares cs' → Twins cs cs'
  | [], cs', h => by
    cases cs' with
    | nil => exact .nil
    | cons => simp only [bares, reduceCtorEq] at h
  | c :: cs, cs', h => by
    cases cs' with
    | nil => simp only [bares, reduceCtorEq] at h
    | cons c' cs' =>
      simp only [bares, List.cons.injEq] at h
      exact .cons (twin_of_bare c h.1) (twins_of_bare cs h.2)
end

/-! ### Computations -/

/-- If both computations succeed, the results are related. -/
def ASim {α β} (ra : α → β → Prop) (x : A α) (y : A β) : Prop := ∀ a b, x = .ok a → y = .ok b → ra a b

section
variable {α β γ δ : Type} {ra : α → β → Prop} {rb : γ → δ → Prop}

theorem ASim.ok {a : α} {b : β} (h : ra a b) : ASim ra (.ok a) (.ok b) := by
  rintro _ _ ⟨⟩ ⟨⟩; exact h

theorem ASim.fail {p : APanic} {y : A β} : ASim ra (Abs.fail p) y := by rintro _ _ ⟨⟩

theorem ASim.err {e : AErr} {y : A β} : ASim ra (.error e) y := by rintro _ _ ⟨⟩

theorem ASim.bind {x : A α} {y : A β} {f : α → A γ} {g : β → A δ} (h : ASim ra x y)
    (hf : ∀ a b, ra a b → ASim rb (f a) (g b)) : ASim rb (x >>= f) (y >>= g) := by
  intro c d h1 h2
  have h1 : Except.bind x f = .ok c := h1
  have h2 : Except.bind y g = .ok d := h2
  cases x with
  | error e => cases h1
  | ok a =>
    cases y with
    | error e => cases h2
    | ok b => exact hf a b (h a b rfl rfl) c d h1 h2

/-- The common case of equal results. -/
theorem ASim.bindE {x : A α} {f : α → A γ} {g : α → A δ} (hf : ∀ a, ASim rb (f a) (g a)) : ASim rb (x >>= f) (x >>= g) :=
  ASim.bind (ra := Eq) (fun a b h1 h2 => by rw [h1] at h2; cases h2; rfl) fun a b h => by subst h; exact hf a

/-- Results that do not matter. -/
theorem ASim.bindT {x : A α} {y : A β} {f : α → A γ} {g : β → A δ} (hf : ∀ a b, ASim rb (f a) (g b)) :
    ASim rb (x >>= f) (y >>= g) :=
  ASim.bind (ra := fun _ _ => True) (fun _ _ _ _ => trivial) fun a b _ => hf a b

theorem ASim.ite {c : Prop} [Decidable c] {x x' : A α} {y y' : A β} (h1 : c → ASim ra x y) (h2 : ¬ c → ASim ra x' y') :
    ASim ra (if c then x else x') (if c then y else y') := by
  by_cases h : c
  · rw [if_pos h, if_pos h]; exact h1 h
  · rw [if_neg h, if_neg h]; exact h2 h

theorem ASim.mapA {rc : γ → δ → Prop} {f : γ → A α} {g : δ → A β} (h : ∀ c d, rc c d → ASim ra (f c) (g d)) :
    ∀ {cs ds}, List.Forall₂ rc cs ds → ASim (List.Forall₂ ra) (mapA f cs) (mapA g ds)
  | [], _, hc => by cases hc; exact ASim.ok .nil
  | c :: cs, _, hc => by
    cases hc with
    | @cons _ d _ ds h1 h2 =>
      intro a b h3 h4
      unfold Abs.mapA at h3 h4
      rcases e1 : f c with e | a1 <;> rw [e1] at h3
      · cases h3
      rcases e2 : g d with e | b1 <;> rw [e2] at h4
      · cases h4
      simp only at h3 h4
      rcases e3 : Abs.mapA f cs with e | as <;> rw [e3] at h3
      · cases h3
      rcases e4 : Abs.mapA g ds with e | bs <;> rw [e4] at h4
      · cases h4
      cases h3; cases h4
      exact .cons (h _ _ h1 _ _ e1 e2) (ASim.mapA h h2 _ _ e3 e4)
end

/-- Abstract syntax trees that differ in positions only. -/
def TwinA (a b : Ast) : Prop := bareA a = bareA b
/-- Lists of such trees. -/
abbrev TwinAs : List Ast → List Ast → Prop := List.Forall₂ TwinA
/-- Data that differ in positions only. -/
def TwinM (d e : AMeta) : Prop := bareMeta d = bareMeta e

theorem TwinAs.eq : ∀ {as bs : List Ast}, TwinAs as bs → bareAs as = bareAs bs
  | [], _, h => by cases h; rfl
  | a :: as, _, h => by
    cases h with
    | cons h1 h2 => simp only [bareAs]; rw [h1, TwinAs.eq h2]

theorem TwinAs.of : ∀ {as bs : List Ast}, bareAs as = bareAs bs → TwinAs as bs
  | [], [], _ => .nil
  | [], _ :: _, h => by simp [bareAs] at h
  | _ :: _, [], h => by simp [bareAs] at h
  | a :: as, b :: bs, h => by
    simp only [bareAs, List.cons.injEq] at h
    exact .cons h.1 (TwinAs.of h.2)

theorem TwinM.of {d e : ASrc} : TwinM (.of d) (.of e) := rfl
theorem TwinM.refl {d : AMeta} : TwinM d d := rfl

section
variable {a b h h' : Ast} {as bs : List Ast} {d e : AMeta} {k : TK} {t : List UInt8}

theorem TwinA.refl : TwinA a a := rfl
theorem TwinA.leaf (hd : TwinM d e) : TwinA (.leaf k t d) (.leaf k t e) := by unfold TwinA; simp only [bareA]; rw [hd]
theorem TwinA.error (hd : TwinM d e) : TwinA (.error k t d) (.error k t e) := by unfold TwinA; simp only [bareA]; rw [hd]
theorem TwinA.call (hh : TwinA h h') (ha : TwinAs as bs) (hd : TwinM d e) : TwinA (.call h as d) (.call h' bs e) := by
  unfold TwinA; simp only [bareA]; rw [hd, ha.eq, hh]
theorem TwinA.callMissing (hh : TwinA h h') (ha : TwinAs as bs) (hd : TwinM d e) :
    TwinA (.callMissing h as d) (.callMissing h' bs e) := by
  unfold TwinA; simp only [bareA]; rw [hd, ha.eq, hh]
theorem TwinA.callS {s : Sym} (ha : TwinAs as bs) (hd : TwinM d e) : TwinA (.callS s as d) (.callS s bs e) :=
  TwinA.call .refl ha hd
theorem TwinA.syntaxError {k} (ha : TwinAs as bs) (hd : TwinM d e) : TwinA (.syntaxError k as d) (.syntaxError k bs e) := by
  unfold TwinA; simp only [bareA]; rw [hd, ha.eq]
theorem TwinA.abstractError {k} (ha : TwinAs as bs) (hd : TwinM d e) : TwinA (.abstractError k as d) (.abstractError k bs e) := by
  unfold TwinA; simp only [bareA]; rw [hd, ha.eq]
theorem TwinA.missingCloser {k} (ha : TwinAs as bs) (hd : TwinM d e) : TwinA (.missingCloser k as d) (.missingCloser k bs e) := by
  unfold TwinA; simp only [bareA]; rw [hd, ha.eq]
theorem TwinA.missingOpener {k} (ha : TwinAs as bs) (hd : TwinM d e) : TwinA (.missingOpener k as d) (.missingOpener k bs e) := by
  unfold TwinA; simp only [bareA]; rw [hd, ha.eq]
theorem TwinA.linearBang {a' b'} (ha : TwinA a a') (hb : TwinA b b') (hd : TwinM d e) : TwinA (.linearBang a b d) (.linearBang a' b' e) := by
  unfold TwinA; simp only [bareA]; rw [hd, ha, hb]

theorem TwinAs.one (h : TwinA a b) : TwinAs [a] [b] := .cons h .nil
theorem TwinAs.two {a' b'} (h : TwinA a b) (h' : TwinA a' b') : TwinAs [a, a'] [b, b'] := .cons h (TwinAs.one h')
theorem TwinAs.three {a' b' a'' b''} (h : TwinA a b) (h' : TwinA a' b') (h'' : TwinA a'' b'') : TwinAs [a, a', a''] [b, b', b''] :=
  .cons h (TwinAs.two h' h'')
end

/-! ### Tokens and children -/

theorem tokenAst_sim {t t' : Tok} (hk : t.kind = t'.kind) (ht : t.text = t'.text) : ASim TwinA (tokenAst t) (tokenAst t') := by
  unfold tokenAst
  simp only
  rw [hk, ht]
  split
  all_goals try exact ASim.ok (TwinA.callS .nil TwinM.of)
  all_goals try exact ASim.ok (TwinA.leaf TwinM.of)
  · exact ASim.bindE fun s => ASim.ok (TwinA.callS (TwinAs.one .refl) TwinM.of)
  · exact ASim.ok (TwinA.callS (TwinAs.one (TwinA.callS .nil TwinM.of)) TwinM.of)
  · exact ASim.ok (TwinA.callS (TwinAs.one .refl) TwinM.of)
  · exact ASim.ok (TwinA.callS (TwinAs.one .refl) TwinM.of)
  · refine ASim.ite (fun _ => ASim.ok (TwinA.error TwinM.of)) fun _ => ASim.ite (fun _ => ?_) fun _ => ASim.ok (TwinA.leaf TwinM.of)
    refine ASim.bindE fun s => ?_
    split
    · exact ASim.ok (TwinA.leaf TwinM.of)
    · exact ASim.ok (TwinA.leaf TwinM.of)

section
variable {cs cs' : List Cst} {c c' : Cst}

theorem expect2_sim (h : Twins cs cs') : ASim (fun p q => Twin p.1 q.1 ∧ Twin p.2 q.2) (expect2 cs) (expect2 cs') := by
  rcases h with _ | ⟨h1, _ | ⟨h2, _ | ⟨h3, h4⟩⟩⟩
  · exact ASim.fail
  · exact ASim.fail
  · exact ASim.ok ⟨h1, h2⟩
  · exact ASim.fail

theorem expect3_sim (h : Twins cs cs') :
    ASim (fun p q => Twin p.1 q.1 ∧ Twin p.2.1 q.2.1 ∧ Twin p.2.2 q.2.2) (expect3 cs) (expect3 cs') := by
  rcases h with _ | ⟨h1, _ | ⟨h2, _ | ⟨h3, _ | ⟨h4, h5⟩⟩⟩⟩
  · exact ASim.fail
  · exact ASim.fail
  · exact ASim.fail
  · exact ASim.ok ⟨h1, h2, h3⟩
  · exact ASim.fail

theorem expect5_sim (h : Twins cs cs') :
    ASim (fun p q => Twin p.1 q.1 ∧ Twin p.2.1 q.2.1 ∧ Twin p.2.2.1 q.2.2.1 ∧ Twin p.2.2.2.1 q.2.2.2.1 ∧ Twin p.2.2.2.2 q.2.2.2.2)
      (expect5 cs) (expect5 cs') := by
  rcases h with _ | ⟨h1, _ | ⟨h2, _ | ⟨h3, _ | ⟨h4, _ | ⟨h5, _ | ⟨h6, h7⟩⟩⟩⟩⟩⟩
  · exact ASim.fail
  · exact ASim.fail
  · exact ASim.fail
  · exact ASim.fail
  · exact ASim.fail
  · exact ASim.ok ⟨h1, h2, h3, h4, h5⟩
  · exact ASim.fail

theorem evens_twins : ∀ {cs cs' : List Cst}, Twins cs cs' → Twins (evens cs) (evens cs')
  | [], _, h => by cases h; exact .nil
  | [a], _, h => by rcases h with _ | ⟨h1, ⟨⟩⟩; exact .cons h1 .nil
  | a :: b :: cs, _, h => by
    rcases h with _ | ⟨h1, _ | ⟨h2, h3⟩⟩
    simp only [evens]
    exact .cons h1 (evens_twins h3)

theorem dropLast_twins : ∀ {cs cs' : List Cst}, Twins cs cs' → Twins cs.dropLast cs'.dropLast
  | [], _, h => by cases h; exact .nil
  | [a], _, h => by rcases h with _ | ⟨h1, ⟨⟩⟩; exact .nil
  | a :: b :: cs, _, h => by
    rcases h with _ | ⟨h1, _ | ⟨h2, h3⟩⟩
    simp only [List.dropLast_cons_cons]
    exact .cons h1 (dropLast_twins (cs := b :: cs) (.cons h2 h3))

theorem dropEnds_sim (h : Twins cs cs') : ASim Twins (dropEnds cs) (dropEnds cs') := by
  rcases h with _ | ⟨h1, _ | ⟨h2, h3⟩⟩
  · exact ASim.fail
  · exact ASim.fail
  · exact ASim.ok (dropLast_twins (.cons h2 h3))

/-- Pairs of such trees. -/
def Twin2 (p q : Cst × Cst) : Prop := Twin p.1 q.1 ∧ Twin p.2 q.2

theorem pairs_sim : ∀ {cs cs' : List Cst}, Twins cs cs' → ASim (List.Forall₂ Twin2) (pairs cs) (pairs cs')
  | [], _, h => by cases h; exact ASim.ok .nil
  | [a], _, h => by rcases h with _ | ⟨h1, ⟨⟩⟩; exact ASim.fail
  | a :: b :: cs, _, h => by
    rcases h with _ | ⟨h1, _ | ⟨h2, h3⟩⟩
    simp only [pairs]
    exact ASim.bind (pairs_sim h3) fun _ _ hp => ASim.ok (.cons ⟨h1, h2⟩ hp)

theorem isTok_eq {k : TK} (h : Twin c c') : isTok k c = isTok k c' := by
  cases h <;> simp only [isTok]
  rename_i h _; rw [h]

theorem isNode_eq {k : NodeKind} (h : Twin c c') : isNode k c = isNode k c' := by
  cases h <;> rfl
end

/-! ### Negation and products -/

theorem numberQ_eq : ∀ (c : Cst) {c' : Cst}, Twin c c' → numberQ c = numberQ c'
  | .tok t, _, h => by cases h with | tok h1 h2 => simp only [numberQ]; rw [h1]
  | .node k [a, c, b], _, h => by
    cases h with | node h =>
    rcases h with _ | ⟨h1, _ | ⟨h2, _ | ⟨h3, ⟨⟩⟩⟩⟩
    simp only [numberQ]; rw [numberQ_eq c h2]
  | .node k [], _, h => by cases h with | node h => cases h; rfl
  | .node k [_], _, h => by cases h with | node h => rcases h with _ | ⟨h1, ⟨⟩⟩; rfl
  | .node k [_, _], _, h => by cases h with | node h => rcases h with _ | ⟨h1, _ | ⟨h2, ⟨⟩⟩⟩; rfl
  | .node k (_ :: _ :: _ :: _ :: _), _, h => by
    cases h with | node h => rcases h with _ | ⟨h1, _ | ⟨h2, _ | ⟨h3, _ | ⟨h4, h5⟩⟩⟩⟩; rfl
  | .call .., _, h => by cases h; rfl
  | .callAgg .., _, h => by cases h; rfl
  | .box .., _, h => by cases h; rfl
  | .code _, _, h => by cases h; rfl

theorem zeroQ_eq : ∀ (c : Cst) {c' : Cst}, Twin c c' → zeroQ c = zeroQ c'
  | .tok t, _, h => by cases h with | tok h1 h2 => simp only [zeroQ]; rw [h1, h2]
  | .node k [a, c, b], _, h => by
    cases h with | node h =>
    rcases h with _ | ⟨h1, _ | ⟨h2, _ | ⟨h3, ⟨⟩⟩⟩⟩
    simp only [zeroQ]; rw [zeroQ_eq c h2]
  | .node k [], _, h => by cases h with | node h => cases h; rfl
  | .node k [_], _, h => by cases h with | node h => rcases h with _ | ⟨h1, ⟨⟩⟩; rfl
  | .node k [_, c], _, h => by
    cases h with | node h => rcases h with _ | ⟨h1, _ | ⟨h2, ⟨⟩⟩⟩; simp only [zeroQ]; rw [zeroQ_eq c h2]
  | .node k (_ :: _ :: _ :: _ :: _), _, h => by
    cases h with | node h => rcases h with _ | ⟨h1, _ | ⟨h2, _ | ⟨h3, _ | ⟨h4, h5⟩⟩⟩⟩; rfl
  | .call .., _, h => by cases h; rfl
  | .callAgg .., _, h => by cases h; rfl
  | .box .., _, h => by cases h; rfl
  | .code _, _, h => by cases h; rfl

/-- Negated trees that differ in positions only. -/
inductive TwinN : Negated → Negated → Prop
  | zero : TwinN .zero .zero
  | integer {t} : TwinN (.integer t) (.integer t)
  | real {t} : TwinN (.real t) (.real t)
  | times {cs cs'} : Twins cs cs' → TwinN (.times cs) (.times cs')

theorem negate_sim : ∀ (c : Cst) {c' : Cst}, Twin c c' → ASim TwinN (negate c) (negate c')
  | .tok t, _, h => by
    cases h with
    | tok h1 h2 =>
      simp only [negate]
      rw [h1, h2]
      refine ASim.ite (fun _ => ASim.bindE fun s => ?_) fun _ => ASim.ite (fun _ => ASim.ok .real) fun _ =>
        ASim.ok (.times (.cons (.tok h1 h2) .nil))
      by_cases hs : s = [48]
      · rw [if_pos hs]; exact ASim.ok .zero
      · rw [if_neg hs]; exact ASim.ok .integer
  | .node k [o, c, e], _, h => by
    cases h with | node h =>
    have hc := h
    rcases h with _ | ⟨h1, _ | ⟨h2, _ | ⟨h3, ⟨⟩⟩⟩⟩
    simp only [negate]
    rw [zeroQ_eq c h2, numberQ_eq c h2]
    refine ASim.ite (fun _ => ASim.bindE fun z => ASim.ite (fun _ => negate_sim c h2) fun _ => ASim.bindE fun z =>
      ASim.ite (fun _ => negate_sim c h2) fun _ => ASim.ok (.times (.cons (.node hc) .nil))) fun _ => ?_
    refine ASim.ite (fun _ => ASim.bindE fun z => ASim.ite (fun _ => negate_sim c h2) fun _ =>
      ASim.ok (.times (.cons (.node hc) .nil))) fun _ => ?_
    exact ASim.ite (fun _ => ASim.ok (.times hc)) fun _ => ASim.ok (.times (.cons (.node hc) .nil))
  | .node k [], _, h => by
    cases h with | node h =>
    cases h
    simp only [negate]
    exact ASim.ite (fun _ => ASim.fail) fun _ => ASim.ite (fun _ => ASim.fail) fun _ => ASim.ite (fun _ => ASim.ok (.times .nil)) fun _ =>
      ASim.ok (.times (.cons (.node .nil) .nil))
  | .node k [_], _, h => by
    cases h with | node h =>
    have hc := h
    rcases h with _ | ⟨h1, ⟨⟩⟩
    simp only [negate]
    exact ASim.ite (fun _ => ASim.fail) fun _ => ASim.ite (fun _ => ASim.fail) fun _ => ASim.ite (fun _ => ASim.ok (.times hc)) fun _ =>
      ASim.ok (.times (.cons (.node hc) .nil))
  | .node k [_, c], _, h => by
    cases h with | node h =>
    have hc := h
    rcases h with _ | ⟨h1, _ | ⟨h2, ⟨⟩⟩⟩
    simp only [negate]
    rw [zeroQ_eq c h2]
    refine ASim.ite (fun _ => ASim.bindE fun z => ASim.ite (fun _ => negate_sim c h2) fun _ => ASim.fail) fun _ => ?_
    refine ASim.ite (fun _ => ASim.bindE fun z => ASim.ite (fun _ => negate_sim c h2) fun _ =>
      ASim.ok (.times (.cons (.node hc) .nil))) fun _ => ?_
    exact ASim.ite (fun _ => ASim.ok (.times hc)) fun _ => ASim.ok (.times (.cons (.node hc) .nil))
  | .node k (_ :: c :: _ :: _ :: _), _, h => by
    cases h with | node h =>
    have hc := h
    rcases h with _ | ⟨h1, _ | ⟨h2, _ | ⟨h3, _ | ⟨h4, h5⟩⟩⟩⟩
    simp only [negate]
    rw [zeroQ_eq c h2]
    refine ASim.ite (fun _ => ASim.bindE fun z => ASim.ite (fun _ => negate_sim c h2) fun _ => ASim.fail) fun _ => ?_
    refine ASim.ite (fun _ => ASim.bindE fun z => ASim.ite (fun _ => negate_sim c h2) fun _ =>
      ASim.ok (.times (.cons (.node hc) .nil))) fun _ => ?_
    exact ASim.ite (fun _ => ASim.ok (.times hc)) fun _ => ASim.ok (.times (.cons (.node hc) .nil))
  | .call .., _, h => by
    have hc := h
    cases h; exact ASim.ok (.times (.cons hc .nil))
  | .callAgg .., _, h => by
    have hc := h
    cases h; exact ASim.ok (.times (.cons hc .nil))
  | .box .., _, h => by
    have hc := h
    cases h; exact ASim.ok (.times (.cons hc .nil))
  | .code _, _, h => by
    have hc := h
    cases h; exact ASim.ok (.times (.cons hc .nil))

/-- Operands that differ in positions only. -/
inductive TwinO : AOperand → AOperand → Prop
  | cst {c c'} : Twin c c' → TwinO (.cst c) (.cst c')
  | recip {c c' d d'} : Twin c c' → TwinO (.recip c d) (.recip c' d')
  | negOne : TwinO .negOne .negOne
  | neg {g g' d d'} : TwinN g g' → TwinO (.neg g d) (.neg g' d')

theorem forall2_append {α β} {r : α → β → Prop} {a b : List α} {c d : List β} (h : List.Forall₂ r a c) (h' : List.Forall₂ r b d) :
    List.Forall₂ r (a ++ b) (c ++ d) := List.rel_append h h'

mutual
theorem flat_sim {q : Bool} {d d' : ASrc} : ∀ (c : Cst) {c' : Cst}, Twin c c' →
    ASim (List.Forall₂ TwinO) (flat q d c) (flat q d' c')
  | .node k cs, _, h => by
    cases h with | node h =>
    simp only [flat]
    refine ASim.ite (fun _ => flatMinus_sim (.node h) cs h) fun _ => ASim.ite (fun _ => flatEvens_sim cs h) fun _ =>
      ASim.ite (fun _ => flatDivide_sim (.node h) cs h) fun _ => ASim.ok (.cons (.cst (.node h)) .nil)
  | .tok _, _, h => by
    have hc := h
    cases h; exact ASim.ok (.cons (.cst hc) .nil)
  | .call .., _, h => by
    have hc := h
    cases h; exact ASim.ok (.cons (.cst hc) .nil)
  | .callAgg .., _, h => by
    have hc := h
    cases h; exact ASim.ok (.cons (.cst hc) .nil)
  | .box .., _, h => by
    have hc := h
    cases h; exact ASim.ok (.cons (.cst hc) .nil)
  | .code _, _, h => by
    have hc := h
    cases h; exact ASim.ok (.cons (.cst hc) .nil)
theorem flatEvens_sim {q : Bool} {d d' : ASrc} : ∀ (cs : List Cst) {cs' : List Cst}, Twins cs cs' →
    ASim (List.Forall₂ TwinO) (flatEvens q d cs) (flatEvens q d' cs')
  | [], _, h => by cases h; exact ASim.ok .nil
  | [c], _, h => by rcases h with _ | ⟨h1, ⟨⟩⟩; simp only [flatEvens]; exact flat_sim c h1
  | c :: _ :: cs, _, h => by
    rcases h with _ | ⟨h1, _ | ⟨h2, h3⟩⟩
    simp only [flatEvens]
    exact ASim.bind (flat_sim c h1) fun _ _ ha => ASim.bind (flatEvens_sim cs h3) fun _ _ hb => ASim.ok (forall2_append ha hb)
theorem flatMinus_sim {q : Bool} {d d' : ASrc} {n n' : Cst} (hn : Twin n n') : ∀ (cs : List Cst) {cs' : List Cst}, Twins cs cs' →
    ASim (List.Forall₂ TwinO) (flatMinus q d n cs) (flatMinus q d' n' cs')
  | [], _, h => by cases h; exact ASim.fail
  | [_], _, h => by rcases h with _ | ⟨h1, ⟨⟩⟩; exact ASim.fail
  | [_, c], _, h => by
    rcases h with _ | ⟨h1, _ | ⟨h2, ⟨⟩⟩⟩
    simp only [flatMinus]
    rw [numberQ_eq c h2]
    refine ASim.bindE fun z => ASim.ite (fun _ => ASim.bind (negate_sim c h2) fun _ _ hg => ASim.ok (.cons (.neg hg) .nil)) fun _ => ?_
    exact ASim.ite (fun _ => ASim.bind (flat_sim c h2) fun _ _ ha => ASim.ok (.cons .negOne ha)) fun _ => ASim.ok (.cons (.cst hn) .nil)
  | _ :: _ :: _ :: _, _, h => by rcases h with _ | ⟨h1, _ | ⟨h2, _ | ⟨h3, h4⟩⟩⟩; exact ASim.fail
theorem flatDivide_sim {q : Bool} {d d' : ASrc} {n n' : Cst} (hn : Twin n n') : ∀ (cs : List Cst) {cs' : List Cst}, Twins cs cs' →
    ASim (List.Forall₂ TwinO) (flatDivide q d n cs) (flatDivide q d' n' cs')
  | [], _, h => by
    cases h; simp only [flatDivide]
    exact ASim.ite (fun _ => ASim.fail) fun _ => ASim.ok (.cons (.cst hn) .nil)
  | [_], _, h => by
    rcases h with _ | ⟨h1, ⟨⟩⟩; simp only [flatDivide]
    exact ASim.ite (fun _ => ASim.fail) fun _ => ASim.ok (.cons (.cst hn) .nil)
  | [_, _], _, h => by
    rcases h with _ | ⟨h1, _ | ⟨h2, ⟨⟩⟩⟩; simp only [flatDivide]
    exact ASim.ite (fun _ => ASim.fail) fun _ => ASim.ok (.cons (.cst hn) .nil)
  | [l, _, r], _, h => by
    rcases h with _ | ⟨h1, _ | ⟨h2, _ | ⟨h3, ⟨⟩⟩⟩⟩
    simp only [flatDivide]
    exact ASim.ite (fun _ => ASim.bind (flat_sim l h1) fun _ _ ha => ASim.ok (forall2_append ha (.cons (.recip h3) .nil))) fun _ =>
      ASim.ok (.cons (.cst hn) .nil)
  | _ :: _ :: _ :: _ :: _, _, h => by
    rcases h with _ | ⟨h1, _ | ⟨h2, _ | ⟨h3, _ | ⟨h4, h5⟩⟩⟩⟩
    simp only [flatDivide]
    exact ASim.ite (fun _ => ASim.fail) fun _ => ASim.ok (.cons (.cst hn) .nil)
end

theorem flatL_sim {q : Bool} {d d' : ASrc} : ∀ {cs cs' : List Cst}, Twins cs cs' →
    ASim (List.Forall₂ TwinO) (flatL q d cs) (flatL q d' cs')
  | [], _, h => by cases h; exact ASim.ok .nil
  | c :: cs, _, h => by
    rcases h with _ | ⟨h1, h2⟩
    simp only [flatL]
    exact ASim.bind (flat_sim c h1) fun _ _ ha => ASim.bind (flatL_sim h2) fun _ _ hb => ASim.ok (forall2_append ha hb)

theorem flattenPlus_sim : ∀ (c : Cst) {c' : Cst}, Twin c c' → ASim Twin (flattenPlus c) (flattenPlus c')
  | .node k [o, c], _, h => by
    cases h with | node h =>
    have hc := h
    rcases h with _ | ⟨h1, _ | ⟨h2, ⟨⟩⟩⟩
    simp only [flattenPlus]
    exact ASim.ite (fun _ => flattenPlus_sim c h2) fun _ => ASim.ok (.node hc)
  | .node k [], _, h => by
    cases h with | node h => cases h; simp only [flattenPlus]; exact ASim.ite (fun _ => ASim.fail) fun _ => ASim.ok (.node .nil)
  | .node k [_], _, h => by
    cases h with | node h =>
    have hc := h
    rcases h with _ | ⟨h1, ⟨⟩⟩; simp only [flattenPlus]; exact ASim.ite (fun _ => ASim.fail) fun _ => ASim.ok (.node hc)
  | .node k (_ :: _ :: _ :: _), _, h => by
    cases h with | node h =>
    have hc := h
    rcases h with _ | ⟨h1, _ | ⟨h2, _ | ⟨h3, h4⟩⟩⟩
    simp only [flattenPlus]; exact ASim.ite (fun _ => ASim.fail) fun _ => ASim.ok (.node hc)
  | .tok _, _, h => by
    have hc := h
    cases h; exact ASim.ok hc
  | .call .., _, h => by
    have hc := h
    cases h; exact ASim.ok hc
  | .callAgg .., _, h => by
    have hc := h
    cases h; exact ASim.ok hc
  | .box .., _, h => by
    have hc := h
    cases h; exact ASim.ok hc
  | .code _, _, h => by
    have hc := h
    cases h; exact ASim.ok hc

theorem derivativeBody_sim : ∀ (c : Cst) {c' : Cst}, Twin c c' →
    ASim (fun p q => p.1 = q.1 ∧ Twin p.2 q.2) (derivativeBody c) (derivativeBody c')
  | .node k [r, o], _, h => by
    cases h with | node h =>
    have hc := h
    rcases h with _ | ⟨h1, _ | ⟨h2, ⟨⟩⟩⟩
    simp only [derivativeBody]
    exact ASim.ite (fun _ => ASim.bind (derivativeBody_sim r h1) fun p q hp => ASim.ok ⟨by rw [hp.1], hp.2⟩) fun _ =>
      ASim.ok ⟨rfl, .node hc⟩
  | .node k [], _, h => by
    cases h with | node h => cases h; simp only [derivativeBody]; exact ASim.ite (fun _ => ASim.fail) fun _ => ASim.ok ⟨rfl, .node .nil⟩
  | .node k [_], _, h => by
    cases h with | node h =>
    have hc := h
    rcases h with _ | ⟨h1, ⟨⟩⟩; simp only [derivativeBody]; exact ASim.ite (fun _ => ASim.fail) fun _ => ASim.ok ⟨rfl, .node hc⟩
  | .node k (_ :: _ :: _ :: _), _, h => by
    cases h with | node h =>
    have hc := h
    rcases h with _ | ⟨h1, _ | ⟨h2, _ | ⟨h3, h4⟩⟩⟩
    simp only [derivativeBody]; exact ASim.ite (fun _ => ASim.fail) fun _ => ASim.ok ⟨rfl, .node hc⟩
  | .tok _, _, h => by
    have hc := h
    cases h; exact ASim.ok ⟨rfl, hc⟩
  | .call .., _, h => by
    have hc := h
    cases h; exact ASim.ok ⟨rfl, hc⟩
  | .callAgg .., _, h => by
    have hc := h
    cases h; exact ASim.ok ⟨rfl, hc⟩
  | .box .., _, h => by
    have hc := h
    cases h; exact ASim.ok ⟨rfl, hc⟩
  | .code _, _, h => by
    have hc := h
    cases h; exact ASim.ok ⟨rfl, hc⟩

end CodeParser.Place
