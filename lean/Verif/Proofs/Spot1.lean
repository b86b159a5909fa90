import Verif.Model.Abstract
import Verif.Spec.Spots
import Verif.Proofs.Abstract1
import Verif.Props.Parser
/-!
Positions in abstract syntax trees (helper lemmas): computations and the parts of trees.
-/
namespace CodeParser.Spot
open Spec Abs Cst Props

/-- If the computation succeeds, then with such a result. -/
def Sat {α : Type} (P : α → Prop) (x : A α) : Prop := ∀ a, x = .ok a → P a

section
variable {α β : Type} {P : α → Prop} {Q : β → Prop}

theorem Sat.ok {a : α} (h : P a) : Sat P (.ok a) := by rintro _ ⟨⟩; exact h
theorem Sat.fail {p : APanic} : Sat P (Abs.fail p) := by rintro _ ⟨⟩
theorem Sat.err {e : AErr} : Sat P (.error e) := by rintro _ ⟨⟩
theorem Sat.mono {P' : α → Prop} {x : A α} (h : Sat P x) (hp : ∀ a, P a → P' a) : Sat P' x := fun a ha => hp a (h a ha)

theorem Sat.bind {x : A α} {f : α → A β} (h : Sat P x) (hf : ∀ a, P a → Sat Q (f a)) : Sat Q (x >>= f) := by
  intro b hb
  have hb : Except.bind x f = .ok b := hb
  cases x with
  | error e => cases hb
  | ok a => exact hf a (h a rfl) b hb

theorem Sat.any {x : A α} {f : α → A β} (hf : ∀ a, Sat Q (f a)) : Sat Q (x >>= f) :=
  Sat.bind (P := fun _ => True) (fun _ _ => trivial) fun a _ => hf a

theorem Sat.ite {c : Prop} [Decidable c] {x y : A α} (h1 : c → Sat P x) (h2 : ¬ c → Sat P y) : Sat P (if c then x else y) := by
  by_cases h : c
  · rw [if_pos h]; exact h1 h
  · rw [if_neg h]; exact h2 h

theorem Sat.mapA {f : β → A α} : ∀ {bs : List β}, (∀ b ∈ bs, Sat P (f b)) → Sat (fun as => ∀ a ∈ as, P a) (mapA f bs)
  | [], _ => Sat.ok (by simp)
  | b :: bs, h => by
    intro as e
    unfold Abs.mapA at e
    rcases e1 : f b with x | a <;> rw [e1] at e
    · cases e
    simp only at e
    rcases e2 : Abs.mapA f bs with x | as' <;> rw [e2] at e
    · cases e
    cases e
    intro x hx
    rcases List.mem_cons.mp hx with rfl | hx
    · exact h b List.mem_cons_self _ e1
    · exact Sat.mapA (fun b hb => h b (List.mem_cons_of_mem _ hb)) _ e2 x hx
end

/-! ### Positions and tokens -/

theorem on_mono {ks js : List Tok} {s : ASrc} (h : OnTokens js s) (hs : js.Sublist ks) : OnTokens ks s := by
  obtain ⟨t, ht, t', ht', h⟩ := h
  exact ⟨t, hs.subset ht, t', hs.subset ht', h⟩

theorem hull_on {ks : List Tok} {s : ASrc} (ho : Ordered ks) (h : Hulls ks s) : OnTokens ks s := by
  obtain ⟨a, b, h1, h2, rfl⟩ := h
  exact ⟨a, List.mem_of_head? h1, b, List.mem_of_getLast? h2, rfl,
    Loc.le_trans (ordered_le ho h1 h2 (List.mem_of_getLast? h2)).1 (ho.2 b (List.mem_of_getLast? h2))⟩

theorem on_inside {ks : List Tok} {s d : ASrc} (ho : Ordered ks) (h : Hulls ks d) (hs : OnTokens ks s) : InsideOf s d := by
  obtain ⟨a, b, h1, h2, rfl⟩ := h
  obtain ⟨t, ht, t', ht', rfl, _⟩ := hs
  exact ⟨(ordered_le ho h1 h2 ht).1, (ordered_le ho h1 h2 ht').2⟩

theorem hulls_inv {ks : List Tok} {s : ASrc} (h : Hulls ks s) : ks ≠ [] := by
  rintro rfl
  obtain ⟨a, b, h1, _⟩ := h
  cases h1

theorem hulls_append {a b : List Tok} {s t : ASrc} (hs : Hulls a s) (ht : Hulls b t) : Hulls (a ++ b) (s.1, t.2) := by
  obtain ⟨a1, a2, h1, h2, rfl⟩ := hs
  obtain ⟨b1, b2, h3, h4, rfl⟩ := ht
  exact ⟨a1, b2, by rw [List.head?_append, h1]; rfl, by rw [List.getLast?_append, h4]; rfl, rfl⟩

theorem between_inv {a b s : ASrc} (h : Abs.between a b = .ok s) : s = (a.1, b.2) := by
  unfold Abs.between at h
  split at h
  · cases h; rfl
  · cases h

/-- The first and last of the tokens of a list with a source. -/
def Bounds (ks : List Tok) (a b : ASrc) : Prop := ∃ x y, ks.head? = some x ∧ ks.getLast? = some y ∧ a.1 = x.start ∧ b.2 = y.stop

theorem first_append {a b : List Tok} (h : a ≠ []) : (a ++ b).head? = a.head? := by
  cases a with
  | nil => exact absurd rfl h
  | cons x xs => rfl

theorem last_append {a b : List Tok} (h : b ≠ []) : (a ++ b).getLast? = b.getLast? := by
  rw [List.getLast?_append]
  cases h' : b.getLast? with
  | none => exact absurd (List.getLast?_eq_none_iff.mp h') h
  | some x => rfl

mutual
/-- The source of a tree goes from its first to its last token. -/
theorem getSource_hull : ∀ (c : Cst) {s : ASrc}, getSource c = .ok s → Hulls (leaves c) s
  | .tok t, s, h => by
    unfold getSource at h; cases h; exact ⟨t, t, rfl, rfl, rfl⟩
  | .node k cs, s, h => by
    unfold getSource at h
    rcases e1 : firstSource cs with x | a <;> rw [e1] at h
    · cases h
    rcases e2 : lastSource cs with x | b <;> rw [e2] at h
    · cases h
    obtain ⟨x, hx, h1⟩ := firstSource_hull cs e1
    obtain ⟨y, hy, h2⟩ := lastSource_hull cs e2
    have := between_inv h
    subst this
    exact ⟨x, y, hx, hy, by rw [h1, h2]⟩
  | .call hd m op b, s, h => by
    unfold getSource at h
    rcases e0 : firstSource hd with x | z <;> rw [e0] at h
    · cases h
    rcases e1 : firstSource b with x | a <;> rw [e1] at h
    · cases h
    rcases e2 : lastSource b with x | t <;> rw [e2] at h
    · cases h
    obtain ⟨x0, hx0, h0⟩ := firstSource_hull hd e0
    obtain ⟨y, hy, h2⟩ := lastSource_hull b e2
    rcases e3 : Abs.between a t with x | u
    · have h : (Abs.between a t >>= fun t => Abs.between z t) = .ok s := h
      rw [e3] at h; cases h
    · have h : (Abs.between a t >>= fun t => Abs.between z t) = .ok s := h
      rw [e3] at h
      have h := between_inv h
      have := between_inv e3
      subst this; subst h
      refine ⟨x0, y, ?_, ?_, by rw [h0, h2]⟩
      · rw [leaves, first_append (by intro h; rw [h] at hx0; cases hx0), hx0]
      · rw [leaves, last_append (by intro h; rw [h] at hy; cases hy), hy]
  | .callAgg hd m op b, s, h => by
    unfold getSource at h
    rcases e0 : getSource hd with x | z <;> rw [e0] at h
    · cases h
    rcases e1 : firstSource b with x | a <;> rw [e1] at h
    · cases h
    rcases e2 : lastSource b with x | t <;> rw [e2] at h
    · cases h
    obtain ⟨x0, x1, hx0, hx1, h0⟩ := getSource_hull hd e0
    obtain ⟨y, hy, h2⟩ := lastSource_hull b e2
    rcases e3 : Abs.between a t with x | u
    · have h : (Abs.between a t >>= fun t => Abs.between z t) = .ok s := h
      rw [e3] at h; cases h
    · have h : (Abs.between a t >>= fun t => Abs.between z t) = .ok s := h
      rw [e3] at h
      have h := between_inv h
      have := between_inv e3
      subst this; subst h
      refine ⟨x0, y, ?_, ?_, by rw [h0, h2]⟩
      · rw [leaves, first_append (by intro h; rw [h] at hx0; cases hx0), hx0]
      · rw [leaves, last_append (by intro h; rw [h] at hy; cases hy), hy]
  | .box .., s, h => by unfold getSource at h; cases h
  | .code .., s, h => by unfold getSource at h; cases h
theorem firstSource_hull : ∀ (cs : List Cst) {s : ASrc}, firstSource cs = .ok s → ∃ x, (leavesL cs).head? = some x ∧ s.1 = x.start
  | [], s, h => by unfold firstSource at h; cases h
  | c :: cs, s, h => by
    unfold firstSource at h
    obtain ⟨x, y, h1, h2, rfl⟩ := getSource_hull c h
    refine ⟨x, ?_, rfl⟩
    rw [leavesL, first_append (by intro h; rw [h] at h1; cases h1), h1]
theorem lastSource_hull : ∀ (cs : List Cst) {s : ASrc}, lastSource cs = .ok s → ∃ x, (leavesL cs).getLast? = some x ∧ s.2 = x.stop
  | [], s, h => by unfold lastSource at h; cases h
  | [c], s, h => by
    unfold lastSource at h
    obtain ⟨x, y, h1, h2, rfl⟩ := getSource_hull c h
    refine ⟨y, ?_, rfl⟩
    rw [leavesL, leavesL, List.append_nil, h2]
  | c :: d :: cs, s, h => by
    unfold lastSource at h
    obtain ⟨x, h1, h2⟩ := lastSource_hull (d :: cs) h
    refine ⟨x, ?_, h2⟩
    rw [leavesL, last_append (by intro h; rw [h] at h1; cases h1), h1]
end

theorem seqSource_hull {cs : List Cst} {s : ASrc} (h : seqSource cs = .ok s) : Hulls (leavesL cs) s :=
  getSource_hull (.node (.group .List) cs) (by unfold getSource; exact h)

/-- Trees made of the tokens `ks`. -/
abbrev Of (ks : List Tok) (c : Cst) : Prop := (leaves c).Sublist ks
/-- Trees, each made of the tokens `ks`. -/
def OfL (ks : List Tok) (cs : List Cst) : Prop := ∀ c ∈ cs, Of ks c

theorem ofL_of {ks : List Tok} {cs : List Cst} (h : (leavesL cs).Sublist ks) : OfL ks cs :=
  fun _ hc => (leaves_sublist hc).trans h

theorem Of.node {ks : List Tok} {k : NodeKind} {cs : List Cst} (h : Of ks (.node k cs)) : OfL ks cs := ofL_of h

theorem source_on {ks : List Tok} {c : Cst} (ho : Ordered ks) (h : Of ks c) : Sat (OnTokens ks) (getSource c) := fun _ hs =>
  on_mono (hull_on (ho.sub h) (getSource_hull c hs)) h

theorem first_is {cs : List Cst} {s : ASrc} (h : firstSource cs = .ok s) : ∃ c ds, cs = c :: ds ∧ getSource c = .ok s := by
  cases cs with
  | nil => unfold firstSource at h; cases h
  | cons c ds => unfold firstSource at h; exact ⟨c, ds, rfl, h⟩

theorem last_is : ∀ {cs : List Cst} {s : ASrc}, lastSource cs = .ok s → ∃ c ds, cs = ds ++ [c] ∧ getSource c = .ok s
  | [], s, h => by unfold lastSource at h; cases h
  | [c], s, h => by unfold lastSource at h; exact ⟨c, [], rfl, h⟩
  | c :: d :: cs, s, h => by
    unfold lastSource at h
    obtain ⟨e, ds, h1, h2⟩ := last_is h
    exact ⟨e, c :: ds, by rw [h1]; rfl, h2⟩

/-! ### Nested trees -/

/-- Positions are nested, and all are positions of the tokens `ks`. -/
def Fits (ks : List Tok) (a : Ast) : Prop := Nested a ∧ ∀ s ∈ positions a, OnTokens ks s
/-- The same for several trees. -/
def FitsL (ks : List Tok) (as : List Ast) : Prop := ∀ a ∈ as, Fits ks a

theorem Fits.mono {ks js : List Tok} {a : Ast} (h : Fits js a) (hs : js.Sublist ks) : Fits ks a :=
  ⟨h.1, fun s h' => on_mono (h.2 s h') hs⟩

theorem mem_positionsL {s : ASrc} : ∀ {as : List Ast}, s ∈ positionsL as ↔ ∃ a ∈ as, s ∈ positions a
  | [] => by simp [positionsL]
  | a :: as => by simp [positionsL, mem_positionsL (as := as)]

theorem nestedL_iff : ∀ {as : List Ast}, NestedL as ↔ ∀ a ∈ as, Nested a
  | [] => by simp [NestedL]
  | a :: as => by simp [NestedL, nestedL_iff (as := as)]

theorem FitsL.nested {ks : List Tok} {as : List Ast} (h : FitsL ks as) : NestedL as := nestedL_iff.mpr fun a ha => (h a ha).1
theorem FitsL.on {ks : List Tok} {as : List Ast} (h : FitsL ks as) : ∀ s ∈ positionsL as, OnTokens ks s := fun s hs => by
  obtain ⟨a, ha, hs⟩ := mem_positionsL.mp hs
  exact (h a ha).2 s hs

theorem FitsL.nil {ks : List Tok} : FitsL ks [] := by intro a h; cases h
theorem FitsL.cons {ks : List Tok} {a : Ast} {as : List Ast} (h : Fits ks a) (hs : FitsL ks as) : FitsL ks (a :: as) := by
  intro x hx
  rcases List.mem_cons.mp hx with rfl | hx
  · exact h
  · exact hs x hx
theorem FitsL.one {ks : List Tok} {a : Ast} (h : Fits ks a) : FitsL ks [a] := .cons h .nil
theorem FitsL.two {ks : List Tok} {a b : Ast} (h : Fits ks a) (h' : Fits ks b) : FitsL ks [a, b] := .cons h (.one h')
theorem FitsL.three {ks : List Tok} {a b c : Ast} (h : Fits ks a) (h' : Fits ks b) (h'' : Fits ks c) : FitsL ks [a, b, c] := .cons h (.two h' h'')
theorem FitsL.append {ks : List Tok} {as bs : List Ast} (h : FitsL ks as) (h' : FitsL ks bs) : FitsL ks (as ++ bs) := by
  intro x hx
  rcases List.mem_append.mp hx with hx | hx
  · exact h x hx
  · exact h' x hx

/-- Data of a node over the tokens `ks`: no position or that of all of them. -/
structure FitsM (ks : List Tok) (d : AMeta) : Prop where
  own : ∀ t, d.source = some t → Hulls ks t
  issues : ∀ i ∈ d.issues, OnTokens ks i.src ∧ ∀ m ∈ i.more, OnTokens ks m ∧ i.src.1.le m.1 = true ∧ i.src.2.le m.2 = true

theorem FitsM.of {ks : List Tok} {s : ASrc} (h : Hulls ks s) : FitsM ks (.of s) :=
  ⟨fun t ht => by cases ht; exact h, fun i hi => by cases hi⟩

theorem FitsM.none {ks : List Tok} : FitsM ks .none := ⟨(fun t ht => by cases ht), (fun i hi => by cases hi)⟩

theorem FitsM.issue {ks : List Tok} {s x : ASrc} {tag : AIssueTag} {sev : Severity} (h : Hulls ks s) (hx : OnTokens ks x) :
    FitsM ks ⟨some s, [⟨tag, sev, x, []⟩]⟩ :=
  ⟨fun t ht => by cases ht; exact h, fun i hi => by
    cases List.mem_singleton.mp hi
    exact ⟨hx, fun m hm => by cases hm⟩⟩

theorem FitsM.on {ks : List Tok} {d : AMeta} (ho : Ordered ks) (h : FitsM ks d) : ∀ s ∈ metaPositions d, OnTokens ks s := by
  intro s hs
  unfold metaPositions at hs
  rcases List.mem_append.mp hs with hs | hs
  · exact hull_on ho (h.own s (Option.mem_toList.mp hs))
  · obtain ⟨i, hi, hs⟩ := List.mem_flatMap.mp hs
    rcases List.mem_cons.mp hs with rfl | hs
    · exact (h.issues i hi).1
    · exact ((h.issues i hi).2 s hs).1

theorem FitsM.encloses {ks : List Tok} {d : AMeta} {below : List ASrc} (ho : Ordered ks) (h : FitsM ks d) (hb : ∀ s ∈ below, OnTokens ks s) :
    Encloses d below := by
  refine ⟨fun t ht s hs => on_inside ho (h.own t ht) ?_, fun i hi m hm => ((h.issues i hi).2 m hm).2⟩
  rcases List.mem_append.mp hs with hs | hs
  · exact h.on ho s hs
  · exact hb s hs

section
variable {ks : List Tok} (ho : Ordered ks) {d : AMeta}
include ho

theorem Fits.leaf {k : TK} {t : List UInt8} (h : FitsM ks d) : Fits ks (.leaf k t d) :=
  ⟨h.encloses ho (by intro s hs; cases hs), h.on ho⟩

theorem Fits.error {k : TK} {t : List UInt8} (h : FitsM ks d) : Fits ks (.error k t d) :=
  ⟨h.encloses ho (by intro s hs; cases hs), h.on ho⟩

theorem Fits.call {h : Ast} {as : List Ast} (hh : Fits ks h) (ha : FitsL ks as) (hd : FitsM ks d) : Fits ks (.call h as d) := by
  have hb : ∀ s ∈ positions h ++ positionsL as, OnTokens ks s := fun s hs =>
    (List.mem_append.mp hs).elim (hh.2 s) (ha.on s)
  exact ⟨⟨hd.encloses ho hb, hh.1, ha.nested⟩, fun s hs => (List.mem_append.mp hs).elim (hd.on ho s) (hb s)⟩

theorem Fits.callMissing {h : Ast} {as : List Ast} (hh : Fits ks h) (ha : FitsL ks as) (hd : FitsM ks d) : Fits ks (.callMissing h as d) := by
  have hb : ∀ s ∈ positions h ++ positionsL as, OnTokens ks s := fun s hs =>
    (List.mem_append.mp hs).elim (hh.2 s) (ha.on s)
  exact ⟨⟨hd.encloses ho hb, hh.1, ha.nested⟩, fun s hs => (List.mem_append.mp hs).elim (hd.on ho s) (hb s)⟩

theorem Fits.linearBang {a b : Ast} (ha : Fits ks a) (hb : Fits ks b) (hd : FitsM ks d) : Fits ks (.linearBang a b d) := by
  have hb' : ∀ s ∈ positions a ++ positions b, OnTokens ks s := fun s hs =>
    (List.mem_append.mp hs).elim (ha.2 s) (hb.2 s)
  exact ⟨⟨hd.encloses ho hb', ha.1, hb.1⟩, fun s hs => (List.mem_append.mp hs).elim (hd.on ho s) (hb' s)⟩

theorem Fits.syntaxError {k : SyntaxErrorKind} {as : List Ast} (ha : FitsL ks as) (hd : FitsM ks d) : Fits ks (.syntaxError k as d) :=
  ⟨⟨hd.encloses ho ha.on, ha.nested⟩, fun s hs => (List.mem_append.mp hs).elim (hd.on ho s) (ha.on s)⟩
theorem Fits.abstractError {k : AbstractError} {as : List Ast} (ha : FitsL ks as) (hd : FitsM ks d) : Fits ks (.abstractError k as d) :=
  ⟨⟨hd.encloses ho ha.on, ha.nested⟩, fun s hs => (List.mem_append.mp hs).elim (hd.on ho s) (ha.on s)⟩
theorem Fits.missingCloser {k : GroupOp} {as : List Ast} (ha : FitsL ks as) (hd : FitsM ks d) : Fits ks (.missingCloser k as d) :=
  ⟨⟨hd.encloses ho ha.on, ha.nested⟩, fun s hs => (List.mem_append.mp hs).elim (hd.on ho s) (ha.on s)⟩
theorem Fits.missingOpener {k : GroupOp} {as : List Ast} (ha : FitsL ks as) (hd : FitsM ks d) : Fits ks (.missingOpener k as d) :=
  ⟨⟨hd.encloses ho ha.on, ha.nested⟩, fun s hs => (List.mem_append.mp hs).elim (hd.on ho s) (ha.on s)⟩

theorem Fits.symbol {s : Sym} (hd : FitsM ks d) : Fits ks (.symbol s d) := Fits.leaf ho hd
theorem Fits.bare {s : Sym} : Fits ks (.symbol s) := Fits.leaf ho FitsM.none
theorem Fits.nat {n : Nat} : Fits ks (.nat n) := Fits.leaf ho FitsM.none
theorem Fits.neg {n : Nat} : Fits ks (.neg n) := Fits.leaf ho FitsM.none
theorem Fits.callS {s : Sym} {as : List Ast} (ha : FitsL ks as) (hd : FitsM ks d) : Fits ks (.callS s as d) :=
  Fits.call ho (Fits.bare ho) ha hd
end

theorem Fits.inv_call {ks : List Tok} {h : Ast} {as : List Ast} {d : AMeta} (hf : Fits ks (.call h as d)) : FitsL ks as := fun a ha =>
  ⟨nestedL_iff.mp hf.1.2.2 a ha, fun s hs => hf.2 s (List.mem_append_right _ (List.mem_append_right _ (mem_positionsL.mpr ⟨a, ha, hs⟩)))⟩

theorem tok_hull {t : Tok} : Hulls [t] (t.start, t.stop) := ⟨t, t, rfl, rfl, rfl⟩

theorem ordered_one {ks : List Tok} {t : Tok} (ho : Ordered ks) (h : Of ks (.tok t)) : Ordered [t] := ho.sub h

theorem tok_fits {ks : List Tok} {t : Tok} {k : TK} {x : List UInt8} (ho : Ordered ks) (h : Of ks (.tok t)) :
    Fits ks (.leaf k x (.of (t.start, t.stop))) :=
  (Fits.leaf (ordered_one ho h) (FitsM.of tok_hull)).mono h

theorem tokenAst_fits {ks : List Tok} {t : Tok} (ho : Ordered ks) (h : Of ks (.tok t)) : Sat (Fits ks) (tokenAst t) := by
  have ho' := ordered_one ho h
  have hd : FitsM [t] (.of (t.start, t.stop)) := FitsM.of tok_hull
  refine Sat.mono (P := Fits [t]) ?_ fun a ha => ha.mono h
  unfold tokenAst
  dsimp only
  split
  · exact Sat.any fun s => Sat.ok (Fits.callS ho' (.one (Fits.neg ho')) hd)
  · exact Sat.ok (Fits.callS ho' .nil hd)
  · exact Sat.ok (Fits.callS ho' .nil hd)
  · exact Sat.ok (Fits.callS ho' .nil hd)
  · exact Sat.ok (Fits.callS ho' (.one (Fits.callS ho' .nil hd)) hd)
  · exact Sat.ok (Fits.callS ho' (.one (Fits.nat ho')) hd)
  · exact Sat.ok (Fits.callS ho' (.one (Fits.nat ho')) hd)
  · exact Sat.ok (Fits.callS ho' .nil hd)
  · exact Sat.ok (Fits.leaf ho' hd)
  · exact Sat.ok (Fits.leaf ho' hd)
  · exact Sat.ok (Fits.leaf ho' hd)
  · exact Sat.ok (Fits.leaf ho' hd)
  · refine Sat.ite (fun _ => Sat.ok (Fits.error ho' hd)) fun _ => Sat.ite (fun _ => Sat.any fun s => ?_) fun _ => Sat.ok (Fits.leaf ho' hd)
    split
    · exact Sat.ok (Fits.leaf ho' hd)
    · exact Sat.ok (Fits.leaf ho' hd)

end CodeParser.Spot
