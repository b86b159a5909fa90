import Verif.Proofs.Abstract1
/-!
What abstraction puts together from texts and positions that can be sent can be sent (helper lemmas).
-/
namespace CodeParser.Mail
open Abs Spec Cst

/-- If it does not panic, the result has the property. -/
def Ens {α : Type} (x : A α) (P : α → Prop) : Prop := ∀ a, x = .ok a → P a

theorem Ens.ok {α : Type} {a : α} {P : α → Prop} (h : P a) : Ens (.ok a) P := fun b e => by cases e; exact h

theorem Ens.fail {α : Type} {p : APanic} {P : α → Prop} : Ens (Abs.fail p : A α) P := fun b e => by cases e

theorem Ens.bind {α β : Type} {x : A α} {f : α → A β} {P : α → Prop} {Q : β → Prop} (h : Ens x P) (hf : ∀ a, P a → Ens (f a) Q) :
    Ens (x >>= f) Q := by
  cases x with
  | error e => intro b h; cases h
  | ok a => exact hf a (h a rfl)

theorem Ens.ite {α : Type} {c : Prop} [Decidable c] {x y : A α} {P : α → Prop} (h1 : Ens x P) (h2 : Ens y P) :
    Ens (if c then x else y) P := by split <;> assumption

theorem Ens.mono {α : Type} {x : A α} {P Q : α → Prop} (h : Ens x P) (hp : ∀ a, P a → Q a) : Ens x Q := fun a e => hp a (h a e)

theorem Ens.any {α : Type} {x : A α} : Ens x fun _ => True := fun _ _ => trivial

theorem ens_mapA {α β : Type} {f : α → A β} {P : β → Prop} : ∀ {as : List α}, (∀ a ∈ as, Ens (f a) P) → Ens (mapA f as) fun bs => ∀ b ∈ bs, P b
  | [], _ => .ok (by simp)
  | a :: as, h => by
    intro bs e
    unfold Abs.mapA at e
    cases h1 : f a with
    | error x => rw [h1] at e; cases e
    | ok b =>
      rw [h1] at e
      cases h2 : Abs.mapA f as with
      | error x => simp only [h2] at e; cases e
      | ok bs' =>
        simp only [h2] at e
        cases e
        intro c hc
        rcases List.mem_cons.mp hc with rfl | hc
        · exact h a (by simp) _ h1
        · exact ens_mapA (fun a ha => h a (by simp [ha])) _ h2 c hc

/-! ### Texts -/

/-- A text. -/
def Valid (t : List UInt8) : Prop := (fromUtf8 t).isSome = true

theorem valid_iff {t : List UInt8} : Valid t ↔ ∃ cs, t = encode cs := by
  constructor
  · intro h
    unfold Valid at h
    cases hf : fromUtf8 t with
    | none => rw [hf] at h; cases h
    | some cs => exact ⟨cs, fromUtf8_some hf⟩
  · rintro ⟨cs, rfl⟩
    unfold Valid
    rw [fromUtf8_encode]; rfl

theorem valid_utf8 (cs : List Char) : Valid (utf8 cs) := valid_iff.mpr ⟨cs, rfl⟩

theorem valid_append {s t : List UInt8} (hs : Valid s) (ht : Valid t) : Valid (s ++ t) := by
  obtain ⟨a, rfl⟩ := valid_iff.mp hs
  obtain ⟨b, rfl⟩ := valid_iff.mp ht
  exact valid_iff.mpr ⟨a ++ b, by simp [encode]⟩

theorem valid_minus {t : List UInt8} (h : Valid t) : Valid (45 :: t) := valid_append (s := [45]) (valid_utf8 ['-']) h

theorem valid_quoted {t : List UInt8} (h : Valid t) : Valid (34 :: (t ++ [34])) :=
  valid_append (s := [34]) (valid_utf8 ['"']) (valid_append h (valid_utf8 ['"']))

theorem ens_asStr (t : List UInt8) : Ens (asStr t) Valid := by
  unfold asStr
  split
  · next h => exact .ok h
  · exact .fail

theorem valid_text (s : Sym) : Valid s.text := by
  unfold Sym.text
  dsimp only
  split <;> exact valid_utf8 _

section
variable {L : Loc → Prop}

/-- Both ends are good. -/
def LS (L : Loc → Prop) (s : ASrc) : Prop := L s.1 ∧ L s.2

/-- The data have good positions. -/
def Tidy (L : Loc → Prop) (d : AMeta) : Prop :=
  (∀ s, d.source = some s → LS L s) ∧ ∀ i ∈ d.issues, LS L i.src ∧ ∀ s ∈ i.more, LS L s

/-- Abstract syntax with texts and good positions. -/
inductive Neat (L : Loc → Prop) : Ast → Prop
  | leaf {k t d} : Valid t → Tidy L d → Neat L (.leaf k t d)
  | error {k t d} : Valid t → Tidy L d → Neat L (.error k t d)
  | call {h as d} : Neat L h → (∀ a ∈ as, Neat L a) → Tidy L d → Neat L (.call h as d)
  | callMissing {h as d} : Neat L h → (∀ a ∈ as, Neat L a) → Tidy L d → Neat L (.callMissing h as d)
  | syntaxError {k as d} : (∀ a ∈ as, Neat L a) → Tidy L d → Neat L (.syntaxError k as d)
  | abstractError {k as d} : (∀ a ∈ as, Neat L a) → Tidy L d → Neat L (.abstractError k as d)
  | missingCloser {k as d} : (∀ a ∈ as, Neat L a) → Tidy L d → Neat L (.missingCloser k as d)
  | missingOpener {k as d} : (∀ a ∈ as, Neat L a) → Tidy L d → Neat L (.missingOpener k as d)
  | linearBang {a b d} : Neat L a → Neat L b → Tidy L d → Neat L (.linearBang a b d)

/-- A tree with texts and good positions. -/
def Okay (L : Loc → Prop) (c : Cst) : Prop := ∀ t ∈ leaves c, Valid t.text ∧ LS L (t.start, t.stop)

/-- Trees with texts and good positions. -/
def OkayL (L : Loc → Prop) (cs : List Cst) : Prop := ∀ c ∈ cs, Okay L c

theorem Okay.node {k : NodeKind} {cs : List Cst} (h : Okay L (.node k cs)) : OkayL L cs :=
  fun c hc t ht => h t (by rw [leaves]; exact mem_leavesL hc t ht)

theorem Okay.head {h : Cst} {m : Bool} {op : CallOp} {cs : List Cst} (ho : Okay L (.callAgg h m op cs)) : Okay L h :=
  fun t ht => ho t (by rw [leaves]; exact List.mem_append_left _ ht)

theorem Okay.body {h : Cst} {m : Bool} {op : CallOp} {cs : List Cst} (ho : Okay L (.callAgg h m op cs)) : OkayL L cs :=
  fun c hc t ht => ho t (by rw [leaves]; exact List.mem_append_right _ (mem_leavesL hc t ht))

theorem Okay.tok {t : Tok} (h : Okay L (.tok t)) : Valid t.text ∧ LS L (t.start, t.stop) := h t (by simp [leaves])

theorem tidy_none : Tidy L .none := ⟨fun s h => (nomatch h), fun i h => (nomatch h)⟩

theorem tidy_of {s : ASrc} (h : LS L s) : Tidy L (.of s) := ⟨fun x e => by cases e; exact h, fun i h => by cases h⟩

theorem tidy_issue {s : ASrc} {i : AIssue} (h : LS L s) (h1 : LS L i.src) (h2 : ∀ x ∈ i.more, LS L x) : Tidy L ⟨some s, [i]⟩ :=
  ⟨fun x e => by cases e; exact h, fun j hj => by rcases List.mem_singleton.mp hj with rfl; exact ⟨h1, h2⟩⟩

theorem neat_symbol (s : Sym) {d : AMeta} (h : Tidy L d) : Neat L (.symbol s d) := .leaf (valid_text s) h

theorem neat_callS (s : Sym) {as : List Ast} {d : AMeta} (h : ∀ a ∈ as, Neat L a) (hd : Tidy L d) : Neat L (.callS s as d) :=
  .call (neat_symbol s tidy_none) h hd

theorem neat_nat (n : Nat) {d : AMeta} (h : Tidy L d) : Neat L (.nat n d) := .leaf (valid_utf8 _) h

theorem neat_neg (n : Nat) : Neat L (.neg n) := by
  refine .leaf ?_ tidy_none
  split
  · exact valid_utf8 _
  · exact valid_minus (valid_utf8 _)

theorem all0 {P : Ast → Prop} : ∀ a ∈ ([] : List Ast), P a := fun _ h => by cases h
theorem all1 {P : Ast → Prop} {x : Ast} (h : P x) : ∀ a ∈ [x], P a := fun a ha => by rw [List.mem_singleton.mp ha]; exact h
theorem allc {P : Ast → Prop} {x : Ast} {xs : List Ast} (h : P x) (hs : ∀ a ∈ xs, P a) : ∀ a ∈ x :: xs, P a := fun a ha => by
  rcases List.mem_cons.mp ha with rfl | ha
  · exact h
  · exact hs a ha
theorem all2 {P : Ast → Prop} {x y : Ast} (h : P x) (h2 : P y) : ∀ a ∈ [x, y], P a := allc h (all1 h2)
theorem all3 {P : Ast → Prop} {x y z : Ast} (h : P x) (h2 : P y) (h3 : P z) : ∀ a ∈ [x, y, z], P a := allc h (all2 h2 h3)

/-! ### Sources -/

theorem ens_between {a b : ASrc} (ha : LS L a) (hb : LS L b) : Ens (Abs.between a b) (LS L) := by
  unfold Abs.between
  exact .ite (.ok ⟨ha.1, hb.2⟩) .fail

mutual
theorem ens_getSource : ∀ {c : Cst}, Okay L c → Ens (getSource c) (LS L)
  | .tok t, h => .ok h.tok.2
  | .node _ cs, h => by
    unfold Abs.getSource
    exact (ens_first h.node).bind fun a ha => (ens_last h.node).bind fun b hb => ens_between ha hb
  | .call h _ _ cs, ho => by
    unfold Abs.getSource
    have h1 : OkayL L h := fun c hc t ht => ho t (by rw [leaves]; exact List.mem_append_left _ (mem_leavesL hc t ht))
    have h2 : OkayL L cs := fun c hc t ht => ho t (by rw [leaves]; exact List.mem_append_right _ (mem_leavesL hc t ht))
    exact (ens_first h1).bind fun s hs => (ens_first h2).bind fun a ha => (ens_last h2).bind fun b hb =>
      (ens_between ha hb).bind fun t ht => ens_between hs ht
  | .callAgg h _ _ cs, ho => by
    unfold Abs.getSource
    exact (ens_getSource ho.head).bind fun s hs => (ens_first ho.body).bind fun a ha => (ens_last ho.body).bind fun b hb =>
      (ens_between ha hb).bind fun t ht => ens_between hs ht
  | .box _ _, _ => by unfold Abs.getSource; exact .fail
  | .code _, _ => by unfold Abs.getSource; exact .fail
theorem ens_first : ∀ {cs : List Cst}, OkayL L cs → Ens (Abs.firstSource cs) (LS L)
  | [], _ => by unfold Abs.firstSource; exact .fail
  | c :: _, h => by unfold Abs.firstSource; exact ens_getSource (h c (by simp))
theorem ens_last : ∀ {cs : List Cst}, OkayL L cs → Ens (Abs.lastSource cs) (LS L)
  | [], _ => by unfold Abs.lastSource; exact .fail
  | [c], h => by unfold Abs.lastSource; exact ens_getSource (h c (by simp))
  | _ :: c :: cs, h => by unfold Abs.lastSource; exact ens_last fun d hd => h d (by simp [List.mem_cons.mp hd])
end

theorem ens_seq {cs : List Cst} (h : OkayL L cs) : Ens (Abs.seqSource cs) (LS L) := by
  unfold Abs.seqSource
  exact (ens_first h).bind fun a ha => (ens_last h).bind fun b hb => ens_between ha hb

/-! ### Children -/

theorem ens_expect2 {cs : List Cst} (h : OkayL L cs) : Ens (expect2 cs) fun p => Okay L p.1 ∧ Okay L p.2 := by
  unfold expect2
  split
  · exact .ok ⟨h _ (by simp), h _ (by simp)⟩
  · exact .fail

theorem ens_expect3 {cs : List Cst} (h : OkayL L cs) : Ens (expect3 cs) fun p => Okay L p.1 ∧ Okay L p.2.1 ∧ Okay L p.2.2 := by
  unfold expect3
  split
  · exact .ok ⟨h _ (by simp), h _ (by simp), h _ (by simp)⟩
  · exact .fail

theorem ens_expect5 {cs : List Cst} (h : OkayL L cs) :
    Ens (expect5 cs) fun p => Okay L p.1 ∧ Okay L p.2.1 ∧ Okay L p.2.2.1 ∧ Okay L p.2.2.2.1 ∧ Okay L p.2.2.2.2 := by
  unfold expect5
  split
  · exact .ok ⟨h _ (by simp), h _ (by simp), h _ (by simp), h _ (by simp), h _ (by simp)⟩
  · exact .fail

theorem okay_evens : ∀ {cs : List Cst}, OkayL L cs → OkayL L (evens cs)
  | [], h => h
  | [_], h => h
  | c :: d :: cs, h => by
    intro x hx
    simp only [evens, List.mem_cons] at hx
    rcases hx with rfl | hx
    · exact h _ (by simp)
    · exact okay_evens (cs := cs) (fun y hy => h y (by simp [hy])) x hx

theorem okay_dropLast {cs : List Cst} (h : OkayL L cs) : OkayL L cs.dropLast := fun c hc => h c (List.dropLast_subset _ hc)

theorem ens_dropEnds {cs : List Cst} (h : OkayL L cs) : Ens (dropEnds cs) (OkayL L) := by
  unfold dropEnds
  split
  · exact .ok (okay_dropLast fun c hc => h c (List.mem_cons_of_mem _ hc))
  · exact .fail

theorem ens_pairs : ∀ {cs : List Cst}, OkayL L cs → Ens (Abs.pairs cs) fun ps => ∀ p ∈ ps, Okay L p.1 ∧ Okay L p.2
  | [], _ => by unfold Abs.pairs; exact .ok (by simp)
  | [_], _ => by unfold Abs.pairs; exact .fail
  | a :: b :: cs, h => by
    unfold Abs.pairs
    refine (ens_pairs (cs := cs) fun c hc => h c (by simp [hc])).bind fun ps hp => .ok fun p hp' => ?_
    rcases List.mem_cons.mp hp' with rfl | hp'
    · exact ⟨h _ (by simp), h _ (by simp)⟩
    · exact hp p hp'

/-! ### Negation and products -/

/-- The same for negated trees. -/
def OkayN (L : Loc → Prop) : Negated → Prop
  | .times cs => OkayL L cs
  | .integer t | .real t => Valid t
  | .zero => True

/-- The same for operands. -/
def OkayO (L : Loc → Prop) : AOperand → Prop
  | .cst c => Okay L c
  | .recip c d => Okay L c ∧ LS L d
  | .negOne => True
  | .neg g d => OkayN L g ∧ LS L d

/-- The same for what has to be abstracted. -/
def OkayR (L : Loc → Prop) : Req → Prop
  | .cst c => Okay L c
  | .neg g d => OkayN L g ∧ LS L d

theorem okayL_one {c : Cst} (h : Okay L c) : OkayL L [c] := fun d hd => by rw [List.mem_singleton.mp hd]; exact h

theorem ens_negate : ∀ {c : Cst}, Okay L c → Ens (negate c) (OkayN L)
  | .tok t, h => by
    unfold negate
    refine .ite (Ens.bind (ens_asStr _) fun s _ => .ok ?_) (.ite (.ok h.tok.1) (.ok (okayL_one h)))
    split
    · trivial
    · exact h.tok.1
  | .node k [o, c, e], h => by
    have ih := ens_negate (h.node c (by simp))
    have h1 : Ens (.ok (.times [.node k [o, c, e]]) : A Negated) (OkayN L) := .ok (okayL_one h)
    unfold negate
    refine .ite (Ens.any.bind fun _ _ => .ite ih (Ens.any.bind fun _ _ => .ite ih h1)) (.ite (Ens.any.bind fun _ _ => .ite ih h1) (.ite (.ok h.node) h1))
  | .node k [], h => by
    have h1 : Ens (.ok (.times [.node k []]) : A Negated) (OkayN L) := .ok (okayL_one h)
    unfold negate
    exact .ite .fail (.ite .fail (.ite (.ok h.node) h1))
  | .node k [a], h => by
    have h1 : Ens (.ok (.times [.node k [a]]) : A Negated) (OkayN L) := .ok (okayL_one h)
    unfold negate
    exact .ite .fail (.ite .fail (.ite (.ok h.node) h1))
  | .node k [o, c], h => by
    have ih := ens_negate (h.node c (by simp))
    have h1 : Ens (.ok (.times [.node k [o, c]]) : A Negated) (OkayN L) := .ok (okayL_one h)
    unfold negate
    refine .ite (Ens.any.bind fun _ _ => .ite ih .fail) (.ite (Ens.any.bind fun _ _ => .ite ih h1) (.ite (.ok h.node) h1))
  | .node k (o :: c :: e :: f :: cs), h => by
    have ih := ens_negate (h.node c (by simp))
    have h1 : Ens (.ok (.times [.node k (o :: c :: e :: f :: cs)]) : A Negated) (OkayN L) := .ok (okayL_one h)
    unfold negate
    refine .ite (Ens.any.bind fun _ _ => .ite ih .fail) (.ite (Ens.any.bind fun _ _ => .ite ih h1) (.ite (.ok h.node) h1))
  | .call .., h => .ok (okayL_one h)
  | .callAgg .., h => .ok (okayL_one h)
  | .box .., h => .ok (okayL_one h)
  | .code _, h => .ok (okayL_one h)

/-- All operands are okay. -/
def OkayOs (L : Loc → Prop) (os : List AOperand) : Prop := ∀ o ∈ os, OkayO L o

theorem okayOs_one {o : AOperand} (h : OkayO L o) : OkayOs L [o] := fun d hd => by rw [List.mem_singleton.mp hd]; exact h

theorem okayOs_append {os ps : List AOperand} (h : OkayOs L os) (h' : OkayOs L ps) : OkayOs L (os ++ ps) := fun o ho => by
  rcases List.mem_append.mp ho with ho | ho
  · exact h o ho
  · exact h' o ho

mutual
theorem ens_flat (q : Bool) {d : ASrc} (hd : LS L d) : ∀ {c : Cst}, Okay L c → Ens (flat q d c) (OkayOs L)
  | .node k cs, h => by
    unfold flat
    exact .ite (ens_flatMinus q hd h h.node) (.ite (ens_flatEvens q hd h.node) (.ite (ens_flatDivide q hd h h.node) (.ok (okayOs_one h))))
  | .tok _, h => by unfold flat; exact .ok (okayOs_one h)
  | .call .., h => by unfold flat; exact .ok (okayOs_one h)
  | .callAgg .., h => by unfold flat; exact .ok (okayOs_one h)
  | .box .., h => by unfold flat; exact .ok (okayOs_one h)
  | .code _, h => by unfold flat; exact .ok (okayOs_one h)
theorem ens_flatEvens (q : Bool) {d : ASrc} (hd : LS L d) : ∀ {cs : List Cst}, OkayL L cs → Ens (flatEvens q d cs) (OkayOs L)
  | [], _ => by unfold flatEvens; exact .ok fun _ h => by cases h
  | [c], h => by unfold flatEvens; exact ens_flat q hd (h c (by simp))
  | c :: _ :: cs, h => by
    unfold flatEvens
    exact (ens_flat q hd (h c (by simp))).bind fun a ha => (ens_flatEvens q hd (cs := cs) fun x hx => h x (by simp [hx])).bind fun b hb =>
      .ok (okayOs_append ha hb)
theorem ens_flatMinus (q : Bool) {d : ASrc} (hd : LS L d) {n : Cst} (hn : Okay L n) : ∀ {cs : List Cst}, OkayL L cs →
    Ens (flatMinus q d n cs) (OkayOs L)
  | [], _ => by unfold flatMinus; exact .fail
  | [_], _ => by unfold flatMinus; exact .fail
  | [_, c], h => by
    unfold flatMinus
    refine Ens.any.bind fun _ _ => .ite ((ens_negate (h c (by simp))).bind fun g hg => .ok (okayOs_one ⟨hg, hd⟩))
      (.ite ((ens_flat q hd (h c (by simp))).bind fun a ha => .ok (okayOs_append (os := [.negOne]) (okayOs_one trivial) ha)) (.ok (okayOs_one hn)))
  | _ :: _ :: _ :: _, _ => by unfold flatMinus; exact .fail
theorem ens_flatDivide (q : Bool) {d : ASrc} (hd : LS L d) {n : Cst} (hn : Okay L n) : ∀ {cs : List Cst}, OkayL L cs →
    Ens (flatDivide q d n cs) (OkayOs L)
  | [], _ => by unfold flatDivide; exact .ite .fail (.ok (okayOs_one hn))
  | [_], _ => by unfold flatDivide; exact .ite .fail (.ok (okayOs_one hn))
  | [_, _], _ => by unfold flatDivide; exact .ite .fail (.ok (okayOs_one hn))
  | [l, _, r], h => by
    unfold flatDivide
    exact .ite ((ens_flat q hd (h l (by simp))).bind fun a ha => .ok (okayOs_append ha (okayOs_one ⟨h r (by simp), hd⟩))) (.ok (okayOs_one hn))
  | _ :: _ :: _ :: _ :: _, _ => by unfold flatDivide; exact .ite .fail (.ok (okayOs_one hn))
end

theorem ens_flatL (q : Bool) {d : ASrc} (hd : LS L d) : ∀ {cs : List Cst}, OkayL L cs → Ens (flatL q d cs) (OkayOs L)
  | [], _ => by unfold flatL; exact .ok fun _ h => by cases h
  | c :: cs, h => by
    unfold flatL
    exact (ens_flat q hd (h c (by simp))).bind fun a ha => (ens_flatL q hd (cs := cs) fun x hx => h x (by simp [hx])).bind fun b hb =>
      .ok (okayOs_append ha hb)

theorem ens_flattenPlus : ∀ {c : Cst}, Okay L c → Ens (flattenPlus c) (Okay L)
  | .node k [o, c], h => by unfold flattenPlus; exact .ite (ens_flattenPlus (h.node c (by simp))) (.ok h)
  | .node k [], h => by unfold flattenPlus; exact .ite .fail (.ok h)
  | .node k [_], h => by unfold flattenPlus; exact .ite .fail (.ok h)
  | .node k (_ :: _ :: _ :: _), h => by unfold flattenPlus; exact .ite .fail (.ok h)
  | .tok _, h => by unfold flattenPlus; exact .ok h
  | .call .., h => by unfold flattenPlus; exact .ok h
  | .callAgg .., h => by unfold flattenPlus; exact .ok h
  | .box .., h => by unfold flattenPlus; exact .ok h
  | .code _, h => by unfold flattenPlus; exact .ok h

theorem ens_derivativeBody : ∀ {c : Cst}, Okay L c → Ens (derivativeBody c) fun p => Okay L p.2
  | .node k [r, o], h => by
    unfold derivativeBody
    exact .ite ((ens_derivativeBody (h.node r (by simp))).bind fun p hp => .ok hp) (.ok h)
  | .node k [], h => by unfold derivativeBody; exact .ite .fail (.ok h)
  | .node k [_], h => by unfold derivativeBody; exact .ite .fail (.ok h)
  | .node k (_ :: _ :: _ :: _), h => by unfold derivativeBody; exact .ite .fail (.ok h)
  | .tok _, h => by unfold derivativeBody; exact .ok h
  | .call .., h => by unfold derivativeBody; exact .ok h
  | .callAgg .., h => by unfold derivativeBody; exact .ok h
  | .box .., h => by unfold derivativeBody; exact .ok h
  | .code _, h => by unfold derivativeBody; exact .ok h

theorem ens_binaryAt (env : AEnv) (name : List UInt8) {c : Cst} (h : Okay L c) : Ens (binaryAt env name c) (Okay L) := by
  unfold binaryAt
  refine .ite (.ok h) ?_
  split
  · refine .ite ((ens_expect3 h.node).bind fun p hp => ?_) (.ok h)
    obtain ⟨l, m, r⟩ := p
    dsimp only
    split
    · exact .ite ((ens_asStr _).bind fun s _ => .ite (.ite (.ok hp.2.2) .fail) (.ok h)) (.ok h)
    · exact .ok h
  · exact .ok h

/-! ### Texts of tokens -/

theorem ens_tokenAst {t : Tok} (ht : Valid t.text) (hs : LS L (t.start, t.stop)) : Ens (tokenAst t) (Neat L) := by
  have hd : Tidy L (.of (t.start, t.stop)) := tidy_of hs
  unfold tokenAst
  dsimp only
  split
  · exact (ens_asStr _).bind fun s _ => .ok (neat_callS _ (all1 (neat_neg _)) hd)
  · exact .ok (neat_callS _ all0 hd)
  · exact .ok (neat_callS _ all0 hd)
  · exact .ok (neat_callS _ all0 hd)
  · exact .ok (neat_callS _ (all1 (neat_callS _ all0 hd)) hd)
  · exact .ok (neat_callS _ (all1 (neat_nat _ tidy_none)) hd)
  · exact .ok (neat_callS _ (all1 (neat_nat _ tidy_none)) hd)
  · exact .ok (neat_callS _ all0 hd)
  · exact .ok (neat_nat _ hd)
  · exact .ok (neat_symbol _ hd)
  · exact .ok (neat_symbol _ hd)
  · exact .ok (neat_symbol _ hd)
  · refine .ite (.ok (.error ht hd)) (.ite ((ens_asStr _).bind fun s _ => ?_) (.ok (.leaf ht hd)))
    split
    · exact .ok (neat_symbol _ hd)
    · exact .ok (.leaf ht hd)

variable {env : AEnv} (hdebug : ∀ t, Valid t → Valid (env.debug t))

include hdebug in
theorem valid_escapeSymbol {s : List UInt8} (h : Valid s) : Valid (escapeSymbol env s) := by
  unfold escapeSymbol
  split
  · exact h
  · split
    · exact valid_quoted h
    · exact hdebug s h

include hdebug in
theorem valid_escapeFile {s : List UInt8} (h : Valid s) : Valid (escapeFile env s) := by
  unfold escapeFile
  split
  · exact h
  · exact hdebug s h

theorem ens_issueAt (i : Option (AIssueTag × Severity)) {cs : List Cst} {d : ASrc} (hc : OkayL L cs) (hd : LS L d) :
    Ens (issueAt i cs d) (Tidy L) := by
  unfold issueAt
  split
  · exact .ok (tidy_of hd)
  · exact (ens_first hc).bind fun a ha => (ens_last hc).bind fun b hb => .ok (tidy_issue hd ha fun x hx => by
      rw [List.mem_singleton.mp hx]; exact hb)

theorem neat_select {a : Ast} (h : Neat L a) : ∀ b ∈ selectChildren a, Neat L b := by
  unfold selectChildren
  split
  · next hd as d =>
    split
    · split
      · cases h with
        | call _ h2 _ => exact h2
      · exact all1 h
    · exact all1 h
  · exact all1 h

variable {rec : Req → A Ast} (hr : ∀ r, OkayR L r → Ens (rec r) (Neat L))
include hr

theorem ens_rec {c : Cst} (h : Okay L c) : Ens (rec (.cst c)) (Neat L) := hr (.cst c) h

theorem ens_recs {cs : List Cst} (h : OkayL L cs) : Ens (mapA (recC rec) cs) fun as => ∀ a ∈ as, Neat L a :=
  ens_mapA fun c hc => ens_rec hr (h c hc)

theorem ens_recip {c : Cst} {d : ASrc} (h : Okay L c) (hd : LS L d) : Ens (recipAst rec c d) (Neat L) := by
  unfold recipAst
  exact (ens_rec hr h).bind fun a ha => .ok (neat_callS _ (all2 ha (neat_neg _)) (tidy_of hd))

theorem ens_operand {f : Cst → A Cst} (hf : ∀ c, Okay L c → Ens (f c) (Okay L)) {o : AOperand} (h : OkayO L o) :
    Ens (operandAst rec f o) (Neat L) := by
  cases o with
  | cst c => exact (hf c h).bind fun c hc => ens_rec hr hc
  | recip c d => exact ens_recip hr h.1 h.2
  | negOne => exact .ok (neat_neg _)
  | neg g d => exact hr (.neg g d) h

theorem ens_times {cs : List Cst} {d : ASrc} (h : OkayL L cs) (hd : LS L d) : Ens (timesAst env rec cs d) (Neat L) := by
  unfold timesAst
  exact (ens_flatL _ hd h).bind fun os ho => (ens_mapA fun o hm => ens_operand hr (fun c hc => ens_binaryAt _ _ hc) (ho o hm)).bind
    fun as ha => .ok (neat_callS _ ha (tidy_of hd))

theorem ens_divide {l r : Cst} {d : ASrc} (hl : Okay L l) (h : Okay L r) (hd : LS L d) : Ens (divideAst env rec l r d) (Neat L) := by
  unfold divideAst
  refine (ens_flat _ hd hl).bind fun os ho => (ens_mapA fun o hm => ens_operand hr (fun c hc => .ok hc) (ho o hm)).bind
    fun as ha => (ens_recip hr h hd).bind fun a h => .ok (neat_callS _ (fun b hb => ?_) (tidy_of hd))
  rcases List.mem_append.mp hb with hb | hb
  · exact ha b hb
  · exact all1 h b hb

theorem ens_negated {g : Negated} {d : ASrc} (h : OkayN L g) (hd : LS L d) : Ens (negatedAst env rec g d) (Neat L) := by
  unfold negatedAst
  split
  · exact .ok (.leaf (valid_utf8 ['0']) (tidy_of hd))
  · exact (ens_asStr _).bind fun s hs => .ok (.leaf (valid_minus hs) (tidy_of hd))
  · exact (ens_asStr _).bind fun s hs => .ok (.leaf (valid_minus hs) (tidy_of hd))
  · refine (ens_times hr (okay_evens h) hd).bind fun a ha => ?_
    split
    · cases ha with
      | call h1 h2 h3 => exact .ok (.call h1 (allc (neat_neg _) h2) h3)
    · exact .fail

omit hr in
theorem ens_plusPair {p : Cst × Cst} (h : Okay L p.1 ∧ Okay L p.2) : Ens (plusPair p) (OkayO L) := by
  unfold plusPair
  split
  · refine .ite (.ok h.2) (.ite ((ens_getSource h.2).bind fun s hs => (ens_between h.1.tok.2 hs).bind fun d hd =>
      (ens_negate h.2).bind fun g hg => .ok ⟨hg, hd⟩) .fail)
  · exact .fail

theorem ens_plus {cs : List Cst} {d : ASrc} (h : OkayL L cs) (hd : LS L d) : Ens (plusAst env rec cs d) (Neat L) := by
  unfold plusAst
  split
  · exact .fail
  · next c cs =>
    have hf : ∀ o, OkayO L o → Ens (operandAst rec (fun c => do
        let c ← binaryAt env Sym.System_Plus.short c
        flattenPlus c) o) (Neat L) := fun o ho =>
      ens_operand hr (fun c hc => (ens_binaryAt _ _ hc).bind fun c hc => ens_flattenPlus hc) ho
    refine (ens_pairs (cs := cs) fun x hx => h x (by simp [hx])).bind fun ps hp => ?_
    refine (hf (.cst c) (h c (by simp))).bind fun a ha => ?_
    refine (ens_mapA (P := Neat L) fun p hm => (ens_plusPair (hp p hm)).bind fun o ho => hf o ho).bind fun as has => ?_
    exact .ok (neat_callS _ (allc ha has) (tidy_of hd))

theorem ens_quirk (name : List UInt8) {c : Cst} (h : Okay L c) : Ens (quirkAst env rec name c) (Neat L) := by
  unfold quirkAst
  exact (ens_binaryAt _ _ h).bind fun c hc => ens_rec hr hc

include hdebug in
theorem ens_message {cs : List Cst} {d : ASrc} (h : OkayL L cs) (hd : LS L d) : Ens (messageAst env rec cs d) (Neat L) := by
  unfold messageAst
  split
  · exact .fail
  · next l rest =>
    refine (ens_rec hr (h l (by simp))).bind fun a ha => (ens_mapA (P := Neat L) fun c hc => ?_).bind fun as has =>
      .ok (neat_callS _ (allc ha has) ?_)
    · have hc' := h c (by simp [hc])
      split
      · exact .ite ((ens_asStr _).bind fun s hs => .ok (.leaf (valid_escapeSymbol hdebug hs) (tidy_of hc'.tok.2))) (ens_rec hr hc')
      · exact ens_rec hr hc'
    · refine ⟨fun s e => by cases e; exact hd, fun i hi => ?_⟩
      dsimp only at hi
      split at hi
      · rw [List.mem_singleton.mp hi]
        exact ⟨hd, fun x hx => by cases hx⟩
      · cases hi

omit hr in
theorem neat_simplify {f : Ast} {rest : List (Sym × Ast)} (af : Option Bool) {d : ASrc} (h : Neat L f) (hs : ∀ x ∈ rest, Neat L x.2)
    (hd : LS L d) : Neat L (simplify f rest af d) := by
  have h1 : ∀ a ∈ f :: rest.map (·.2), Neat L a := allc h fun a ha => by
    obtain ⟨x, hx, rfl⟩ := List.mem_map.mp ha
    exact hs x hx
  have h2 : ∀ a ∈ f :: rest.flatMap fun r => [.symbol r.1, r.2], Neat L a := allc h fun a ha => by
    obtain ⟨x, hx, ha⟩ := List.mem_flatMap.mp ha
    exact all2 (neat_symbol _ tidy_none) (hs x hx) a ha
  unfold simplify
  dsimp only
  split
  · exact neat_callS _ h1 (tidy_of hd)
  · exact neat_callS _ (all1 (neat_callS _ h1 tidy_none)) (tidy_of hd)
  · split
    · exact neat_callS _ h2 (tidy_of hd)
    · exact neat_callS _ h2 (tidy_of hd)

theorem ens_loop {d : ASrc} (hd : LS L d) : ∀ (ps : List (Tok × Cst)) (f : Ast) (rest : List (Sym × Ast)) (af : Option Bool),
    (∀ p ∈ ps, Okay L p.2) → Neat L f → (∀ x ∈ rest, Neat L x.2) → Ens (inequalityLoop rec d ps f rest af) (Neat L)
  | [], f, rest, af, _, h, hs => by unfold inequalityLoop; exact .ok (neat_simplify af h hs hd)
  | (o, c) :: ps, f, rest, af, hp, h, hs => by
    have hp' : ∀ p ∈ ps, Okay L p.2 := fun p hm => hp p (by simp [hm])
    unfold inequalityLoop
    split
    · exact .fail
    · next s _ =>
      refine (ens_rec hr (hp (o, c) (by simp))).bind fun a ha => ?_
      have hs' : ∀ x ∈ rest ++ [(s, a)], Neat L x.2 := fun x hx => by
        rcases List.mem_append.mp hx with hx | hx
        · exact hs x hx
        · rw [List.mem_singleton.mp hx]; exact ha
      split
      · exact .fail
      · exact ens_loop hd ps _ _ _ hp' h hs'
      · exact .ite (ens_loop hd ps _ _ _ hp' (neat_simplify af h hs hd) fun x hx => by rw [List.mem_singleton.mp hx]; exact ha)
          (ens_loop hd ps _ _ _ hp' h hs')

theorem ens_inequality {cs : List Cst} {d : ASrc} (h : OkayL L cs) (hd : LS L d) : Ens (inequalityAst rec cs d) (Neat L) := by
  unfold inequalityAst
  split
  · exact .fail
  · next c cs =>
    refine (ens_rec hr (h c (by simp))).bind fun a ha => (ens_pairs (cs := cs) fun x hx => h x (by simp [hx])).bind fun ps hp =>
      (ens_mapA (P := fun p : Tok × Cst => Okay L p.2) fun p hm => ?_).bind fun qs hq => ens_loop hr hd qs a [] none hq ha fun x hx => by cases hx
    unfold withTok
    split
    · exact .ok (hp p hm).2
    · exact .fail

theorem ens_tildeRest {d : AMeta} (hd : Tidy L d) : ∀ (a : Ast) (cs : List Cst), Neat L a → OkayL L cs → Ens (Abs.tildeRest rec d a cs) (Neat L)
  | _, [], _, _ => by unfold Abs.tildeRest; exact .fail
  | a, [m], ha, h => by
    unfold Abs.tildeRest
    exact (ens_rec hr (h m (by simp))).bind fun x hx => .ok (.abstractError (all2 ha hx) hd)
  | a, [m, r], ha, h => by
    unfold Abs.tildeRest
    exact (ens_rec hr (h m (by simp))).bind fun x hx => (ens_rec hr (h r (by simp))).bind fun y hy => .ok (.call hx (all2 ha hy) hd)
  | a, m :: r :: s :: rest, ha, h => by
    unfold Abs.tildeRest
    exact (ens_rec hr (h m (by simp))).bind fun x hx => (ens_rec hr (h r (by simp))).bind fun y hy =>
      ens_tildeRest hd _ (s :: rest) (.call hx (all2 ha hy) tidy_none) fun c hc => h c (by simp [List.mem_cons.mp hc])

theorem ens_tilde {d : AMeta} (hd : Tidy L d) {cs : List Cst} (h : OkayL L cs) : Ens (tildeAst rec d cs) (Neat L) := by
  unfold tildeAst
  split
  · exact (ens_rec hr (h _ (by simp))).bind fun x hx => (ens_rec hr (h _ (by simp))).bind fun y hy => .ok (.abstractError (all2 hx hy) hd)
  · exact (ens_rec hr (h _ (by simp))).bind fun x hx => ens_tildeRest hr hd x _ hx fun c hc => h c (by simp [hc])
  · exact (ens_rec hr (h _ (by simp))).bind fun x hx => (ens_tildeRest hr tidy_none x _ hx fun c hc => h c (by
      simp only [List.mem_cons, List.not_mem_nil, or_false] at hc ⊢; rcases hc with rfl | rfl <;> simp)).bind fun y hy =>
      ens_tildeRest hr hd y _ hy fun c hc => h c (by simp [hc])
  · exact .fail

theorem ens_groupArgs {cs : List Cst} (h : OkayL L cs) : Ens (groupArgs rec cs) fun as => ∀ a ∈ as, Neat L a := by
  unfold groupArgs
  refine (ens_recs hr h).bind fun as ha => .ok fun a hm => ?_
  obtain ⟨b, hb, hm⟩ := List.mem_flatMap.mp hm
  exact neat_select (ha b hb) a hm

theorem ens_group {cs : List Cst} (h : OkayL L cs) : Ens (groupAst rec cs) fun p => LS L p.1 ∧ ∀ a ∈ p.2, Neat L a := by
  unfold groupAst
  exact (ens_seq h).bind fun d hd => (ens_dropEnds h).bind fun cs hc => (ens_groupArgs hr hc).bind fun as ha => .ok ⟨hd, ha⟩

theorem ens_missing {cs : List Cst} (h : OkayL L cs) : Ens (missingAst rec cs) fun p => LS L p.1 ∧ ∀ a ∈ p.2, Neat L a := by
  unfold missingAst
  refine (ens_seq h).bind fun d hd => ?_
  split
  · exact .fail
  · exact (ens_groupArgs hr fun c hc => h c (by simp [hc])).bind fun as ha => .ok ⟨hd, ha⟩

theorem ens_naked (err : AbstractError) {cs : List Cst} {d : ASrc} (h : OkayL L cs) (hd : LS L d) : Ens (nakedAst rec err cs d) (Neat L) := by
  unfold nakedAst
  split
  · next x c y =>
    have hc := h c (by simp)
    split
    · exact (ens_recs hr (okay_evens hc.node)).bind fun as ha => .ok (.abstractError ha (tidy_of hd))
    · exact (ens_rec hr hc).bind fun a ha => .ok (.abstractError (all1 ha) (tidy_of hd))
  · exact .ok (.abstractError all0 (tidy_of hd))
  · exact .fail

theorem ens_paren {cs : List Cst} {d : ASrc} (h : OkayL L cs) (hd : LS L d) : Ens (parenAst rec cs d) (Neat L) := by
  unfold parenAst
  split
  · next x c y =>
    have hc := h c (by simp)
    split
    · exact (ens_recs hr (okay_evens hc.node)).bind fun as ha => .ok (.abstractError ha (tidy_of hd))
    · exact ens_rec hr hc
  · exact (ens_dropEnds h).bind fun cs hc => (ens_recs hr hc).bind fun as ha => .ok (.abstractError ha (tidy_of hd))

include hdebug in
theorem ens_compound (op : CompoundOp) {cs : List Cst} {d : ASrc} (h : OkayL L cs) (hd : LS L d) :
    Ens (compoundAst env rec op cs d) (Neat L) := by
  have hd' := tidy_of hd
  unfold compoundAst
  split <;> refine (ens_expect2 h).bind fun p hp => ?_
  all_goals obtain ⟨c, x⟩ := p
  all_goals dsimp only at hp ⊢
  · exact (ens_rec hr hp.2).bind fun a ha => .ok (neat_callS _ (all1 ha) hd')
  · exact (ens_rec hr hp.2).bind fun a ha => .ok (neat_callS _ (all1 ha) hd')
  · exact (ens_rec hr hp.2).bind fun a ha => .ok (neat_callS _ (all1 ha) hd')
  · exact (ens_rec hr hp.1).bind fun a ha => (ens_rec hr hp.2).bind fun b hb => .ok (neat_callS _ (all2 ha hb) hd')
  · exact (ens_rec hr hp.1).bind fun a ha => (ens_rec hr hp.2).bind fun b hb => .ok (neat_callS _ (all2 ha hb) hd')
  · exact (ens_rec hr hp.1).bind fun a ha => (ens_rec hr hp.2).bind fun b hb => .ok (neat_callS _ (all2 ha hb) hd')
  · split
    · exact .ite ((ens_rec hr hp.1).bind fun a ha => .ok (neat_callS _ (all1 (neat_callS _ (all2 ha (neat_callS _ all0 (tidy_of hp.2.tok.2))) hd')) hd')) .fail
    · exact .fail
  · split
    · refine .ite ((ens_tokenAst hp.2.tok.1 hp.2.tok.2).bind fun a ha => .ok (neat_callS _ (all1 ha) hd')) (.ite ?_ .fail)
      exact (ens_asStr _).bind fun s hs => .ok (neat_callS _ (all1 (.leaf (valid_escapeSymbol hdebug hs) (tidy_of hp.2.tok.2))) hd')
    · exact .fail
  · exact .ite ((ens_rec hr hp.2).bind fun a ha => .ok (neat_callS _ (all1 ha) hd')) .fail
  · exact .ite ((ens_rec hr hp.2).bind fun a ha => .ok (neat_callS _ (all1 ha) hd')) .fail

omit hr in
include hdebug in
theorem ens_file {c : Cst} (h : Okay L c) : Ens (fileAst env c) (Neat L) := by
  unfold fileAst
  split
  · exact .ite ((ens_asStr _).bind fun s hs => .ok (.leaf (valid_escapeFile hdebug hs) (tidy_of h.tok.2))) .fail
  · exact .fail

include hdebug in
theorem ens_prefix (op : PrefixOp) {cs : List Cst} {d : ASrc} (h : OkayL L cs) (hd : LS L d) :
    Ens (prefixAst env rec op cs d) (Neat L) := by
  have hd' := tidy_of hd
  unfold prefixAst
  split
  · exact (ens_expect2 h).bind fun p hp => (ens_negate hp.2).bind fun g hg => hr (.neg g d) ⟨hg, hd⟩
  · exact (ens_expect2 h).bind fun p hp => (ens_flattenPlus hp.2).bind fun c hc => (ens_rec hr hc).bind fun a ha =>
      .ok (neat_callS _ (all1 ha) hd')
  · exact (ens_expect2 h).bind fun p hp => (ens_getSource hp.1).bind fun s hs => (ens_rec hr hp.2).bind fun a ha =>
      .ok (neat_callS _ (all1 (neat_callS _ (all1 ha) tidy_none)) (tidy_issue hd hs fun x hx => by cases hx))
  · split
    · refine .ite ((ens_rec hr (h _ (by simp))).bind fun a ha => (ens_rec hr (h _ (by simp))).bind fun b hb => .ok (.linearBang ha hb hd'))
        ((ens_rec hr (h _ (by simp))).bind fun a ha => .ok (.abstractError (all1 ha) hd'))
    · exact .fail
  · exact (ens_expect2 h).bind fun p hp => (ens_file hdebug hp.2).bind fun a ha => .ok (neat_callS _ (all1 ha) hd')
  · exact (ens_expect2 h).bind fun p hp => (ens_rec hr hp.2).bind fun a ha => .ok (neat_callS _ (all1 ha) hd')

theorem ens_postfix (op : PostfixOp) {cs : List Cst} {d : ASrc} (h : OkayL L cs) (hd : LS L d) :
    Ens (postfixAst rec op cs d) (Neat L) := by
  have hd' := tidy_of hd
  unfold postfixAst
  refine (ens_expect2 h).bind fun p hp => ?_
  obtain ⟨c, o⟩ := p
  dsimp only at hp ⊢
  split
  · exact (ens_rec hr hp.1).bind fun a ha => .ok (neat_callS _ (all1 ha) hd')
  · split
    · refine .ite ((ens_derivativeBody hp.1).bind fun x hx => (ens_rec hr hx).bind fun a ha => .ok ?_)
        (.ite ((ens_asStr _).bind fun s _ => (ens_rec hr hp.1).bind fun a ha => .ok ?_) .fail)
      · exact .call (neat_callS _ (all1 (neat_nat _ tidy_none)) tidy_none) (all1 ha) tidy_none
      · exact .call (neat_callS _ (all1 (neat_nat _ tidy_none)) tidy_none) (all1 ha) tidy_none
    · exact .fail
  · exact (ens_rec hr hp.1).bind fun a ha => .ok (neat_callS _ (all1 ha) hd')

include hdebug in
theorem ens_binary (op : BinaryOp) {cs : List Cst} {d : ASrc} (h : OkayL L cs) (hd : LS L d) :
    Ens (binaryAst env rec op cs d) (Neat L) := by
  have hd' := tidy_of hd
  unfold binaryAst
  refine (ens_expect3 h).bind fun p hp => ?_
  obtain ⟨l, m, r⟩ := p
  dsimp only at hp ⊢
  obtain ⟨hl, -, hR⟩ := hp
  split
  · exact ens_divide hr hl hR hd
  · exact (ens_rec hr hl).bind fun a ha => (ens_rec hr hR).bind fun b hb => .ok (.call ha (all1 hb) hd')
  · refine (ens_rec hr hl).bind fun a ha => (ens_rec hr hR).bind fun b hb => .ite (.ok ?_) (.ok ?_)
    · exact neat_callS _ (all3 ha hb (neat_callS _ (all1 (neat_nat _ tidy_none)) tidy_none)) hd'
    · exact neat_callS _ (all2 ha hb) hd'
  · exact (ens_rec hr hR).bind fun b hb => (ens_rec hr hl).bind fun a ha => .ok (.call hb (all1 ha) hd')
  · exact (ens_file hdebug hR).bind fun b hb => (ens_rec hr hl).bind fun a ha => .ok (neat_callS _ (all2 ha hb) hd')
  · exact (ens_file hdebug hR).bind fun b hb => (ens_rec hr hl).bind fun a ha => .ok (neat_callS _ (all2 ha hb) hd')
  · exact .ite ((ens_rec hr hl).bind fun a ha => .ok (neat_callS _ (all1 ha) hd')) .fail
  · exact (ens_rec hr hl).bind fun a ha => (ens_rec hr hR).bind fun b hb => .ite (.ok (.abstractError (all2 ha hb) hd'))
      (.ok (neat_callS _ (all2 ha hb) hd'))

include hdebug in
theorem ens_infix (op : InfixOp) {cs : List Cst} {d : ASrc} (h : OkayL L cs) (hd : LS L d) :
    Ens (infixAst env rec op cs d) (Neat L) := by
  have hd' := tidy_of hd
  have he := okay_evens h
  unfold infixAst
  split
  · exact ens_inequality hr h hd
  · exact ens_plus hr h hd
  · exact ens_times hr he hd
  · exact (ens_mapA fun c hc => ens_quirk hr _ (he c (List.mem_reverse.mp hc))).bind fun as ha => .ok (neat_callS _ ha hd')
  · refine (ens_mapA (P := Neat L) fun c hc => ?_).bind fun as ha => .ok (neat_callS _ ha hd')
    split
    · exact .ite (.ok (neat_symbol _ (tidy_of (he _ hc).tok.2))) (ens_rec hr (he _ hc))
    · exact ens_rec hr (he _ hc)
  · exact ens_message hdebug hr he hd
  · exact ens_tilde hr hd' he
  · exact .ite (.ite ((ens_recs hr he).bind fun as ha => .ok (neat_callS _ ha hd'))
      ((ens_mapA fun c hc => ens_quirk hr _ (he c hc)).bind fun as ha => .ok (neat_callS _ ha hd'))) .fail

omit hr in
theorem ens_children {a : Ast} (h : Neat L a) : Ens (childrenSource a) fun p => (∀ b ∈ p.1, Neat L b) ∧ ∀ s, p.2 = some s → LS L s := by
  cases h with
  | leaf => exact .fail
  | error => exact .fail
  | missingCloser => exact .fail
  | missingOpener => exact .fail
  | call h1 h2 h3 => exact .ok ⟨h2, h3.1⟩
  | callMissing h1 h2 h3 => exact .ok ⟨h2, h3.1⟩
  | syntaxError h2 h3 => exact .ok ⟨h2, h3.1⟩
  | abstractError h2 h3 => exact .ok ⟨h2, h3.1⟩
  | linearBang h1 h2 h3 => exact .ok ⟨all2 h1 h2, h3.1⟩

theorem ens_ternary (op : TernaryOp) {cs : List Cst} {d : ASrc} (h : OkayL L cs) (hd : LS L d) :
    Ens (ternaryAst rec op cs d) (Neat L) := by
  have hd' := tidy_of hd
  unfold ternaryAst
  refine (ens_expect5 h).bind fun p hp => ?_
  obtain ⟨l, x, m, o, r⟩ := p
  dsimp only at hp ⊢
  obtain ⟨hl, -, hm, -, hR⟩ := hp
  split
  · refine .ite ((ens_rec hr hm).bind fun b hb => (ens_children hb).bind fun q hq => (ens_rec hr hl).bind fun a ha =>
      (ens_rec hr hR).bind fun c hc => .ok (.call (.abstractError hq.1 ⟨hq.2, fun i hi => by cases hi⟩) (all2 ha hc) hd')) ?_
    exact (ens_rec hr hm).bind fun b hb => (ens_rec hr hl).bind fun a ha => (ens_rec hr hR).bind fun c hc => .ok (.call hb (all2 ha hc) hd')
  · exact .ite ((ens_rec hr hl).bind fun a ha => (ens_rec hr hm).bind fun b hb => .ok (neat_callS _ (all2 ha hb) hd')) .fail
  · exact (ens_rec hr hl).bind fun a ha => (ens_rec hr hm).bind fun b hb => (ens_rec hr hR).bind fun c hc =>
      .ok (neat_callS _ (all2 (neat_callS _ (all2 ha hb) tidy_none) hc) hd')
  all_goals exact (ens_rec hr hl).bind fun a ha => (ens_rec hr hm).bind fun b hb => (ens_rec hr hR).bind fun c hc => (.ok (neat_callS _ (all3 ha hb hc) hd'))

theorem ens_prefixBinary (op : PrefixBinaryOp) {cs : List Cst} {d : ASrc} (h : OkayL L cs) (hd : LS L d) :
    Ens (prefixBinaryAst rec op cs d) (Neat L) := by
  have hd' := tidy_of hd
  unfold prefixBinaryAst
  refine (ens_expect3 h).bind fun p hp => ?_
  obtain ⟨x, c, e⟩ := p
  dsimp only at hp ⊢
  split
  · exact (ens_expect2 hp.2.2.node).bind fun q hq => (ens_rec hr hp.2.1).bind fun a ha => (ens_rec hr hq.2).bind fun b hb =>
      .ok (neat_callS _ (all2 ha hb) hd')
  · exact (ens_expect2 hp.2.2.node).bind fun q hq => (ens_rec hr hp.2.1).bind fun a ha => (ens_rec hr hq.2).bind fun b hb =>
      .ok (neat_callS _ (all2 ha hb) hd')
  · exact (ens_rec hr hp.2.1).bind fun a ha => (ens_rec hr hp.2.2).bind fun b hb => .ok (neat_callS _ (all2 ha hb) hd')

theorem ens_groupNode (op : GroupOp) {cs : List Cst} {d : ASrc} (h : OkayL L cs) (hd : LS L d) :
    Ens (groupNodeAst rec op cs d) (Neat L) := by
  unfold groupNodeAst
  split
  · exact ens_paren hr h hd
  · exact ens_naked hr _ h hd
  · exact ens_naked hr _ h hd
  · exact ens_naked hr _ h hd
  · exact (ens_group hr h).bind fun p hp => .ok (.call (neat_symbol _ tidy_none) hp.2 (tidy_of hp.1))

theorem ens_syntaxError (err : SyntaxErrorKind) {cs : List Cst} {d : ASrc} (h : OkayL L cs) (hd : LS L d) :
    Ens (syntaxErrorAst rec err cs d) (Neat L) := by
  unfold syntaxErrorAst
  split
  · exact (ens_rec hr (h _ (by simp))).bind fun a ha => (ens_rec hr (h _ (by simp))).bind fun b hb => .ok (.syntaxError (all2 ha hb) (tidy_of hd))
  · exact .fail

theorem ens_call {hd : Cst} (m : Bool) (op : CallOp) {cs : List Cst} {d : ASrc} (hh : Okay L hd) (h : OkayL L cs) (hs : LS L d) :
    Ens (callAst rec hd m op cs d) (Neat L) := by
  have hd' := tidy_of hs
  unfold callAst
  split
  · split
    · exact .fail
    · next c hc =>
      have hc' : Okay L c := h c (List.mem_of_getElem? hc)
      split
      · exact Ens.any.bind fun _ _ => (ens_issueAt _ h hs).bind fun d hd => (ens_rec hr hh).bind fun a ha => (ens_group hr hc'.node).bind fun p hp =>
          .ok (neat_callS _ (allc ha hp.2) hd)
      · exact (ens_issueAt _ h hs).bind fun d hd => (ens_rec hr hh).bind fun a ha => (ens_group hr h).bind fun p hp =>
          .ok (.call ha hp.2 hd)
  · have ht : ∀ d, Tidy L d → Ens (do
        let a ← rec (.cst hd)
        let (_, as) ← groupAst rec cs
        .ok (.call (.callS .System_TypeSpecifier [a] .none) as d)) (Neat L) := fun d h1 =>
      (ens_rec hr hh).bind fun a ha => (ens_group hr h).bind fun p hp => .ok (.call (neat_callS _ (all1 ha) tidy_none) hp.2 h1)
    exact .ite (ht _ hd') ((ens_getSource hh).bind fun s h1 => ht _ (tidy_issue hs h1 fun x hx => by cases hx))
  · exact (ens_issueAt _ h hs).bind fun d hd => (ens_rec hr hh).bind fun a ha => (ens_group hr h).bind fun p hp =>
      .ok (neat_callS _ (allc ha hp.2) hd)
  · exact (ens_rec hr hh).bind fun a ha => (ens_missing hr h).bind fun p hp => .ok (.callMissing ha hp.2 hd')
  · exact (ens_rec hr hh).bind fun a ha => (ens_missing hr h).bind fun p hp => .ok (.callMissing (neat_callS _ (all1 ha) tidy_none) hp.2 hd')
  · exact (ens_rec hr hh).bind fun a ha => (ens_missing hr h).bind fun p hp =>
      .ok (.callMissing (neat_symbol _ tidy_none) (allc ha hp.2) hd')

include hdebug in
theorem ens_step (r : Req) (h : OkayR L r) : Ens (Abs.step env rec r) (Neat L) := by
  cases r with
  | neg g d => exact ens_negated hr h.1 h.2
  | cst c =>
    have h : Okay L c := h
    unfold Abs.step
    refine (ens_getSource h).bind fun d hd => ?_
    cases c with
    | tok t => exact ens_tokenAst h.tok.1 h.tok.2
    | node k cs =>
      have h' := h.node
      show Ens (nodeAst env rec k cs d) (Neat L)
      unfold nodeAst
      cases k with
      | «prefix» op => exact ens_prefix hdebug hr op h' hd
      | «infix» op => exact ens_infix hdebug hr op h' hd
      | «postfix» op => exact ens_postfix hr op h' hd
      | binary op => exact ens_binary hdebug hr op h' hd
      | ternary op => exact ens_ternary hr op h' hd
      | prefixBinary op => exact ens_prefixBinary hr op h' hd
      | compound op => exact ens_compound hdebug hr op h' hd
      | group op => exact ens_groupNode hr op h' hd
      | groupMissingCloser op => exact (ens_missing hr h').bind fun p hp => .ok (.missingCloser hp.2 (tidy_of hp.1))
      | groupMissingOpener op => exact (ens_groupArgs hr (okay_dropLast h')).bind fun as ha => .ok (.missingOpener ha (tidy_of hd))
      | syntaxError err => exact ens_syntaxError hr err h' hd
    | call => exact .fail
    | callAgg f m op cs => exact ens_call hr m op h.head h.body hd
    | box => exact .fail
    | code => exact .fail

omit hr in
include hdebug in
theorem ens_run : ∀ (n : Nat) (r : Req), OkayR L r → Ens (Abs.run env n r) (Neat L)
  | 0, _, _ => fun a e => by cases e
  | n + 1, r, h => ens_step hdebug (ens_run n) r h

omit hr in
include hdebug in
/-- Abstraction of a tree with texts and good positions has texts and good positions. -/
theorem ens_abstract {c : Cst} (h : Okay L c) : Ens (abstractCst env c) (Neat L) := ens_run hdebug _ (.cst c) h

end

end CodeParser.Mail
