import Verif.Proofs.Meaning6
import Verif.Props.Abstract
/-!
Abstraction of written expressions does not panic; names (helper lemmas for C50).
-/
namespace CodeParser.Mean
open CodeParser Spec Props Abs

/-! ### Nothing is wrong in the trees -/

def fineKind (k : TK) : Bool := !k.isError

def fineNode (k : NodeKind) (n : Nat) : Bool :=
  match k with
  | .groupMissingCloser _ => false
  | .group .CodeParser_GroupParen => n != 2
  | _ => true

open Classical in
/-- There is no `\[InvisibleApplication]` behind the name of an operator. -/
noncomputable def fineAt (q : Quirks) (k : NodeKind) (cs : List Cst) : Bool :=
  match k with
  | .binary .CodeParser_BinaryAt =>
    match cs with
    | [.tok s, .tok t, _] => !decide (q.operandAt = true ∧ (s.kind = .Symbol ∧ ∃ op : InfixOp, s.text = op.toSymbol.short) ∧
        t.kind = .LongName_InvisibleApplication)
    | _ => true
  | _ => true

mutual
noncomputable def fine (q : Quirks) : Cst → Bool
  | .tok t => fineKind t.kind
  | .node k cs => fineNode k cs.length && fineAt q k cs && fines q cs
  | .call h m _ b => !m && fines q h && fines q b
  | _ => false
noncomputable def fines (q : Quirks) : List Cst → Bool
  | [] => true
  | c :: cs => fine q c && fines q cs
end

variable {q : Quirks}

theorem fines_append {a b : List Cst} : fines q (a ++ b) = (fines q a && fines q b) := by
  induction a with
  | nil => simp [fines]
  | cons c a ih => simp [fines, ih, Bool.and_assoc]

theorem plains_proper : ∀ cs : List Cst, plains cs = (proper cs).map plain
  | [] => rfl
  | c :: cs => by
    rw [plains, proper, List.filter_cons]
    have ih := plains_proper cs
    unfold proper at ih
    cases h : c.isTrivia <;> simp [ih]

theorem plains_length : ∀ cs : List Cst, (plains cs).length = (proper cs).length
  | [] => rfl
  | c :: cs => by
    rw [plains, proper, List.filter_cons]
    have ih := plains_length cs
    unfold proper at ih
    cases h : c.isTrivia <;> simp [ih]

theorem fines_mem {c : Cst} : ∀ {cs : List Cst}, fines q (plains cs) = true → c ∈ cs → c.isTrivia = true ∨ fine q (plain c) = true
  | [], _, h => by cases h
  | d :: cs, h, hc => by
    rw [plains] at h
    rcases List.mem_cons.mp hc with rfl | hc
    · split at h
      · next ht => exact Or.inl ht
      · rw [fines, Bool.and_eq_true] at h; exact Or.inr h.1
    · split at h
      · exact fines_mem h hc
      · rw [fines, Bool.and_eq_true] at h; exact fines_mem h.2 hc

theorem fine_sub {n c : Cst} (hs : Sub n c) : c.isTrivia = true ∨ fine q (plain c) = true → n.isTrivia = true ∨ fine q (plain n) = true := by
  induction hs with
  | refl => exact id
  | @node c k cs hc _ ih =>
    rintro (h | h)
    · cases h
    · rw [plain, fine, Bool.and_eq_true] at h
      exact ih (fines_mem h.2 hc)
  | @head c h' b op body hc _ ih =>
    rintro (h | h)
    · cases h
    · rw [plain, fine, Bool.and_eq_true, Bool.and_eq_true] at h
      exact ih (fines_mem h.1.2 hc)
  | @body c h' b op body hc _ ih =>
    rintro (h | h)
    · cases h
    · rw [plain, fine, Bool.and_eq_true] at h
      exact ih (fines_mem h.2 hc)

mutual
theorem fine_complete : ∀ c : Cst, fine q (plain c) = true → complete c = true
  | .tok t, _ => by simp [complete]
  | .node k cs, h => by
    rw [plain, fine, Bool.and_eq_true] at h
    cases k with
    | groupMissingCloser => simp [fineNode] at h
    | _ => rw [complete]; · exact fines_complete cs h.2
           · intro x hx; cases hx
  | .call hd m op b, h => by
    rw [plain, fine, Bool.and_eq_true, Bool.and_eq_true] at h
    rw [complete, h.1.1, fines_complete hd h.1.2, fines_complete b h.2]; rfl
  | .callAgg .., h => by cases h
  | .box .., h => by cases h
  | .code _, h => by cases h
theorem fines_complete : ∀ cs : List Cst, fines q (plains cs) = true → completeL cs = true
  | [], _ => rfl
  | c :: cs, h => by
    rw [plains] at h
    split at h
    · next ht =>
      have : complete c = true := by
        cases c with
        | tok => simp [complete]
        | _ => cases ht
      rw [completeL, this, fines_complete cs h]; rfl
    · rw [fines, Bool.and_eq_true] at h
      rw [completeL, fine_complete c h.1, fines_complete cs h.2]; rfl
end

theorem start_fine : ∀ k : TK, ((prefixOf k).isSome || (groupOf k).isSome) = true → fineKind k = true :=
  forall_of_all (by decide +kernel)
theorem atom_fine : ∀ k : TK, atomKind k = true → fineKind k = true := forall_of_all (by decide +kernel)
theorem closer_fine : ∀ k : TK, k.isCloser = true → fineKind k = true := forall_of_all (by decide +kernel)
theorem infix_fine : ∀ k : TK, (infixOf k).isSome = true → fineKind k = true := forall_of_all (by decide +kernel)
theorem binary_fine : ∀ k : TK, (binaryOf k).isSome = true → fineKind k = true := forall_of_all (by decide +kernel)
theorem postfix_fine : ∀ k : TK, (postfixOf k).isSome = true → fineKind k = true := forall_of_all (by decide +kernel)
theorem call_fine : ∀ k : TK, (callOpOf k).isSome = true → fineKind k = true := forall_of_all (by decide +kernel)
theorem trivia_fine : ∀ k : TK, k.isTrivia = true → fineKind k = true := forall_of_all (by decide +kernel)

theorem fine_leaf {l : Lexeme} (h : fineKind l.1 = true) : fine q (leaf l) = true := h

theorem at_fine {l r : Spec.Form} {o : Binary}
    (h : q.operandAt = true → o.lex.1 = .LongName_InvisibleApplication → ∀ op : InfixOp, l.isName op.toSymbol.short = false) :
    fineAt q (.binary o.op) [l.cst, leaf o.lex, r.cst] = true := by
  unfold fineAt
  split
  · split
    · next s t _ he =>
      simp only [List.cons.injEq, and_true] at he
      obtain ⟨h1, h2, -⟩ := he
      have h2 : o.lex.1 = t.kind := by cases h2; rfl
      simp only [Bool.not_eq_true', decide_eq_false_iff_not]
      rintro ⟨e1, ⟨e2, op, e3⟩, e4⟩
      have := h e1 (h2.trans e4) op
      cases l with
      | atom x =>
        cases h1
        simp only [Form.isName, Bool.and_eq_false_iff, beq_eq_false_iff_ne] at this
        exact this.elim (fun h => h e2) fun h => h e3
      | compound c => cases c <;> cases h1
      | _ => cases h1
    · rfl
  · rfl

theorem node_fine {k : NodeKind} {cs : List Cst} (h : fineNode k cs.length = true) (hs : fines q cs = true) (ha : fineAt q k cs = true := by rfl) :
    fine q (.node k cs) = true := by
  rw [fine, h, hs, ha]; rfl

theorem group_node {op : GroupOp} {n : Nat} (h : op = .CodeParser_GroupParen → n ≠ 2) : fineNode (.group op) n = true := by
  unfold fineNode
  split
  · next he => cases he
  · next he => cases he; simpa using h rfl
  · rfl

variable {q : Quirks}

theorem compound_fine (c : Compound) : fine q c.cst = true := by
  have hs : fineKind .Symbol = true := by decide
  have hb : ∀ {k : TK} {op : CompoundOp}, blankOf k = some op → fineKind k = true := fun h => by
    rcases blank_cases h with ⟨rfl, -⟩ | ⟨rfl, -⟩ | ⟨rfl, -⟩ <;> decide
  have hp : ∀ {k : TK} {op : CompoundOp}, patternOf k = some op → fineKind k = true := fun h => by
    rcases pattern_cases h with ⟨rfl, -⟩ | ⟨rfl, -⟩ | ⟨rfl, -⟩ | ⟨rfl, -⟩ <;> decide
  have two : ∀ {op : CompoundOp} {x y : Lexeme}, fineKind x.1 = true → fineKind y.1 = true →
      fine q (.node (.compound op) [leaf x, leaf y]) = true := fun h1 h2 => by
    refine node_fine rfl ?_
    rw [fines, fines, fines, fine_leaf h1, fine_leaf h2]; rfl
  cases c with
  | blank u h op known head => exact two (hb known) (head ▸ hs)
  | named x u op known name => exact two (name ▸ hs) (hp known)
  | typed x u h op op' known known' name head =>
    refine node_fine rfl ?_
    rw [fines, fines, fines, fine_leaf (name ▸ hs), two (hb known) (head ▸ hs)]; rfl
  | slot s n op known number digits =>
    refine two ?_ (by rw [number]; decide)
    rcases slot_cases known with ⟨h, -⟩ | ⟨h, -⟩ | ⟨h, -⟩ <;> rw [h] <;> decide
  | slotName s n known name => exact two (by rw [known]; decide) (show fineKind .String = true by decide)

theorem ternary_fine {o : Ternary} : fineKind o.first.1 = true ∧ fineKind o.second.1 = true := by
  have := o.known
  unfold ternaryOf at this
  split at this
  · next h1 h2 => rw [h1, h2]; decide
  · next h1 h2 => rw [h1, h2]; decide
  · next h1 h2 => rw [h1, h2]; decide
  · cases this

mutual
theorem form_fine : ∀ {f : Spec.Form} {g : Bool} {ks : List Lexeme}, Writes g f ks → f.Grouped → f.Meaningful q → fine q f.cst = true
  | .atom x, _, _, h, _, _ => by
    cases h with
    | atom h => exact fine_leaf (atom_fine _ h)
  | .group o b, _, _, h, hg, hm => by
    cases h with
    | group h =>
      have hb : fines q b.csts = true := body_fine h hg hm.2.2.2.2
      rw [Form.cst]
      refine node_fine (group_node fun hp => ?_) ?_
      · have := hm.1 hp
        cases b <;> simp_all [Body.single, Body.csts]
      · rw [fines, fines_append, hb, fine_leaf (start_fine _ (by rw [o.known]; simp)), fines, fine_leaf (closer_fine _ o.closes.1)]; rfl
  | .call f o b, _, _, h, hg, hm => by
    cases h with
    | call h1 h2 h3 =>
      have hb : fines q b.csts = true := by
        have := hm.2
        split at this
        · next hd => exact inner_fine h3 hg.2.2 hd.2 this
        · exact body_fine h3 hg.2.2 this
      rw [Form.cst, fine, fines, fines, fines, fines_append, hb, form_fine h1 hg.1 hm.1, fine_leaf (call_fine _ (by rw [o.known]; rfl)),
        fines, fine_leaf (closer_fine _ o.closes.1)]; rfl
  | .binary l o r, _, _, h, hg, hm => by
    cases h with
    | binary h1 h2 h3 h4 =>
      refine node_fine rfl ?_ (at_fine hm.2.2.2)
      rw [fines, fines, fines, form_fine h1 hg.1 hm.1, form_fine h4 hg.2.2.1 hm.2.1, fine_leaf (binary_fine _ (by rw [o.known]; rfl))]; rfl
  | .chain op p f t, _, _, h, hg, hm => by
    cases h with
    | chain h1 h2 _ =>
      refine node_fine rfl ?_
      rw [fines, form_fine h1 hg.1 hm.1, tail_fine h2 (Or.inl ⟨op, p, hg.2.2⟩) hm.2]; rfl
  | .prefix o f, _, _, h, hg, hm => by
    cases h with
    | «prefix» h1 h2 =>
      refine node_fine rfl ?_
      rw [fines, fines, form_fine h2 hg.1 hm.1, fine_leaf (start_fine _ (by rw [o.known]; simp))]; rfl
  | .postfix f o, _, _, h, hg, hm => by
    cases h with
    | «postfix» h1 h2 =>
      refine node_fine rfl ?_
      rw [fines, fines, form_fine h1 hg.1 hm.1, fine_leaf (postfix_fine _ (by rw [o.known]; rfl))]; rfl
  | .compound c, _, _, _, _, _ => compound_fine c
  | .semi f t, _, _, h, hg, hm => by
    cases h with
    | semi h1 h2 =>
      refine node_fine rfl ?_
      rw [fines, form_fine h1 hg.1 hm.1, semis_fine h2 hg.2.2 hm.2]; rfl
  | .ternary l o m r, _, _, h, hg, hm => by
    cases h with
    | ternary h1 _ _ h2 _ _ h3 =>
      refine node_fine rfl ?_
      rw [fines, fines, fines, fines, fines, form_fine h1 hg.1 hm.1, form_fine h2 hg.2.2.1 hm.2.1, form_fine h3 hg.2.2.2.2.2.1 hm.2.2,
        fine_leaf ternary_fine.1, fine_leaf ternary_fine.2]; rfl
  | .unset f e d, _, _, h, hg, hm => by
    cases h with
    | unset h1 h2 h3 _ _ =>
      refine node_fine rfl ?_
      rw [fines, fines, fines, form_fine h3 hg.1 hm, fine_leaf (by rw [h1]; decide), fine_leaf (by rw [h2]; decide)]; rfl
  | .tagUnset l o m e d, _, _, h, hg, hm => by
    cases h with
    | tagUnset h0 h1 h2 h3 _ _ h4 _ _ =>
      refine node_fine rfl ?_
      rw [fines, fines, fines, fines, fines, form_fine h3 hg.1 hm.1, form_fine h4 hg.2.2.1 hm.2, fine_leaf (by rw [h0]; decide),
        fine_leaf (by rw [h1]; decide), fine_leaf (by rw [h2]; decide)]; rfl
  | .pattern x o r, _, _, h, hg, hm => by
    cases h with
    | pattern h1 h2 _ _ h5 =>
      refine node_fine rfl ?_
      rw [fines, fines, fines, form_fine h5 hg.1 hm, fine_leaf (by rw [h1]; decide), fine_leaf (by rw [h2]; decide)]; rfl
  | .optional l o r, _, _, h, hg, hm => by
    cases h with
    | optional h1 h2 _ _ h5 =>
      refine node_fine rfl ?_
      rw [fines, fines, fines, form_fine h2 hg.2.1 hm.1, form_fine h5 hg.2.2.2.1 hm.2, fine_leaf (by rw [h1]; decide)]; rfl
  | .span l o e, _, _, h, hg, hm => by
    cases h with
    | span h0 h1 _ h2 =>
      refine node_fine (by cases e <;> rfl) ?_ (by cases e <;> rfl)
      rw [fines, fines, form_fine h1 hg.1 hm.1, fine_leaf (by rw [h0]; decide), reach_fine h2 hg.2.2 hm.2]; rfl
  | .spanFrom o e, _, _, h, hg, hm => by
    cases h with
    | spanFrom h0 h2 =>
      refine node_fine (by cases e <;> rfl) ?_ (by cases e <;> rfl)
      rw [fines, fines, fine_leaf (by decide), fine_leaf (by rw [h0]; decide), reach_fine h2 hg hm]; rfl
theorem reach_fine : ∀ {e : Reach} {g : Bool} {ks : List Lexeme}, Reaches g e ks → e.Grouped → e.Meaningful q → fines q e.csts = true
  | .all, _, _, _, _, _ => by rw [Reach.csts, fines, fine_leaf (by decide)]; rfl
  | .to f, _, _, h, hg, hm => by
    cases h with
    | «to» _ h => rw [Reach.csts, fines, form_fine h hg.2.1 hm]; rfl
  | .step f o f', _, _, h, hg, hm => by
    cases h with
    | step h0 _ h1 _ _ h2 =>
      rw [Reach.csts, fines, fines, fines, form_fine h1 hg.2.1 hm.1, form_fine h2 hg.2.2.2.2.2.1 hm.2, fine_leaf (by rw [h0]; decide)]; rfl
  | .allStep o f, _, _, h, hg, hm => by
    cases h with
    | allStep h0 _ _ h => rw [Reach.csts, fines, fines, fines, form_fine h hg.2.1 hm, fine_leaf (by decide), fine_leaf (by rw [h0]; decide)]; rfl
theorem body_fine : ∀ {b : Body} {ks : List Lexeme}, Inside b ks → b.Grouped → b.Meaningful q → fines q b.csts = true
  | .empty, _, _, _, _ => rfl
  | .one f, _, h, hg, hm => by
    cases h with
    | one h1 h2 h3 => rw [Body.csts, fines, form_fine h2 hg hm.1]; rfl
  | .many f t, _, h, hg, hm => by
    cases h with
    | many h1 h2 h3 h4 =>
      rw [Body.csts, fines, node_fine rfl (by rw [fines, form_fine h2 hg.1 hm.1, tail_fine h3 (Or.inr hg.2) hm.2.1]; rfl)]; rfl
  | .gaps _ _, _, _, _, hm => hm.elim
  | .gap _, _, _, _, hm => hm.elim
theorem inner_fine : ∀ {b : Body} {ks : List Lexeme}, Inside b ks → b.Grouped → b.double = true → b.InnerMeaningful q → fines q b.csts = true
  | .one (.group o b'), _, h, hg, hd, hm => by
    cases h with
    | one _ h _ =>
      cases h with
      | group h =>
        have ho : o.op = .CodeParser_GroupSquare := by simpa [Body.double] using hd
        have hb : fines q b'.csts = true := body_fine h hg hm
        rw [Body.csts, fines, Form.cst, node_fine (group_node fun hp => by rw [ho] at hp; cases hp)]
        · rfl
        · rw [fines, fines_append, hb, fine_leaf (start_fine _ (by rw [o.known]; simp)), fines, fine_leaf (closer_fine _ o.closes.1)]; rfl
  | .empty, _, _, _, hd, _ => by cases hd
  | .many _ _, _, _, _, hd, _ => by cases hd
  | .gaps _ _, _, _, _, hd, _ => by cases hd
  | .gap _, _, _, _, hd, _ => by cases hd
  | .one (.atom _), _, _, _, hd, _ => by cases hd
  | .one (.call ..), _, _, _, hd, _ => by cases hd
  | .one (.binary ..), _, _, _, hd, _ => by cases hd
  | .one (.chain ..), _, _, _, hd, _ => by cases hd
  | .one (.prefix ..), _, _, _, hd, _ => by cases hd
  | .one (.postfix ..), _, _, _, hd, _ => by cases hd
  | .one (.compound _), _, _, _, hd, _ => by cases hd
  | .one (.semi ..), _, _, _, hd, _ => by cases hd
  | .one (.ternary ..), _, _, _, hd, _ => by cases hd
  | .one (.unset ..), _, _, _, hd, _ => by cases hd
  | .one (.tagUnset ..), _, _, _, hd, _ => by cases hd
  | .one (.pattern ..), _, _, _, hd, _ => by cases hd
  | .one (.optional ..), _, _, _, hd, _ => by cases hd
  | .one (.span ..), _, _, _, hd, _ => by cases hd
  | .one (.spanFrom ..), _, _, _, hd, _ => by cases hd
theorem tail_fine : ∀ {t : Tail} {g : Bool} {ks : List Lexeme}, Rest g t ks → ((∃ op p, t.Grouped op p) ∨ t.Commas) → t.Meaningful q →
    fines q t.csts = true
  | .last o f, _, _, h, hg, hm => by
    cases h with
    | last h1 h2 =>
      have h3 : fineKind o.1 = true ∧ f.Grouped := by
        rcases hg with ⟨op, p, hg⟩ | hg
        · exact ⟨infix_fine _ (by rw [hg.1]; rfl), hg.2.2.1⟩
        · exact ⟨by rw [hg.1]; rfl, hg.2⟩
      rw [Tail.csts, fines, fines, form_fine h2 h3.2 hm, fine_leaf h3.1]; rfl
  | .more o f t, _, _, h, hg, hm => by
    cases h with
    | more h1 h2 h3 _ =>
      have h4 : fineKind o.1 = true ∧ f.Grouped ∧ ((∃ op p, t.Grouped op p) ∨ t.Commas) := by
        rcases hg with ⟨op, p, hg⟩ | hg
        · exact ⟨infix_fine _ (by rw [hg.1]; rfl), hg.2.2.1, Or.inl ⟨op, p, hg.2.2.2.2.2⟩⟩
        · exact ⟨by rw [hg.1]; rfl, hg.2.1, Or.inr hg.2.2⟩
      rw [Tail.csts, fines, fines, form_fine h2 h4.2.1 hm.1, tail_fine h3 h4.2.2 hm.2, fine_leaf h4.1]; rfl
theorem semis_fine : ∀ {t : Semis} {g : Bool} {ks : List Lexeme}, Spec.Steps g t ks → t.Grouped → t.Meaningful q → fines q t.csts = true
  | .stop o, _, _, h, _, _ => by
    cases h with
    | stop h1 _ => rw [Semis.csts, fines, fines, fine_leaf (by rw [h1]; decide)]; rfl
  | .last o f, _, _, h, hg, hm => by
    cases h with
    | last h1 _ _ h2 => rw [Semis.csts, fines, fines, fine_leaf (by rw [h1]; decide), form_fine h2 hg.2.1 hm]; rfl
  | .skip o t, _, _, h, hg, hm => by
    cases h with
    | skip h1 _ h2 => rw [Semis.csts, fines, fines, fine_leaf (by rw [h1]; decide), semis_fine h2 hg hm]; rfl
  | .more o f t, _, _, h, hg, hm => by
    cases h with
    | more h1 _ _ h2 h3 =>
      rw [Semis.csts, fines, fines, fine_leaf (by rw [h1]; decide), form_fine h2 hg.2.1 hm.1, semis_fine h3 hg.2.2.2.2 hm.2]; rfl
end

/-! ### Names -/

theorem operator_symbol {c : Char} {tail : List Char} {k : TK} (h : (tail, k) ∈ operators c) : k ≠ .Symbol := by
  unfold operators at h
  split at h
  all_goals
    rintro rfl
    simp at h

theorem number_symbol (l : Literal) : l.kind ≠ .Symbol := by
  unfold Literal.kind
  repeat' split
  all_goals simp

theorem operator_other {c : Char} {tail : List Char} {k : TK} (h : (tail, k) ∈ operators c) : k ≠ .String ∧ k ≠ .PercentPercent := by
  unfold operators at h
  split at h
  all_goals
    refine ⟨?_, ?_⟩ <;>
    · rintro rfl
      simp at h

theorem number_other' (l : Literal) : l.kind ≠ .String ∧ l.kind ≠ .PercentPercent := by
  unfold Literal.kind
  repeat' split
  all_goals simp

theorem lone_percent {p : CP} {k : TK} (h : Lone p k) : k ≠ .PercentPercent := by
  rintro rfl
  cases h with
  | operator h1 h2 h3 =>
    have : TK.PercentPercent.name.head? = some 'L' := by rw [h3]; rfl
    exact absurd this (by decide +kernel)
  | linear h => simp [linearSyntax] at h
  | single h => simp [Spec.single] at h

theorem lexes_names {bs : List UInt8} {ks : List Lexeme} (h : LexesTo bs ks) : Names ks := by
  intro x hx
  induction h with
  | nil => cases hx
  | space _ ih | tab _ ih | newline _ ih | comment _ _ ih =>
    rcases List.mem_cons.mp hx with rfl | hx
    · exact fun h => by cases h
    · exact ih hx
  | quoted _ _ _ ih | word _ _ ih | name _ _ _ ih =>
    rcases List.mem_cons.mp hx with rfl | hx
    · exact fun h => by cases h
    · exact ih hx
  | string _ _ _ _ ih | blob _ _ _ _ ih | malformed _ _ _ _ ih =>
    rcases List.mem_cons.mp hx with rfl | hx
    · exact fun h => by cases h
    · exact ih hx
  | lone _ h1 _ _ ih =>
    rcases List.mem_cons.mp hx with rfl | hx
    · exact fun h => absurd h (lone_percent h1)
    · exact ih hx
  | operator h1 _ _ _ _ _ ih =>
    rcases List.mem_cons.mp hx with rfl | hx
    · exact fun h => absurd h (operator_other h1.known).2
    · exact ih hx
  | @percent n _ _ _ _ _ ih =>
    rcases List.mem_cons.mp hx with rfl | hx
    · exact fun _ => ⟨n, rfl⟩
    · exact ih hx
  | @number l _ _ _ _ _ ih =>
    rcases List.mem_cons.mp hx with rfl | hx
    · exact fun h => absurd h (number_other' l).2
    · exact ih hx

/-! ### Programs -/

theorem program_fine {fs : List Spec.Form} {ks : List Lexeme} (h : Program fs ks) : (∀ f ∈ fs, f.Meaningful q) →
    fines q (fs.map Form.cst) = true := by
  induction h with
  | nil => intro _; rfl
  | last _ hw hg _ => intro hm; rw [List.map_cons, fines, form_fine hw hg (hm _ (by simp))]; rfl
  | cons _ hw hg _ _ _ ih =>
    intro hm
    rw [List.map_cons, fines, form_fine hw hg (hm _ (by simp)), ih fun f hf => hm f (by simp [hf])]; rfl

theorem program_sound {env : AEnv} (hq : env.flattenTimes = false) (hd : QuotesNames env.debug) {fs : List Spec.Form} {ks : List Lexeme} (h : Program fs ks) :
    Names ks → (∀ f ∈ fs, f.Meaningful (quirks env)) → ∀ {ds : List Cst}, List.Forall₂ Rep fs ds →
    List.Forall₂ (fun f d => Sound env f d) fs ds := by
  induction h with
  | nil => intro _ _ ds hr; cases hr; exact .nil
  | last _ hw hg _ =>
    intro hn hm ds hr
    cases hr with
    | cons h1 h2 =>
      cases h2
      exact .cons (sound_form hq hd _ hw hn.right.left hg (hm _ (by simp)) h1) .nil
  | cons _ hw hg _ _ _ ih =>
    intro hn hm ds hr
    cases hr with
    | cons h1 h2 =>
      exact .cons (sound_form hq hd _ hw hn.right.left hg (hm _ (by simp)) h1)
        (ih hn.right.right.right.tail (fun f hf => hm f (by simp [hf])) h2)

end CodeParser.Mean
