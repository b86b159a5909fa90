import Mathlib.Algebra.Order.Group.Multiset
import Verif.Proofs.Words1
import Verif.Proofs.Spot1
import Verif.Proofs.Build
import Verif.Proofs.Meaning3
/-!
The words of a text in its abstract syntax trees (helper lemmas): words of trees, negation, products.
-/
namespace CodeParser.Words
open CodeParser Spec Cst Props Abs Spot

/-! ### Words of trees -/

/-- The words of a tree, in any order. -/
def wc (c : Cst) : Multiset Tok := ↑(wordsOf c)
/-- The words of trees, in any order. -/
def wcL (cs : List Cst) : Multiset Tok := ↑(wordsOfL cs)
/-- The words of an abstract syntax tree, in any order. -/
def wa (a : Ast) : Multiset Leaf := ↑(wordsIn a)
/-- The words of abstract syntax trees, in any order. -/
def waL (as : List Ast) : Multiset Leaf := ↑(wordsInL as)

@[simp] theorem wc_node {k : NodeKind} {cs : List Cst} : wc (.node k cs) = wcL cs := rfl
@[simp] theorem wcL_nil : wcL [] = 0 := rfl
@[simp] theorem wcL_cons {c : Cst} {cs : List Cst} : wcL (c :: cs) = wc c + wcL cs := by
  simp [wcL, wc, wordsOfL, wordsOf, leavesL]
theorem wcL_one {c : Cst} : wcL [c] = wc c := by simp
@[simp] theorem wcL_append : ∀ {cs ds : List Cst}, wcL (cs ++ ds) = wcL cs + wcL ds
  | [], ds => by simp
  | c :: cs, ds => by simp [wcL_append (cs := cs), add_assoc]
@[simp] theorem wc_call {h : Cst} {m : Bool} {op : CallOp} {b : List Cst} : wc (.callAgg h m op b) = wc h + wcL b := by
  simp [wcL, wc, wordsOfL, wordsOf, leaves]
theorem wc_quiet {t : Tok} (h : Quiet t) : wc (.tok t) = 0 := by
  have : wordKind t.kind = false := h
  simp [wc, wordsOf, leaves, this]
theorem wc_kind {t : Tok} {k : TK} (h : t.kind = k) (hk : wordKind k = false) : wc (.tok t) = 0 := wc_quiet (quiet_kind h hk)
theorem wc_word {t : Tok} (h : wordKind t.kind = true) : wc (.tok t) = {t} := by
  simp only [wc, wordsOf, leaves, List.filter_cons, h]
  rfl
theorem wc_isTok {k : TK} {c : Cst} (h : isTok k c = true) (hk : wordKind k = false) : wc c = 0 := by
  cases c with
  | tok t => exact wc_kind (by simpa [isTok] using h) hk
  | _ => cases h

@[simp] theorem waL_nil : waL [] = 0 := rfl
@[simp] theorem waL_cons {a : Ast} {as : List Ast} : waL (a :: as) = wa a + waL as := rfl
@[simp] theorem waL_append : ∀ {as bs : List Ast}, waL (as ++ bs) = waL as + waL bs
  | [], bs => by simp
  | a :: as, bs => by simp [waL_append (as := as), add_assoc]
@[simp] theorem wa_call {h : Ast} {as : List Ast} {d : AMeta} : wa (.call h as d) = wa h + waL as := rfl
@[simp] theorem wa_callMissing {h : Ast} {as : List Ast} {d : AMeta} : wa (.callMissing h as d) = wa h + waL as := rfl
@[simp] theorem wa_syntaxError {k : SyntaxErrorKind} {as : List Ast} {d : AMeta} : wa (.syntaxError k as d) = waL as := rfl
@[simp] theorem wa_abstractError {k : AbstractError} {as : List Ast} {d : AMeta} : wa (.abstractError k as d) = waL as := rfl
@[simp] theorem wa_missingCloser {k : GroupOp} {as : List Ast} {d : AMeta} : wa (.missingCloser k as d) = waL as := rfl
@[simp] theorem wa_missingOpener {k : GroupOp} {as : List Ast} {d : AMeta} : wa (.missingOpener k as d) = waL as := rfl
@[simp] theorem wa_linearBang {a b : Ast} {d : AMeta} : wa (.linearBang a b d) = wa a + wa b := rfl
@[simp] theorem wa_error {k : TK} {s : List UInt8} {d : AMeta} : wa (.error k s d) = 0 := rfl
@[simp] theorem wa_bare {k : TK} {s : List UInt8} {is : List AIssue} : wa (.leaf k s ⟨none, is⟩) = 0 := by
  unfold wa wordsIn
  split <;> rfl
@[simp] theorem wa_symbol {s : Sym} : wa (.symbol s) = 0 := wa_bare
@[simp] theorem wa_callS {s : Sym} {as : List Ast} {d : AMeta} : wa (.callS s as d) = waL as := by
  show wa (.symbol s) + waL as = waL as
  simp
@[simp] theorem wa_nat {n : Nat} {d : AMeta} : wa (.nat n d) = 0 := rfl
@[simp] theorem wa_neg {n : Nat} : wa (.neg n) = 0 := rfl
theorem wa_none {k : TK} {s : List UInt8} {d : AMeta} (h : wordKind k = false) : wa (.leaf k s d) = 0 := by
  unfold wa wordsIn
  rw [h]
  rfl
theorem wa_leaf {k : TK} {s : List UInt8} {p : ASrc} (h : wordKind k = true) : wa (.leaf k s (.of p)) = {(k, s, p)} := by
  unfold wa wordsIn
  rw [h]
  rfl

/-! ### The same words -/

/-- The words `L` are the tokens `T`, without some that are left out. -/
def Like (q : List UInt8 → List UInt8) (out : Tok → Prop) (T : Multiset Tok) (L : Multiset Leaf) : Prop :=
  ∃ K D, T = K + D ∧ Multiset.Rel (Stands q) L K ∧ ∀ t ∈ D, out t

section
variable {q : List UInt8 → List UInt8} {out : Tok → Prop} {T T' : Multiset Tok} {L L' : Multiset Leaf}

theorem Like.zero : Like q out 0 0 := ⟨0, 0, rfl, Multiset.rel_zero_left.mpr rfl, by simp⟩

theorem Like.add (h : Like q out T L) (h' : Like q out T' L') : Like q out (T + T') (L + L') := by
  obtain ⟨K, D, rfl, h1, h2⟩ := h
  obtain ⟨K', D', rfl, h3, h4⟩ := h'
  refine ⟨K + K', D + D', add_add_add_comm _ _ _ _, h1.add h3, fun t ht => ?_⟩
  rcases Multiset.mem_add.mp ht with ht | ht
  · exact h2 t ht
  · exact h4 t ht

theorem Like.to (h : Like q out T L) (hT : T' = T) (hL : L' = L) : Like q out T' L' := hT ▸ hL ▸ h

theorem Like.lose {t : Tok} (ht : out t) (h : Like q out T L) : Like q out ({t} + T) L := by
  obtain ⟨K, D, rfl, h1, h2⟩ := h
  refine ⟨K, {t} + D, add_left_comm _ _ _, h1, fun s hs => ?_⟩
  rcases Multiset.mem_add.mp hs with hs | hs
  · cases Multiset.mem_singleton.mp hs; exact ht
  · exact h2 s hs

theorem Like.one {t : Tok} {l : Leaf} (h : Stands q l t) : Like q out {t} {l} :=
  ⟨{t}, 0, (add_zero _).symm, Multiset.rel_cons_left.mpr ⟨t, 0, h, Multiset.rel_zero_left.mpr rfl, rfl⟩, by simp⟩

theorem Like.drop {l : Leaf} (h : Like q out T ({l} + L)) (hl : ∀ t, Stands q l t → out t) : Like q out T L := by
  obtain ⟨K, D, rfl, h1, h2⟩ := h
  obtain ⟨t, K', h3, h4, rfl⟩ := Multiset.rel_cons_left.mp (show Multiset.Rel _ (l ::ₘ L) K from h1)
  refine ⟨K', t ::ₘ D, ?_, h4, fun s hs => ?_⟩
  · rw [Multiset.cons_add, Multiset.add_cons]
  · rcases Multiset.mem_cons.mp hs with rfl | hs
    · exact hl _ h3
    · exact h2 s hs

/-- A function on a list gives the same words. -/
theorem Like.mapA {β : Type} {f : β → A Ast} {w : β → Multiset Tok} : ∀ {bs : List β},
    (∀ b ∈ bs, Sat (fun a => Like q out (w b) (wa a)) (f b)) → Sat (fun as => Like q out (bs.map w).sum (waL as)) (mapA f bs)
  | [], _ => Sat.ok (by simpa using Like.zero)
  | b :: bs, h => by
    intro as e
    unfold Abs.mapA at e
    rcases e1 : f b with x | a <;> rw [e1] at e
    · cases e
    simp only at e
    rcases e2 : Abs.mapA f bs with x | as' <;> rw [e2] at e
    · cases e
    cases e
    simp only [List.map_cons, List.sum_cons, waL_cons]
    exact (h b (by simp) _ e1).add (Like.mapA (fun b hb => h b (by simp [hb])) _ e2)
end

theorem sum_wc : ∀ (cs : List Cst), (cs.map wc).sum = wcL cs
  | [] => rfl
  | c :: cs => by simp [sum_wc cs]

theorem alt_evens {cs : List Cst} (h : Alt cs) : wcL (evens cs) = wcL cs := by
  induction h with
  | one => rfl
  | more ho _ ih => simp [evens, ih, wc_quiet ho]

theorem evens_mem' {α : Type} : ∀ {as : List α} {a : α}, a ∈ evens as → a ∈ as
  | [], _, h => h
  | [a], _, h => h
  | a :: b :: as, x, h => by
    unfold evens at h
    rcases List.mem_cons.mp h with rfl | h
    · exact List.mem_cons_self
    · exact List.mem_cons_of_mem _ (List.mem_cons_of_mem _ (evens_mem' h))

/-! ### Tokens -/

section
variable {env : AEnv} {out : Tok → Prop}

theorem tok_stands {t : Tok} (h : t.kind = .String) {s : List UInt8}
    (hs : s = t.text ∨ s = inQuotes env.debug t.text ∨ s = nameInQuotes env.debug t.text) :
    Like env.debug out (wc (.tok t)) (wa (.string s (.of (t.start, t.stop)))) := by
  rw [wc_word (by rw [h]; rfl)]
  refine Like.to (Like.one (l := (.String, s, (t.start, t.stop))) ?_) rfl (wa_leaf rfl)
  refine ⟨rfl, ?_⟩
  rw [h]
  exact ⟨rfl, hs⟩

theorem nameText_find (s : List UInt8) : (match renamed.find? fun r => utf8 r.1 = s with | some r => r.2.text | none => s) = nameText s := by
  have h := Mean.renamed_find s
  unfold nameText
  cases hf : renamed.find? fun r => utf8 r.1 = s with
  | none => rw [Mean.renamed_none (by simpa using hf)]
  | some r =>
    rw [hf] at h
    cases hc : constant s with
    | none => rw [hc] at h; cases h
    | some n => rw [hc] at h; simpa using h

theorem sym_All : Sym.System_All.text = utf8 "All".toList := by decide +kernel
theorem sym_Null : Sym.System_Null.text = utf8 "Null".toList := by decide +kernel

theorem tokenAst_like (t : Tok) : Sat (fun a => Like env.debug out (wc (.tok t)) (wa a)) (tokenAst t) := by
  have quiet : ∀ {k : TK} {a : Ast}, t.kind = k → wordKind k = false → wa a = 0 → Like env.debug out (wc (.tok t)) (wa a) := fun h hk ha =>
    Like.to Like.zero (wc_kind h hk) ha
  have sym : ∀ {k : TK} {s : Sym}, t.kind = k → wordKind k = true → Stands env.debug (.Symbol, s.text, (t.start, t.stop)) t →
      Like env.debug out (wc (.tok t)) (wa (.symbol s (.of (t.start, t.stop)))) := fun h hk hs =>
    Like.to (Like.one hs) (wc_word (by rw [h]; exact hk)) (wa_leaf rfl)
  unfold tokenAst
  dsimp only
  split
  · rename_i h; exact Sat.any fun s => Sat.ok (quiet h rfl (by simp))
  · rename_i h; exact Sat.ok (quiet h rfl (by simp))
  · rename_i h; exact Sat.ok (quiet h rfl (by simp))
  · rename_i h; exact Sat.ok (quiet h rfl (by simp))
  · rename_i h; exact Sat.ok (quiet h rfl (by simp))
  · rename_i h; exact Sat.ok (quiet h rfl (by simp))
  · rename_i h; exact Sat.ok (quiet h rfl (by simp))
  · rename_i h; exact Sat.ok (quiet h rfl (by simp))
  · rename_i h; exact Sat.ok (quiet h rfl (by simp))
  · rename_i h; exact Sat.ok (sym h rfl ⟨rfl, by rw [h]; exact ⟨rfl, sym_All⟩⟩)
  · rename_i h; exact Sat.ok (sym h rfl ⟨rfl, by rw [h]; exact ⟨rfl, sym_Null⟩⟩)
  · rename_i h; exact Sat.ok (sym h rfl ⟨rfl, by rw [h]; exact ⟨rfl, sym_Null⟩⟩)
  · rename_i hall hpre hinf
    refine Sat.ite (fun he => Sat.ok ?_) fun he => Sat.ite (fun hs => ?_) fun hs => Sat.ok ?_
    · refine Like.to Like.zero (wc_quiet (not_word fun hk => ?_)) wa_error
      rcases word_error _ he hk with h | h
      · exact hpre h
      · exact hinf h
    · intro a ha
      obtain ⟨s, h1, h2⟩ := Build.bind_ok ha
      cases Build.asStr_ok h1
      have hn := nameText_find t.text
      have st : ∀ {x : List UInt8}, x = nameText t.text → Like env.debug out (wc (.tok t)) (wa (.leaf .Symbol x (.of (t.start, t.stop)))) := fun hx =>
        Like.to (Like.one (l := (.Symbol, _, (t.start, t.stop))) ⟨rfl, by rw [hs]; exact Or.inl ⟨rfl, hx⟩⟩) (wc_word (by rw [hs]; rfl)) (wa_leaf rfl)
      split at h2
      · rename_i r hr
        cases h2
        rw [hr] at hn
        exact st hn
      · rename_i hr
        cases h2
        rw [hr] at hn
        rw [hs]
        exact st hn
    · cases hk : wordKind t.kind with
      | false => exact Like.to Like.zero (wc_quiet hk) (wa_none hk)
      | true =>
        refine Like.to (Like.one (l := (t.kind, t.text, (t.start, t.stop))) ⟨rfl, ?_⟩) (wc_word hk) (wa_leaf hk)
        generalize t.kind = k at *
        cases k <;> first | (cases hk; done) | (exact absurd rfl hs) | exact ⟨rfl, Or.inl rfl⟩ | exact Or.inr ⟨rfl, rfl⟩ |
          exact absurd rfl (by assumption)
end

/-! ### Negation, products -/

section
variable {H : Marks}

theorem Plain.kids {k : NodeKind} {cs : List Cst} (h : Plain H (.node k cs)) : ∀ c ∈ cs, Plain H c := by
  cases h with
  | node _ h => exact h
theorem Plain.shape {k : NodeKind} {cs : List Cst} (h : Plain H (.node k cs)) : Shape H k cs := by
  cases h with
  | node h _ => exact h

theorem paren3 {o c e : Cst} (h : Plain H (.node (.group .CodeParser_GroupParen) [o, c, e])) : wcL [o, c, e] = wc c ∧ Plain H c := by
  refine ⟨?_, h.kids c (by simp)⟩
  have := h.shape
  generalize hcs : [o, c, e] = cs at this
  cases this with
  | @group _ o' mid c' h1 h2 h3 =>
    obtain ⟨rfl, h4⟩ := List.cons.inj hcs
    rcases mid with _ | ⟨m, _ | ⟨m', mid⟩⟩
    · simp at h4
    · simp only [List.cons_append, List.nil_append, List.cons.injEq, and_true] at h4
      obtain ⟨rfl, rfl⟩ := h4
      simp [wc_quiet h1, wc_quiet h2]
    · have := congrArg List.length h4
      simp at this

theorem prefix2 {op : PrefixOp} {cs : List Cst} (h : Plain H (.node (.prefix op) cs)) : ∃ o c, cs = [.tok o, c] ∧ Quiet o := by
  cases h.shape with
  | @«prefix» _ o r h1 => exact ⟨o, r, rfl, h1⟩

theorem prefix_words {op : PrefixOp} {o c : Cst} (h : Plain H (.node (.prefix op) [o, c])) : wcL [o, c] = wc c := by
  obtain ⟨o', c', h1, h2⟩ := prefix2 h
  cases h1
  simp [wc_quiet h2]

theorem paren_many {o c d e : Cst} {cs : List Cst} (h : Plain H (.node (.group .CodeParser_GroupParen) (o :: c :: d :: e :: cs))) :
    ∃ T, wcL (o :: c :: d :: e :: cs) = wc c + T ∧ ∀ t ∈ T, H.crowd t := by
  have := h.shape
  generalize hcs : o :: c :: d :: e :: cs = xs at this
  cases this with
  | @group _ o' mid c' h1 h2 h3 =>
    obtain ⟨rfl, h4⟩ := List.cons.inj hcs
    rcases mid with _ | ⟨m, _ | ⟨m', mid⟩⟩
    · have := congrArg List.length h4; simp at this
    · have := congrArg List.length h4; simp at this
    · obtain ⟨rfl, h5⟩ := List.cons.inj h4
      refine ⟨wcL (m' :: mid), by simp [wc_quiet h1, wc_quiet h2], fun t ht => ?_⟩
      rcases h3 rfl with h6 | h6
      · simp at h6
      · refine h6 t ?_
        have : t ∈ wcL (c :: m' :: mid) := by rw [wcL_cons]; exact Multiset.mem_add.mpr (Or.inr ht)
        exact this

/-- The second words are the first ones, perhaps without some between crowded parentheses. -/
def Short (H : Marks) (T T' : Multiset Tok) : Prop := ∃ D, T = T' + D ∧ ∀ t ∈ D, H.crowd t

theorem Short.of {T T' : Multiset Tok} (h : T' = T) : Short H T T' := ⟨0, by simp [h], by simp⟩
theorem Short.add {T T' S S' : Multiset Tok} (h : Short H T T') (h' : Short H S S') : Short H (T + S) (T' + S') := by
  obtain ⟨D, rfl, h1⟩ := h
  obtain ⟨E, rfl, h2⟩ := h'
  refine ⟨D + E, add_add_add_comm _ _ _ _, fun t ht => ?_⟩
  rcases Multiset.mem_add.mp ht with ht | ht
  · exact h1 t ht
  · exact h2 t ht
theorem Short.to {T T' S S' : Multiset Tok} (h : Short H T T') (h1 : S = T) (h2 : S' = T') : Short H S S' := h1 ▸ h2 ▸ h
theorem Short.less {T T' S : Multiset Tok} (h : Short H T T') (hs : ∀ t ∈ S, H.crowd t) : Short H (T + S) T' :=
  (h.add (S := S) (S' := 0) ⟨S, by simp, hs⟩).to rfl (by simp)

/-- The words of what is negated. -/
def wn : Negated → Multiset Tok
  | .times cs => wcL (evens cs)
  | _ => 0
/-- What is negated consists of plain trees. -/
def PlainN (H : Marks) : Negated → Prop
  | .times cs => ∀ c ∈ evens cs, Plain H c
  | _ => True
/-- The words of an operand. -/
def wo : AOperand → Multiset Tok
  | .cst c => wc c
  | .recip c _ => wc c
  | .negOne => 0
  | .neg g _ => wn g
/-- The operand consists of plain trees. -/
def PlainO (H : Marks) : AOperand → Prop
  | .cst c => Plain H c
  | .recip c _ => Plain H c
  | .negOne => True
  | .neg g _ => PlainN H g

/-- What is negated has the words of the tree. -/
abbrev NegIs (H : Marks) (T : Multiset Tok) (g : Negated) : Prop := PlainN H g ∧ Short H T (wn g)

theorem negIs_one {c : Cst} (h : Plain H c) : NegIs H (wc c) (.times [c]) := ⟨fun x hx => by cases List.mem_singleton.mp hx; exact h, .of wcL_one⟩

theorem negIs_times {cs : List Cst} (h : Plain H (.node (.infix .Times) cs)) : NegIs H (wcL cs) (.times cs) := by
  refine ⟨fun c hc => h.kids c (evens_mem' hc), ?_⟩
  cases h.shape with
  | «infix» h => exact .of (alt_evens h)

theorem Sat.with {α β : Type} {Q : β → Prop} {x : A α} {f : α → A β} (hf : ∀ a, x = .ok a → Sat Q (f a)) : Sat Q (x >>= f) :=
  Sat.bind (P := fun a => x = .ok a) (fun _ h => h) hf

theorem negate_is : ∀ (c : Cst), Plain H c → Sat (NegIs H (wc c)) (negate c)
  | .tok t, h => by
    simp only [negate]
    refine Sat.ite (fun hk => Sat.any fun s => Sat.ok ?_) fun _ => Sat.ite (fun hk => Sat.ok ⟨trivial, .of (wc_kind hk rfl).symm⟩) fun _ => Sat.ok (negIs_one h)
    split <;> exact ⟨trivial, .of (wc_kind hk rfl).symm⟩
  | .node k [o, c, e], h => by
    have hc : Plain H c := h.kids _ (by simp)
    simp only [negate]
    refine Sat.ite (fun hk => ?_) fun _ => Sat.ite (fun hk => ?_) fun _ =>
      Sat.ite (fun hk => Sat.ok (by subst hk; exact negIs_times h)) fun _ => Sat.ok (negIs_one h)
    · subst hk
      have h1 := negIs_one h
      rw [wc_node, (paren3 h).1] at *
      exact Sat.any fun z => Sat.ite (fun _ => negate_is c hc) fun _ => Sat.any fun z => Sat.ite (fun _ => negate_is c hc) fun _ => Sat.ok h1
    · subst hk
      obtain ⟨o', c', h1, -⟩ := prefix2 h
      cases h1
  | .node k [], h => by
    simp only [negate]
    exact Sat.ite (fun _ => Sat.fail) fun _ => Sat.ite (fun _ => Sat.fail) fun _ => Sat.ite (fun hk => Sat.ok (by subst hk; exact negIs_times h)) fun _ => Sat.ok (negIs_one h)
  | .node k [_], h => by
    simp only [negate]
    exact Sat.ite (fun _ => Sat.fail) fun _ => Sat.ite (fun _ => Sat.fail) fun _ => Sat.ite (fun hk => Sat.ok (by subst hk; exact negIs_times h)) fun _ => Sat.ok (negIs_one h)
  | .node k [o, c], h => by
    have hc : Plain H c := h.kids _ (by simp)
    simp only [negate]
    refine Sat.ite (fun hk => ?_) fun _ => Sat.ite (fun hk => ?_) fun _ =>
      Sat.ite (fun hk => Sat.ok (by subst hk; exact negIs_times h)) fun _ => Sat.ok (negIs_one h)
    · subst hk
      refine Sat.any fun z => Sat.ite (fun hz' => ?_) fun _ => Sat.fail
      have h0 : wc c = 0 := by
        have := h.shape
        generalize hcs : [o, c] = cs at this
        cases this with
        | @group _ o' mid c' h1 h2 h3 =>
          obtain ⟨rfl, h4⟩ := List.cons.inj hcs
          rcases mid with _ | ⟨m, mid⟩
          · cases h4; exact wc_quiet h2
          · have := congrArg List.length h4
            simp at this
      have h1 : wc o = 0 := by
        have := h.shape
        generalize hcs : [o, c] = cs at this
        cases this with
        | @group _ o' mid c' h1 h2 h3 =>
          obtain ⟨rfl, h4⟩ := List.cons.inj hcs
          exact wc_quiet h1
      have := negate_is c hc
      rw [h0] at this
      simpa [h0, h1] using this
    · subst hk
      have h1 := negIs_one h
      rw [wc_node, prefix_words h] at *
      exact Sat.any fun z => Sat.ite (fun _ => negate_is c hc) fun _ => Sat.ok h1
  | .node k (_ :: c :: _ :: _ :: _), h => by
    have hc : Plain H c := h.kids _ (by simp)
    simp only [negate]
    refine Sat.ite (fun hk => ?_) fun _ => Sat.ite (fun hk => ?_) fun _ =>
      Sat.ite (fun hk => Sat.ok (by subst hk; exact negIs_times h)) fun _ => Sat.ok (negIs_one h)
    · subst hk
      obtain ⟨T, h1, h2⟩ := paren_many h
      rw [wc_node, h1]
      exact Sat.any fun z => Sat.ite (fun _ => (negate_is c hc).mono fun g hg => ⟨hg.1, hg.2.less h2⟩) fun _ => Sat.fail
    · subst hk
      obtain ⟨o', c', h1, -⟩ := prefix2 h
      cases h1
  | .call .., h => Sat.ok (negIs_one h)
  | .callAgg .., h => Sat.ok (negIs_one h)
  | .box .., h => Sat.ok (negIs_one h)
  | .code .., h => Sat.ok (negIs_one h)

/-! ### Products and sums -/

/-- The operands have the words of the tree. -/
abbrev OpsAre (H : Marks) (T : Multiset Tok) (os : List AOperand) : Prop := (∀ o ∈ os, PlainO H o) ∧ Short H T (os.map wo).sum

theorem opsAre_one {c : Cst} (h : Plain H c) : OpsAre H (wc c) [.cst c] := ⟨fun o ho => by cases List.mem_singleton.mp ho; exact h, .of (by simp [wo])⟩

theorem opsAre_add {T T' : Multiset Tok} {os os' : List AOperand} (h : OpsAre H T os) (h' : OpsAre H T' os') : OpsAre H (T + T') (os ++ os') := by
  refine ⟨fun o ho => ?_, (h.2.add h'.2).to rfl (by rw [List.map_append, List.sum_append])⟩
  rcases List.mem_append.mp ho with ho | ho
  · exact h.1 o ho
  · exact h'.1 o ho

mutual
theorem flat_are {b : Bool} {data : ASrc} : ∀ (c : Cst), Plain H c → Sat (OpsAre H (wc c)) (flat b data c)
  | .node k cs, h => by
    unfold flat
    refine Sat.ite (fun hk => ?_) fun _ => Sat.ite (fun hk => ?_) fun _ => Sat.ite (fun hk => ?_) fun _ => Sat.ok (opsAre_one h)
    · subst hk
      obtain ⟨o, c, rfl, h1⟩ := prefix2 h
      rw [wc_node, prefix_words h]
      exact flatMinus_are h
    · subst hk
      have h1 := flatEvens_are (b := b) (data := data) cs h.kids
      cases h.shape with
      | «infix» h2 => rw [alt_evens h2] at h1; exact h1
    · subst hk
      rw [wc_node]
      cases h.shape with
      | @binary _ l o r h1 h2 =>
        have : wcL [l, .tok o, r] = wc l + wc r := by simp [wc_quiet h1]
        rw [this]
        exact flatDivide_are h this
  | .tok t, h => Sat.ok (opsAre_one h)
  | .call .., h => Sat.ok (opsAre_one h)
  | .callAgg .., h => Sat.ok (opsAre_one h)
  | .box .., h => Sat.ok (opsAre_one h)
  | .code .., h => Sat.ok (opsAre_one h)
theorem flatEvens_are {b : Bool} {data : ASrc} : ∀ (cs : List Cst), (∀ c ∈ cs, Plain H c) → Sat (OpsAre H (wcL (evens cs))) (flatEvens b data cs)
  | [], _ => Sat.ok ⟨by simp, .of rfl⟩
  | [c], h => by
    unfold flatEvens
    have := flat_are (b := b) (data := data) c (h c (by simp))
    rwa [← wcL_one (c := c)] at this
  | c :: _ :: cs, h => by
    unfold flatEvens
    refine Sat.bind (flat_are c (h c (by simp))) fun as ha => Sat.bind (flatEvens_are cs fun d hd => h d (by simp [hd])) fun bs hb => Sat.ok ?_
    simp only [evens, wcL_cons]
    exact opsAre_add ha hb
theorem flatMinus_are {b : Bool} {data : ASrc} {o c : Cst} (hn : Plain H (.node (.prefix .Minus) [o, c])) :
    Sat (OpsAre H (wc c)) (flatMinus b data (.node (.prefix .Minus) [o, c]) [o, c]) := by
  have hc : Plain H c := hn.kids _ (by simp)
  unfold flatMinus
  refine Sat.any fun z => Sat.ite (fun _ => ?_) fun _ => Sat.ite (fun _ => ?_) fun _ => Sat.ok ?_
  · exact Sat.bind (negate_is c hc) fun g hg => Sat.ok ⟨fun o ho => by cases List.mem_singleton.mp ho; exact hg.1, hg.2.to rfl (by simp [wo])⟩
  · refine Sat.bind (flat_are c hc) fun os ho => Sat.ok ⟨fun o h => ?_, ho.2.to rfl (by simp [wo])⟩
    rcases List.mem_cons.mp h with rfl | h
    · trivial
    · exact ho.1 o h
  · have := opsAre_one hn
    rwa [wc_node, prefix_words hn] at this
theorem flatDivide_are {b : Bool} {data : ASrc} {l o r : Cst} (hn : Plain H (.node (.binary .Divide) [l, o, r])) (he : wcL [l, o, r] = wc l + wc r) :
    Sat (OpsAre H (wc l + wc r)) (flatDivide b data (.node (.binary .Divide) [l, o, r]) [l, o, r]) := by
  unfold flatDivide
  refine Sat.ite (fun _ => Sat.bind (flat_are l (hn.kids _ (by simp))) fun os ho => Sat.ok (opsAre_add ho ⟨fun o h => ?_, .of (by simp [wo])⟩)) fun _ => Sat.ok ?_
  · cases List.mem_singleton.mp h
    exact hn.kids r (by simp)
  · have := opsAre_one hn
    rwa [wc_node, he] at this
end

theorem flatL_are {b : Bool} {data : ASrc} : ∀ (cs : List Cst), (∀ c ∈ cs, Plain H c) → Sat (OpsAre H (wcL cs)) (flatL b data cs)
  | [], _ => Sat.ok ⟨by simp, .of rfl⟩
  | c :: cs, h => by
    unfold flatL
    refine Sat.bind (flat_are c (h c (by simp))) fun as ha => Sat.bind (flatL_are cs fun d hd => h d (by simp [hd])) fun bs hb => Sat.ok ?_
    rw [wcL_cons]
    exact opsAre_add ha hb

theorem flattenPlus_is : ∀ (c : Cst), Plain H c → Sat (fun d => Plain H d ∧ wc d = wc c) (flattenPlus c)
  | .node k [o, c], h => by
    unfold flattenPlus
    refine Sat.ite (fun hk => ?_) fun _ => Sat.ok ⟨h, rfl⟩
    subst hk
    rw [wc_node, prefix_words h]
    exact flattenPlus_is c (h.kids _ (by simp))
  | .node k [], h => by simp only [flattenPlus]; exact Sat.ite (fun _ => Sat.fail) fun _ => Sat.ok ⟨h, rfl⟩
  | .node k [_], h => by simp only [flattenPlus]; exact Sat.ite (fun _ => Sat.fail) fun _ => Sat.ok ⟨h, rfl⟩
  | .node k (_ :: _ :: _ :: _), h => by simp only [flattenPlus]; exact Sat.ite (fun _ => Sat.fail) fun _ => Sat.ok ⟨h, rfl⟩
  | .tok t, h => Sat.ok ⟨h, rfl⟩
  | .call .., h => Sat.ok ⟨h, rfl⟩
  | .callAgg .., h => Sat.ok ⟨h, rfl⟩
  | .box .., h => Sat.ok ⟨h, rfl⟩
  | .code .., h => Sat.ok ⟨h, rfl⟩

theorem derivativeBody_is : ∀ (c : Cst), Plain H c → Sat (fun r => Plain H r.2 ∧ wc r.2 = wc c) (derivativeBody c)
  | .node k [c, o], h => by
    unfold derivativeBody
    refine Sat.ite (fun hk => ?_) fun _ => Sat.ok ⟨h, rfl⟩
    subst hk
    refine Sat.bind (derivativeBody_is c (h.kids _ (by simp))) fun r hr => Sat.ok ⟨hr.1, hr.2.trans ?_⟩
    cases h.shape with
    | «postfix» h1 => simp [wc_quiet h1]
  | .node k [], h => by simp only [derivativeBody]; exact Sat.ite (fun _ => Sat.fail) fun _ => Sat.ok ⟨h, rfl⟩
  | .node k [_], h => by simp only [derivativeBody]; exact Sat.ite (fun _ => Sat.fail) fun _ => Sat.ok ⟨h, rfl⟩
  | .node k (_ :: _ :: _ :: _), h => by simp only [derivativeBody]; exact Sat.ite (fun _ => Sat.fail) fun _ => Sat.ok ⟨h, rfl⟩
  | .tok t, h => Sat.ok ⟨h, rfl⟩
  | .call .., h => Sat.ok ⟨h, rfl⟩
  | .callAgg .., h => Sat.ok ⟨h, rfl⟩
  | .box .., h => Sat.ok ⟨h, rfl⟩
  | .code .., h => Sat.ok ⟨h, rfl⟩

/-- The tree has the words of another one, perhaps without one that is left out. -/
abbrev Fewer (H : Marks) (out : Tok → Prop) (T : Multiset Tok) (c : Cst) : Prop := Plain H c ∧ ∃ D, T = wc c + D ∧ ∀ t ∈ D, out t

theorem Fewer.self {out : Tok → Prop} {c : Cst} (h : Plain H c) : Fewer H out (wc c) c := ⟨h, 0, by simp, by simp⟩

/-- What is left out. -/
structure Outs (env : AEnv) (H : Marks) (out : Tok → Prop) : Prop where
  comma {t} : t.kind = .Symbol → nameText t.text = utf8 "CodeParser`Comma".toList → out t
  quirk {t} {op : InfixOp} : env.infixBinaryAt = true → t.kind = .Symbol → t.text = op.toSymbol.short → H.head t → out t
  crowd {t} : H.crowd t → out t

theorem binaryAt_is {env : AEnv} {out : Tok → Prop} (O : Outs env H out) {op : InfixOp} (c : Cst) (h : Plain H c) :
    Sat (Fewer H out (wc c)) (binaryAt env op.toSymbol.short c) := by
  unfold binaryAt
  refine Sat.ite (fun _ => Sat.ok (.self h)) fun hq => ?_
  split
  · rename_i k cs
    refine Sat.ite (fun hk => ?_) fun _ => Sat.ok (.self h)
    subst hk
    cases h.shape with
    | @binary _ l o r h1 h2 =>
      show Sat _ (match l with | .tok t => _ | _ => _)
      split
      · rename_i t
        refine Sat.ite (fun hk => ?_) fun _ => Sat.ok (.self h)
        refine Sat.with fun s hs' => Sat.ite (fun he => Sat.ite (fun _ => Sat.ok ⟨h.kids r (by simp), {t}, ?_, fun s hs => ?_⟩) fun _ => Sat.fail) fun _ => Sat.ok (.self h)
        · rw [wc_node, wcL_cons, wcL_cons, wcL_one, wc_quiet h1, wc_word (by rw [hk]; rfl), zero_add, add_comm]
        · cases Multiset.mem_singleton.mp hs
          exact O.quirk (by simpa using hq) hk (by rw [← he]; exact (Build.asStr_ok hs').symm) (h2 rfl t rfl)
      · exact Sat.ok (.self h)
  · exact Sat.ok (.self h)
end
end CodeParser.Words
