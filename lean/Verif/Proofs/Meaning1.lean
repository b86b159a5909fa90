import Verif.Spec.Meaning
import Verif.Props.Aggregate
import Verif.Model.Abstract
/-!
The aggregated trees of written expressions (helper lemmas for C50).
-/
namespace CodeParser.Mean
open CodeParser Spec Props

/-- The token is this lexeme. -/
def Same (t : Tok) (x : Lexeme) : Prop := t.kind = x.1 ∧ t.text = x.2

/-- `d` is an aggregated tree of the pattern or slot. -/
def RepC : Compound → Cst → Prop
  | .blank u h op _ _, d => ∃ s t, d = .node (.compound op) [.tok s, .tok t] ∧ Same s u ∧ Same t h
  | .named x u op _ _, d => ∃ s t, d = .node (.compound op) [.tok s, .tok t] ∧ Same s x ∧ Same t u
  | .typed x u h op op' _ _ _ _, d => ∃ r s t, d = .node (.compound op') [.tok r, .node (.compound op) [.tok s, .tok t]] ∧
      Same r x ∧ Same s u ∧ Same t h
  | .slot s n op _ _ _, d => ∃ r t, d = .node (.compound op) [.tok r, .tok t] ∧ Same r s ∧ Same t n
  | .slotName s n _ _, d => ∃ r t, d = .node (.compound .Slot) [.tok r, .tok t] ∧ Same r s ∧ Same t (.String, n.2)

mutual
/-- `d` is an aggregated tree of the expression. -/
def Rep : Spec.Form → Cst → Prop
  | .atom x, d => ∃ t : Tok, d = .tok t ∧ t.kind = x.1 ∧ t.text = x.2
  | .group o b, d => ∃ s mid e, d = .node (.group o.op) (.tok s :: (mid ++ [.tok e])) ∧ RepB b mid
  | .call f o b, d => ∃ h s mid e, d = .callAgg h false o.op (.tok s :: (mid ++ [.tok e])) ∧ Rep f h ∧ RepB b mid
  | .binary l o r, d => ∃ x t y, d = .node (.binary o.op) [x, .tok t, y] ∧ t.kind = o.lex.1 ∧ Rep l x ∧ Rep r y
  | .chain op _ f t, d => ∃ c cs, d = .node (.infix op) (c :: cs) ∧ Rep f c ∧ RepT t cs
  | .prefix o f, d => ∃ t c, d = .node (.prefix o.op) [.tok t, c] ∧ Rep f c
  | .postfix f o, d => ∃ c t, d = .node (.postfix o.op) [c, .tok t] ∧ t.kind = o.lex.1 ∧ Rep f c
  | .compound c, d => RepC c d
  | .semi f t, d => ∃ c cs, d = .node (.infix .CompoundExpression) (c :: cs) ∧ Rep f c ∧ RepS t cs
  | .ternary l o m r, d => ∃ x t y t' z, d = .node (.ternary o.op) [x, .tok t, y, .tok t', z] ∧ Rep l x ∧ Rep m y ∧ Rep r z
  | .unset f e d', d => ∃ c t t', d = .node (.binary .Unset) [c, .tok t, .tok t'] ∧ t.kind = e.1 ∧ t'.kind = d'.1 ∧ Rep f c
  | .tagUnset l _ m e d', d => ∃ x s y t t', d = .node (.ternary .TagUnset) [x, .tok s, y, .tok t, .tok t'] ∧ t.kind = e.1 ∧
      t'.kind = d'.1 ∧ Rep l x ∧ Rep m y
  | .pattern x _ r, d => ∃ s t y, d = .node (.binary .Pattern) [.tok s, .tok t, y] ∧ Same s x ∧ Rep r y
  | .optional l _ r, d => ∃ x t y, d = .node (.binary .Optional) [x, .tok t, y] ∧ Rep l x ∧ Rep r y
  | .span l _ e, d => ∃ x t ds, d = .node e.kind (x :: .tok t :: ds) ∧ Rep l x ∧ RepE e ds
  | .spanFrom _ e, d => ∃ s t ds, d = .node e.kind (.tok s :: .tok t :: ds) ∧ s.kind = .Fake_ImplicitOne ∧ RepE e ds
/-- The same for what is behind a `;;`. -/
def RepE : Reach → List Cst → Prop
  | .all, ds => ∃ n, ds = [.tok n] ∧ n.kind = .Fake_ImplicitAll
  | .to f, ds => ∃ c, ds = [c] ∧ Rep f c
  | .step f _ g, ds => ∃ c t c', ds = [c, .tok t, c'] ∧ Rep f c ∧ Rep g c'
  | .allStep _ g, ds => ∃ n t c, ds = [.tok n, .tok t, c] ∧ n.kind = .Fake_ImplicitAll ∧ Rep g c
/-- The same for what is between brackets. -/
def RepB : Body → List Cst → Prop
  | .empty, ds => ds = []
  | .one f, ds => ∃ c, ds = [c] ∧ Rep f c
  | .many f t, ds => ∃ c cs, ds = [.node (.infix .CodeParser_Comma) (c :: cs)] ∧ Rep f c ∧ RepT t cs
  | .gaps _ _, ds | .gap _, ds => ∃ c cs, ds = [.node (.infix .CodeParser_Comma) (c :: cs)]
/-- The same for operators and operands. -/
def RepT : Tail → List Cst → Prop
  | .last o f, ds => ∃ t c, ds = [.tok t, c] ∧ t.kind = o.1 ∧ Rep f c
  | .more o f tl, ds => ∃ t c cs, ds = .tok t :: c :: cs ∧ t.kind = o.1 ∧ Rep f c ∧ RepT tl cs
/-- The same for semicolons and operands. -/
def RepS : Semis → List Cst → Prop
  | .stop _, ds => ∃ t n, ds = [.tok t, .tok n] ∧ n.kind = .Fake_ImplicitNull
  | .last _ f, ds => ∃ t c, ds = [.tok t, c] ∧ Rep f c
  | .skip _ tl, ds => ∃ t n cs, ds = .tok t :: .tok n :: cs ∧ n.kind = .Fake_ImplicitNull ∧ RepS tl cs
  | .more _ f tl, ds => ∃ t c cs, ds = .tok t :: c :: cs ∧ Rep f c ∧ RepS tl cs
end

theorem plain_tok {c : Cst} {x : Lexeme} (h : plain c = leaf x) : ∃ t : Tok, c = .tok t ∧ t.kind = x.1 ∧ t.text = x.2 := by
  cases c with
  | tok t =>
    rw [plain] at h
    simp only [leaf, Cst.tok.injEq, Tok.mk.injEq] at h
    exact ⟨t, rfl, h.1, h.2.1⟩
  | _ => simp [plain, leaf] at h

theorem plain_node {c : Cst} {k : NodeKind} {xs : List Cst} (h : plain c = .node k xs) : ∃ cs, c = .node k cs ∧ plains cs = xs := by
  cases c with
  | node k' cs => rw [plain] at h; cases h; exact ⟨cs, rfl, rfl⟩
  | _ => simp [plain, leaf] at h

theorem plain_call {c : Cst} {hs xs : List Cst} {m : Bool} {op : CallOp} (h : plain c = .call hs m op xs) :
    ∃ h' cs, c = .call h' m op cs ∧ plains h' = hs ∧ plains cs = xs := by
  cases c with
  | call h' m' op' cs => rw [plain] at h; cases h; exact ⟨h', cs, rfl, rfl, rfl⟩
  | _ => simp [plain, leaf] at h

/-- `d` is a stripped tree that is `x`, apart from blanks. -/
def Is (x d : Cst) : Prop := ∃ c, CodeParser.Form c ∧ Stripped c d ∧ plain c = x

/-- The same for sequences. -/
def Are (xs ds : List Cst) : Prop := ∃ cs, (∀ c ∈ cs, CodeParser.Form c) ∧ StrippedL cs ds ∧ plains cs = xs

theorem isTrivia_form {c : Cst} (h : CodeParser.Form c) (ht : c.isTrivia = true) : ∃ t, c = .tok t ∧ isGap t.kind = true := by
  cases h with
  | tok h => exact ⟨_, rfl, (trivia_white _ h) ▸ ht⟩
  | node => cases ht
  | call => cases ht

theorem are_cons {x : Cst} {xs ds : List Cst} (h : Are (x :: xs) ds) : ∃ d ds', ds = d :: ds' ∧ Is x d ∧ Are xs ds' := by
  obtain ⟨cs, hf, hs, hp⟩ := h
  induction cs generalizing ds with
  | nil => simp [plains] at hp
  | cons c cs ih =>
    rw [plains] at hp
    cases hs with
    | drop h1 h2 =>
      rename_i t
      have : (Cst.tok t).isTrivia = true := by
        have := hf (.tok t) (by simp)
        cases this with
        | tok h => exact (trivia_white _ h).trans h1
      rw [if_pos this] at hp
      exact ih (fun c hc => hf c (by simp [hc])) h2 hp
    | keep h1 h2 =>
      rename_i d ds'
      have : ¬ c.isTrivia = true := by
        intro ht
        obtain ⟨t, rfl, hg⟩ := isTrivia_form (hf c (by simp)) ht
        cases h1 with
        | tok h => rw [h] at hg; cases hg
      rw [if_neg this] at hp
      cases hp
      exact ⟨d, ds', rfl, ⟨c, hf c (by simp), h1, rfl⟩, cs, fun c hc => hf c (by simp [hc]), h2, rfl⟩

theorem are_nil {ds : List Cst} (h : Are [] ds) : ds = [] := by
  obtain ⟨cs, hf, hs, hp⟩ := h
  induction cs generalizing ds with
  | nil => cases hs; rfl
  | cons c cs ih =>
    rw [plains] at hp
    cases hs with
    | drop h1 h2 =>
      split at hp
      · exact ih (fun c hc => hf c (by simp [hc])) h2 hp
      · cases hp
    | keep h1 h2 =>
      split at hp
      · next ht =>
        obtain ⟨t, rfl, hg⟩ := isTrivia_form (hf c (by simp)) ht
        cases h1 with
        | tok h => rw [h] at hg; cases hg
      · cases hp

theorem are_append {xs ys : List Cst} : ∀ {ds : List Cst}, Are (xs ++ ys) ds → ∃ d1 d2, ds = d1 ++ d2 ∧ Are xs d1 ∧ Are ys d2 := by
  induction xs with
  | nil => intro ds h; exact ⟨[], ds, rfl, ⟨[], by simp, .nil, rfl⟩, h⟩
  | cons x xs ih =>
    intro ds h
    obtain ⟨d, ds', rfl, ⟨c, hc1, hc2, hc3⟩, h2⟩ := are_cons h
    obtain ⟨d1, d2, rfl, ⟨cs, h3, h4, h5⟩, h6⟩ := ih h2
    refine ⟨d :: d1, d2, rfl, ⟨c :: cs, ?_, .keep hc2 h4, ?_⟩, h6⟩
    · intro c' hc'
      rcases List.mem_cons.mp hc' with rfl | hc'
      · exact hc1
      · exact h3 c' hc'
    · have : ¬ c.isTrivia = true := by
        intro ht
        obtain ⟨t, rfl, hg⟩ := isTrivia_form hc1 ht
        cases hc2 with
        | tok hq => rw [hq] at hg; cases hg
      rw [plains, if_neg this, hc3, h5]

theorem is_tok {x : Lexeme} {d : Cst} (h : Is (leaf x) d) : ∃ t : Tok, d = .tok t ∧ t.kind = x.1 ∧ t.text = x.2 := by
  obtain ⟨c, h1, h2, h3⟩ := h
  obtain ⟨t, rfl, h4, h5⟩ := plain_tok h3
  cases h2
  exact ⟨t, rfl, h4, h5⟩

theorem is_node {k : NodeKind} {xs : List Cst} {d : Cst} (h : Is (.node k xs) d) : ∃ ds, d = .node k ds ∧ Are xs ds := by
  obtain ⟨c, h1, h2, h3⟩ := h
  obtain ⟨cs, rfl, h4⟩ := plain_node h3
  cases h1 with
  | node _ h1 =>
    cases h2 with
    | node h2 => exact ⟨_, rfl, cs, h1, h2, h4⟩

theorem is_call {hd : Cst} {m : Bool} {op : CallOp} {xs : List Cst} {d : Cst} (h : Is (.call [hd] m op xs) d) :
    ∃ e ds, d = .callAgg e m op ds ∧ Is hd e ∧ Are xs ds := by
  obtain ⟨c, h1, h2, h3⟩ := h
  obtain ⟨h', cs, rfl, h4, h5⟩ := plain_call h3
  cases h1 with
  | call _ h6 h7 =>
    cases h2 with
    | call h8 h9 =>
      obtain ⟨d, ds', e, h10, h11⟩ := are_cons ⟨h', h6, h8, h4⟩
      cases e
      exact ⟨_, _, rfl, h10, cs, h7, h9, h5⟩

theorem are_two {x y : Lexeme} {ds : List Cst} (h : Are [leaf x, leaf y] ds) :
    ∃ s t, ds = [.tok s, .tok t] ∧ Same s x ∧ Same t y := by
  obtain ⟨s, ds, rfl, hs, h1⟩ := are_cons h
  obtain ⟨t, ds, rfl, ht, h2⟩ := are_cons h1
  obtain rfl := are_nil h2
  obtain ⟨s, rfl, hs'⟩ := is_tok hs
  obtain ⟨t, rfl, ht'⟩ := is_tok ht
  exact ⟨s, t, rfl, hs', ht'⟩

theorem is_repC : ∀ {c : Compound} {d : Cst}, Is c.cst d → RepC c d
  | .blank .., d, h => by
    obtain ⟨ds, rfl, h1⟩ := is_node h
    obtain ⟨s, t, rfl, h2⟩ := are_two h1
    exact ⟨s, t, rfl, h2⟩
  | .named .., d, h => by
    obtain ⟨ds, rfl, h1⟩ := is_node h
    obtain ⟨s, t, rfl, h2⟩ := are_two h1
    exact ⟨s, t, rfl, h2⟩
  | .slot .., d, h => by
    obtain ⟨ds, rfl, h1⟩ := is_node h
    obtain ⟨s, t, rfl, h2⟩ := are_two h1
    exact ⟨s, t, rfl, h2⟩
  | .slotName .., d, h => by
    obtain ⟨ds, rfl, h1⟩ := is_node h
    obtain ⟨s, t, rfl, h2⟩ := are_two h1
    exact ⟨s, t, rfl, h2⟩
  | .typed .., d, h => by
    obtain ⟨ds, rfl, h1⟩ := is_node h
    obtain ⟨r, ds, rfl, hr, h2⟩ := are_cons h1
    obtain ⟨n, ds, rfl, hn, h3⟩ := are_cons h2
    obtain rfl := are_nil h3
    obtain ⟨r, rfl, hr'⟩ := is_tok hr
    obtain ⟨ds, rfl, h4⟩ := is_node hn
    obtain ⟨s, t, rfl, h5⟩ := are_two h4
    exact ⟨r, s, t, rfl, hr', h5⟩

mutual
theorem is_rep : ∀ {f : Spec.Form} {d : Cst}, Is f.cst d → Rep f d
  | .atom x, d, h => is_tok h
  | .group o b, d, h => by
    obtain ⟨ds, rfl, h1⟩ := is_node h
    obtain ⟨s, ds, rfl, hs, h2⟩ := are_cons h1
    obtain ⟨mid, e, rfl, hm, h3⟩ := are_append h2
    obtain ⟨e, n, rfl, he, hn⟩ := are_cons h3
    obtain rfl := are_nil hn
    obtain ⟨s, rfl, -⟩ := is_tok hs
    obtain ⟨e, rfl, -⟩ := is_tok he
    exact ⟨s, mid, e, rfl, are_repB hm⟩
  | .call f o b, d, h => by
    obtain ⟨hd, ds, rfl, hf, h1⟩ := is_call h
    obtain ⟨s, ds, rfl, hs, h2⟩ := are_cons h1
    obtain ⟨mid, e, rfl, hm, h3⟩ := are_append h2
    obtain ⟨e, n, rfl, he, hn⟩ := are_cons h3
    obtain rfl := are_nil hn
    obtain ⟨s, rfl, -⟩ := is_tok hs
    obtain ⟨e, rfl, -⟩ := is_tok he
    exact ⟨hd, s, mid, e, rfl, is_rep hf, are_repB hm⟩
  | .binary l o r, d, h => by
    obtain ⟨ds, rfl, h1⟩ := is_node h
    obtain ⟨x, ds, rfl, hx, h2⟩ := are_cons h1
    obtain ⟨t, ds, rfl, ht, h3⟩ := are_cons h2
    obtain ⟨y, ds, rfl, hy, h4⟩ := are_cons h3
    obtain rfl := are_nil h4
    obtain ⟨t, rfl, hk, -⟩ := is_tok ht
    exact ⟨x, t, y, rfl, hk, is_rep hx, is_rep hy⟩
  | .chain op _ f t, d, h => by
    obtain ⟨ds, rfl, h1⟩ := is_node h
    obtain ⟨x, ds, rfl, hx, h2⟩ := are_cons h1
    exact ⟨x, ds, rfl, is_rep hx, are_repT h2⟩
  | .prefix o f, d, h => by
    obtain ⟨ds, rfl, h1⟩ := is_node h
    obtain ⟨t, ds, rfl, ht, h2⟩ := are_cons h1
    obtain ⟨x, ds, rfl, hx, h3⟩ := are_cons h2
    obtain rfl := are_nil h3
    obtain ⟨t, rfl, hk, -⟩ := is_tok ht
    exact ⟨t, x, rfl, is_rep hx⟩
  | .postfix f o, d, h => by
    obtain ⟨ds, rfl, h1⟩ := is_node h
    obtain ⟨x, ds, rfl, hx, h2⟩ := are_cons h1
    obtain ⟨t, ds, rfl, ht, h3⟩ := are_cons h2
    obtain rfl := are_nil h3
    obtain ⟨t, rfl, hk, -⟩ := is_tok ht
    exact ⟨x, t, rfl, hk, is_rep hx⟩
  | .compound c, d, h => is_repC h
  | .semi f t, d, h => by
    obtain ⟨ds, rfl, h1⟩ := is_node h
    obtain ⟨x, ds, rfl, hx, h2⟩ := are_cons h1
    exact ⟨x, ds, rfl, is_rep hx, are_repS h2⟩
  | .ternary l o m r, d, h => by
    obtain ⟨ds, rfl, h1⟩ := is_node h
    obtain ⟨x, ds, rfl, hx, h2⟩ := are_cons h1
    obtain ⟨t, ds, rfl, ht, h3⟩ := are_cons h2
    obtain ⟨y, ds, rfl, hy, h4⟩ := are_cons h3
    obtain ⟨t', ds, rfl, ht', h5⟩ := are_cons h4
    obtain ⟨z, ds, rfl, hz, h6⟩ := are_cons h5
    obtain rfl := are_nil h6
    obtain ⟨t, rfl, -⟩ := is_tok ht
    obtain ⟨t', rfl, -⟩ := is_tok ht'
    exact ⟨x, t, y, t', z, rfl, is_rep hx, is_rep hy, is_rep hz⟩
  | .unset f e dot, d, h => by
    obtain ⟨ds, rfl, h1⟩ := is_node h
    obtain ⟨x, ds, rfl, hx, h2⟩ := are_cons h1
    obtain ⟨s, t, rfl, hs, ht⟩ := are_two h2
    exact ⟨x, s, t, rfl, hs.1, ht.1, is_rep hx⟩
  | .tagUnset l o m e dot, d, h => by
    obtain ⟨ds, rfl, h1⟩ := is_node h
    obtain ⟨x, ds, rfl, hx, h2⟩ := are_cons h1
    obtain ⟨r, ds, rfl, hr, h3⟩ := are_cons h2
    obtain ⟨y, ds, rfl, hy, h4⟩ := are_cons h3
    obtain ⟨s, t, rfl, hs, ht⟩ := are_two h4
    obtain ⟨r, rfl, -⟩ := is_tok hr
    exact ⟨x, r, y, s, t, rfl, hs.1, ht.1, is_rep hx, is_rep hy⟩
  | .pattern x o r, d, h => by
    obtain ⟨ds, rfl, h1⟩ := is_node h
    obtain ⟨s, ds, rfl, hs, h2⟩ := are_cons h1
    obtain ⟨t, ds, rfl, ht, h3⟩ := are_cons h2
    obtain ⟨y, ds, rfl, hy, h4⟩ := are_cons h3
    obtain rfl := are_nil h4
    obtain ⟨s, rfl, hk⟩ := is_tok hs
    obtain ⟨t, rfl, -⟩ := is_tok ht
    exact ⟨s, t, y, rfl, hk, is_rep hy⟩
  | .optional l o r, d, h => by
    obtain ⟨ds, rfl, h1⟩ := is_node h
    obtain ⟨x, ds, rfl, hx, h2⟩ := are_cons h1
    obtain ⟨t, ds, rfl, ht, h3⟩ := are_cons h2
    obtain ⟨y, ds, rfl, hy, h4⟩ := are_cons h3
    obtain rfl := are_nil h4
    obtain ⟨t, rfl, -⟩ := is_tok ht
    exact ⟨x, t, y, rfl, is_rep hx, is_rep hy⟩
  | .span l o e, d, h => by
    obtain ⟨ds, rfl, h1⟩ := is_node h
    obtain ⟨x, ds, rfl, hx, h2⟩ := are_cons h1
    obtain ⟨t, ds, rfl, ht, h3⟩ := are_cons h2
    obtain ⟨t, rfl, -⟩ := is_tok ht
    exact ⟨x, t, ds, rfl, is_rep hx, are_repE h3⟩
  | .spanFrom o e, d, h => by
    obtain ⟨ds, rfl, h1⟩ := is_node h
    obtain ⟨s, ds, rfl, hs, h2⟩ := are_cons h1
    obtain ⟨t, ds, rfl, ht, h3⟩ := are_cons h2
    obtain ⟨s, rfl, hk, -⟩ := is_tok hs
    obtain ⟨t, rfl, -⟩ := is_tok ht
    exact ⟨s, t, ds, rfl, hk, are_repE h3⟩
theorem are_repE : ∀ {e : Reach} {ds : List Cst}, Are e.csts ds → RepE e ds
  | .all, ds, h => by
    obtain ⟨n, ds, rfl, hn, h1⟩ := are_cons h
    obtain rfl := are_nil h1
    obtain ⟨n, rfl, hk, -⟩ := is_tok hn
    exact ⟨n, rfl, hk⟩
  | .to f, ds, h => by
    obtain ⟨x, ds, rfl, hx, h1⟩ := are_cons h
    obtain rfl := are_nil h1
    exact ⟨x, rfl, is_rep hx⟩
  | .step f o g, ds, h => by
    obtain ⟨x, ds, rfl, hx, h1⟩ := are_cons h
    obtain ⟨t, ds, rfl, ht, h2⟩ := are_cons h1
    obtain ⟨y, ds, rfl, hy, h3⟩ := are_cons h2
    obtain rfl := are_nil h3
    obtain ⟨t, rfl, -⟩ := is_tok ht
    exact ⟨x, t, y, rfl, is_rep hx, is_rep hy⟩
  | .allStep o g, ds, h => by
    obtain ⟨n, ds, rfl, hn, h1⟩ := are_cons h
    obtain ⟨t, ds, rfl, ht, h2⟩ := are_cons h1
    obtain ⟨y, ds, rfl, hy, h3⟩ := are_cons h2
    obtain rfl := are_nil h3
    obtain ⟨n, rfl, hk, -⟩ := is_tok hn
    obtain ⟨t, rfl, -⟩ := is_tok ht
    exact ⟨n, t, y, rfl, hk, is_rep hy⟩
theorem are_repB : ∀ {b : Body} {ds : List Cst}, Are b.csts ds → RepB b ds
  | .empty, ds, h => are_nil h
  | .one f, ds, h => by
    obtain ⟨x, ds, rfl, hx, h1⟩ := are_cons h
    obtain rfl := are_nil h1
    exact ⟨x, rfl, is_rep hx⟩
  | .many f t, ds, h => by
    obtain ⟨d, ds, rfl, hd, h1⟩ := are_cons h
    obtain rfl := are_nil h1
    obtain ⟨ds, rfl, h2⟩ := is_node hd
    obtain ⟨x, ds, rfl, hx, h3⟩ := are_cons h2
    exact ⟨x, ds, rfl, is_rep hx, are_repT h3⟩
  | .gaps f t, ds, h => by
    obtain ⟨d, ds, rfl, hd, h1⟩ := are_cons h
    obtain rfl := are_nil h1
    obtain ⟨ds, rfl, h2⟩ := is_node hd
    obtain ⟨x, ds, rfl, hx, h3⟩ := are_cons h2
    exact ⟨x, ds, rfl⟩
  | .gap t, ds, h => by
    obtain ⟨d, ds, rfl, hd, h1⟩ := are_cons h
    obtain rfl := are_nil h1
    obtain ⟨ds, rfl, h2⟩ := is_node hd
    obtain ⟨x, ds, rfl, hx, h3⟩ := are_cons h2
    exact ⟨x, ds, rfl⟩
theorem are_repT : ∀ {t : Tail} {ds : List Cst}, Are t.csts ds → RepT t ds
  | .last o f, ds, h => by
    obtain ⟨t, ds, rfl, ht, h1⟩ := are_cons h
    obtain ⟨x, ds, rfl, hx, h2⟩ := are_cons h1
    obtain rfl := are_nil h2
    obtain ⟨t, rfl, hk, -⟩ := is_tok ht
    exact ⟨t, x, rfl, hk, is_rep hx⟩
  | .more o f tl, ds, h => by
    obtain ⟨t, ds, rfl, ht, h1⟩ := are_cons h
    obtain ⟨x, ds, rfl, hx, h2⟩ := are_cons h1
    obtain ⟨t, rfl, hk, -⟩ := is_tok ht
    exact ⟨t, x, ds, rfl, hk, is_rep hx, are_repT h2⟩
theorem are_repS : ∀ {t : Semis} {ds : List Cst}, Are t.csts ds → RepS t ds
  | .stop o, ds, h => by
    obtain ⟨s, t, rfl, hs, ht⟩ := are_two h
    exact ⟨s, t, rfl, ht.1⟩
  | .last o f, ds, h => by
    obtain ⟨t, ds, rfl, ht, h1⟩ := are_cons h
    obtain ⟨x, ds, rfl, hx, h2⟩ := are_cons h1
    obtain rfl := are_nil h2
    obtain ⟨t, rfl, -⟩ := is_tok ht
    exact ⟨t, x, rfl, is_rep hx⟩
  | .skip o tl, ds, h => by
    obtain ⟨t, ds, rfl, ht, h1⟩ := are_cons h
    obtain ⟨n, ds, rfl, hn, h2⟩ := are_cons h1
    obtain ⟨t, rfl, -⟩ := is_tok ht
    obtain ⟨n, rfl, hk, -⟩ := is_tok hn
    exact ⟨t, n, ds, rfl, hk, are_repS h2⟩
  | .more o f tl, ds, h => by
    obtain ⟨t, ds, rfl, ht, h1⟩ := are_cons h
    obtain ⟨x, ds, rfl, hx, h2⟩ := are_cons h1
    obtain ⟨t, rfl, -⟩ := is_tok ht
    exact ⟨t, x, ds, rfl, is_rep hx, are_repS h2⟩
end

theorem are_reps : ∀ {fs : List Spec.Form} {ds : List Cst}, Are (fs.map Form.cst) ds → List.Forall₂ Rep fs ds
  | [], ds, h => by rw [are_nil h]; exact .nil
  | f :: fs, ds, h => by
    obtain ⟨d, ds, rfl, hd, h1⟩ := are_cons h
    exact .cons (is_rep hd) (are_reps h1)

end CodeParser.Mean
