import Verif.Proofs.Meaning5
import Verif.Proofs.Meaning8
import Verif.Proofs.Syntax7
/-!
Abstraction of written expressions: all of them (helper lemmas for C50).
-/
namespace CodeParser.Mean
open CodeParser Spec Props Abs

variable {env : AEnv}

/-! ### Tables -/

theorem chain_ops : ∀ k : TK, (match infixOf k with
    | some (p, op) => op != .CodeParser_Comma && op != .CompoundExpression && op != .MessageName && op != .CodeParser_InfixTilde &&
        (op != .Times || (p == 108 && continues k == some .Times))
    | none => true) = true := forall_of_all (by decide +kernel)

theorem chain_op {k : TK} {p : Nat} {op : InfixOp} (h : infixOf k = some (p, op)) :
    op ≠ .CodeParser_Comma ∧ op ≠ .CompoundExpression ∧ op ≠ .MessageName ∧ op ≠ .CodeParser_InfixTilde ∧
      (op = .Times → p = 108 ∧ continues k = some .Times) := by
  have := chain_ops k
  rw [h] at this
  simp only [Bool.and_eq_true, Bool.or_eq_true, bne_iff_ne, beq_iff_eq, ne_eq, and_assoc] at this
  obtain ⟨h1, h2, h3, h4, h5⟩ := this
  refine ⟨h1, h2, h3, h4, fun h => ?_⟩
  rcases h5 with h5 | h5
  · exact absurd h h5
  · exact h5

theorem divide_ops : ∀ k : TK, (match binaryOf k with
    | some (_, .Divide) => follows k == some 122
    | _ => true) = true := forall_of_all (by decide +kernel)

theorem divide_follows (o : Binary) (h : o.op = .Divide) : follows o.lex.1 = some 122 := by
  have := divide_ops o.lex.1
  rw [o.known, h] at this
  simpa using this

theorem tail_op {op : InfixOp} {p : Nat} {t : Tail} (h : t.Grouped op p) : ∃ k, infixOf k = some (p, op) := by
  cases t with
  | last o f => exact ⟨o.1, h.1⟩
  | more o f t => exact ⟨o.1, h.1⟩

theorem tail_continues {p : Nat} {t : Tail} (h : t.Grouped .Times p) : continues t.next = some .Times := by
  have key : ∀ {o : Lexeme} {f : Spec.Form}, infixOf o.1 = some (p, .Times) → (o = implicitTimes → f.first.1.infixParselet = .implicitTimes) →
      continues (if o = implicitTimes then f.first.1 else o.1) = some .Times := by
    intro o f h1 h2
    split
    · next ho => unfold continues; rw [h2 ho]
    · exact ((chain_op h1).2.2.2.2 rfl).2
  cases t with
  | last o f => exact key h.1 h.2.1
  | more o f t => exact key h.1 h.2.1

/-- The precedence of a product. -/
theorem product_prec {f : Spec.Form} (hg : f.Grouped) (hp : isProduct f = true) : ∃ g t, f = .chain .Times 108 g t := by
  cases f with
  | chain op p g t =>
    have : op = .Times := by simpa [isProduct] using hp
    subst this
    obtain ⟨k, hk⟩ := tail_op hg.2.2
    obtain rfl := ((chain_op hk).2.2.2.2 rfl).1
    exact ⟨g, t, rfl⟩
  | _ => cases hp

theorem before_product {f : Spec.Form} {k : TK} (h : f.KeptBefore k) (hk : continues k = some .Times) : isProduct f = false := by
  cases hp : isProduct f with
  | false => rfl
  | true =>
    cases f with
    | chain op p g t =>
      have : op = .Times := by simpa [isProduct] using hp
      subst this
      exact absurd hk ((h (.operand p (some .Times)) (by simp [Form.right])).2.1 _ rfl)
    | _ => cases hp

theorem after_product {f : Spec.Form} (hg : f.Grouped) (h : f.KeptAfter 108) : isProduct f = false := by
  cases hp : isProduct f with
  | false => rfl
  | true =>
    obtain ⟨g, t, rfl⟩ := product_prec hg hp
    have := h 108 (by simp [Form.left])
    unfold TighterOrRight at this
    omega

theorem divide_product {f : Spec.Form} {o : Binary} (hg : f.Grouped) (h : f.KeptBefore o.lex.1) (ho : o.op = .Divide) :
    isProduct f = false := by
  cases hp : isProduct f with
  | false => rfl
  | true =>
    obtain ⟨g, t, rfl⟩ := product_prec hg hp
    obtain ⟨p, h1, h2⟩ := (h (.operand 108 (some .Times)) (by simp [Form.right])).1
    rw [divide_follows o ho] at h1
    cases h1
    unfold TighterOrLeft at h2
    omega

theorem tail_products {p : Nat} : ∀ {t : Tail}, t.Grouped .Times p → ∀ x ∈ list t, isProduct x.2 = false
  | .last o f, h, x, hx => by
    simp only [list, List.mem_singleton] at hx
    subst hx
    obtain rfl := ((chain_op h.1).2.2.2.2 rfl).1
    exact after_product h.2.2.1 h.2.2.2
  | .more o f t, h, x, hx => by
    simp only [list, List.mem_cons] at hx
    rcases hx with rfl | hx
    · obtain rfl := ((chain_op h.1).2.2.2.2 rfl).1
      exact after_product h.2.2.1 h.2.2.2.1
    · exact tail_products h.2.2.2.2.2 x hx

theorem rep_patternTest {l : Spec.Form} {x : Cst} (hr : Rep l x) (h : l.isPatternTest = false) : isNode (.binary .PatternTest) x = false := by
  cases l with
  | atom => obtain ⟨_, rfl, -⟩ := hr; rfl
  | group => obtain ⟨_, _, _, rfl, -⟩ := hr; rfl
  | chain => obtain ⟨_, _, rfl, -⟩ := hr; rfl
  | call => obtain ⟨_, _, _, _, rfl, -⟩ := hr; rfl
  | binary => obtain ⟨_, _, _, rfl, -⟩ := hr; simpa [isNode, Form.isPatternTest] using h
  | «prefix» => obtain ⟨_, _, rfl, -⟩ := hr; rfl
  | «postfix» => obtain ⟨_, _, rfl, -⟩ := hr; rfl
  | compound => obtain ⟨_, _, rfl⟩ := rep_compound hr; rfl
  | semi => obtain ⟨_, _, rfl, -⟩ := hr; rfl
  | ternary => obtain ⟨_, _, _, _, _, rfl, -⟩ := hr; rfl
  | unset => obtain ⟨_, _, _, rfl, -⟩ := hr; rfl
  | tagUnset => obtain ⟨_, _, _, _, _, rfl, -⟩ := hr; rfl
  | pattern => obtain ⟨_, _, _, rfl, -⟩ := hr; rfl
  | optional => obtain ⟨_, _, _, rfl, -⟩ := hr; rfl
  | span _ _ e | spanFrom _ e => obtain ⟨_, _, _, rfl, -⟩ := hr; rcases reach_kind e with he | he <;> (rw [he]; rfl)

/-! ### All expressions -/

/-- The lexemes have texts as they should be. -/
def Names (ks : List Lexeme) : Prop := ∀ x ∈ ks, OkLex x

theorem Names.left {a b : List Lexeme} (h : Names (a ++ b)) : Names a := fun x hx => h x (by simp [hx])
theorem Names.right {a b : List Lexeme} (h : Names (a ++ b)) : Names b := fun x hx => h x (by simp [hx])
theorem Names.tail {x : Lexeme} {b : List Lexeme} (h : Names (x :: b)) : Names b := fun y hy => h y (by simp [hy])

mutual
theorem sound_form (hq : env.flattenTimes = false) (hd : QuotesNames env.debug) : ∀ (f : Spec.Form) {g : Bool} {ks : List Lexeme} {d : Cst}, Writes g f ks → Names ks →
    f.Grouped → f.Meaningful (quirks env) → Rep f d → Sound env f d
  | .atom x, g, ks, d, hw, hn, _, _, hr => by
    cases hw with
    | atom h =>
      obtain ⟨t, rfl, h1, h2⟩ := hr
      exact sound_atom hq h (hn x (by simp)) h1 h2
  | .group o b, g, ks, d, hw, hn, hg, hm, hr => by
    cases hw with
    | @group _ _ _ ks h =>
      obtain ⟨s, mid, e, rfl, hb⟩ := hr
      obtain ⟨m1, m2, m3, m4, m5⟩ := hm
      by_cases hp : o.op = .CodeParser_GroupParen
      · cases b with
        | empty => exact absurd (m1 hp) (by decide)
        | many => exact absurd (m1 hp) (by simp [Body.single])
        | gaps => exact absurd (m1 hp) (by simp [Body.single])
        | gap => exact absurd (m1 hp) (by simp [Body.single])
        | one f =>
          cases h with
          | one _ hf _ =>
            obtain ⟨c, rfl, hc⟩ := hb
            have hs := sound_form hq hd f hf hn.tail.left.right.left hg m5.1 hc
            refine sound_paren hq hp hs (rep_comma hc ?_)
            rintro p g t rfl
            obtain ⟨k, hk⟩ := tail_op (Form.Grouped.eq_6 _ _ _ _ ▸ hg : _ ∧ _ ∧ _).2.2
            exact (chain_op hk).1 rfl
      · exact sound_group hq hp m2 m3 m4 (sound_body hq hd b h hn.tail.left hg m5 hb)
  | .call f o b, g, ks, d, hw, hn, hg, hm, hr => by
    cases hw with
    | @call _ _ _ _ kf w ks h1 _ h3 =>
      obtain ⟨h, s, mid, e, rfl, hf, hb⟩ := hr
      obtain ⟨m1, m2⟩ := hm
      have hs := sound_form hq hd f h1 hn.left hg.1 m1 hf
      have hn' : Names ks := hn.right.right.tail.left
      by_cases hdb : o.op = .CodeParser_GroupSquare ∧ b.double = true
      · rw [if_pos hdb] at m2
        obtain ⟨o', b', s', mid', e', rfl, ho, rfl, hs'⟩ := sound_inner hq hd b h3 hn' hg.2.2 m2 hb hdb.2
        exact sound_part hq hdb.1 ho hs hs'
      · rw [if_neg hdb] at m2
        exact sound_call hq (fun h => by simpa [h] using hdb) hb hs (sound_body hq hd b h3 hn' hg.2.2 m2 hb)
  | .binary l o r, g, ks, d, hw, hn, hg, hm, hr => by
    cases hw with
    | binary h1 _ _ h4 =>
      obtain ⟨x, t, y, rfl, hk, hx, hy⟩ := hr
      obtain ⟨m1, m2, m3, m4⟩ := hm
      have hl := sound_form hq hd l h1 hn.left hg.1 m1 hx
      have hr := sound_form hq hd r h4 hn.right.right.tail.right hg.2.2.1 m2 hy
      by_cases ho : o.op = .CodeParser_BinaryAt
      · exact sound_at hq hx hl hr ho
      · exact sound_binary hq hl hr ho (fun h => rep_patternTest hx (m3 h)) (fun h => divide_product hg.1 hg.2.1 h)
  | .chain op p f t, g, ks, d, hw, hn, hg, hm, hr => by
    cases hw with
    | chain h1 h2 _ =>
      obtain ⟨c, cs, rfl, hf, ht⟩ := hr
      obtain ⟨m1, m2⟩ := hm
      have hs := sound_form hq hd f h1 hn.left hg.1 m1 hf
      have hst := sound_tail hq hd t h2 hn.right (Or.inl ⟨op, p, hg.2.2⟩) m2 ht
      obtain ⟨k, hk⟩ := tail_op hg.2.2
      obtain ⟨n1, n2, n3, n4, n5⟩ := chain_op hk
      by_cases h3 : op = .CodeParser_InfixInequality
      · subst h3; exact sound_inequality hq hs hst
      by_cases h4 : op = .Plus
      · subst h4; exact sound_plus hq hs hst
      by_cases h5 : op = .Times
      · subst h5
        exact sound_times hq hs hst (before_product hg.2.1 (tail_continues hg.2.2)) (tail_products hg.2.2)
      by_cases h6 : op = .Divisible
      · subst h6; exact sound_divisible hq hs hst
      by_cases h7 : op = .SameQ ∨ op = .UnsameQ
      · exact sound_same hq h7 hs hst
      · exact sound_infix hq ⟨h3, h4, h5, h6, n2, n3, n4, fun h => h7 (Or.inl h), fun h => h7 (Or.inr h)⟩ hs hst
  | .prefix o f, g, ks, d, hw, hn, hg, hm, hr => by
    cases hw with
    | «prefix» _ h2 =>
      obtain ⟨t, c, rfl, hf⟩ := hr
      have hs := sound_form hq hd f h2 hn.tail.right hg.1 hm.1 hf
      by_cases h3 : o.op = .Minus
      · exact sound_minus hq hs h3
      by_cases h4 : o.op = .Plus
      · exact sound_prefixPlus hq hs h4
      · exact sound_prefix hq hs h3 h4 hm.2
  | .postfix f o, g, ks, d, hw, hn, hg, hm, hr => by
    cases hw with
    | «postfix» h1 _ =>
      obtain ⟨c, t, rfl, hk, hf⟩ := hr
      have hs := sound_form hq hd f h1 hn.left hg.1 hm.1 hf
      by_cases h3 : o.op = .Derivative
      · exact sound_derivative hq hs h3 (hk.trans (hm.2 h3))
      · exact sound_postfix hq hs h3
  | .compound c, g, ks, d, hw, hn, _, hm, hr => by
    cases hw with
    | compound => exact sound_compound hq hd hn hm hr
  | .semi f t, g, ks, d, hw, hn, hg, hm, hr => by
    cases hw with
    | semi h1 h2 =>
      obtain ⟨c, cs, rfl, hf, ht⟩ := hr
      exact sound_semi hq hf (sound_form hq hd f h1 hn.left hg.1 hm.1 hf) (written_null h1)
        (sound_semis hq hd t h2 hn.right hg.2.2 hm.2 ht)
  | .ternary l o m r, g, ks, d, hw, hn, hg, hm, hr => by
    cases hw with
    | ternary h1 _ _ h2 _ _ h3 =>
      obtain ⟨x, t, y, t', z, rfl, hx, hy, hz⟩ := hr
      refine sound_ternary hq (sound_form hq hd l h1 hn.left hg.1 hm.1 hx)
        (sound_form hq hd m h2 hn.right.right.tail.right.left hg.2.2.1 hm.2.1 hy)
        (sound_form hq hd r h3 hn.right.right.tail.right.right.right.tail.right hg.2.2.2.2.2.1 hm.2.2 hz) (rep_comma hy ?_)
      rintro p g t rfl
      obtain ⟨k, hk⟩ := tail_op (Form.Grouped.eq_6 _ _ _ _ ▸ hg.2.2.1 : _ ∧ _ ∧ _).2.2
      exact (chain_op hk).1 rfl
  | .unset f e dot, g, ks, d, hw, hn, hg, hm, hr => by
    cases hw with
    | unset h1 h2 h3 _ _ =>
      obtain ⟨c, t, t', rfl, e1, e2, hf⟩ := hr
      exact sound_unset hq (e1.trans h1) (e2.trans h2) (sound_form hq hd f h3 hn.left hg.1 hm hf)
  | .tagUnset l o m e dot, g, ks, d, hw, hn, hg, hm, hr => by
    cases hw with
    | tagUnset _ h1 h2 h3 _ _ h4 _ _ =>
      obtain ⟨x, s, y, t, t', rfl, e1, e2, hx, hy⟩ := hr
      exact sound_tagUnset hq (e1.trans h1) (e2.trans h2) (sound_form hq hd l h3 hn.left hg.1 hm.1 hx)
        (sound_form hq hd m h4 hn.right.right.tail.right.left hg.2.2.1 hm.2 hy)
  | .pattern x o r, g, ks, d, hw, hn, hg, hm, hr => by
    cases hw with
    | pattern h1 _ _ _ h5 =>
      obtain ⟨s, t, y, rfl, hs, hy⟩ := hr
      exact sound_pattern hq (sound_atom hq (by rw [h1]; rfl) (hn x (by simp)) hs.1 hs.2)
        (sound_form hq hd r h5 hn.tail.right.tail.right hg.1 hm hy)
  | .optional l o r, g, ks, d, hw, hn, hg, hm, hr => by
    cases hw with
    | optional _ h2 _ _ h5 =>
      obtain ⟨x, t, y, rfl, hx, hy⟩ := hr
      exact sound_optional hq (sound_form hq hd l h2 hn.left hg.2.1 hm.1 hx)
        (sound_form hq hd r h5 hn.right.right.tail.right hg.2.2.2.1 hm.2 hy)
  | .span l o e, g, ks, d, hw, hn, hg, hm, hr => by
    cases hw with
    | span _ h1 _ h2 =>
      obtain ⟨x, t, ds, rfl, hx, hd'⟩ := hr
      exact sound_spans hq (fun r => by simp only [Form.expr]) rfl rfl (sound_form hq hd l h1 hn.left hg.1 hm.1 hx).value
        (sound_reach hq hd e h2 hn.right.right.tail hg.2.2 hm.2 hd')
  | .spanFrom o e, g, ks, d, hw, hn, hg, hm, hr => by
    cases hw with
    | spanFrom _ h2 =>
      obtain ⟨s, t, ds, rfl, hs, hd'⟩ := hr
      exact sound_spans hq (fun r => by simp only [Form.expr]) rfl rfl (ran_one hs) (sound_reach hq hd e h2 hn.tail hg hm hd')
theorem sound_reach (hq : env.flattenTimes = false) (hd : QuotesNames env.debug) : ∀ (e : Reach) {g : Bool} {ks : List Lexeme} {ds : List Cst},
    Reaches g e ks → Names ks → e.Grouped → e.Meaningful (quirks env) → RepE e ds → SoundE env e ds
  | .all, g, ks, ds, _, _, _, _, hr => by
    obtain ⟨n, rfl, hk⟩ := hr
    exact Or.inl ⟨_, _, rfl, rfl, rfl, ran_all hk⟩
  | .to f, g, ks, ds, hw, hn, hg, hm, hr => by
    cases hw with
    | «to» _ h =>
      obtain ⟨c, rfl, hf⟩ := hr
      exact Or.inl ⟨_, _, rfl, rfl, rfl, (sound_form hq hd f h hn.right hg.2.1 hm hf).value⟩
  | .step f o f', g, ks, ds, hw, hn, hg, hm, hr => by
    cases hw with
    | step _ _ h1 _ _ h2 =>
      obtain ⟨c, t, c', rfl, hf, hf'⟩ := hr
      exact Or.inr ⟨_, _, _, _, _, rfl, rfl, rfl, (sound_form hq hd f h1 hn.right.left hg.2.1 hm.1 hf).value,
        (sound_form hq hd f' h2 hn.right.right.right.tail.right hg.2.2.2.2.2.1 hm.2 hf').value⟩
  | .allStep o f, g, ks, ds, hw, hn, hg, hm, hr => by
    cases hw with
    | allStep _ _ _ h =>
      obtain ⟨n, t, c, rfl, hk, hf⟩ := hr
      exact Or.inr ⟨_, _, _, _, _, rfl, rfl, rfl, ran_all hk, (sound_form hq hd f h hn.right.tail.right hg.2.1 hm hf).value⟩
theorem sound_body (hq : env.flattenTimes = false) (hd : QuotesNames env.debug) : ∀ (b : Body) {ks : List Lexeme} {ds : List Cst}, Inside b ks → Names ks →
    b.Grouped → b.Meaningful (quirks env) → RepB b ds → SoundB env b ds
  | .empty, ks, ds, _, _, _, _, hr => by cases hr; exact soundB_empty
  | .one f, ks, ds, hw, hn, hg, hm, hr => by
    cases hw with
    | one _ h _ =>
      obtain ⟨c, rfl, hf⟩ := hr
      exact soundB_one (sound_form hq hd f h hn.right.left hg hm.1 hf) hm.2
  | .many f t, ks, ds, hw, hn, hg, hm, hr => by
    cases hw with
    | many _ h1 h2 _ =>
      obtain ⟨c, cs, rfl, hf, ht⟩ := hr
      exact soundB_many (sound_form hq hd f h1 hn.right.left hg.1 hm.1 hf)
        (sound_tail hq hd t h2 hn.right.right.left (Or.inr hg.2) hm.2.1 ht) hm.2.2
  | .gaps _ _, ks, ds, _, _, _, hm, _ => hm.elim
  | .gap _, ks, ds, _, _, _, hm, _ => hm.elim
theorem sound_inner (hq : env.flattenTimes = false) (hd : QuotesNames env.debug) : ∀ (b : Body) {ks : List Lexeme} {ds : List Cst}, Inside b ks → Names ks →
    b.Grouped → b.InnerMeaningful (quirks env) → RepB b ds → b.double = true →
    ∃ (o' : Bracket) (b' : Body) (s' : Tok) (mid' : List Cst) (e' : Tok), b = .one (.group o' b') ∧ o'.op = .CodeParser_GroupSquare ∧
      ds = [.node (.group o'.op) (.tok s' :: (mid' ++ [.tok e']))] ∧ SoundB env b' mid'
  | .one (.group o b'), ks, ds, hw, hn, hg, hm, hr, hdb => by
    cases hw with
    | one _ h _ =>
      obtain ⟨c, rfl, s, mid, e, rfl, hb⟩ := hr
      cases h with
      | group h => exact ⟨o, b', s, mid, e, rfl, by simpa [Body.double] using hdb, rfl, sound_body hq hd b' h hn.right.left.tail.left hg hm hb⟩
  | .empty, ks, ds, _, _, _, _, _, hd => by cases hd
  | .many _ _, ks, ds, _, _, _, _, _, hd => by cases hd
  | .gaps _ _, ks, ds, _, _, _, _, _, hd => by cases hd
  | .gap _, ks, ds, _, _, _, _, _, hd => by cases hd
  | .one (.atom _), ks, ds, _, _, _, _, _, hd => by cases hd
  | .one (.call ..), ks, ds, _, _, _, _, _, hd => by cases hd
  | .one (.binary ..), ks, ds, _, _, _, _, _, hd => by cases hd
  | .one (.chain ..), ks, ds, _, _, _, _, _, hd => by cases hd
  | .one (.prefix ..), ks, ds, _, _, _, _, _, hd => by cases hd
  | .one (.postfix ..), ks, ds, _, _, _, _, _, hd => by cases hd
  | .one (.compound _), ks, ds, _, _, _, _, _, hd => by cases hd
  | .one (.semi ..), ks, ds, _, _, _, _, _, hd => by cases hd
  | .one (.ternary ..), ks, ds, _, _, _, _, _, hd => by cases hd
  | .one (.unset ..), ks, ds, _, _, _, _, _, hd => by cases hd
  | .one (.tagUnset ..), ks, ds, _, _, _, _, _, hd => by cases hd
  | .one (.pattern ..), ks, ds, _, _, _, _, _, hd => by cases hd
  | .one (.optional ..), ks, ds, _, _, _, _, _, hd => by cases hd
  | .one (.span ..), ks, ds, _, _, _, _, _, hd => by cases hd
  | .one (.spanFrom ..), ks, ds, _, _, _, _, _, hd => by cases hd
theorem sound_tail (hq : env.flattenTimes = false) (hd : QuotesNames env.debug) : ∀ (t : Tail) {g : Bool} {ks : List Lexeme} {ds : List Cst}, Rest g t ks → Names ks →
    ((∃ op p, t.Grouped op p) ∨ t.Commas) → t.Meaningful (quirks env) → RepT t ds → SoundT env t ds
  | .last o f, g, ks, ds, hw, hn, hg, hm, hr => by
    cases hw with
    | last _ h =>
      obtain ⟨t, c, rfl, hk, hf⟩ := hr
      have hg' : f.Grouped := by
        rcases hg with ⟨op, p, hg⟩ | hg
        · exact hg.2.2.1
        · exact hg.2
      exact ⟨[(t, c)], rfl, .cons ⟨hk, sound_form hq hd f h hn.right hg' hm hf⟩ .nil⟩
  | .more o f t, g, ks, ds, hw, hn, hg, hm, hr => by
    cases hw with
    | more _ h1 h2 =>
      obtain ⟨tk, c, cs, rfl, hk, hf, ht⟩ := hr
      have hg' : f.Grouped ∧ ((∃ op p, t.Grouped op p) ∨ t.Commas) := by
        rcases hg with ⟨op, p, hg⟩ | hg
        · exact ⟨hg.2.2.1, Or.inl ⟨op, p, hg.2.2.2.2.2⟩⟩
        · exact ⟨hg.2.1, Or.inr hg.2.2⟩
      obtain ⟨ps, rfl, hps⟩ := sound_tail hq hd t h2 hn.right.right hg'.2 hm.2 ht
      exact ⟨(tk, c) :: ps, rfl, .cons ⟨hk, sound_form hq hd f h1 hn.right.left hg'.1 hm.1 hf⟩ hps⟩
theorem sound_semis (hq : env.flattenTimes = false) (hd : QuotesNames env.debug) : ∀ (t : Semis) {g : Bool} {ks : List Lexeme} {ds : List Cst},
    Spec.Steps g t ks → Names ks → t.Grouped → t.Meaningful (quirks env) → RepS t ds → SoundS env t ds
  | .stop o, g, ks, ds, _, _, _, _, hr => by
    obtain ⟨t, n, rfl, hk⟩ := hr
    exact soundS_stop hk
  | .last o f, g, ks, ds, hw, hn, hg, hm, hr => by
    cases hw with
    | last _ _ _ h =>
      obtain ⟨t, c, rfl, hf⟩ := hr
      exact soundS_last hf (sound_form hq hd f h hn.right.tail.right hg.2.1 hm hf) (written_null h)
  | .skip o tl, g, ks, ds, hw, hn, hg, hm, hr => by
    cases hw with
    | skip _ _ h =>
      obtain ⟨t, n, cs, rfl, hk, ht⟩ := hr
      exact soundS_skip hk (sound_semis hq hd tl h hn.right.tail hg hm ht)
  | .more o f tl, g, ks, ds, hw, hn, hg, hm, hr => by
    cases hw with
    | more _ _ _ h1 h2 =>
      obtain ⟨t, c, cs, rfl, hf, ht⟩ := hr
      exact soundS_more hf (sound_form hq hd f h1 hn.right.tail.right.left hg.2.1 hm.1 hf) (written_null h1)
        (sound_semis hq hd tl h2 hn.right.tail.right.right hg.2.2.2.2 hm.2 ht)
end

end CodeParser.Mean
