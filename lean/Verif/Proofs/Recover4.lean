import Verif.Proofs.Recover3
import Verif.Proofs.Parser7
/-!
Recovery of unterminated groups (helper lemmas).
-/
namespace CodeParser
open Spec Props Cst

/-! ### The ends of trees -/

section
variable {ρ : GroupOp → List Cst → Prop} {c : Cst} {cs : List Cst} {k : NodeKind}

theorem Chain.ne {op : InfixOp} {p : Nat} {x : Cst} (h : Chain op p cs x) : cs ≠ [] := by
  cases h <;> simp

theorem CompoundShape.ne {op : CompoundOp} (h : CompoundShape op cs) : cs ≠ [] := by
  cases h <;> simp

theorem GroupShape.ne {op : GroupOp} (h : GroupShape op cs) : cs ≠ [] := by
  obtain ⟨o, mid, c, rfl, -⟩ := h; simp

theorem NodeOK.ne (hρ : ∀ op cs, ρ op cs → cs ≠ []) (h : NodeOK ρ k cs) : cs ≠ [] := by
  cases h with
  | «infix» h _ => exact Chain.ne h
  | compound h => exact CompoundShape.ne h
  | group h => exact GroupShape.ne h
  | missing h => exact hρ _ _ h
  | _ => simp

theorem leavesL_mem {t : Tok} : ∀ {cs : List Cst}, t ∈ leavesL cs → ∃ c ∈ cs, t ∈ leaves c
  | [], h => by cases h
  | c :: cs, h => by
    rcases List.mem_append.mp (show t ∈ leaves c ++ leavesL cs from h) with h | h
    · exact ⟨c, List.mem_cons_self, h⟩
    · obtain ⟨d, h1, h2⟩ := leavesL_mem h
      exact ⟨d, List.mem_cons_of_mem _ h1, h2⟩

/-- The leaves of a tree that looks as it should. -/
theorem TreeOK.toks (h : TreeOK ρ c) : ∀ t ∈ leaves c, TokOK t := by
  induction h with
  | tok h => intro t ht; rw [List.mem_singleton.mp ht]; exact h
  | node _ _ ih =>
    intro t ht
    obtain ⟨c, h1, h2⟩ := leavesL_mem ht
    exact ih c h1 t h2
  | call _ _ _ ih1 ih2 =>
    intro t ht
    rcases List.mem_append.mp ht with ht | ht
    · obtain ⟨c, h1, h2⟩ := leavesL_mem ht
      exact ih1 c h1 t h2
    · obtain ⟨c, h1, h2⟩ := leavesL_mem ht
      exact ih2 c h1 t h2

theorem TreeOKL.toks (h : ∀ c ∈ cs, TreeOK ρ c) : ∀ t ∈ leavesL cs, TokOK t := by
  intro t ht
  obtain ⟨c, h1, h2⟩ := leavesL_mem ht
  exact TreeOK.toks (h c h1) t h2

/-- The position of a tree is that of its leaves. -/
structure Hull (c : Cst) : Prop where
  ne : leaves c ≠ []
  start : c.start = (leaves c).head?.map Tok.start
  stop : c.stop = (leaves c).getLast?.map Tok.stop

theorem hullL_start (h : Hull c) : c.start = (leavesL (c :: cs)).head?.map Tok.start := by
  rw [h.start]
  show _ = (leaves c ++ leavesL cs).head?.map Tok.start
  rw [List.head?_append_of_ne_nil _ h.ne]

theorem hullL_stop : ∀ {cs : List Cst}, cs ≠ [] → (∀ c ∈ cs, Hull c) →
    leavesL cs ≠ [] ∧ stopL cs = (leavesL cs).getLast?.map Tok.stop
  | [], h, _ => absurd rfl h
  | [c], _, h => by
    have h := h c List.mem_cons_self
    have : leavesL [c] = leaves c := by simp [leavesL]
    rw [this]
    exact ⟨h.ne, by unfold stopL; exact h.stop⟩
  | c :: d :: cs, _, h => by
    have ⟨h1, h2⟩ := hullL_stop (cs := d :: cs) (by simp) (fun x hx => h x (List.mem_cons_of_mem _ hx))
    show leaves c ++ leavesL (d :: cs) ≠ [] ∧ stopL (c :: d :: cs) = (leaves c ++ leavesL (d :: cs)).getLast?.map Tok.stop
    rw [List.getLast?_append_of_ne_nil _ h1]
    refine ⟨by simp [h1], ?_⟩
    rw [← h2]
    conv => lhs; unfold stopL

theorem TreeOK.hull (hρ : ∀ op cs, ρ op cs → cs ≠ []) (h : TreeOK ρ c) : Hull c := by
  induction h with
  | tok h => exact ⟨by simp [leaves], rfl, by simp [leaves, stop]⟩
  | @node k cs hn _ ih =>
    have hne := NodeOK.ne hρ hn
    have hs := hullL_stop hne ih
    refine ⟨hs.1, ?_, by unfold stop; exact hs.2⟩
    cases cs with
    | nil => exact absurd rfl hne
    | cons c cs => exact hullL_start (ih c List.mem_cons_self)
  | @call h b op body hc _ _ ih1 ih2 =>
    have hb : body ≠ [] := by
      cases hc with
      | group _ _ _ _ h => exact GroupShape.ne h
      | missing _ _ _ _ h => exact hρ _ _ h
    have hs := hullL_stop hb ih2
    refine ⟨by simp [leaves, hs.1], ?_, ?_⟩
    · have : ∃ l ts, h = l :: ts := by cases hc <;> exact ⟨_, _, rfl⟩
      obtain ⟨l, ts, rfl⟩ := this
      have h1 := hullL_start (cs := ts) (ih1 l List.mem_cons_self)
      have hne := (hullL_stop (cs := l :: ts) (by simp) ih1).1
      show l.start = (leavesL (l :: ts) ++ leavesL body).head?.map Tok.start
      rw [List.head?_append_of_ne_nil _ hne]
      exact h1
    · show stopL body = (leavesL h ++ leavesL body).getLast?.map Tok.stop
      rw [List.getLast?_append_of_ne_nil _ hs.1]
      exact hs.2

end

/-! ### Positions -/

section
variable {cfg : Cfg}

theorem Loc.le_refl (l : Loc) : l.le l = true := by cases l <;> simp [Loc.le]

theorem Loc.le_trans {a b c : Loc} (h : a.le b = true) (h' : b.le c = true) : a.le c = true := by
  cases a <;> cases b <;> cases c <;> simp_all [Loc.le] <;> omega

/-- The tokens of a source, with their positions. -/
theorem Source.placed {conv : Conv} {input : List Char} {cs : List Cst} (h : Source cfg (St.init conv (encode input)) cs) :
    ∀ t ∈ leavesL cs, Placed cfg input conv.start t := by
  obtain ⟨ks, u, v, h1, h2, h3, h4, h5⟩ := h
  obtain ⟨xs, hp, -⟩ := h4.path
  obtain ⟨ds, e1, e2⟩ := hp.steps (WF_init _ _) rfl
  exact fun t ht => h3.placed e1 e2 t (h1.subset ht)

theorem Placed.before {input : List Char} {l : Loc} {k : Tok} (h : Placed cfg input l k) : ∃ ds es,
    k.text ++ k.after = encode ds ∧ Steps cfg input l ds k.start ∧ Steps cfg ds k.start es k.stop := by
  obtain ⟨ds, es, h1, -, h2, h3⟩ := h
  exact ⟨ds, es, h1, h2, h3⟩

theorem Lies.last {r r' : List UInt8} {l m : Loc} {ks : List Tok} (h : Lies cfg r l ks r' m) :
    ∀ {cs : List Char}, r = encode cs → ∀ k ∈ ks, ∃ es, Steps cfg cs l es k.stop := by
  induction h with
  | nil => intro _ _ k hk; cases hk
  | @cons k ks r' l' hm hl ih =>
    intro cs hr k' hk'
    obtain ⟨ds, h1, h2⟩ := moves_steps hm hr
    rcases List.mem_cons.mp hk' with rfl | hk'
    · exact ⟨ds, h2⟩
    · obtain ⟨es, h3⟩ := ih h1 k' hk'
      exact ⟨es, h2.trans h3⟩

theorem Lies.first {r r' : List UInt8} {l m : Loc} {ks : List Tok} (h : Lies cfg r l ks r' m) {o : Tok}
    (ho : ks.head? = some o) : o.text ++ o.after = r ∧ o.start = l := by
  cases h with
  | nil => cases ho
  | cons => cases ho; exact ⟨rfl, rfl⟩

/-- From the first token of a source to the end of any other. -/
theorem Source.steps {conv : Conv} {input : List Char} {o : Tok} {cs : List Cst}
    (h : Source cfg (St.init conv (encode input)) cs) (ho : (leavesL cs).head? = some o) {t : Tok} (ht : t ∈ leavesL cs) :
    ∃ ds es, o.text ++ o.after = encode ds ∧ Steps cfg input conv.start ds o.start ∧ Steps cfg ds o.start es t.stop := by
  obtain ⟨ks, u, v, h1, h2, h3, h4, h5⟩ := h
  obtain ⟨xs, hp, -⟩ := h4.path
  obtain ⟨ds, e1, e2⟩ := hp.steps (WF_init _ _) rfl
  rw [ho] at h2
  have hm := h1.subset ht
  obtain ⟨a1, a2⟩ := h3.first h2.symm
  obtain ⟨es, h6⟩ := h3.last e1 t hm
  exact ⟨ds, es, by rw [a1, e1], by rw [a2]; exact e2, by rw [a2]; exact h6⟩

theorem le_of_before {l m : Loc} (h : before l m) : l.le m = true := by
  cases l <;> cases m <;> simp_all [before, Loc.le] <;> omega

theorem stepC_le {cs ds : List Char} {l m : Loc} (h : stepC cfg cs l = some (ds, m)) : l.le m = true := by
  unfold stepC at h
  split at h
  · cases h
  · cases h
    exact le_of_before (before_locUpd cfg .crlf l (by simp))
  · next c _ _ =>
    cases h
    exact le_of_before (before_locUpd cfg _ l (by simp))

theorem Steps.le {cs ds : List Char} {l m : Loc} (h : Steps cfg cs l ds m) : l.le m = true := by
  induction h with
  | refl => exact Loc.le_refl _
  | step a _ ih => exact Loc.le_trans (stepC_le a) ih

/-! ### Unterminated groups -/

/-- The tokens that open groups. -/
def isOpener (k : TK) : Bool :=
  (match k.prefixParselet with | .group _ _ => true | _ => false) ||
  (match k.infixParselet with | .call _ _ => true | _ => false)

theorem opener_kind : ∀ k : TK, isOpener k = true → invented k = false ∧ ¬ (k = .ToplevelNewline ∨ k = .InternalNewline) :=
  forall_of_all (by decide +kernel)

theorem opens_kind {k : TK} {op : GroupOp} (h : Opens k op) : invented k = false ∧ ¬ isNewline k := by
  refine opener_kind k ?_
  unfold isOpener
  rcases h with h | h <;> simp [h]

/-! ### Order of positions -/

theorem readN_le : ∀ (n : Nat) (s : St), WF s → s.loc.le (readN cfg n s).2.loc = true
  | 0, s, _ => Loc.le_refl _
  | n + 1, s, h => by
    have h1 : s.loc.le (nextSource cfg s).2.loc = true := by
      rw [loc_step cfg s h]
      by_cases he : (nextSource cfg s).1 = .eof
      · rw [he]; exact Loc.le_refl _
      · exact le_of_before (before_locUpd cfg _ _ he)
    exact Loc.le_trans h1 (readN_le n _ (WF_nextSource h))

theorem moves_le {text after : List UInt8} {a b : Loc} (h : Moves cfg text after a b) : a.le b = true := by
  obtain ⟨n, -, -, -, h⟩ := h
  rw [← h]
  exact readN_le n ⟨text ++ after, a, false, none⟩ (fun h => by cases h)

/-- The tokens do not overlap and come in the order of their positions. -/
def Ordered (ks : List Tok) : Prop :=
  ks.Pairwise (fun a b => a.stop.le b.start = true) ∧ ∀ k ∈ ks, k.start.le k.stop = true

theorem Lies.ordered {r r' : List UInt8} {l m : Loc} {ks : List Tok} (h : Lies cfg r l ks r' m) :
    Ordered ks ∧ ∀ k ∈ ks, l.le k.start = true := by
  induction h with
  | nil => exact ⟨⟨.nil, by simp⟩, by simp⟩
  | @cons k ks r' l' hm hl ih =>
    have hle := moves_le hm
    refine ⟨⟨?_, ?_⟩, ?_⟩
    · exact List.pairwise_cons.mpr ⟨ih.2, ih.1.1⟩
    · intro k' hk'
      rcases List.mem_cons.mp hk' with rfl | hk'
      · exact hle
      · exact ih.1.2 k' hk'
    · intro k' hk'
      rcases List.mem_cons.mp hk' with rfl | hk'
      · exact Loc.le_refl _
      · exact Loc.le_trans hle (ih.2 k' hk')

theorem Ordered.sub {ks js : List Tok} (h : Ordered ks) (hs : js.Sublist ks) : Ordered js :=
  ⟨h.1.sublist hs, fun k hk => h.2 k (hs.subset hk)⟩

theorem Source.ordered {s0 : St} {cs : List Cst} (h : Source cfg s0 cs) : Ordered (leavesL cs) := by
  obtain ⟨ks, u, v, h1, -, h2, -⟩ := h
  exact h2.ordered.1.sub h1

/-- Which spans overlap one that starts before them. -/
theorem overlaps_eq {S B a b : Loc} {x : Bool} (h1 : S.le a = true) (h2 : a.le b = true)
    (h : Span.overlaps ⟨S, B⟩ ⟨a, b⟩ = some x) : x = a.le B := by
  cases S <;> cases a <;> first | (cases h1; done) | skip
  all_goals cases b <;> first | (cases h2; done) | skip
  all_goals cases B <;> first | (simp [Span.overlaps] at h; done) | skip
  · next l1 c1 l3 c3 l4 c4 l2 c2 =>
    simp only [Span.overlaps, Option.some.injEq] at h
    subst h
    simp only [Loc.le, Bool.or_eq_true, Bool.and_eq_true, decide_eq_true_eq, beq_iff_eq] at h1 h2
    rw [Bool.eq_iff_iff]
    simp only [LineColumnSpan.overlaps, LineColumnSpan.contains, Loc.le, Bool.or_eq_true, Bool.and_eq_true, decide_eq_true_eq, beq_iff_eq,
      Bool.not_eq_true', Bool.and_eq_false_iff, decide_eq_false_iff_not]
    repeat' split
    all_goals (try simp only [Bool.and_eq_true, decide_eq_true_eq, beq_iff_eq] at *)
    all_goals first | omega | (simp; omega)
  · next i1 i3 i4 i2 =>
    simp only [Loc.le, decide_eq_true_eq] at h1 h2
    simp only [Span.overlaps, CharacterSpan.intersects, CharacterSpan.intersection] at h
    simp only [Loc.le]
    split at h <;> (simp only at h; repeat' split at h) <;> simp at h <;> subst h <;> simp <;> omega

theorem keepLeaves_ok {S B : Loc} : ∀ {ts : List Tok} {cs : List Cst}, Ordered ts → (∀ t ∈ ts, S.le t.start = true) →
    keepLeaves ⟨S, B⟩ ts = .ok cs → ∃ us, cs = tt us ∧ us <+: ts ∧ (∀ t ∈ us, t.start.le B = true) ∧ ∀ t ∈ ts, t.start.le B = true → t ∈ us
  | [], cs, _, _, h => by cases h; exact ⟨[], rfl, List.prefix_rfl, by simp, by simp⟩
  | t :: ts, cs, ho, hs, h => by
    unfold keepLeaves at h
    split at h
    · cases h
    · next x hx =>
      have e := overlaps_eq (hs t List.mem_cons_self) (ho.2 t List.mem_cons_self) hx
      split at h
      · cases h
      · next r hr =>
        obtain ⟨us, rfl, h1, h3, h2⟩ := keepLeaves_ok (ho.sub (List.sublist_cons_self t ts)) (fun u hu => hs u (List.mem_cons_of_mem _ hu)) hr
        cases h
        cases x with
        | true =>
          refine ⟨t :: us, rfl, (List.prefix_cons_inj t).mpr h1, fun u hu => ?_, fun u hu he => ?_⟩
          · rcases List.mem_cons.mp hu with rfl | hu
            · exact e.symm
            · exact h3 u hu
          rcases List.mem_cons.mp hu with rfl | hu
          · exact List.mem_cons_self
          · exact List.mem_cons_of_mem _ (h2 u hu he)
        | false =>
          have hn : ∀ u ∈ t :: ts, u.start.le B = true → False := by
            intro u hu hle
            rcases List.mem_cons.mp hu with rfl | hu
            · rw [← e] at hle; cases hle
            · have := (List.pairwise_cons.mp ho.1).1 u hu
              rw [Loc.le_trans (Loc.le_trans (ho.2 t List.mem_cons_self) this) hle] at e
              cases e
          have : us = [] := by
            cases us with
            | nil => rfl
            | cons u us =>
              exact (hn u (List.mem_cons_of_mem _ (h1.subset List.mem_cons_self)) (h3 u List.mem_cons_self)).elim
          subst this
          exact ⟨[], rfl, List.nil_prefix, by simp, fun u hu hle => (hn u hu hle).elim⟩

theorem keepLeaves_first {S B : Loc} {t : Tok} {ts : List Tok} {cs : List Cst} (ho : Ordered (t :: ts))
    (hs : S = t.start) (h : keepLeaves ⟨S, B⟩ (t :: ts) = .ok cs)
    (ht : Span.overlaps ⟨S, B⟩ ⟨t.start, t.stop⟩ ≠ some false) :
    ∃ us, cs = tt (t :: us) ∧ us <+: ts ∧ (∀ u ∈ us, u.start.le B = true) ∧ ∀ u ∈ ts, u.start.le B = true → u ∈ t :: us := by
  subst hs
  have hle : ∀ u ∈ t :: ts, t.start.le u.start = true := by
    intro u hu
    rcases List.mem_cons.mp hu with rfl | hu
    · exact Loc.le_refl _
    · exact Loc.le_trans (ho.2 t List.mem_cons_self) ((List.pairwise_cons.mp ho.1).1 u hu)
  obtain ⟨us, rfl, h1, h2, h3⟩ := keepLeaves_ok ho hle h
  have hm : t ∈ us := by
    refine h3 t List.mem_cons_self ?_
    unfold keepLeaves at h
    split at h
    · cases h
    · next x hx =>
      cases x with
      | true => exact (overlaps_eq (Loc.le_refl _) (ho.2 t List.mem_cons_self) hx).symm
      | false => exact absurd hx ht
  cases us with
  | nil => cases hm
  | cons u us =>
    obtain ⟨rfl, h4⟩ := List.cons_prefix_cons.mp h1
    exact ⟨us, rfl, h4, fun v hv => h2 v (List.mem_cons_of_mem _ hv), fun v hv => h3 v (List.mem_cons_of_mem _ hv)⟩

theorem recovered_ne (op : GroupOp) (cs : List Cst) (h : Recovered op cs) : cs ≠ [] := by
  rcases h with ⟨o, mid, rfl, -⟩ | ⟨o, ts, rfl, -⟩ <;> simp [tt]

theorem stepC_lineCol {cs ds : List Char} {l m : Loc} (h : stepC cfg cs l = some (ds, m)) :
    ((∃ a b, l = .lineCol a b) → ∃ a b, m = .lineCol a b) ∧ ((∃ i, l = .index i) → ∃ i, m = .index i) := by
  have := stepC_le h
  constructor
  · rintro ⟨a, b, rfl⟩
    cases m with
    | lineCol x y => exact ⟨x, y, rfl⟩
    | index x => simp [Loc.le] at this
  · rintro ⟨a, rfl⟩
    cases m with
    | lineCol x y => simp [Loc.le] at this
    | index x => exact ⟨x, rfl⟩

theorem Steps.lineCol_of {cs ds : List Char} {l m : Loc} (h : Steps cfg cs l ds m) (hl : ∃ a b, l = .lineCol a b) :
    ∃ a b, m = .lineCol a b := by
  induction h with
  | refl => exact hl
  | step a _ ih => exact ih ((stepC_lineCol a).1 hl)

theorem Steps.lineCol {cs ds : List Char} {m : Loc} (h : Steps cfg cs Conv.lineColumn.start ds m) :
    ∃ a b, m = .lineCol a b := h.lineCol_of ⟨1, 1, rfl⟩

theorem Steps.index {cs ds : List Char} {m : Loc} (h : Steps cfg cs Conv.characterIndex.start ds m) :
    ∃ i, m = .index i := by
  have : ∀ {cs ds : List Char} {l m : Loc}, Steps cfg cs l ds m → (∃ i, l = .index i) → ∃ i, m = .index i := by
    intro cs ds l m h hl
    induction h with
    | refl => exact hl
    | step a _ ih => exact ih ((stepC_lineCol a).2 hl)
  exact this h ⟨_, rfl⟩

theorem keepLeaves_lineCol {a b a' b' : Nat} : ∀ (ts : List Tok),
    (∀ k ∈ ts, (∃ x y, k.start = .lineCol x y) ∧ (∃ x y, k.stop = .lineCol x y)) →
    ∃ us, keepLeaves ⟨.lineCol a b, .lineCol a' b'⟩ ts = .ok us
  | [], _ => ⟨[], rfl⟩
  | t :: ts, h => by
    obtain ⟨us, hu⟩ := keepLeaves_lineCol (a := a) (b := b) (a' := a') (b' := b') ts (fun k hk => h k (List.mem_cons_of_mem _ hk))
    obtain ⟨⟨x, y, h1⟩, ⟨x', y', h2⟩⟩ := h t List.mem_cons_self
    unfold keepLeaves
    rw [h1, h2, hu]
    simp only [Span.overlaps]
    exact ⟨_, rfl⟩

theorem sourceOf_some {ρ : GroupOp → List Cst → Prop} (hρ : ∀ op cs, ρ op cs → cs ≠ []) {o : Tok} {mid : List Cst}
    {conv : Conv} {input : List Char}
    (ht : ∀ c ∈ .tok o :: mid, TreeOK ρ c) (hsrc : Source cfg (St.init conv (encode input)) (.tok o :: mid)) :
    ∃ t, (leavesL (.tok o :: mid)).getLast? = some t ∧ sourceOf (.tok o :: mid) = .ok ⟨o.start, t.stop⟩ := by
  have hs := hullL_stop (cs := .tok o :: mid) (by simp) (fun c hc => TreeOK.hull hρ (ht c hc))
  cases hl : (leavesL (.tok o :: mid)).getLast? with
  | none => exact absurd (List.getLast?_eq_none_iff.mp hl) hs.1
  | some t =>
    refine ⟨t, rfl, ?_⟩
    obtain ⟨_, _, -, -, h3⟩ := hsrc.steps (o := o) rfl (List.mem_of_getLast? hl)
    unfold sourceOf
    rw [hs.2, hl]
    simp only [Cst.start, Option.map_some]
    unfold Span.new
    rw [if_pos h3.le]

theorem sourceOf_ok {ρ : GroupOp → List Cst → Prop} (hρ : ∀ op cs, ρ op cs → cs ≠ []) {o : Tok} {mid : List Cst} {src : Span}
    (ht : ∀ c ∈ .tok o :: mid, TreeOK ρ c) (h : sourceOf (.tok o :: mid) = .ok src) :
    src.start = o.start ∧ ∃ t, (leavesL (.tok o :: mid)).getLast? = some t ∧ src.stop = t.stop := by
  have hs := hullL_stop (cs := .tok o :: mid) (by simp) (fun c hc => TreeOK.hull hρ (ht c hc))
  unfold sourceOf at h
  rw [hs.2] at h
  cases hl : (leavesL (.tok o :: mid)).getLast? with
  | none => exact absurd (List.getLast?_eq_none_iff.mp hl) hs.1
  | some t =>
    rw [hl] at h
    simp only [Cst.start, Option.map_some] at h
    unfold Span.new at h
    split at h
    · next hn =>
      cases h
      split at hn
      · cases hn; exact ⟨rfl, t, rfl, rfl⟩
      · cases hn
    · cases h

/-- The lines of a group, with line/column locations. -/
theorem goodLines_group {input : List Char} {op : GroupOp} {o t : Tok} {mid : List Cst} {isNew : List Char → Except Err Bool}
    (ho : Opens o.kind op) (hk : TokOK o) (hsrc : Source cfg (St.init .lineColumn (encode input)) (.tok o :: mid))
    (ht : t ∈ leavesL (.tok o :: mid)) :
    (∃ e l, l ∈ Line.split input ∧ isNew l.content = .error e ∧ goodLines cfg isNew input ⟨o.start, t.stop⟩ = .error e) ∨
    ∃ chunk i a b a' b', goodLines cfg isNew input ⟨o.start, t.stop⟩ = .ok (chunk, i, ⟨.lineCol a b, .lineCol a' b'⟩) ∧
      o.start = .lineCol a b ∧ (a < a' ∨ a = a' ∧ b ≤ b') := by
  obtain ⟨ds, es, h1, h2, h3⟩ := hsrc.steps (o := o) rfl ht
  obtain ⟨lines, cur, h5, -⟩ := InLine.start.steps h2
  obtain ⟨lines', cur', h6, h7⟩ := h5.steps h3
  have hok := opens_kind ho
  obtain ⟨c, c1, c2, c3⟩ := head_ne h1 (hk.solid hok.1) (fun h => hok.2 (hk.line h))
  rcases goodLines_lineCol (isNew := isNew) h5 h6 h7 c1 c2 c3 with ⟨e, l, g1, g2, -, g4⟩ | ⟨chunk, i, d, nl, more, hg, g1⟩
  · exact Or.inl ⟨e, l, g1, g2, g4⟩
  · right
    refine ⟨chunk, i, _, _, _, _, by rw [g1, h5.loc], h5.loc, ?_⟩
    rcases Nat.eq_zero_or_pos i with rfl | hi
    · right
      refine ⟨rfl, ?_⟩
      rw [hg.eq]
      exact colOf_append _ _
    · left; omega

theorem overlaps_start {a b a' b' : Nat} {stop : Loc} (h : a < a' ∨ a = a' ∧ b ≤ b') :
    Span.overlaps ⟨.lineCol a b, .lineCol a' b'⟩ ⟨.lineCol a b, stop⟩ ≠ some false := by
  cases stop with
  | index i => simp [Span.overlaps]
  | lineCol x y =>
    unfold Span.overlaps LineColumnSpan.overlaps
    have : LineColumnSpan.contains ⟨⟨a, b⟩, ⟨a', b'⟩⟩ ⟨a, b⟩ = true := by
      unfold LineColumnSpan.contains
      rcases h with h | ⟨rfl, h⟩
      · simp [Nat.le_of_lt h]; omega
      · simp [h]
    simp [this]

theorem overlaps_index {i : Nat} {j stop : Loc} : Span.overlaps ⟨.index i, j⟩ ⟨.index i, stop⟩ ≠ some false := by
  cases j <;> cases stop <;> simp [Span.overlaps, CharacterSpan.intersects, CharacterSpan.intersection]
  intro h h'
  exact Nat.le_min.mpr ⟨h, h'⟩

theorem goodLines_start {isNew : List Char → Except Err Bool} {input : List Char} {src better : Span} {chunk : List Line} {i : Nat}
    (h : goodLines cfg isNew input src = .ok (chunk, i, better)) : better.start = src.start := by
  unfold goodLines at h
  split at h
  · cases h
  · split at h
    · cases h
    · split at h
      · cases h
      · split at h <;> (cases h; rfl)

/-- What recovery gives. -/
theorem recoverGroup_ok {conv : Conv} {bs : List UInt8} {op : GroupOp} {o : Tok} {mid cs' : List Cst}
    (ho : Opens o.kind op) (ht : ∀ c ∈ .tok o :: mid, TreeOK Recovered c)
    (hsrc : Source cfg (St.init conv bs) (.tok o :: mid)) (h : recoverGroup cfg bs op (.tok o :: mid) = .ok cs') :
    ∃ us, cs' = tt (o :: us) ∧ us <+: leavesL mid := by
  have hk : TokOK o := TreeOK.toks (ht (.tok o) List.mem_cons_self) o (by simp [leaves])
  unfold recoverGroup at h
  cases hu : fromUtf8 bs with
  | none => rw [hu] at h; cases h
  | some input =>
    have hbs := fromUtf8_some hu
    subst hbs
    rw [hu] at h
    simp only at h
    cases hs : sourceOf (.tok o :: mid) with
    | error e => rw [hs] at h; cases h
    | ok src =>
      rw [hs] at h
      obtain ⟨s1, t, s2, s3⟩ := sourceOf_ok (recovered_ne) ht hs
      obtain ⟨a, b⟩ := src
      simp only at s1 s3
      subst s1 s3
      have hm := List.mem_of_getLast? s2
      simp only at h
      cases hg : goodLines cfg (isStatement cfg) input ⟨o.start, t.stop⟩ with
      | error e => rw [hg] at h; cases h
      | ok p =>
        obtain ⟨chunk, i, better⟩ := p
        rw [hg] at h
        have hl : leavesL (.tok o :: mid) = o :: leavesL mid := rfl
        rw [hl] at h
        have hb := goodLines_start hg
        obtain ⟨b1, b2⟩ := better
        suffices hne : Span.overlaps ⟨b1, b2⟩ ⟨o.start, o.stop⟩ ≠ some false by
          obtain ⟨us, k1, k2, -⟩ := keepLeaves_first hsrc.ordered hb h hne
          exact ⟨us, k1, k2⟩
        cases conv with
        | lineColumn =>
          rcases goodLines_group (isNew := isStatement cfg) ho hk hsrc hm with ⟨e, l, -, -, g⟩ | ⟨chunk', i', a, b, a', b', g1, g2, g3⟩
          · rw [hg] at g; cases g
          · rw [hg] at g1; cases g1
            rw [g2]; exact overlaps_start g3
        | characterIndex =>
          obtain ⟨_, _, -, q1, -⟩ := hsrc.steps (o := o) rfl hm
          obtain ⟨x, hx⟩ := q1.index
          simp only at hb
          subst hb
          rw [hx]
          exact overlaps_index

/-- What can go wrong in recovery, with line/column locations. -/
theorem recoverGroup_err {bs : List UInt8} {op : GroupOp} {o : Tok} {mid : List Cst} {e : Err}
    (ho : Opens o.kind op) (ht : ∀ c ∈ .tok o :: mid, TreeOK Recovered c)
    (hsrc : Source cfg (St.init .lineColumn bs) (.tok o :: mid)) (h : recoverGroup cfg bs op (.tok o :: mid) = .error e) :
    (e = .panic .utf8 ∧ ¬ ValidUTF8 bs) ∨ ∃ input, bs = encode input ∧ LineErr input e := by
  have hk : TokOK o := TreeOK.toks (ht (.tok o) List.mem_cons_self) o (by simp [leaves])
  unfold recoverGroup at h
  cases hu : fromUtf8 bs with
  | none =>
    rw [hu] at h; cases h
    left
    refine ⟨rfl, ?_⟩
    rintro ⟨cs, rfl⟩
    rw [fromUtf8_encode] at hu; cases hu
  | some input =>
    have hbs := fromUtf8_some hu
    subst hbs
    refine Or.inr ⟨input, rfl, ?_⟩
    rw [hu] at h
    simp only at h
    have hsp := sourceOf_some recovered_ne ht hsrc
    obtain ⟨t, s2, hs⟩ := hsp
    rw [hs] at h
    have hm := List.mem_of_getLast? s2
    simp only at h
    rcases goodLines_group (isNew := isStatement cfg) ho hk hsrc hm with ⟨e', l, l1, l2, g⟩ | ⟨chunk', i', a, b, a', b', g1, g2, g3⟩
    · rw [g] at h; cases h
      exact isStatement_split l1 l2
    · rw [g1] at h
      simp only at h
      obtain ⟨us, hus⟩ := keepLeaves_lineCol (a := a) (b := b) (a' := a') (b' := b') (leavesL (.tok o :: mid))
        (fun k hk => by
          obtain ⟨_, _, -, p1, p2⟩ := (hsrc.placed k hk).before
          exact ⟨p1.lineCol, p2.lineCol_of p1.lineCol⟩)
      rw [hus] at h; cases h

end
end CodeParser
