import Verif.Proofs.Meaning3
/-!
Abstraction of written expressions: patterns, slots, semicolons and operators with two tokens (helper lemmas for C50).
-/
namespace CodeParser.Mean
open CodeParser Spec Props Abs

variable {env : AEnv}

/-! ### Patterns and slots -/

theorem name_quoted (hd : QuotesNames env.debug) {x : Lexeme} (hx : PlainName x) (hk : x.1 = .Symbol ∨ x.1 = .String) :
    escapeSymbol env x.2 = if x.1 = .String then x.2 else byte '"' :: (x.2 ++ [byte '"']) := by
  unfold escapeSymbol
  rcases hk with hk | hk
  · rw [if_neg (show ¬ x.1 = .String by rw [hk]; decide)]
    obtain ⟨n, hn, e⟩ := hx.1 hk
    have hb : ∀ b ∈ x.2, nameByte b = true := by rw [e]; exact name_bytes hn
    have h1 : ¬ x.2.head? = some 34 := fun h => absurd (hb 34 (List.mem_of_mem_head? h)) (by decide)
    have h2 : ¬ x.2.take 2 = [92, 91] := fun h => by
      have : (92 : UInt8) ∈ x.2 := List.mem_of_mem_take (i := 2) (by rw [h]; simp)
      exact absurd (hb _ this) (by decide)
    rw [if_neg h1, if_neg h2, e, hd n hn]
  · rw [if_pos (show x.2.head? = some 34 from hx.2 hk), if_pos hk]

theorem blank_cases {k : TK} {op : CompoundOp} (h : blankOf k = some op) :
    (k = .Under ∧ op = .Blank) ∨ (k = .UnderUnder ∧ op = .BlankSequence) ∨ (k = .UnderUnderUnder ∧ op = .BlankNullSequence) := by
  unfold blankOf at h
  split at h <;> first | (cases h; simp) | cases h

theorem pattern_cases {k : TK} {op : CompoundOp} (h : patternOf k = some op) :
    (k = .Under ∧ op = .CodeParser_PatternBlank) ∨ (k = .UnderUnder ∧ op = .CodeParser_PatternBlankSequence) ∨
      (k = .UnderUnderUnder ∧ op = .CodeParser_PatternBlankNullSequence) ∨ (k = .UnderDot ∧ op = .CodeParser_PatternOptionalDefault) := by
  unfold patternOf at h
  split at h <;> first | (cases h; simp) | cases h

theorem slot_cases {k : TK} {op : CompoundOp} (h : slotOf k = some op) :
    (k = .Hash ∧ op = .Slot) ∨ (k = .HashHash ∧ op = .SlotSequence) ∨ (k = .Percent ∧ op = .Out) := by
  unfold slotOf at h
  split at h <;> first | (cases h; simp) | cases h

theorem blank_value {u x : Lexeme} {op : CompoundOp} {s t : Tok} (known : blankOf u.1 = some op) (hk : x.1 = .Symbol) (hx : OkLex x)
    (ht : Same t x) {a : Ast} (h : Runs env (.cst (.node (.compound op) [.tok s, .tok t])) a) : erase a = blankExpr u.1 [atomExpr x] := by
  obtain ⟨rec, hrec, data, h⟩ := runs_node h
  have hv := fun y hy => atom_value (by rw [hk]; rfl) hx ht.1 ht.2 (hrec (.cst (.tok t)) y hy)
  rcases blank_cases known with ⟨hu, rfl⟩ | ⟨hu, rfl⟩ | ⟨hu, rfl⟩
  all_goals
    simp only [nodeAst, compoundAst, expect2, bind_ok] at h
    obtain ⟨_, e, y, hy, h⟩ := h
    cases e
    cases h
    rw [erase_callS, hu]
    simp only [blankExpr, List.map_cons, List.map_nil, hv y hy]
    first | exact congrArg (Expr.call · _) w_Blank | exact congrArg (Expr.call · _) w_BlankSequence |
      exact congrArg (Expr.call · _) w_BlankNullSequence

theorem compound_value (hd : QuotesNames env.debug) {c : Compound} {d : Cst} (hn : ∀ x ∈ c.lexemes, OkLex x) (hm : c.Meaningful) (hr : RepC c d) {a : Ast}
    (h : Runs env (.cst d) a) : erase a = c.expr := by
  cases c with
  | blank u h' op known head =>
    obtain ⟨s, t, rfl, hs, ht⟩ := hr
    exact blank_value known head (hn h' (by simp [Compound.lexemes])) ht h
  | named x u op known name =>
    obtain ⟨s, t, rfl, hs, ht⟩ := hr
    obtain ⟨rec, hrec, data, h⟩ := runs_node h
    have hv := fun y hy => atom_value (by rw [name]; rfl) (hn x (by simp [Compound.lexemes])) hs.1 hs.2 (hrec (.cst (.tok s)) y hy)
    have hv' := fun (ha : atomKind u.1 = true) y hy => atom_value ha (hn u (by simp [Compound.lexemes])) ht.1 ht.2 (hrec (.cst (.tok t)) y hy)
    rw [Compound.expr]
    rcases pattern_cases known with ⟨hu, rfl⟩ | ⟨hu, rfl⟩ | ⟨hu, rfl⟩ | ⟨hu, rfl⟩
    · simp only [nodeAst, compoundAst, expect2, bind_ok] at h
      obtain ⟨_, e, x, hx, y, hy, h⟩ := h
      cases e
      cases h
      rw [erase_callS, hu, if_neg (by decide), w_Pattern]
      simp only [List.map_cons, List.map_nil, hv x hx, hv' (by rw [hu]; rfl) y hy, atomExpr, hu]
    · simp only [nodeAst, compoundAst, expect2, bind_ok] at h
      obtain ⟨_, e, x, hx, y, hy, h⟩ := h
      cases e
      cases h
      rw [erase_callS, hu, if_neg (by decide), w_Pattern]
      simp only [List.map_cons, List.map_nil, hv x hx, hv' (by rw [hu]; rfl) y hy, atomExpr, hu]
    · simp only [nodeAst, compoundAst, expect2, bind_ok] at h
      obtain ⟨_, e, x, hx, y, hy, h⟩ := h
      cases e
      cases h
      rw [erase_callS, hu, if_neg (by decide), w_Pattern]
      simp only [List.map_cons, List.map_nil, hv x hx, hv' (by rw [hu]; rfl) y hy, atomExpr, hu]
    · simp only [nodeAst, compoundAst, expect2, bind_ok] at h
      obtain ⟨_, e, h⟩ := h
      cases e
      simp only [ht.1, hu, if_true, bind_ok] at h
      obtain ⟨y, hy, h⟩ := h
      cases h
      rw [erase_callS, hu, if_pos rfl, w_Optional]
      simp only [List.map_cons, List.map_nil, erase_callS, hv y hy, w_Pattern, w_Blank]
  | typed x u h' op op' known known' name head =>
    obtain ⟨r, s, t, rfl, hr, hs, ht⟩ := hr
    obtain ⟨rec, hrec, data, h⟩ := runs_node h
    have hv := fun y hy => atom_value (by rw [name]; rfl) (hn x (by simp [Compound.lexemes])) hr.1 hr.2 (hrec (.cst (.tok r)) y hy)
    have hv' := fun b hb => blank_value known head (hn h' (by simp [Compound.lexemes])) ht
      (hrec (.cst (.node (.compound op) [.tok s, .tok t])) b hb)
    rw [Compound.expr]
    rcases pattern_cases known' with ⟨hu, rfl⟩ | ⟨hu, rfl⟩ | ⟨hu, rfl⟩ | ⟨hu, rfl⟩
    · simp only [nodeAst, compoundAst, expect2, bind_ok] at h
      obtain ⟨_, e, x, hx, y, hy, h⟩ := h
      cases e
      cases h
      rw [erase_callS, w_Pattern]
      simp only [List.map_cons, List.map_nil, hv x hx, hv' y hy]
    · simp only [nodeAst, compoundAst, expect2, bind_ok] at h
      obtain ⟨_, e, x, hx, y, hy, h⟩ := h
      cases e
      cases h
      rw [erase_callS, w_Pattern]
      simp only [List.map_cons, List.map_nil, hv x hx, hv' y hy]
    · simp only [nodeAst, compoundAst, expect2, bind_ok] at h
      obtain ⟨_, e, x, hx, y, hy, h⟩ := h
      cases e
      cases h
      rw [erase_callS, w_Pattern]
      simp only [List.map_cons, List.map_nil, hv x hx, hv' y hy]
    · rw [hu] at known; cases known
  | slot s n op known number digits =>
    obtain ⟨r, t, rfl, hr, ht⟩ := hr
    obtain ⟨rec, hrec, data, h⟩ := runs_node h
    have hv := fun y hy => atom_value (env := env) (by rw [number]; rfl) (hn n (by simp [Compound.lexemes])) ht.1 ht.2
      (hrec (.cst (.tok t)) y hy)
    rw [Compound.expr]
    rcases slot_cases known with ⟨hu, rfl⟩ | ⟨hu, rfl⟩ | ⟨hu, rfl⟩
    · simp only [nodeAst, compoundAst, expect2, bind_ok] at h
      obtain ⟨_, e, h⟩ := h
      cases e
      simp only [ht.1, number, if_true, bind_ok] at h
      obtain ⟨y, hy, h⟩ := h
      cases h
      simp only [tokenAst, ht.1, number] at hy
      rw [if_neg (by decide), if_neg (by decide)] at hy
      cases hy
      rw [erase_callS, hu, w_Slot]
      simp only [slotExpr, atomExpr, number, List.map_cons, List.map_nil, ← ht.2]
      rfl
    · simp only [nodeAst, compoundAst, expect2, bind_ok] at h
      obtain ⟨_, e, h⟩ := h
      cases e
      rw [if_pos (show isTok .Integer (.tok t) = true by simp [isTok, ht.1, number]), bind_ok] at h
      obtain ⟨y, hy, h⟩ := h
      cases h
      rw [erase_callS, hu]
      simp only [slotExpr, List.map_cons, List.map_nil, hv y hy]
      exact congrArg (Expr.call · _) w_SlotSequence
    · simp only [nodeAst, compoundAst, expect2, bind_ok] at h
      obtain ⟨_, e, h⟩ := h
      cases e
      rw [if_pos (show isTok .Integer (.tok t) = true by simp [isTok, ht.1, number]), bind_ok] at h
      obtain ⟨y, hy, h⟩ := h
      cases h
      rw [erase_callS, hu]
      simp only [slotExpr, List.map_cons, List.map_nil, hv y hy]
      exact congrArg (Expr.call · _) w_Out
  | slotName s n known name =>
    obtain ⟨r, t, rfl, hr, ht⟩ := hr
    obtain ⟨rec, hrec, data, h⟩ := runs_node h
    simp only [nodeAst, compoundAst, expect2, bind_ok] at h
    obtain ⟨_, e, h⟩ := h
    cases e
    simp only [ht.1] at h
    rw [if_neg (by decide), if_pos (by simp), bind_ok] at h
    obtain ⟨u, hu, h⟩ := h
    obtain rfl := asStr_ok' hu
    cases h
    rw [Compound.expr, known, ← name_quoted hd hm name, erase_callS, w_Slot, ht.2]
    rfl

theorem sound_compound (hq : env.flattenTimes = false) (hd : QuotesNames env.debug) {c : Compound} {d : Cst}
    (hn : ∀ x ∈ c.lexemes, OkLex x) (hm : c.Meaningful) (hr : RepC c d) : Sound env (.compound c) d := by
  refine sound_ordinary hq ?_ (fun r => ?_) rfl rfl fun a h => ?_
  · obtain ⟨op, cs, rfl⟩ := rep_compound hr
    exact ⟨by simp, by simp, by simp, by simp, by simp, by simp⟩
  · simp only [Form.expr, Role.of]
  · rw [Form.expr]; exact compound_value hd hn hm hr h

/-! ### Semicolons -/

/-- An operand of semicolons, which may be missing. -/
def stepAst (rec : Req → A Ast) (c : Cst) : A Ast :=
  match c with
  | .tok t =>
    if t.kind = .Fake_ImplicitNull then .ok (.symbol .System_Null (.of (t.start, t.stop)))
    else rec (.cst c)
  | c => rec (.cst c)

/-- The operands of semicolons are sound. -/
def SoundS (env : AEnv) (t : Semis) (cs : List Cst) : Prop :=
  ∃ ds, (∀ c, evens (c :: cs) = c :: ds) ∧ ∀ rec : Req → A Ast, (∀ r a, rec r = .ok a → Runs env r a) → ∀ as,
    mapA (stepAst rec) ds = .ok as → as.map erase = t.exprs (quirks env)

theorem step_null {rec : Req → A Ast} {t : Tok} (ht : t.kind = .Fake_ImplicitNull) {a : Ast} (h : stepAst rec (.tok t) = .ok a) :
    erase a = word "Null" := by
  rw [stepAst, if_pos ht] at h
  cases h
  exact w_Null

theorem step_value {f : Spec.Form} {c : Cst} (hr : Rep f c) (hs : Sound env f c) (hn : ∀ x, f = .atom x → x.1 ≠ .Fake_ImplicitNull)
    {rec : Req → A Ast} (hrec : ∀ r a, rec r = .ok a → Runs env r a) {a : Ast} (h : stepAst rec c = .ok a) :
    erase a = f.expr (quirks env) .value := by
  refine hs.value a (hrec _ _ ?_)
  unfold stepAst at h
  split at h
  · next t =>
    rw [if_neg] at h
    · exact h
    · intro ht
      cases f with
      | atom x => obtain ⟨_, e, h1, -⟩ := hr; cases e; exact hn x rfl (h1 ▸ ht)
      | group => obtain ⟨_, _, _, h, -⟩ := hr; cases h
      | chain => obtain ⟨_, _, h, -⟩ := hr; cases h
      | call => obtain ⟨_, _, _, _, h, -⟩ := hr; cases h
      | binary => obtain ⟨_, _, _, h, -⟩ := hr; cases h
      | «prefix» => obtain ⟨_, _, h, -⟩ := hr; cases h
      | «postfix» => obtain ⟨_, _, h, -⟩ := hr; cases h
      | compound => obtain ⟨_, _, h⟩ := rep_compound hr; cases h
      | semi => obtain ⟨_, _, h, -⟩ := hr; cases h
      | ternary => obtain ⟨_, _, _, _, _, h, -⟩ := hr; cases h
      | unset => obtain ⟨_, _, _, h, -⟩ := hr; cases h
      | tagUnset => obtain ⟨_, _, _, _, _, h, -⟩ := hr; cases h
      | pattern => obtain ⟨_, _, _, h, -⟩ := hr; cases h
      | optional => obtain ⟨_, _, _, h, -⟩ := hr; cases h
      | span => obtain ⟨_, _, _, h, -⟩ := hr; cases h
      | spanFrom => obtain ⟨_, _, _, h, -⟩ := hr; cases h
  · exact h

/-- The expression is not a missing operand. -/
theorem written_null {f : Spec.Form} {g : Bool} {ks : List Lexeme} (h : Writes g f ks) : ∀ x, f = .atom x → x.1 ≠ .Fake_ImplicitNull := by
  rintro x rfl hk
  cases h with
  | atom h => rw [hk] at h; cases h

theorem soundS_stop {o : Lexeme} {t n : Tok} (hn : n.kind = .Fake_ImplicitNull) : SoundS env (.stop o) [.tok t, .tok n] := by
  refine ⟨[.tok n], fun c => rfl, fun rec hrec as h => ?_⟩
  obtain ⟨x, xs, h1, h2, rfl⟩ := mapA_cons_ok h
  obtain rfl := mapA_nil_ok h2
  rw [List.map_cons, step_null hn h1]; rfl

theorem soundS_last {o : Lexeme} {f : Spec.Form} {t : Tok} {c : Cst} (hr : Rep f c) (hs : Sound env f c)
    (hn : ∀ x, f = .atom x → x.1 ≠ .Fake_ImplicitNull) : SoundS env (.last o f) [.tok t, c] := by
  refine ⟨[c], fun c => rfl, fun rec hrec as h => ?_⟩
  obtain ⟨x, xs, h1, h2, rfl⟩ := mapA_cons_ok h
  obtain rfl := mapA_nil_ok h2
  rw [List.map_cons, step_value hr hs hn hrec h1]; rfl

theorem soundS_skip {o : Lexeme} {tl : Semis} {t n : Tok} {cs : List Cst} (hn : n.kind = .Fake_ImplicitNull) (hs : SoundS env tl cs) :
    SoundS env (.skip o tl) (.tok t :: .tok n :: cs) := by
  obtain ⟨ds, h1, h2⟩ := hs
  refine ⟨.tok n :: ds, fun c => by rw [evens, h1], fun rec hrec as h => ?_⟩
  obtain ⟨x, xs, h3, h4, rfl⟩ := mapA_cons_ok h
  rw [List.map_cons, step_null hn h3, h2 rec hrec xs h4]; rfl

theorem soundS_more {o : Lexeme} {f : Spec.Form} {tl : Semis} {t : Tok} {c : Cst} {cs : List Cst} (hr : Rep f c) (hf : Sound env f c)
    (hn : ∀ x, f = .atom x → x.1 ≠ .Fake_ImplicitNull) (hs : SoundS env tl cs) : SoundS env (.more o f tl) (.tok t :: c :: cs) := by
  obtain ⟨ds, h1, h2⟩ := hs
  refine ⟨c :: ds, fun c' => by rw [evens, h1], fun rec hrec as h => ?_⟩
  obtain ⟨x, xs, h3, h4, rfl⟩ := mapA_cons_ok h
  rw [List.map_cons, step_value hr hf hn hrec h3, h2 rec hrec xs h4]; rfl

theorem sound_semi (hq : env.flattenTimes = false) {f : Spec.Form} {t : Semis} {c : Cst} {cs : List Cst} (hr : Rep f c) (hf : Sound env f c)
    (hn : ∀ x, f = .atom x → x.1 ≠ .Fake_ImplicitNull) (hs : SoundS env t cs) :
    Sound env (.semi f t) (.node (.infix .CompoundExpression) (c :: cs)) := by
  refine sound_ordinary hq ⟨by simp, by simp, by simp, by simp, by simp, by simp⟩ (fun r => ?_) rfl rfl fun a h => ?_
  · simp only [Form.expr, Role.of]
  · obtain ⟨rec, hrec, data, h⟩ := runs_node h
    obtain ⟨ds, h1, h2⟩ := hs
    simp only [nodeAst, infixAst, bind_ok, h1] at h
    obtain ⟨as, h3, h⟩ := h
    cases h
    obtain ⟨x, xs, h4, h5, rfl⟩ := mapA_cons_ok (f := stepAst rec) h3
    rw [erase_callS, List.map_cons, step_value hr hf hn hrec h4, h2 rec hrec xs h5, w_CompoundExpression]
    simp only [Form.expr, Role.of]

/-! ### Operators with two tokens -/

theorem ternary_cases {k k' : TK} {p p' : Nat} {op : TernaryOp} (h : ternaryOf k k' = some (p, p', op)) :
    op = .CodeParser_TernaryTilde ∨ op = .TagSet ∨ op = .TagSetDelayed := by
  unfold ternaryOf at h
  split at h <;> first | (cases h; simp) | cases h

theorem sound_ternary (hq : env.flattenTimes = false) {l m r : Spec.Form} {o : Ternary} {x y z : Cst} {t t' : Tok} (hl : Sound env l x)
    (hm : Sound env m y) (hr : Sound env r z) (hc : ∀ ds, y ≠ .node (.infix .CodeParser_Comma) ds) :
    Sound env (.ternary l o m r) (.node (.ternary o.op) [x, .tok t, y, .tok t', z]) := by
  refine sound_ordinary hq ⟨by simp, by simp, by simp, by simp, by simp, by simp⟩ (fun r => ?_) rfl rfl fun a h => ?_
  · simp only [Form.expr, Role.of]
  · obtain ⟨rec, hrec, data, h⟩ := runs_node h
    rw [Form.expr]
    simp only [nodeAst, ternaryAst, expect5, bind_ok] at h
    obtain ⟨_, e, h⟩ := h
    cases e
    rcases ternary_cases o.known with ho | ho | ho
    · rw [ho] at h ⊢
      have hn : isNode (.infix .CodeParser_Comma) y = false := by
        unfold isNode
        split
        · rw [decide_eq_false_iff_not]
          rintro rfl
          exact hc _ rfl
        · rfl
      simp only [hn, Bool.false_eq_true, if_false, bind_ok] at h
      obtain ⟨b, hb, a', ha, c, hc, h⟩ := h
      cases h
      rw [erase_call, hm.value b (hrec _ _ hb), List.map_cons, List.map_cons, hl.value a' (hrec _ _ ha), hr.value c (hrec _ _ hc)]
      rfl
    · rw [ho] at h ⊢
      simp only [bind_ok] at h
      obtain ⟨a', ha, b, hb, c, hc, h⟩ := h
      cases h
      rw [erase_callS, List.map_cons, List.map_cons, List.map_cons, hm.value b (hrec _ _ hb), hl.value a' (hrec _ _ ha),
        hr.value c (hrec _ _ hc)]
      exact congrArg (Expr.call · _) w_TagSet
    · rw [ho] at h ⊢
      simp only [bind_ok] at h
      obtain ⟨a', ha, b, hb, c, hc, h⟩ := h
      cases h
      rw [erase_callS, List.map_cons, List.map_cons, List.map_cons, hm.value b (hrec _ _ hb), hl.value a' (hrec _ _ ha),
        hr.value c (hrec _ _ hc)]
      exact congrArg (Expr.call · _) w_TagSetDelayed

/-! ### Spans -/

/-- The abstraction of the tree, if it succeeds, is the expression. -/
def Ran (env : AEnv) (c : Cst) (v : Expr) : Prop := ∀ a, Runs env (.cst c) a → erase a = v

theorem ran_one {n : Tok} (hn : n.kind = .Fake_ImplicitOne) : Ran env (.tok n) (number 1) := by
  intro a h
  obtain ⟨rec, hrec, h⟩ := h.step
  simp only [Abs.step, tokenAst, hn] at h
  cases h
  rfl

theorem ran_all {n : Tok} (hn : n.kind = .Fake_ImplicitAll) : Ran env (.tok n) (word "All") := by
  intro a h
  obtain ⟨rec, hrec, h⟩ := h.step
  simp only [Abs.step, tokenAst, hn] at h
  cases h
  exact w_All

/-- The operands behind a `;;` are sound. -/
def SoundE (env : AEnv) (e : Reach) (ds : List Cst) : Prop :=
  (∃ c v, e.kind = .binary .Span ∧ ds = [c] ∧ e.exprs (quirks env) = [v] ∧ Ran env c v) ∨
  (∃ c t c' v v', e.kind = .ternary .Span ∧ ds = [c, .tok t, c'] ∧ e.exprs (quirks env) = [v, v'] ∧ Ran env c v ∧ Ran env c' v')

theorem sound_spans (hq : env.flattenTimes = false) {f : Spec.Form} {e : Reach} {x : Cst} {v : Expr} {t : Tok} {ds : List Cst}
    (hf : ∀ r, f.expr (quirks env) r = r.of (.call (word "Span") (v :: e.exprs (quirks env)))) (hn : f.isNumber = false)
    (hz : f.isZero = false) (hx : Ran env x v) (he : SoundE env e ds) : Sound env f (.node e.kind (x :: .tok t :: ds)) := by
  refine sound_ordinary hq ?_ (fun r => by rw [hf, hf]; rfl) hn hz fun a h => ?_
  · rcases reach_kind e with h | h <;> rw [h] <;> exact ⟨by simp, by simp, by simp, by simp, by simp, by simp⟩
  · obtain ⟨rec, hrec, data, h⟩ := runs_node h
    rw [hf]
    rcases he with ⟨c, w, hk, rfl, hw, hc⟩ | ⟨c, t', c', w, w', hk, rfl, hw, hc, hc'⟩
    · rw [hk] at h
      simp only [nodeAst, binaryAst, expect3, bind_ok] at h
      obtain ⟨_, e, h⟩ := h
      cases e
      simp only [bind_ok] at h
      obtain ⟨p, e1, q, e2, h⟩ := h
      rw [if_neg (by rintro ⟨h, -⟩; cases h)] at h
      cases h
      rw [erase_callS, List.map_cons, List.map_cons, hx p (hrec _ _ e1), hc q (hrec _ _ e2), hw]
      exact congrArg (Expr.call · _) w_Span
    · rw [hk] at h
      simp only [nodeAst, ternaryAst, expect5, bind_ok] at h
      obtain ⟨_, e, h⟩ := h
      cases e
      obtain ⟨a', ha, b, hb, c, hc'', h⟩ := h
      cases h
      rw [erase_callS, List.map_cons, List.map_cons, List.map_cons, hx a' (hrec _ _ ha), hc b (hrec _ _ hb), hc' c (hrec _ _ hc''), hw]
      exact congrArg (Expr.call · _) w_Span

theorem sound_unset (hq : env.flattenTimes = false) {f : Spec.Form} {e d : Lexeme} {c : Cst} {t t' : Tok} (ht : t.kind = .Equal)
    (ht' : t'.kind = .Dot) (hs : Sound env f c) : Sound env (.unset f e d) (.node (.binary .Unset) [c, .tok t, .tok t']) := by
  refine sound_ordinary hq ⟨by simp, by simp, by simp, by simp, by simp, by simp⟩ (fun r => ?_) rfl rfl fun a h => ?_
  · simp only [Form.expr, Role.of]
  · obtain ⟨rec, hrec, data, h⟩ := runs_node h
    rw [Form.expr]
    simp only [nodeAst, binaryAst, expect3, bind_ok] at h
    obtain ⟨_, e, h⟩ := h
    cases e
    rw [if_pos (by simp [isTok, ht, ht'])] at h
    simp only [bind_ok] at h
    obtain ⟨b, hb, h⟩ := h
    cases h
    rw [erase_callS, w_Unset, List.map_cons, hs.value b (hrec _ _ hb)]
    rfl

theorem sound_tagUnset (hq : env.flattenTimes = false) {l m : Spec.Form} {o e d : Lexeme} {x y : Cst} {s t t' : Tok} (ht : t.kind = .Equal)
    (ht' : t'.kind = .Dot) (hl : Sound env l x) (hm : Sound env m y) :
    Sound env (.tagUnset l o m e d) (.node (.ternary .TagUnset) [x, .tok s, y, .tok t, .tok t']) := by
  refine sound_ordinary hq ⟨by simp, by simp, by simp, by simp, by simp, by simp⟩ (fun r => ?_) rfl rfl fun a h => ?_
  · simp only [Form.expr, Role.of]
  · obtain ⟨rec, hrec, data, h⟩ := runs_node h
    rw [Form.expr]
    simp only [nodeAst, ternaryAst, expect5, bind_ok] at h
    obtain ⟨_, e, h⟩ := h
    cases e
    rw [if_pos (by simp [isTok, ht, ht'])] at h
    simp only [bind_ok] at h
    obtain ⟨a', ha, b, hb, h⟩ := h
    cases h
    rw [erase_callS, w_TagUnset, List.map_cons, List.map_cons, hl.value a' (hrec _ _ ha), hm.value b (hrec _ _ hb)]
    rfl

end CodeParser.Mean
