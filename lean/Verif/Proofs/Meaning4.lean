import Verif.Proofs.Meaning3
/-!
Abstraction of written expressions: operators (helper lemmas for C50).
-/
namespace CodeParser.Mean
open CodeParser Spec Props Abs

variable {env : AEnv}

/-! ### Binary operators -/

theorem binary_ops : ∀ k : TK, (match binaryOf k with
    | some (_, op) => op != .Put && op != .PutAppend && op != .Unset
    | none => true) = true := forall_of_all (by decide +kernel)

theorem Binary.ops (o : Binary) : o.op ≠ .Put ∧ o.op ≠ .PutAppend ∧ o.op ≠ .Unset := by
  have := binary_ops o.lex.1
  rw [o.known] at this
  simpa [and_assoc] using this

theorem binary_other {op : BinaryOp} (h : op ≠ .Divide ∧ op ≠ .CodeParser_BinaryAt ∧ op ≠ .MapApply ∧
    op ≠ .CodeParser_BinarySlashSlash ∧ op ≠ .Put ∧ op ≠ .PutAppend ∧ op ≠ .Unset) {rec : Req → A Ast} {l m r : Cst} {data : ASrc}
    {a : Ast} (ha : binaryAst env rec op [l, m, r] data = .ok a) (hp : op = .PatternTest → isNode (.binary .PatternTest) l = false) :
    ∃ x y, rec (.cst l) = .ok x ∧ rec (.cst r) = .ok y ∧ a = .callS op.toSymbol [x, y] (.of data) := by
  simp only [binaryAst, expect3, ok_bind] at ha
  split at ha
  any_goals simp at h
  simp only [bind_ok] at ha
  obtain ⟨x, h1, y, h2, ha⟩ := ha
  rw [if_neg (by rintro ⟨h3, h4⟩; rw [hp h3] at h4; cases h4)] at ha
  cases ha
  exact ⟨x, y, h1, h2, rfl⟩

theorem binaryExpr_other {q : Quirks} {op : BinaryOp} {l r : Expr} (h : op ≠ .Divide ∧ op ≠ .CodeParser_BinaryAt ∧ op ≠ .MapApply ∧
    op ≠ .CodeParser_BinarySlashSlash) : binaryExpr q op l r = .call (operator op.toSymbol) [l, r] := by
  unfold binaryExpr
  split <;> first | rfl | simp at h

theorem binary_value {l r : Spec.Form} {o : Binary} {x y : Cst} {t : Tok} (hl : Sound env l x) (hr : Sound env r y)
    (hq : env.flattenTimes = false) (hp : o.op = .PatternTest → isNode (.binary .PatternTest) x = false)
    (hd : o.op = .Divide → isProduct l = false) {a : Ast} (h : Runs env (.cst (.node (.binary o.op) [x, .tok t, y])) a) :
    erase a = binaryExpr (quirks env) o.op (l.expr (quirks env) .value) (r.expr (quirks env) .value) := by
  obtain ⟨rec, hrec, data, h⟩ := runs_node h
  have h : binaryAst env rec o.op [x, .tok t, y] data = .ok a := h
  have hops := Binary.ops o
  by_cases h1 : o.op = .Divide
  · rw [h1] at h ⊢
    simp only [binaryAst, expect3, ok_bind, divideAst, recipAst, bind_ok, hq] at h
    obtain ⟨os, e1, as, e2, b, ⟨c, e3, e4⟩, e5⟩ := h
    cases e4
    cases e5
    have := factor_ok hl (hd h1) e1 hrec e2
    rw [erase_callS, List.map_append, this, w_Times, List.map_cons, erase_callS, w_Power, List.map_cons, hr.value c (hrec _ _ e3),
      List.map_cons, erase_neg1]
    rfl
  by_cases h2 : o.op = .CodeParser_BinaryAt
  · rw [h2] at h ⊢
    simp only [binaryAst, expect3, ok_bind, bind_ok] at h
    obtain ⟨u, e1, v, e2, e3⟩ := h
    cases e3
    rw [erase_call, List.map_cons, hl.value u (hrec _ _ e1), hr.value v (hrec _ _ e2)]
    rfl
  by_cases h3 : o.op = .MapApply
  · rw [h3] at h ⊢
    simp only [binaryAst, expect3, ok_bind, bind_ok] at h
    obtain ⟨u, e1, v, e2, e3⟩ := h
    simp only [binaryExpr]
    rw [← hl.value u (hrec _ _ e1), ← hr.value v (hrec _ _ e2)]
    split at e3
    · next ho =>
      cases e3
      rw [if_pos (show (quirks env).oldAtAtAt = true from ho), erase_callS, w_Apply]
      simp only [List.map_cons, List.map_nil, erase_callS, w_List]
      rfl
    · next ho =>
      cases e3
      rw [if_neg (show ¬ (quirks env).oldAtAtAt = true from ho), erase_callS, w_MapApply]
      rfl
  by_cases h4 : o.op = .CodeParser_BinarySlashSlash
  · rw [h4] at h ⊢
    simp only [binaryAst, expect3, ok_bind, bind_ok] at h
    obtain ⟨u, e1, v, e2, e3⟩ := h
    cases e3
    rw [erase_call, List.map_cons, hl.value v (hrec _ _ e2), hr.value u (hrec _ _ e1)]
    rfl
  · obtain ⟨u, v, e1, e2, rfl⟩ := binary_other ⟨h1, h2, h3, h4, hops⟩ h hp
    rw [erase_callS, binaryExpr_other ⟨h1, h2, h3, h4⟩]
    simp only [List.map_cons, List.map_nil, hl.value u (hrec _ _ e1), hr.value v (hrec _ _ e2)]

theorem binary_expr {q : Quirks} {r : Role} {f g : Spec.Form} {o : Binary} (h : o.op ≠ .CodeParser_BinaryAt) :
    (Spec.Form.binary f o g).expr q r = r.of (binaryExpr q o.op (f.expr q .value) (g.expr q .value)) := by
  rw [Form.expr]
  split
  · rw [if_neg (by simp [h])]
  · rfl

theorem sound_binary (hq : env.flattenTimes = false) {l r : Spec.Form} {o : Binary} {x y : Cst} {t : Tok} (hl : Sound env l x)
    (hr : Sound env r y) (ho : o.op ≠ .CodeParser_BinaryAt) (hp : o.op = .PatternTest → isNode (.binary .PatternTest) x = false)
    (hd : o.op = .Divide → isProduct l = false) : Sound env (.binary l o r) (.node (.binary o.op) [x, .tok t, y]) := by
  refine sound_ordinary hq ⟨by simp, by simp, by simp, by simpa using ho, by simp, by simp⟩ (fun r => ?_) rfl rfl fun a h => ?_
  · rw [binary_expr ho, binary_expr ho]; rfl
  · rw [binary_expr ho]; exact binary_value hl hr hq hp hd h

theorem sound_pattern (hq : env.flattenTimes = false) {x o : Lexeme} {r : Spec.Form} {y : Cst} {s t : Tok} (hx : Sound env (.atom x) (.tok s))
    (hr : Sound env r y) : Sound env (.pattern x o r) (.node (.binary .Pattern) [.tok s, .tok t, y]) := by
  refine sound_ordinary hq ⟨by simp, by simp, by simp, by simp, by simp, by simp⟩ (fun r => ?_) rfl rfl fun a h => ?_
  · simp only [Form.expr, Role.of]
  · obtain ⟨rec, hrec, data, h⟩ := runs_node h
    have h : binaryAst env rec .Pattern [.tok s, .tok t, y] data = .ok a := h
    rw [Form.expr]
    obtain ⟨u, v, e1, e2, rfl⟩ := binary_other ⟨by decide, by decide, by decide, by decide, by decide, by decide, by decide⟩ h
      (fun h => by cases h)
    rw [erase_callS, w_Pattern', List.map_cons, List.map_cons, hx.value u (hrec _ _ e1), hr.value v (hrec _ _ e2)]
    rfl

theorem sound_optional (hq : env.flattenTimes = false) {o : Lexeme} {l r : Spec.Form} {x y : Cst} {t : Tok} (hl : Sound env l x)
    (hr : Sound env r y) : Sound env (.optional l o r) (.node (.binary .Optional) [x, .tok t, y]) := by
  refine sound_ordinary hq ⟨by simp, by simp, by simp, by simp, by simp, by simp⟩ (fun r => ?_) rfl rfl fun a h => ?_
  · simp only [Form.expr, Role.of]
  · obtain ⟨rec, hrec, data, h⟩ := runs_node h
    have h : binaryAst env rec .Optional [x, .tok t, y] data = .ok a := h
    rw [Form.expr]
    obtain ⟨u, v, e1, e2, rfl⟩ := binary_other ⟨by decide, by decide, by decide, by decide, by decide, by decide, by decide⟩ h
      (fun h => by cases h)
    rw [erase_callS, w_Optional', List.map_cons, List.map_cons, hl.value u (hrec _ _ e1), hr.value v (hrec _ _ e2)]
    rfl

/-- `f @ x` as an operand. -/
theorem at_cases {l : Spec.Form} {x y d' : Cst} {t : Tok} {name : List UInt8} (hl : Rep l x)
    (h : binaryAt env name (.node (.binary .CodeParser_BinaryAt) [x, .tok t, y]) = .ok d') :
    (env.infixBinaryAt = true ∧ l.isName name = true ∧ d' = y) ∨
    (¬ (env.infixBinaryAt = true ∧ l.isName name = true) ∧ d' = .node (.binary .CodeParser_BinaryAt) [x, .tok t, y]) := by
  unfold binaryAt at h
  split at h
  · next hq => cases h; exact Or.inr ⟨by simp at hq; simp [hq], rfl⟩
  · next hq =>
    have hq : env.infixBinaryAt = true := by simpa using hq
    simp only [if_true, expect3, ok_bind] at h
    split at h
    · next s =>
      have hn : l.isName name = (s.kind == .Symbol && s.text == name) := by
        cases l with
        | atom z => obtain ⟨s', e, e1, e2⟩ := hl; cases e; rw [Form.isName, e1, e2]
        | group => obtain ⟨_, _, _, h, -⟩ := hl; cases h
        | chain => obtain ⟨_, _, h, -⟩ := hl; cases h
        | call => obtain ⟨_, _, _, _, h, -⟩ := hl; cases h
        | binary => obtain ⟨_, _, _, h, -⟩ := hl; cases h
        | «prefix» => obtain ⟨_, _, h, -⟩ := hl; cases h
        | «postfix» => obtain ⟨_, _, h, -⟩ := hl; cases h
        | compound => obtain ⟨_, _, h⟩ := rep_compound hl; cases h
        | semi => obtain ⟨_, _, h, -⟩ := hl; cases h
        | ternary => obtain ⟨_, _, _, _, _, h, -⟩ := hl; cases h
        | unset => obtain ⟨_, _, _, h, -⟩ := hl; cases h
        | tagUnset => obtain ⟨_, _, _, _, _, h, -⟩ := hl; cases h
        | pattern => obtain ⟨_, _, _, h, -⟩ := hl; cases h
        | optional => obtain ⟨_, _, _, h, -⟩ := hl; cases h
        | span => obtain ⟨_, _, _, h, -⟩ := hl; cases h
        | spanFrom => obtain ⟨_, _, _, h, -⟩ := hl; cases h
      split at h
      · next hs =>
        simp only [bind_ok] at h
        obtain ⟨u, hu, h⟩ := h
        obtain rfl := asStr_ok' hu
        split at h
        · next hs' =>
          split at h
          · cases h
            exact Or.inl ⟨hq, by simp [hn, hs, hs'], rfl⟩
          · cases h
        · next hs' =>
          cases h
          exact Or.inr ⟨by simp [hn, hs'], rfl⟩
      · next hs =>
        cases h
        exact Or.inr ⟨by simp [hn, hs], rfl⟩
    · next hs =>
      cases h
      refine Or.inr ⟨?_, rfl⟩
      rintro ⟨-, hn⟩
      cases l with
      | atom z => obtain ⟨s', e, e1, e2⟩ := hl; exact hs _ e
      | _ => simp [Form.isName] at hn

theorem at_expr {q : Quirks} {r : Role} {f g : Spec.Form} {o : Binary} (ho : o.op = .CodeParser_BinaryAt) {name : List UInt8}
    (hr : r.swallows = some name) : (Spec.Form.binary f o g).expr q r =
      if q.operandAt = true ∧ f.isName name = true then r.of (g.expr q r.inner)
      else r.of (binaryExpr q o.op (f.expr q .value) (g.expr q .value)) := by
  rw [Form.expr, hr]
  simp [ho]

theorem at_expr' {q : Quirks} {r : Role} {f g : Spec.Form} {o : Binary}
    (hr : r.swallows = none) : (Spec.Form.binary f o g).expr q r = r.of (binaryExpr q o.op (f.expr q .value) (g.expr q .value)) := by
  rw [Form.expr, hr]

theorem e_Times : Sym.System_Times.short = utf8 "Times".toList := by decide +kernel
theorem e_Plus : Sym.System_Plus.short = utf8 "Plus".toList := by decide +kernel
theorem e_Divisible : Sym.System_Divisible.short = utf8 "Divisible".toList := by decide +kernel

theorem sound_at (hq : env.flattenTimes = false) {l r : Spec.Form} {o : Binary} {x y : Cst} {t : Tok} (hrep : Rep l x) (hl : Sound env l x)
    (hr : Sound env r y) (ho : o.op = .CodeParser_BinaryAt) :
    Sound env (.binary l o r) (.node (.binary o.op) [x, .tok t, y]) := by
  have hv : ∀ a, Runs env (.cst (.node (.binary o.op) [x, .tok t, y])) a →
      erase a = binaryExpr (quirks env) o.op (l.expr (quirks env) .value) (r.expr (quirks env) .value) :=
    fun a h => binary_value hl hr hq (by rw [ho]; intro h; cases h) (by rw [ho]; intro h; cases h) h
  rw [ho] at hv ⊢
  have hflat : ∀ s, flat false s (.node (.binary .CodeParser_BinaryAt) [x, .tok t, y]) =
      .ok [.cst (.node (.binary .CodeParser_BinaryAt) [x, .tok t, y])] := fun s => rfl
  have key : ∀ {rl : Role} {name d' a}, rl.swallows = some name → (rl = .value ∨ rl = .operand name) →
      binaryAt env name (.node (.binary .CodeParser_BinaryAt) [x, .tok t, y]) = .ok d' → Runs env (.cst d') a →
      erase a = if env.infixBinaryAt = true ∧ l.isName name = true then r.expr (quirks env) .value
        else binaryExpr (quirks env) .CodeParser_BinaryAt (l.expr (quirks env) .value) (r.expr (quirks env) .value) := by
    intro rl name d' a _ _ h h'
    rcases at_cases hrep h with ⟨e1, e2, rfl⟩ | ⟨e1, rfl⟩
    · rw [if_pos ⟨e1, e2⟩]; exact hr.value a h'
    · rw [if_neg e1]; exact hv a h'
  have key : ∀ {name d' a},
      binaryAt env name (.node (.binary .CodeParser_BinaryAt) [x, .tok t, y]) = .ok d' → Runs env (.cst d') a →
      erase a = if env.infixBinaryAt = true ∧ l.isName name = true then r.expr (quirks env) .value
        else binaryExpr (quirks env) .CodeParser_BinaryAt (l.expr (quirks env) .value) (r.expr (quirks env) .value) :=
    fun {name} _ _ h h' => key (rl := .operand name) rfl (Or.inr rfl) h h'
  refine ⟨fun a h => ?_, fun g s a hg h => ?_, fun name d' a h h' => ?_, fun d' a h h' => ?_, fun d' d'' a h h'' h' => ?_,
    fun n m b a h h' => ?_, fun b h => ?_, fun b h => ?_, fun _ s os h => ?_⟩
  · rw [at_expr' rfl, ho]; exact hv a h
  · cases hg
    rw [at_expr ho (name := utf8 "Times".toList) rfl, ho]
    have : ∃ d', binaryAt env Sym.System_Times.short (.node (.binary .CodeParser_BinaryAt) [x, .tok t, y]) = .ok d' := by
      obtain ⟨rec, hrec, h⟩ := h.step
      simp only [Abs.step, negatedAst, timesAst, bind_ok] at h
      obtain ⟨b, ⟨os, h1, as, h2, h3⟩, h4⟩ := h
      rw [hq] at h1
      cases h1
      obtain ⟨x', xs, h5, h6, rfl⟩ := mapA_cons_ok h2
      simp only [operandAst, bind_ok] at h5
      exact ⟨_, h5.choose_spec.1⟩
    obtain ⟨d', hd⟩ := this
    obtain ⟨b, e1, e2⟩ := runs_times hq h (hflat s) hd
    rw [e2, key hd e1, ← e_Times]
    by_cases hc : env.infixBinaryAt = true ∧ l.isName Sym.System_Times.short = true
    · rw [if_pos hc, if_pos (show (quirks env).operandAt = true ∧ _ from hc)]; rfl
    · rw [if_neg hc, if_neg (show ¬ ((quirks env).operandAt = true ∧ _) from hc)]; rfl
  · rw [at_expr ho (name := name) rfl, ho, key h h']
    rfl
  · cases h
    rw [at_expr' rfl, ho]; exact hv a h'
  · rw [at_expr ho (name := utf8 "Plus".toList) rfl, ho, ← e_Plus]
    rcases at_cases hrep h with ⟨e1, e2, rfl⟩ | ⟨e1, rfl⟩
    · rw [if_pos (show (quirks env).operandAt = true ∧ _ from ⟨e1, e2⟩)]
      exact hr.after _ _ h'' h'
    · rw [if_neg (show ¬ ((quirks env).operandAt = true ∧ _) from e1)]
      cases h''
      exact hv a h'
  · cases h
    rw [at_expr' rfl, ho, hv a h']; rfl
  · cases h; rfl
  · cases h; rfl
  · cases h; exact ⟨_, rfl, Or.inl rfl⟩

/-! ### Sequences -/

theorem chain_ordinary {op : InfixOp} {cs : List Cst} (h : op ≠ .Times) : Ordinary (.node (.infix op) cs) :=
  ⟨by simp, by simp, by simpa using h, by simp, by simp, by simp⟩

theorem sound_infix (hq : env.flattenTimes = false) {op : InfixOp} {p : Nat} {f : Spec.Form} {t : Tail} {c : Cst} {cs : List Cst}
    (h : op ≠ .CodeParser_InfixInequality ∧ op ≠ .Plus ∧ op ≠ .Times ∧ op ≠ .Divisible ∧
    op ≠ .CompoundExpression ∧ op ≠ .MessageName ∧ op ≠ .CodeParser_InfixTilde ∧ op ≠ .SameQ ∧ op ≠ .UnsameQ)
    (hs : Sound env f c) (ht : SoundT env t cs) : Sound env (.chain op p f t) (.node (.infix op) (c :: cs)) := by
  have he : ∀ r, (Spec.Form.chain op p f t).expr (quirks env) r = r.of (.call (operator op.toSymbol)
      (f.expr (quirks env) (.operand op.toSymbol.short) :: t.exprs (quirks env) (.operand op.toSymbol.short))) := by
    intro r
    rw [Form.expr]
    all_goals first | rfl | (intro e; simp [e] at h)
  refine sound_ordinary hq (chain_ordinary h.2.2.1) (fun r => ?_) rfl rfl fun a ha => ?_
  · rw [he, he .value]; rfl
  · obtain ⟨rec, hrec, data, ha⟩ := runs_node ha
    obtain ⟨as, h1, rfl⟩ := infix_other h (show infixAst env rec op (c :: cs) data = .ok a from ha)
    obtain ⟨ps, rfl, hps⟩ := ht
    rw [evens_links] at h1
    obtain ⟨y, ys, h7, h8, rfl⟩ := mapA_cons_ok h1
    simp only [quirkAst, bind_ok] at h7
    obtain ⟨d', h7, h9⟩ := h7
    rw [erase_callS, List.map_cons, operands hrec hps h8, hs.operand _ _ _ h7 (hrec _ _ h9), he, exprs_list]
    rfl

theorem sound_same (hq : env.flattenTimes = false) {op : InfixOp} {p : Nat} {f : Spec.Form} {t : Tail} {c : Cst} {cs : List Cst}
    (h : op = .SameQ ∨ op = .UnsameQ) (hs : Sound env f c) (ht : SoundT env t cs) :
    Sound env (.chain op p f t) (.node (.infix op) (c :: cs)) := by
  have he : ∀ r, (Spec.Form.chain op p f t).expr (quirks env) r = r.of (.call (operator op.toSymbol)
      (f.expr (quirks env) .value :: t.exprs (quirks env) .value)) := by
    intro r
    rcases h with rfl | rfl <;> rfl
  refine sound_ordinary hq (chain_ordinary (by rcases h with rfl | rfl <;> decide)) (fun r => ?_) rfl rfl fun a ha => ?_
  · rw [he, he .value]; rfl
  · obtain ⟨rec, hrec, data, ha⟩ := runs_node ha
    have ha : infixAst env rec op (c :: cs) data = .ok a := ha
    have : ∃ as, mapA (recC rec) (evens (c :: cs)) = .ok as ∧ a = .callS op.toSymbol as (.of data) := by
      rcases h with rfl | rfl
      all_goals
        simp only [infixAst] at ha
        simp only [true_or, or_true, if_true] at ha
        split at ha
        case isFalse => cases ha
        rw [bind_ok] at ha
        obtain ⟨as, h1, h2⟩ := ha
        cases h2
        exact ⟨as, h1, rfl⟩
    obtain ⟨as, h1, rfl⟩ := this
    obtain ⟨ps, rfl, hps⟩ := ht
    rw [evens_links] at h1
    obtain ⟨y, ys, h7, h8, rfl⟩ := mapA_cons_ok h1
    rw [erase_callS, List.map_cons, values hrec hps h8, hs.value _ (hrec _ _ h7), he, exprs_list]
    rfl

theorem mapA_append {f : α → A β} : ∀ {as bs : List α} {cs : List β}, mapA f (as ++ bs) = .ok cs →
    ∃ c1 c2, mapA f as = .ok c1 ∧ mapA f bs = .ok c2 ∧ cs = c1 ++ c2
  | [], bs, cs, h => ⟨[], cs, rfl, h, rfl⟩
  | a :: as, bs, cs, h => by
    obtain ⟨b, bs', h1, h2, rfl⟩ := mapA_cons_ok h
    obtain ⟨c1, c2, h3, h4, rfl⟩ := mapA_append h2
    exact ⟨b :: c1, c2, by rw [mapA, h1, h3], h4, rfl⟩

theorem mapA_reverse {f : α → A β} : ∀ {as : List α} {bs : List β}, mapA f as.reverse = .ok bs → mapA f as = .ok bs.reverse
  | [], bs, h => by cases h; rfl
  | a :: as, bs, h => by
    rw [List.reverse_cons] at h
    obtain ⟨c1, c2, h1, h2, rfl⟩ := mapA_append h
    obtain ⟨b, c, h3, h4, rfl⟩ := mapA_cons_ok h2
    obtain rfl := mapA_nil_ok h4
    rw [mapA, h3, mapA_reverse h1, List.reverse_append]
    rfl

theorem sound_divisible (hq : env.flattenTimes = false) {p : Nat} {f : Spec.Form} {t : Tail} {c : Cst} {cs : List Cst}
    (hs : Sound env f c) (ht : SoundT env t cs) : Sound env (.chain .Divisible p f t) (.node (.infix .Divisible) (c :: cs)) := by
  refine sound_ordinary hq (chain_ordinary (by decide)) (fun r => rfl) rfl rfl fun a ha => ?_
  obtain ⟨rec, hrec, data, ha⟩ := runs_node ha
  simp only [nodeAst, infixAst, bind_ok] at ha
  obtain ⟨as, h1, h2⟩ := ha
  cases h2
  obtain ⟨ps, rfl, hps⟩ := ht
  rw [evens_links, e_Divisible] at h1
  obtain ⟨y, ys, h7, h8, h9⟩ := mapA_cons_ok (mapA_reverse h1)
  simp only [quirkAst, bind_ok] at h7
  obtain ⟨d', h7, h10⟩ := h7
  have : (as.map erase).reverse = f.expr (quirks env) (.operand (utf8 "Divisible".toList)) ::
      t.exprs (quirks env) (.operand (utf8 "Divisible".toList)) := by
    rw [← List.map_reverse, h9, List.map_cons, operands hrec hps h8, hs.operand _ _ _ h7 (hrec _ _ h10), exprs_list]
  rw [erase_callS, w_Divisible, ← List.reverse_reverse (as.map erase), this]
  rfl

/-! ### Sums -/

theorem sound_plus (hq : env.flattenTimes = false) {p : Nat} {f : Spec.Form} {t : Tail} {c : Cst} {cs : List Cst}
    (hs : Sound env f c) (ht : SoundT env t cs) : Sound env (.chain .Plus p f t) (.node (.infix .Plus) (c :: cs)) := by
  refine sound_ordinary hq (chain_ordinary (by decide)) (fun r => rfl) rfl rfl fun a ha => ?_
  obtain ⟨rec, hrec, data, ha⟩ := runs_node ha
  obtain ⟨ps, rfl, hps⟩ := ht
  simp only [nodeAst, infixAst, plusAst, pairs_links, ok_bind, bind_ok, operandAst] at ha
  obtain ⟨b, ⟨d'', ⟨d', h1, h2⟩, h3⟩, as, h4, h5⟩ := ha
  cases h5
  rw [erase_callS, w_Plus, List.map_cons, hs.term _ _ _ h1 h2 (hrec _ _ h3)]
  show Expr.call _ _ = Expr.call _ (_ :: t.terms _)
  congr 2
  rw [terms_list]
  have hps' : List.Forall₂ (fun x c => ∃ o : Tok, ∃ r, c = (Cst.tok o, r) ∧ o.kind = x.1.1 ∧ Sound env x.2 r) (list t)
      (ps.map fun p => (Cst.tok p.1, p.2)) := by
    rw [List.forall₂_map_right_iff]; exact hps.imp fun _ p h => ⟨p.1, p.2, rfl, h.1, h.2⟩
  refine mapA_forall₂ (fun x c a hx ha => ?_) hps' h4
  obtain ⟨o, r, rfl, hk, hx⟩ := hx
  simp only [plusPair, bind_ok] at ha
  obtain ⟨op, h6, h7⟩ := ha
  rw [← hk]
  split at h6
  · next ho =>
    cases h6
    rw [if_neg (by rcases ho with ho | ho <;> rw [ho] <;> decide)]
    simp only [operandAst, bind_ok] at h7
    obtain ⟨d'', ⟨d', h8, h9⟩, h10⟩ := h7
    exact hx.term _ _ _ h8 h9 (hrec _ _ h10)
  · split at h6
    · next ho =>
      simp only [bind_ok] at h6
      obtain ⟨_, -, _, -, g, h8, h9⟩ := h6
      cases h9
      rw [if_pos ho]
      exact hx.neg _ _ _ h8 (hrec _ _ h7)
    · cases h6

end CodeParser.Mean
