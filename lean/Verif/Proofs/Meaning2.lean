import Verif.Proofs.Meaning1
import Verif.Proofs.Abstract3
import Verif.Proofs.Abstract4
/-!
Abstraction of written expressions: steps (helper lemmas for C50).
-/
namespace CodeParser.Mean
open CodeParser Spec Props Abs

/-- The tree or negated tree gives this expression. -/
def Runs (env : AEnv) (r : Req) (a : Ast) : Prop := ∃ n, Abs.run env n r = .ok a

/-- The settings. -/
def quirks (env : AEnv) : Quirks := ⟨env.infixBinaryAt, env.oldAtAtAt⟩

theorem Runs.step {env : AEnv} {r : Req} {a : Ast} (h : Runs env r a) :
    ∃ rec : Req → A Ast, (∀ r a, rec r = .ok a → Runs env r a) ∧ Abs.step env rec r = .ok a := by
  obtain ⟨n, h⟩ := h
  cases n with
  | zero => cases h
  | succ n => exact ⟨Abs.run env n, fun r a h => ⟨n, h⟩, h⟩

theorem bind_ok {m : A α} {f : α → A β} {b : β} : (m >>= f) = .ok b ↔ ∃ a, m = .ok a ∧ f a = .ok b := by
  cases m with
  | error e => constructor
               · intro h; cases h
               · rintro ⟨a, h, -⟩; cases h
  | ok a => constructor
            · intro h; exact ⟨a, rfl, h⟩
            · rintro ⟨a, h, h'⟩; cases h; exact h'

theorem mapA_cons_ok {f : α → A β} {a : α} {as : List α} {bs : List β} (h : mapA f (a :: as) = .ok bs) :
    ∃ b bs', f a = .ok b ∧ mapA f as = .ok bs' ∧ bs = b :: bs' := by
  rw [mapA] at h
  split at h
  · cases h
  · next b hb =>
    split at h
    · cases h
    · next bs' hbs => cases h; exact ⟨b, bs', hb, hbs, rfl⟩

theorem mapA_nil_ok {f : α → A β} {bs : List β} (h : mapA f [] = .ok bs) : bs = [] := by
  cases h; rfl

theorem asStr_ok' {t s : List UInt8} (h : asStr t = .ok s) : s = t := by
  unfold asStr at h
  split at h
  · cases h; rfl
  · cases h

theorem erases_map : ∀ as : List Ast, erases as = as.map erase
  | [] => rfl
  | a :: as => by rw [erases, erases_map as]; rfl

theorem erase_call {h : Ast} {as : List Ast} {d : AMeta} : erase (.call h as d) = .call (erase h) (as.map erase) := by
  rw [erase, erases_map]

theorem erase_callS {s : Sym} {as : List Ast} {d : AMeta} : erase (.callS s as d) = .call (operator s) (as.map erase) := by
  rw [Ast.callS, erase_call]; rfl

theorem erase_symbol {s : Sym} {d : AMeta} : erase (.symbol s d) = operator s := rfl

theorem erase_neg1 : erase (.neg 1) = minusOne :=
  congrArg (Expr.leaf .Integer) (by decide +kernel : (if 1 = 0 then decimal 0 else 45 :: decimal 1) = [byte '-', byte '1'])

theorem erase_nat {n : Nat} {d : AMeta} : erase (.nat n d) = number n := rfl

theorem w_Times : operator .System_Times = word "Times" :=
  congrArg (Expr.leaf .Symbol) (by decide +kernel : Sym.text _ = utf8 _)
theorem w_Plus : operator .System_Plus = word "Plus" :=
  congrArg (Expr.leaf .Symbol) (by decide +kernel : Sym.text _ = utf8 _)
theorem w_Power : operator .System_Power = word "Power" :=
  congrArg (Expr.leaf .Symbol) (by decide +kernel : Sym.text _ = utf8 _)
theorem w_Apply : operator .System_Apply = word "Apply" :=
  congrArg (Expr.leaf .Symbol) (by decide +kernel : Sym.text _ = utf8 _)
theorem w_MapApply : operator .System_MapApply = word "MapApply" :=
  congrArg (Expr.leaf .Symbol) (by decide +kernel : Sym.text _ = utf8 _)
theorem w_List : operator .System_List = word "List" :=
  congrArg (Expr.leaf .Symbol) (by decide +kernel : Sym.text _ = utf8 _)
theorem w_Not : operator .System_Not = word "Not" :=
  congrArg (Expr.leaf .Symbol) (by decide +kernel : Sym.text _ = utf8 _)
theorem w_Derivative : operator .System_Derivative = word "Derivative" :=
  congrArg (Expr.leaf .Symbol) (by decide +kernel : Sym.text _ = utf8 _)
theorem w_ConjugateTranspose : operator .System_ConjugateTranspose = word "ConjugateTranspose" :=
  congrArg (Expr.leaf .Symbol) (by decide +kernel : Sym.text _ = utf8 _)
theorem w_Divisible : operator .System_Divisible = word "Divisible" :=
  congrArg (Expr.leaf .Symbol) (by decide +kernel : Sym.text _ = utf8 _)
theorem w_Part : operator .System_Part = word "Part" :=
  congrArg (Expr.leaf .Symbol) (by decide +kernel : Sym.text _ = utf8 _)
theorem w_TypeSpecifier : operator .System_TypeSpecifier = word "TypeSpecifier" :=
  congrArg (Expr.leaf .Symbol) (by decide +kernel : Sym.text _ = utf8 _)
theorem w_VectorInequality : operator .Developer_VectorInequality = word "Developer`VectorInequality" :=
  congrArg (Expr.leaf .Symbol) (by decide +kernel)
theorem w_Inequality : operator .System_Inequality = word "Inequality" :=
  congrArg (Expr.leaf .Symbol) (by decide +kernel : Sym.text _ = utf8 _)
theorem w_Equal : operator .System_Equal = word "Equal" :=
  congrArg (Expr.leaf .Symbol) (by decide +kernel : Sym.text _ = utf8 _)
theorem w_Unequal : operator .System_Unequal = word "Unequal" :=
  congrArg (Expr.leaf .Symbol) (by decide +kernel : Sym.text _ = utf8 _)
theorem w_Less : operator .System_Less = word "Less" :=
  congrArg (Expr.leaf .Symbol) (by decide +kernel : Sym.text _ = utf8 _)
theorem w_Greater : operator .System_Greater = word "Greater" :=
  congrArg (Expr.leaf .Symbol) (by decide +kernel : Sym.text _ = utf8 _)
theorem w_LessEqual : operator .System_LessEqual = word "LessEqual" :=
  congrArg (Expr.leaf .Symbol) (by decide +kernel : Sym.text _ = utf8 _)
theorem w_GreaterEqual : operator .System_GreaterEqual = word "GreaterEqual" :=
  congrArg (Expr.leaf .Symbol) (by decide +kernel : Sym.text _ = utf8 _)
theorem w_Blank : operator .System_Blank = word "Blank" :=
  congrArg (Expr.leaf .Symbol) (by decide +kernel : Sym.text _ = utf8 _)
theorem w_BlankSequence : operator .System_BlankSequence = word "BlankSequence" :=
  congrArg (Expr.leaf .Symbol) (by decide +kernel : Sym.text _ = utf8 _)
theorem w_BlankNullSequence : operator .System_BlankNullSequence = word "BlankNullSequence" :=
  congrArg (Expr.leaf .Symbol) (by decide +kernel : Sym.text _ = utf8 _)
theorem w_Optional : operator .System_Optional = word "Optional" :=
  congrArg (Expr.leaf .Symbol) (by decide +kernel : Sym.text _ = utf8 _)
theorem w_Pattern : operator .System_Pattern = word "Pattern" :=
  congrArg (Expr.leaf .Symbol) (by decide +kernel : Sym.text _ = utf8 _)
theorem w_Slot : operator .System_Slot = word "Slot" :=
  congrArg (Expr.leaf .Symbol) (by decide +kernel : Sym.text _ = utf8 _)
theorem w_SlotSequence : operator .System_SlotSequence = word "SlotSequence" :=
  congrArg (Expr.leaf .Symbol) (by decide +kernel : Sym.text _ = utf8 _)
theorem w_Out : operator .System_Out = word "Out" :=
  congrArg (Expr.leaf .Symbol) (by decide +kernel : Sym.text _ = utf8 _)
theorem w_CompoundExpression : operator .System_CompoundExpression = word "CompoundExpression" :=
  congrArg (Expr.leaf .Symbol) (by decide +kernel : Sym.text _ = utf8 _)
theorem w_Null : operator .System_Null = word "Null" :=
  congrArg (Expr.leaf .Symbol) (by decide +kernel : Sym.text _ = utf8 _)
theorem w_TagSet : operator .System_TagSet = word "TagSet" :=
  congrArg (Expr.leaf .Symbol) (by decide +kernel : Sym.text _ = utf8 _)
theorem w_Span : operator .System_Span = word "Span" :=
  congrArg (Expr.leaf .Symbol) (by decide +kernel : Sym.text _ = utf8 _)
theorem w_All : operator .System_All = word "All" :=
  congrArg (Expr.leaf .Symbol) (by decide +kernel : Sym.text _ = utf8 _)
theorem w_TagSetDelayed : operator .System_TagSetDelayed = word "TagSetDelayed" :=
  congrArg (Expr.leaf .Symbol) (by decide +kernel : Sym.text _ = utf8 _)
theorem w_Unset : operator .System_Unset = word "Unset" :=
  congrArg (Expr.leaf .Symbol) (by decide +kernel : Sym.text _ = utf8 _)
theorem w_Pattern' : operator BinaryOp.Pattern.toSymbol = word "Pattern" := w_Pattern
theorem w_Optional' : operator BinaryOp.Optional.toSymbol = word "Optional" := w_Optional
theorem w_TagUnset : operator .System_TagUnset = word "TagUnset" :=
  congrArg (Expr.leaf .Symbol) (by decide +kernel : Sym.text _ = utf8 _)

/-! ### Ordinary trees -/

/-- The trees nothing special happens to. -/
def Ordinary : Cst → Prop
  | .tok t => t.kind ≠ .Integer ∧ t.kind ≠ .Real
  | .node k _ => k ≠ .prefix .Minus ∧ k ≠ .prefix .Plus ∧ k ≠ .infix .Times ∧ k ≠ .binary .CodeParser_BinaryAt ∧
      k ≠ .postfix .Derivative ∧ k ≠ .group .CodeParser_GroupParen
  | _ => True

theorem ordinary_negate {d : Cst} (h : Ordinary d) : negate d = .ok (.times [d]) := by
  unfold negate
  split <;> simp only [Ordinary] at h <;> simp [h]

theorem ordinary_flat {d : Cst} {s : ASrc} (h : Ordinary d) : flat false s d = .ok [.cst d] := by
  unfold flat
  split
  · simp only [Ordinary] at h
    simp only [h, if_false]
    split
    · unfold flatDivide; split <;> rfl
    · rfl
  · rfl

theorem ordinary_binaryAt {env : AEnv} {name : List UInt8} {d : Cst} (h : Ordinary d) : binaryAt env name d = .ok d := by
  unfold binaryAt
  split
  · rfl
  · split
    · simp only [Ordinary] at h
      simp [h]
    · rfl

theorem ordinary_plus {d : Cst} (h : Ordinary d) : flattenPlus d = .ok d := by
  unfold flattenPlus
  split <;> simp only [Ordinary] at h <;> simp [h]

theorem ordinary_derivative {d : Cst} (h : Ordinary d) : derivativeBody d = .ok (0, d) := by
  unfold derivativeBody
  split <;> simp only [Ordinary] at h <;> simp [h]

theorem ordinary_number {d : Cst} (h : Ordinary d) : numberQ d = .ok false := by
  unfold numberQ
  split <;> simp only [Ordinary] at h <;> simp [h]

theorem ordinary_zero {d : Cst} (h : Ordinary d) : zeroQ d = .ok false := by
  unfold zeroQ
  split <;> simp only [Ordinary] at h <;> simp [h]

/-! ### What is to be shown -/

/-- The expression is a product. -/
def isProduct : Spec.Form → Bool
  | .chain op _ _ _ => op == .Times
  | _ => false

/-- What abstraction makes of the tree of an expression in every place. -/
structure Sound (env : AEnv) (f : Spec.Form) (d : Cst) : Prop where
  value : ∀ a, Runs env (.cst d) a → erase a = f.expr (quirks env) .value
  neg : ∀ g s a, negate d = .ok g → Runs env (.neg g s) a → erase a = f.expr (quirks env) .negated
  operand : ∀ name d' a, binaryAt env name d = .ok d' → Runs env (.cst d') a → erase a = f.expr (quirks env) (.operand name)
  after : ∀ d' a, flattenPlus d = .ok d' → Runs env (.cst d') a → erase a = f.expr (quirks env) .afterPlus
  term : ∀ d' d'' a, binaryAt env Sym.System_Plus.short d = .ok d' → flattenPlus d' = .ok d'' → Runs env (.cst d'') a →
    erase a = f.expr (quirks env) .term
  primed : ∀ n m b a, derivativeBody d = .ok (m, b) → Runs env (.cst b) a →
    derivative (n + m) (erase a) = f.expr (quirks env) (.primed n)
  number : ∀ b, numberQ d = .ok b → b = f.isNumber
  zero : ∀ b, zeroQ d = .ok b → b = f.isZero
  factor : isProduct f = false → ∀ s os, flat false s d = .ok os → ∃ o, os = [o] ∧
    (o = .cst d ∨ ∃ g s', o = .neg g s' ∧ ∀ a, Runs env (.neg g s') a →
      erase a = f.expr (quirks env) .value ∧ ∀ name, erase a = f.expr (quirks env) (.operand name))

/-- The negation of a tree that is a factor by itself. -/
theorem runs_times {env : AEnv} (hq : env.flattenTimes = false) {d d' : Cst} {s : ASrc} {a : Ast}
    (h : Runs env (.neg (.times [d]) s) a) (hf : flat false s d = .ok [.cst d]) (hb : binaryAt env Sym.System_Times.short d = .ok d') :
    ∃ b, Runs env (.cst d') b ∧ erase a = opposite (erase b) := by
  obtain ⟨rec, hrec, h⟩ := h.step
  simp only [Abs.step, negatedAst, timesAst, bind_ok] at h
  obtain ⟨b, ⟨os, h1, as, h2, h3⟩, h4⟩ := h
  rw [hq, evens, flatL, hf] at h1
  cases h1
  obtain ⟨x, xs, h5, h6, rfl⟩ := mapA_cons_ok h2
  obtain rfl := mapA_nil_ok h6
  cases h3
  simp only [operandAst, hb, bind_ok] at h5
  obtain ⟨_, h5, h7⟩ := h5
  cases h5
  cases h4
  refine ⟨x, hrec _ _ h7, ?_⟩
  rw [erase_call, List.map_cons, erase_neg1]
  show Expr.call (operator _) _ = _
  rw [w_Times]
  rfl

/-- The trees that are kept as they are. -/
structure Calm (env : AEnv) (d : Cst) : Prop where
  flat : ∀ s, flat false s d = .ok [.cst d]
  at' : ∀ name, binaryAt env name d = .ok d
  plus : flattenPlus d = .ok d
  derivative : derivativeBody d = .ok (0, d)

theorem sound_calm {env : AEnv} {f : Spec.Form} {d : Cst} (hc : Calm env d)
    (hr : ∀ r, r ≠ .negated → f.expr (quirks env) r = r.of (f.expr (quirks env) .value))
    (hneg : ∀ g s a, negate d = .ok g → Runs env (.neg g s) a → erase a = f.expr (quirks env) .negated)
    (hn : ∀ b, numberQ d = .ok b → b = f.isNumber) (hz : ∀ b, zeroQ d = .ok b → b = f.isZero)
    (hv : ∀ a, Runs env (.cst d) a → erase a = f.expr (quirks env) .value) : Sound env f d where
  value := hv
  neg := hneg
  operand name d' a h h' := by
    rw [hc.at'] at h
    cases h
    rw [hv a h', hr (.operand name) (by simp)]; rfl
  after d' a h h' := by
    rw [hc.plus] at h
    cases h
    rw [hv a h', hr .afterPlus (by simp)]; rfl
  term d' d'' a h h'' h' := by
    rw [hc.at'] at h
    cases h
    rw [hc.plus] at h''
    cases h''
    rw [hv a h', hr .term (by simp)]; rfl
  primed n m b a h h' := by
    rw [hc.derivative] at h
    cases h
    rw [hv a h', hr (.primed n) (by simp)]; rfl
  number := hn
  zero := hz
  factor _ s os h := by
    rw [hc.flat] at h
    cases h
    exact ⟨_, rfl, Or.inl rfl⟩

theorem Ordinary.calm {env : AEnv} {d : Cst} (h : Ordinary d) : Calm env d :=
  ⟨fun _ => ordinary_flat h, fun _ => ordinary_binaryAt h, ordinary_plus h, ordinary_derivative h⟩

theorem sound_ordinary {env : AEnv} (hq : env.flattenTimes = false) {f : Spec.Form} {d : Cst} (ho : Ordinary d)
    (hr : ∀ r, f.expr (quirks env) r = r.of (f.expr (quirks env) .value)) (hn : f.isNumber = false) (hz : f.isZero = false)
    (hv : ∀ a, Runs env (.cst d) a → erase a = f.expr (quirks env) .value) : Sound env f d := by
  refine sound_calm ho.calm (fun r _ => hr r) ?_ (fun b h => ?_) (fun b h => ?_) hv
  · intro g s a h h'
    rw [ordinary_negate ho] at h
    cases h
    obtain ⟨b, h1, h2⟩ := runs_times hq h' (ordinary_flat ho) (ordinary_binaryAt ho)
    rw [h2, hv b h1, hr .negated]; rfl
  · rw [ordinary_number ho] at h; cases h; exact hn.symm
  · rw [ordinary_zero ho] at h; cases h; exact hz.symm

/-- The factors of a product. -/
theorem factor_at {env : AEnv} {f : Spec.Form} {d : Cst} (h : Sound env f d) (hp : isProduct f = false) {s : ASrc} {os : List AOperand}
    (ho : flat false s d = .ok os) {rec : Req → A Ast} (hrec : ∀ r a, rec r = .ok a → Runs env r a) {name : List UInt8} {as : List Ast}
    (hm : mapA (operandAst rec (binaryAt env name)) os = .ok as) : as.map erase = [f.expr (quirks env) (.operand name)] := by
  obtain ⟨o, rfl, hx⟩ := h.factor hp s os ho
  obtain ⟨x, xs, h5, h6, rfl⟩ := mapA_cons_ok hm
  obtain rfl := mapA_nil_ok h6
  clear ho
  rcases hx with rfl | ⟨g, s', rfl, ho⟩
  · simp only [operandAst, bind_ok] at h5
    obtain ⟨d', h5, h7⟩ := h5
    rw [List.map_cons, h.operand name d' x h5 (hrec _ _ h7)]; rfl
  · rw [List.map_cons, (ho x (hrec _ _ h5)).2 name]; rfl

theorem factor_ok {env : AEnv} {f : Spec.Form} {d : Cst} (h : Sound env f d) (hp : isProduct f = false) {s : ASrc} {os : List AOperand}
    (ho : flat false s d = .ok os) {rec : Req → A Ast} (hrec : ∀ r a, rec r = .ok a → Runs env r a) {as : List Ast}
    (hm : mapA (operandAst rec .ok) os = .ok as) : as.map erase = [f.expr (quirks env) .value] := by
  obtain ⟨o, rfl, hx⟩ := h.factor hp s os ho
  obtain ⟨x, xs, h5, h6, rfl⟩ := mapA_cons_ok hm
  obtain rfl := mapA_nil_ok h6
  clear ho
  rcases hx with rfl | ⟨g, s', rfl, ho⟩
  · rw [List.map_cons, h.value x (hrec _ _ h5)]; rfl
  · rw [List.map_cons, (ho x (hrec _ _ h5)).1]; rfl

/-! ### Sequences -/

/-- The operators and operands of a sequence. -/
def list : Tail → List (Lexeme × Spec.Form)
  | .last o f => [(o, f)]
  | .more o f t => (o, f) :: list t

/-- A sequence is sound. -/
def SoundT (env : AEnv) (t : Tail) (cs : List Cst) : Prop :=
  ∃ ps : List (Tok × Cst), cs = ps.flatMap (fun p => [.tok p.1, p.2]) ∧
    List.Forall₂ (fun x p => p.1.kind = x.1.1 ∧ Sound env x.2 p.2) (list t) ps

theorem exprs_list (q : Quirks) (r : Role) : ∀ t : Tail, t.exprs q r = (list t).map fun x => x.2.expr q r
  | .last _ _ => by rw [Tail.exprs, list]; rfl
  | .more _ _ t => by rw [Tail.exprs, list, exprs_list q r t]; rfl

theorem terms_list (q : Quirks) : ∀ t : Tail, t.terms q =
    (list t).map fun x => if x.1.1 = .Minus ∨ x.1.1 = .LongName_Minus then x.2.expr q .negated else x.2.expr q .term
  | .last _ _ => by rw [Tail.terms, list]; rfl
  | .more _ _ t => by rw [Tail.terms, list, terms_list q t]; rfl

theorem comparisons_list (q : Quirks) : ∀ t : Tail, t.comparisons q =
    (list t).map fun x => ((comparisonOf x.1.1).getD "", x.2.expr q .value)
  | .last _ _ => by rw [Tail.comparisons, list]; rfl
  | .more _ _ t => by rw [Tail.comparisons, list, comparisons_list q t]; rfl

theorem each_list {p : Lexeme → Spec.Form → Prop} : ∀ {t : Tail}, t.Each p → ∀ x ∈ list t, p x.1 x.2
  | .last _ _, h, x, hx => by simp only [list, List.mem_singleton] at hx; subst hx; exact h
  | .more _ _ t, h, x, hx => by
    simp only [list, List.mem_cons] at hx
    rcases hx with rfl | hx
    · exact h.1
    · exact each_list h.2 x hx

theorem evens_links (c : Cst) : ∀ ps : List (Tok × Cst), evens (c :: ps.flatMap fun p => [.tok p.1, p.2]) = c :: ps.map (·.2)
  | [] => rfl
  | p :: ps => by
    show evens (c :: .tok p.1 :: (p.2 :: ps.flatMap fun p => [.tok p.1, p.2])) = _
    rw [evens, evens_links p.2 ps]; rfl

theorem pairs_links : ∀ ps : List (Tok × Cst), pairs (ps.flatMap fun p => [.tok p.1, p.2]) = .ok (ps.map fun p => (.tok p.1, p.2))
  | [] => rfl
  | p :: ps => by
    show pairs (.tok p.1 :: p.2 :: ps.flatMap fun p => [.tok p.1, p.2]) = _
    rw [pairs, pairs_links ps]; rfl

theorem links_length (ps : List (Tok × Cst)) : (ps.flatMap fun p => [Cst.tok p.1, p.2]).length = 2 * ps.length := by
  induction ps with
  | nil => rfl
  | cons p ps ih => simp only [List.flatMap_cons, List.length_append, ih, List.length_cons, List.length_nil]; omega

/-- Results of a map, one by one. -/
theorem mapA_forall₂ {R : α → β → Prop} {f : β → A γ} {g : γ → δ} {e : α → δ} (h : ∀ a b c, R a b → f b = .ok c → g c = e a) :
    ∀ {as : List α} {bs : List β} {cs : List γ}, List.Forall₂ R as bs → mapA f bs = .ok cs → cs.map g = as.map e
  | [], _, cs, hr, hm => by cases hr; rw [mapA_nil_ok hm]; rfl
  | a :: as, _, cs, hr, hm => by
    cases hr with
    | cons h1 h2 =>
      obtain ⟨c, cs', h3, h4, rfl⟩ := mapA_cons_ok hm
      rw [List.map_cons, List.map_cons, h a _ c h1 h3, mapA_forall₂ h h2 h4]

/-- The operands of an operator. -/
theorem operands {env : AEnv} {rec : Req → A Ast} (hrec : ∀ r a, rec r = .ok a → Runs env r a) {name : List UInt8} {as : List Ast}
    {fs : List (Lexeme × Spec.Form)} {ps : List (Tok × Cst)}
    (h : List.Forall₂ (fun x p => p.1.kind = x.1.1 ∧ Sound env x.2 p.2) fs ps)
    (hm : mapA (quirkAst env rec name) (ps.map (·.2)) = .ok as) : as.map erase = fs.map fun x => x.2.expr (quirks env) (.operand name) := by
  have h' : List.Forall₂ (fun x c => Sound env x.2 c) fs (ps.map (·.2)) := by
    rw [List.forall₂_map_right_iff]; exact h.imp fun _ _ h => h.2
  refine mapA_forall₂ (fun x c a hs ha => ?_) h' hm
  simp only [quirkAst, bind_ok] at ha
  obtain ⟨d', h1, h2⟩ := ha
  exact hs.operand _ _ _ h1 (hrec _ _ h2)

theorem values {env : AEnv} {rec : Req → A Ast} (hrec : ∀ r a, rec r = .ok a → Runs env r a) {as : List Ast}
    {fs : List (Lexeme × Spec.Form)} {ps : List (Tok × Cst)}
    (h : List.Forall₂ (fun x p => p.1.kind = x.1.1 ∧ Sound env x.2 p.2) fs ps)
    (hm : mapA (recC rec) (ps.map (·.2)) = .ok as) : as.map erase = fs.map fun x => x.2.expr (quirks env) .value := by
  have h' : List.Forall₂ (fun x c => Sound env x.2 c) fs (ps.map (·.2)) := by
    rw [List.forall₂_map_right_iff]; exact h.imp fun _ _ h => h.2
  exact mapA_forall₂ (fun x c a hs ha => hs.value _ (hrec _ _ ha)) h' hm

end CodeParser.Mean
