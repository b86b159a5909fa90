import Verif.Proofs.Meaning4
import Verif.Proofs.Abstract4
/-!
Abstraction of written expressions: products, comparisons, prefix and postfix operators (helper
lemmas for C50).
-/
namespace CodeParser.Mean
open CodeParser Spec Props Abs

variable {env : AEnv}

/-! ### Products -/

theorem factors {rec : Req → A Ast} (hrec : ∀ r a, rec r = .ok a → Runs env r a) {s : ASrc} {name : List UInt8} :
    ∀ {fs : List Spec.Form} {ds : List Cst} {os : List AOperand} {as : List Ast},
    List.Forall₂ (fun f d => isProduct f = false ∧ Sound env f d) fs ds → flatL false s ds = .ok os →
    mapA (operandAst rec (binaryAt env name)) os = .ok as → as.map erase = fs.map fun f => f.expr (quirks env) (.operand name)
  | [], _, os, as, h, h1, h2 => by cases h; cases h1; rw [mapA_nil_ok h2]; rfl
  | f :: fs, _, os, as, h, h1, h2 => by
    cases h with
    | cons h3 h4 =>
      simp only [flatL, bind_ok] at h1
      obtain ⟨o1, e1, o2, e2, e3⟩ := h1
      cases e3
      obtain ⟨a1, a2, e4, e5, rfl⟩ := mapA_append h2
      rw [List.map_append, factor_at h3.2 h3.1 e1 hrec e4, factors hrec h4 e2 e5]
      rfl

theorem negate_times (cs : List Cst) : negate (.node (.infix .Times) cs) = .ok (.times cs) := by
  match cs with
  | [] => rfl
  | [_] => rfl
  | [_, _] => rfl
  | [_, _, _] => rfl
  | _ :: _ :: _ :: _ :: _ => rfl

theorem binaryAt_other {k : NodeKind} {cs : List Cst} {name : List UInt8} (h : k ≠ .binary .CodeParser_BinaryAt) :
    binaryAt env name (.node k cs) = .ok (.node k cs) := by
  unfold binaryAt
  split
  · rfl
  · simp [h]

theorem flattenPlus_other {k : NodeKind} {cs : List Cst} (h : k ≠ .prefix .Plus) : flattenPlus (.node k cs) = .ok (.node k cs) := by
  unfold flattenPlus
  split <;> simp_all

theorem derivative_other {k : NodeKind} {cs : List Cst} (h : k ≠ .postfix .Derivative) :
    derivativeBody (.node k cs) = .ok (0, .node k cs) := by
  unfold derivativeBody
  split <;> simp_all

theorem number_other {k : NodeKind} {cs : List Cst} (h : k ≠ .group .CodeParser_GroupParen) : numberQ (.node k cs) = .ok false := by
  unfold numberQ
  split <;> simp_all

theorem zero_other {k : NodeKind} {cs : List Cst} (h : k ≠ .group .CodeParser_GroupParen) (h' : k ≠ .prefix .Minus) :
    zeroQ (.node k cs) = .ok false := by
  unfold zeroQ
  split <;> simp_all

theorem times_expr {q : Quirks} {r : Role} {p : Nat} {f : Spec.Form} {t : Tail} (hr : r ≠ .negated) :
    (Spec.Form.chain .Times p f t).expr q r = r.of ((Spec.Form.chain .Times p f t).expr q .value) := by
  cases r <;> first | rfl | exact absurd rfl hr

theorem sound_times (hq : env.flattenTimes = false) {p : Nat} {f : Spec.Form} {t : Tail} {c : Cst} {cs : List Cst}
    (hs : Sound env f c) (ht : SoundT env t cs) (hf : isProduct f = false) (htp : ∀ x ∈ list t, isProduct x.2 = false) :
    Sound env (.chain .Times p f t) (.node (.infix .Times) (c :: cs)) := by
  have key : ∀ {rec : Req → A Ast}, (∀ r a, rec r = .ok a → Runs env r a) → ∀ {data a},
      timesAst env rec (evens (c :: cs)) data = .ok a → ∃ as m, a = .callS .System_Times as m ∧ as.map erase =
        f.expr (quirks env) (.operand (utf8 "Times".toList)) :: t.exprs (quirks env) (.operand (utf8 "Times".toList)) := by
    intro rec hrec data a h
    obtain ⟨ps, rfl, hps⟩ := ht
    simp only [timesAst, bind_ok, hq, evens_links] at h
    obtain ⟨os, h1, as, h2, h3⟩ := h
    cases h3
    refine ⟨as, _, rfl, ?_⟩
    rw [e_Times] at h2
    have := factors hrec (fs := f :: (list t).map (·.2)) (List.Forall₂.cons ⟨hf, hs⟩ ?_) h1 h2
    · rw [this, exprs_list, List.map_cons, List.map_map]; rfl
    · rw [List.forall₂_map_right_iff, List.forall₂_map_left_iff]
      refine (List.forall₂_and_left _ _).mpr ⟨htp, hps.imp fun _ _ h => h.2⟩ |>.imp fun x p h => ⟨h.1, h.2⟩
  have hv : ∀ a, Runs env (.cst (.node (.infix .Times) (c :: cs))) a → erase a = (Form.chain .Times p f t).expr (quirks env) .value := by
    intro a h
    obtain ⟨rec, hrec, data, h⟩ := runs_node h
    obtain ⟨as, m, rfl, h2⟩ := key hrec (show timesAst env rec (evens (c :: cs)) data = .ok a from h)
    rw [erase_callS, w_Times, h2]; rfl
  refine ⟨hv, fun g s a hg h => ?_, fun name d' a h h' => ?_, fun d' a h h' => ?_, fun d' d'' a h h'' h' => ?_,
    fun n m b a h h' => ?_, fun b h => ?_, fun b h => ?_, fun h => by cases h⟩
  · rw [negate_times] at hg
    cases hg
    obtain ⟨rec, hrec, h⟩ := h.step
    simp only [Abs.step, negatedAst, bind_ok] at h
    obtain ⟨b, h1, h2⟩ := h
    obtain ⟨as, m, rfl, h3⟩ := key hrec h1
    cases h2
    rw [erase_call, List.map_cons, erase_neg1, h3]
    show Expr.call (operator _) _ = _
    rw [w_Times]
    rfl
  · rw [binaryAt_other (by simp)] at h
    cases h
    rw [hv a h', times_expr (r := .operand name) (by simp)]; rfl
  · rw [flattenPlus_other (by simp)] at h
    cases h
    rw [hv a h', times_expr (r := .afterPlus) (by simp)]; rfl
  · rw [binaryAt_other (by simp)] at h
    cases h
    rw [flattenPlus_other (by simp)] at h''
    cases h''
    rw [hv a h', times_expr (r := .term) (by simp)]; rfl
  · rw [derivative_other (by simp)] at h
    cases h
    rw [hv a h', times_expr (r := .primed n) (by simp)]; rfl
  · rw [number_other (by simp)] at h; cases h; rfl
  · rw [zero_other (by simp) (by simp)] at h; cases h; rfl

/-! ### Comparisons -/

/-- The symbols of the comparisons. -/
def cmps : List (Sym × String) := [
  (.System_Equal, "Equal"), (.System_Unequal, "Unequal"), (.System_Less, "Less"), (.System_Greater, "Greater"),
  (.System_LessEqual, "LessEqual"), (.System_GreaterEqual, "GreaterEqual"),
  (.System_GreaterEqualLess, "GreaterEqualLess"), (.System_GreaterFullEqual, "GreaterFullEqual"),
  (.System_GreaterGreater, "GreaterGreater"), (.System_GreaterLess, "GreaterLess"),
  (.System_GreaterTilde, "GreaterTilde"), (.System_LessEqualGreater, "LessEqualGreater"),
  (.System_LessFullEqual, "LessFullEqual"), (.System_LessGreater, "LessGreater"),
  (.System_LessLess, "LessLess"), (.System_LessTilde, "LessTilde"),
  (.System_NestedGreaterGreater, "NestedGreaterGreater"), (.System_NestedLessLess, "NestedLessLess"),
  (.System_NotGreater, "NotGreater"), (.System_NotGreaterEqual, "NotGreaterEqual"),
  (.System_NotGreaterFullEqual, "NotGreaterFullEqual"), (.System_NotGreaterGreater, "NotGreaterGreater"),
  (.System_NotGreaterLess, "NotGreaterLess"), (.System_NotGreaterSlantEqual, "NotGreaterSlantEqual"),
  (.System_NotGreaterTilde, "NotGreaterTilde"), (.System_NotLess, "NotLess"),
  (.System_NotLessEqual, "NotLessEqual"), (.System_NotLessFullEqual, "NotLessFullEqual"),
  (.System_NotLessGreater, "NotLessGreater"), (.System_NotLessLess, "NotLessLess"),
  (.System_NotLessSlantEqual, "NotLessSlantEqual"), (.System_NotLessTilde, "NotLessTilde"),
  (.System_NotNestedGreaterGreater, "NotNestedGreaterGreater"),
  (.System_NotNestedLessLess, "NotNestedLessLess"),
  (.System_VectorLess, "VectorLess"), (.System_VectorGreater, "VectorGreater"),
  (.System_VectorLessEqual, "VectorLessEqual"), (.System_VectorGreaterEqual, "VectorGreaterEqual")]

def cmpTok (k : TK) : Bool :=
  match inequalityOperatorToSymbol k with
  | none => true
  | some s => cmps.contains (s, (comparisonOf k).getD "")

theorem cmpTok_all : ∀ k : TK, cmpTok k = true := forall_of_all (by decide +kernel)

theorem cmps_known {k : TK} {s : Sym} (h : inequalityOperatorToSymbol k = some s) : (s, (comparisonOf k).getD "") ∈ cmps := by
  have h1 := cmpTok_all k
  unfold cmpTok at h1
  rw [h] at h1
  simpa using h1

theorem cmps_sort : ∀ p ∈ cmps, sortOf p.2 = if isPlain p.1 then none else some (isVector p.1) := by decide +kernel

theorem cmps_vector {p : Sym × String} (h : p ∈ cmps) : (sortOf p.2 == some true) = isVector p.1 := by
  rw [cmps_sort p h]
  split
  · rename_i hp; rw [plain_vector hp]; rfl
  · cases isVector p.1 <;> rfl

theorem cmps_Known : ∀ p ∈ cmps, Known p.1 = true := by decide +kernel

theorem cmps_inj : ∀ p ∈ cmps, ∀ r ∈ cmps, (p.1 == r.1) = (p.2 == r.2) := by decide +kernel

theorem cmps_text : ∀ p ∈ cmps, Sym.text p.1 = utf8 p.2.toList := by decide +kernel

theorem cmps_word {p : Sym × String} (h : p ∈ cmps) : operator p.1 = word p.2 :=
  congrArg (Expr.leaf .Symbol) (cmps_text p h)

theorem forall₂_mem {R : α → β → Prop} : ∀ {as : List α} {bs : List β}, List.Forall₂ R as bs → ∀ b ∈ bs, ∃ a ∈ as, R a b
  | _, _, .nil, b, hb => by cases hb
  | _, _, .cons h hs, b, hb => by
    rcases List.mem_cons.mp hb with rfl | hb
    · exact ⟨_, by simp, h⟩
    · obtain ⟨a, ha, hr⟩ := forall₂_mem hs b hb
      exact ⟨a, by simp [ha], hr⟩

theorem erase_comparison {d : AMeta} {x : Ast} {rs : List (Sym × Ast)} {es : List (String × Expr)} (h0 : rs ≠ [])
    (h : List.Forall₂ (fun e r => (r.1, e.1) ∈ cmps ∧ erase r.2 = e.2) es rs) : erase (comparison d x rs) = compareAlike (erase x) es := by
  cases h with
  | nil => exact absurd rfl h0
  | @cons e r es rs h1 h2 =>
    obtain ⟨s, y⟩ := r
    obtain ⟨w, v⟩ := e
    obtain ⟨h1, h3⟩ := h1
    simp only at h1 h3
    have hall : (rs.all fun p => p.1 == s) = (es.all fun p => p.1 == w) := by
      clear h0
      induction h2 with
      | nil => rfl
      | cons h4 _ ih => rw [List.all_cons, List.all_cons, ih, cmps_inj _ h4.1 _ h1]
    have hvals : (rs.map (·.2)).map erase = es.map (·.2) := by
      clear h0 hall
      induction h2 with
      | nil => rfl
      | cons h4 _ ih => simp only [List.map_cons, ih, h4.2]
    have hflat : (rs.flatMap fun p => [Ast.symbol p.1, p.2]).map erase = es.flatMap fun p => [word p.1, p.2] := by
      clear h0 hall hvals
      induction h2 with
      | nil => rfl
      | @cons e r _ _ h4 _ ih =>
        simp only [List.flatMap_cons, List.map_append, ih, List.map_cons, List.map_nil, h4.2, ← cmps_word h4.1]
        rfl
    have hvec : (((s, y) :: rs).any fun p => isVector p.1) = ((w, v) :: es).any fun p => sortOf p.1 == some true := by
      rw [List.any_cons, List.any_cons, cmps_vector h1]
      congr 1
      clear h0 hall hvals hflat
      induction h2 with
      | nil => rfl
      | cons h4 _ ih => rw [List.any_cons, List.any_cons, ih, cmps_vector h4.1]
    have hv := cmps_vector h1
    unfold comparison compareAlike
    simp only [hall, hvec]
    split
    · rw [flatCall]
      cases hs : isVector s with
      | true =>
        rw [hs] at hv
        rw [if_pos rfl, if_pos (by simpa using hv), erase_callS, List.map_singleton, erase_callS, List.map_cons, List.map_cons, hvals, h3,
          cmps_word h1, w_List]
        rfl
      | false =>
        rw [hs] at hv
        rw [if_neg (by simp), if_neg (by simpa using hv), erase_callS, List.map_cons, List.map_cons, hvals, h3, cmps_word h1]
        rfl
    · have hop : operator (if ((w, v) :: es).any (fun p => sortOf p.1 == some true) then .Developer_VectorInequality else .System_Inequality) =
          word (if ((w, v) :: es).any (fun p => sortOf p.1 == some true) then "Developer`VectorInequality" else "Inequality") := by
        split
        · exact w_VectorInequality
        · exact w_Inequality
      rw [erase_callS, hop, List.map_cons, List.flatMap_cons, List.map_append, hflat]
      simp only [List.map_cons, List.map_nil, h3]
      rw [show erase (Ast.symbol s) = word w from cmps_word h1]
      rfl

theorem inv_plain {rest : List (Sym × Ast)} {aff : Option Bool} {p : Sym × Ast} (hi : Inv rest aff) (hp : isPlain p.1 = true) :
    Inv (rest ++ [p]) aff := by
  have hv := plain_vector hp
  match aff, hi with
  | none, hi => intro q hq; rcases List.mem_append.mp hq with hq | hq; exacts [hi q hq, List.mem_singleton.mp hq ▸ hp]
  | some true, hi =>
    refine ⟨by obtain ⟨⟨q, h1, h2⟩, -⟩ := hi; exact ⟨q, by simp [h1], h2⟩, ?_⟩
    simp only [List.mem_append, List.mem_singleton]; rintro q (hq | rfl); exacts [hi.2 q hq, Or.inr hp]
  | some false, hi =>
    refine ⟨by obtain ⟨⟨q, h1, h2⟩, -⟩ := hi; exact ⟨q, by simp [h1], h2⟩, ?_⟩
    simp only [List.mem_append, List.mem_singleton]; rintro q (hq | rfl); exacts [hi.2 q hq, hv]

theorem inv_sort {rest : List (Sym × Ast)} {aff : Option Bool} {p : Sym × Ast} (hi : Inv rest aff) (hp : isPlain p.1 = false)
    (ha : aff ≠ some !(isVector p.1)) : Inv (rest ++ [p]) (some (isVector p.1)) := by
  cases hv : isVector p.1 with
  | true =>
    refine ⟨⟨p, by simp, hv⟩, ?_⟩
    rw [hv] at ha
    simp only [List.mem_append, List.mem_singleton]
    rintro q (hq | rfl)
    · match aff, hi, ha with
      | none, hi, _ => exact Or.inr (hi q hq)
      | some true, hi, _ => exact hi.2 q hq
    · exact Or.inl hv
  | false =>
    refine ⟨⟨p, by simp, hv, hp⟩, ?_⟩
    rw [hv] at ha
    simp only [List.mem_append, List.mem_singleton]
    rintro q (hq | rfl)
    · match aff, hi, ha with
      | none, hi, _ => exact plain_vector (hi q hq)
      | some false, hi, _ => exact hi.2 q hq
    · exact hv

/-- The comparisons `es` of the text are those of the tree. -/
abbrev Alike (es : List (String × Expr)) (rs : List (Sym × Ast)) : Prop :=
  List.Forall₂ (fun e r => (r.1, e.1) ∈ cmps ∧ erase r.2 = e.2) es rs

theorem Alike.known {es : List (String × Expr)} {rs : List (Sym × Ast)} (h : Alike es rs) : ∀ p ∈ rs, Known p.1 = true := by
  intro p hp
  obtain ⟨e, -, he⟩ := forall₂_mem h p hp
  exact cmps_Known _ he.1

theorem Alike.snoc {es : List (String × Expr)} {rs : List (Sym × Ast)} {e : String × Expr} {r : Sym × Ast} (h : Alike es rs)
    (h1 : (r.1, e.1) ∈ cmps ∧ erase r.2 = e.2) : Alike (es ++ [e]) (rs ++ [r]) := by
  induction h with
  | nil => exact .cons h1 .nil
  | cons h2 _ ih => exact .cons h2 ih

theorem erase_loop {d : ASrc} : ∀ {ps : List (Sym × Ast)} {es : List (String × Expr)} {x : Ast} {rest : List (Sym × Ast)}
    {done : List (String × Expr)} {aff : Option Bool}, Alike es ps → Alike done rest → Inv rest aff → rest ++ ps ≠ [] →
    erase (loop d ps x rest aff) = compareFrom (erase x) done aff es
  | [], _, x, rest, done, aff, .nil, hd, hi, h0 => by
    rw [List.append_nil] at h0
    rw [loop, simplify_eq hd.known hi h0, erase_comparison h0 hd, compareFrom]
  | p :: ps, e :: es, x, rest, done, aff, .cons h1 h2, hd, hi, h0 => by
    have hs := cmps_sort _ h1.1
    simp only at hs
    rw [loop, compareFrom, hs]
    cases hp : isPlain p.1 with
    | true => exact erase_loop h2 (hd.snoc h1) (inv_plain hi hp) (by simp)
    | false =>
      simp only [Bool.false_eq_true, if_false]
      by_cases ha : aff = some !(isVector p.1)
      · have hne : rest ≠ [] := by
          rintro rfl
          rw [ha] at hi
          cases hv : isVector p.1 <;> rw [hv] at hi <;> (obtain ⟨⟨q, h3, -⟩, -⟩ := hi; cases h3)
        rw [if_pos ha, if_pos ha, erase_loop (rest := [p]) h2 (Alike.snoc .nil h1) (inv_sort (rest := []) (aff := none) (by intro q hq; cases hq) hp (by simp)) (by simp),
          simplify_eq hd.known hi hne, erase_comparison hne hd]
        rfl
      · rw [if_neg ha, if_neg ha]
        exact erase_loop h2 (hd.snoc h1) (inv_sort hi hp ha) (by simp)

theorem withToks : ∀ (ps : List (Tok × Cst)), mapA withTok (ps.map fun p => (Cst.tok p.1, p.2)) = .ok ps
  | [] => rfl
  | p :: ps => by rw [List.map_cons, mapA, withToks ps]; rfl

theorem sound_inequality (hq : env.flattenTimes = false) {p : Nat} {f : Spec.Form} {t : Tail} {c : Cst} {cs : List Cst}
    (hs : Sound env f c) (ht : SoundT env t cs) :
    Sound env (.chain .CodeParser_InfixInequality p f t) (.node (.infix .CodeParser_InfixInequality) (c :: cs)) := by
  refine sound_ordinary hq (chain_ordinary (by decide)) (fun r => rfl) rfl rfl fun a ha => ?_
  obtain ⟨rec, hrec, data, ha⟩ := runs_node ha
  obtain ⟨ps, rfl, hps⟩ := ht
  simp only [nodeAst, infixAst, inequalityAst, pairs_links, withToks, ok_bind, bind_ok] at ha
  obtain ⟨x, h1, h2⟩ := ha
  obtain ⟨ls, rfl, h3, h4⟩ := inequalityLoop_loop h2
  rw [List.forall₂_map_right_iff] at hps
  have hrel : Alike (t.comparisons (quirks env)) (ls.map fun l => (l.sym, l.expr)) := by
    rw [comparisons_list, Alike, List.forall₂_map_left_iff, List.forall₂_map_right_iff]
    have h6 : ∀ {as : List (Lexeme × Spec.Form)} {ls : List Link}, (∀ l ∈ ls, inequalityOperatorToSymbol l.op.kind = some l.sym ∧ rec (.cst l.operand) = .ok l.expr) →
        List.Forall₂ (fun x l => (l.op, l.operand).1.kind = x.1.1 ∧ Sound env x.2 (l.op, l.operand).2) as ls →
        List.Forall₂ (fun x l => (l.sym, (comparisonOf x.1.1).getD "") ∈ cmps ∧ erase l.expr = x.2.expr (quirks env) .value) as ls := by
      intro as ls h h'
      induction h' with
      | nil => exact .nil
      | cons h7 _ ih =>
        refine .cons ?_ (ih fun l hl => h l (by simp [hl]))
        obtain ⟨h8, h9⟩ := h _ List.mem_cons_self
        have h12 := h7.1
        simp only at h12
        rw [h12] at h8
        exact ⟨cmps_known h8, h7.2.value _ (hrec _ _ h9)⟩
    exact h6 h3 hps
  have hne : (ls.map fun l => (l.sym, l.expr)) ≠ [] := by
    intro h0
    rw [h0] at hrel
    cases t <;> rw [Tail.comparisons] at hrel <;> cases hrel
  rw [← h4, erase_loop hrel .nil (by intro p hp; cases hp) hne, hs.value x (hrec _ _ h1)]
  rfl

/-! ### Prefix operators -/

theorem minus_expr {q : Quirks} {r : Role} {o : Prefix} {f : Spec.Form} (ho : o.op = .Minus) (hr : r ≠ .negated) :
    (Spec.Form.prefix o f).expr q r = r.of (f.expr q .negated) := by
  cases r <;> first | exact absurd rfl hr | simp only [Form.expr, ho]

theorem sound_minus (hq : env.flattenTimes = false) {o : Prefix} {f : Spec.Form} {t : Tok} {c : Cst} (hs : Sound env f c)
    (ho : o.op = .Minus) : Sound env (.prefix o f) (.node (.prefix o.op) [.tok t, c]) := by
  rw [ho]
  have hv : ∀ a, Runs env (.cst (.node (.prefix .Minus) [.tok t, c])) a → erase a = f.expr (quirks env) .negated := by
    intro a h
    obtain ⟨rec, hrec, data, h⟩ := runs_node h
    simp only [nodeAst, prefixAst, expect2, ok_bind, bind_ok] at h
    obtain ⟨g, h1, h2⟩ := h
    exact hs.neg g _ a h1 (hrec _ _ h2)
  have hflat : ∀ s os, flat false s (.node (.prefix .Minus) [.tok t, c]) = .ok os →
      os = [.cst (.node (.prefix .Minus) [.tok t, c])] ∨ ∃ g, negate c = .ok g ∧ os = [.neg g s] := by
    intro s os h
    simp only [flat, if_true, flatMinus, bind_ok, Bool.false_eq_true, if_false] at h
    obtain ⟨b, h1, h2⟩ := h
    split at h2
    · simp only [bind_ok] at h2
      obtain ⟨g, h3, h4⟩ := h2
      cases h4
      exact Or.inr ⟨g, h3, rfl⟩
    · cases h2; exact Or.inl rfl
  refine ⟨fun a h => ?_, fun g s a hg h => ?_, fun name d' a h h' => ?_, fun d' a h h' => ?_, fun d' d'' a h h'' h' => ?_,
    fun n m b a h h' => ?_, fun b h => ?_, fun b h => ?_, fun _ s os h => ?_⟩
  · rw [minus_expr ho (by simp)]; exact hv a h
  · have he : (Spec.Form.prefix o f).expr (quirks env) .negated =
        if f.isZero then f.expr (quirks env) .negated else opposite (f.expr (quirks env) .negated) := by
      rw [Form.expr, ho]
    rw [he]
    have hg : (do if ← zeroQ c then negate c else .ok (.times [.node (.prefix .Minus) [.tok t, c]])) = .ok g := hg
    rw [bind_ok] at hg
    obtain ⟨z, hz, hg⟩ := hg
    obtain rfl := hs.zero z hz
    cases hzf : f.isZero with
    | true =>
      rw [hzf, if_pos rfl] at hg
      rw [if_pos rfl]
      exact hs.neg g s a hg h
    | false =>
      rw [hzf, if_neg (by decide)] at hg
      rw [if_neg (by decide)]
      cases hg
      obtain ⟨rec, hrec, h⟩ := h.step
      simp only [Abs.step, negatedAst, timesAst, bind_ok] at h
      obtain ⟨b, ⟨os, h1, as, h2, h3⟩, h4⟩ := h
      rw [hq, evens, flatL, bind_ok] at h1
      obtain ⟨o1, h5, h6⟩ := h1
      cases h6
      cases h3
      cases h4
      have : as.map erase = [f.expr (quirks env) .negated] := by
        rw [List.append_nil] at h2
        rcases hflat _ _ h5 with rfl | ⟨g, h7, rfl⟩
        · obtain ⟨x, xs, h8, h9, rfl⟩ := mapA_cons_ok h2
          obtain rfl := mapA_nil_ok h9
          simp only [operandAst, binaryAt_other (k := .prefix .Minus) (by simp), ok_bind] at h8
          rw [List.map_cons, hv x (hrec _ _ h8)]; rfl
        · obtain ⟨x, xs, h8, h9, rfl⟩ := mapA_cons_ok h2
          obtain rfl := mapA_nil_ok h9
          rw [List.map_cons, hs.neg g _ x h7 (hrec _ _ h8)]; rfl
      rw [erase_call, List.map_cons, erase_neg1, this]
      show Expr.call (operator _) _ = _
      rw [w_Times]
      rfl
  · rw [binaryAt_other (by simp)] at h
    cases h
    rw [hv a h', minus_expr ho (by simp)]; rfl
  · rw [flattenPlus_other (by simp)] at h
    cases h
    rw [hv a h', minus_expr ho (by simp)]; rfl
  · rw [binaryAt_other (by simp)] at h
    cases h
    rw [flattenPlus_other (by simp)] at h''
    cases h''
    rw [hv a h', minus_expr ho (by simp)]; rfl
  · rw [derivative_other (by simp)] at h
    cases h
    rw [hv a h', minus_expr ho (by simp)]; rfl
  · rw [number_other (by simp)] at h; cases h; rfl
  · have h : zeroQ c = .ok b := h
    rw [Form.isZero, hs.zero b h, ho]; rfl
  · rcases hflat _ _ h with rfl | ⟨g, h1, rfl⟩
    · exact ⟨_, rfl, Or.inl rfl⟩
    · refine ⟨_, rfl, Or.inr ⟨g, s, rfl, fun a ha => ⟨?_, fun name => ?_⟩⟩⟩
      · rw [minus_expr ho (by simp)]; exact hs.neg g s a h1 ha
      · rw [minus_expr ho (by simp)]; exact hs.neg g s a h1 ha

theorem plus_expr {q : Quirks} {r : Role} {o : Prefix} {f : Spec.Form} (ho : o.op = .Plus) (h1 : r ≠ .term) (h2 : r ≠ .afterPlus) :
    (Spec.Form.prefix o f).expr q r = r.of (.call (word "Plus") [f.expr q .afterPlus]) := by
  cases r <;> first | exact absurd rfl h1 | exact absurd rfl h2 | simp only [Form.expr, ho]

theorem sound_prefixPlus (hq : env.flattenTimes = false) {o : Prefix} {f : Spec.Form} {t : Tok} {c : Cst} (hs : Sound env f c)
    (ho : o.op = .Plus) : Sound env (.prefix o f) (.node (.prefix o.op) [.tok t, c]) := by
  rw [ho]
  have hv : ∀ a, Runs env (.cst (.node (.prefix .Plus) [.tok t, c])) a →
      erase a = .call (word "Plus") [f.expr (quirks env) .afterPlus] := by
    intro a h
    obtain ⟨rec, hrec, data, h⟩ := runs_node h
    simp only [nodeAst, prefixAst, expect2, ok_bind, bind_ok] at h
    obtain ⟨d, h1, b, h2, h3⟩ := h
    cases h3
    rw [erase_callS, w_Plus, List.map_cons, hs.after d b h1 (hrec _ _ h2)]; rfl
  have ht : (Spec.Form.prefix o f).expr (quirks env) .term = f.expr (quirks env) .afterPlus := by rw [Form.expr, ho]
  have ha : (Spec.Form.prefix o f).expr (quirks env) .afterPlus = f.expr (quirks env) .afterPlus := by rw [Form.expr, ho]
  refine ⟨fun a h => ?_, fun g s a hg h => ?_, fun name d' a h h' => ?_, fun d' a h h' => ?_, fun d' d'' a h h'' h' => ?_,
    fun n m b a h h' => ?_, fun b h => ?_, fun b h => ?_, fun _ s os h => ?_⟩
  · rw [plus_expr ho (by simp) (by simp)]; exact hv a h
  · cases hg
    obtain ⟨b, h1, h2⟩ := runs_times hq h rfl (binaryAt_other (by simp))
    rw [h2, hv b h1, plus_expr ho (by simp) (by simp)]; rfl
  · rw [binaryAt_other (by simp)] at h
    cases h
    rw [hv a h', plus_expr ho (by simp) (by simp)]; rfl
  · rw [ha]
    exact hs.after d' a h h'
  · rw [binaryAt_other (by simp)] at h
    cases h
    rw [ht]
    exact hs.after d'' a h'' h'
  · rw [derivative_other (by simp)] at h
    cases h
    rw [hv a h', plus_expr ho (by simp) (by simp)]; rfl
  · rw [number_other (by simp)] at h; cases h; rfl
  · rw [zero_other (by simp) (by simp)] at h; cases h; rw [Form.isZero, ho]; rfl
  · cases h; exact ⟨_, rfl, Or.inl rfl⟩

theorem prefix_ops : ∀ k : TK, (match prefixOf k with
    | some (_, op) => op != .Get
    | none => true) = true := forall_of_all (by decide +kernel)

theorem Prefix.ops (o : Prefix) : o.op ≠ .Get := by
  have := prefix_ops o.lex.1
  rw [o.known] at this
  simpa using this

theorem w_Not2 : operator .System_Not = word "Not" := w_Not

theorem sound_prefix (hq : env.flattenTimes = false) {o : Prefix} {f : Spec.Form} {t : Tok} {c : Cst} (hs : Sound env f c)
    (h1 : o.op ≠ .Minus) (h2 : o.op ≠ .Plus) (h3 : o.op ≠ .CodeParser_PrefixLinearSyntaxBang) :
    Sound env (.prefix o f) (.node (.prefix o.op) [.tok t, c]) := by
  have h4 := Prefix.ops o
  by_cases h5 : o.op = .CodeParser_PrefixNot2
  · have he : ∀ r, (Spec.Form.prefix o f).expr (quirks env) r =
        r.of (.call (word "Not") [.call (word "Not") [f.expr (quirks env) .value]]) := by
      intro r; cases r <;> simp only [Form.expr, h5]
    refine sound_ordinary hq ⟨by simpa using h1, by simpa using h2, by simp, by simp, by simp, by simp⟩ (fun r => ?_) rfl ?_ fun a h => ?_
    · rw [he, he .value]; rfl
    · rw [Form.isZero, h5]; rfl
    · obtain ⟨rec, hrec, data, h⟩ := runs_node h
      rw [h5] at h
      simp only [nodeAst, prefixAst, expect2, ok_bind, bind_ok] at h
      obtain ⟨_, -, b, h6, h7⟩ := h
      cases h7
      rw [he, erase_callS, w_Not, List.map_cons, erase_callS, w_Not, List.map_cons, hs.value b (hrec _ _ h6)]; rfl
  · have he : ∀ r, (Spec.Form.prefix o f).expr (quirks env) r = r.of (.call (operator o.op.toSymbol) [f.expr (quirks env) .value]) := by
      intro r
      cases r <;> simp only [Form.expr] <;> split <;> first | rfl | simp_all
    refine sound_ordinary hq ⟨by simpa using h1, by simpa using h2, by simp, by simp, by simp, by simp⟩ (fun r => ?_) rfl ?_ fun a h => ?_
    · rw [he, he .value]; rfl
    · rw [Form.isZero]; simp [h1]
    · obtain ⟨rec, hrec, data, h⟩ := runs_node h
      have h : prefixAst env rec o.op [.tok t, c] data = .ok a := h
      unfold prefixAst at h
      split at h <;> try simp_all
      simp only [expect2, ok_bind, bind_ok] at h
      obtain ⟨b, h6, h7⟩ := h
      cases h7
      rw [erase_callS, List.map_cons, hs.value b (hrec _ _ h6)]; rfl

/-! ### Postfix operators -/

theorem sound_derivative (hq : env.flattenTimes = false) {o : Postfix} {f : Spec.Form} {t : Tok} {c : Cst} (hs : Sound env f c)
    (ho : o.op = .Derivative) (ht : t.kind = .SingleQuote) : Sound env (.postfix f o) (.node (.postfix o.op) [c, .tok t]) := by
  rw [ho]
  have hv : ∀ a, Runs env (.cst (.node (.postfix .Derivative) [c, .tok t])) a → erase a = f.expr (quirks env) (.primed 1) := by
    intro a h
    obtain ⟨rec, hrec, data, h⟩ := runs_node h
    simp only [nodeAst, postfixAst, expect2, ok_bind, bind_ok, ht, if_true] at h
    obtain ⟨⟨n, b⟩, h1, x, h2, h3⟩ := h
    cases h3
    rw [← hs.primed 1 n b x h1 (hrec _ _ h2), Nat.add_comm 1 n, erase_call, erase_callS, w_Derivative]
    simp only [List.map_cons, List.map_nil, erase_nat]
    rfl
  have he : ∀ r, (∀ n, r ≠ .primed n) → (Spec.Form.postfix f o).expr (quirks env) r = r.of (f.expr (quirks env) (.primed 1)) := by
    intro r hr
    cases r <;> first | exact absurd rfl (hr _) | simp only [Form.expr, ho]
  refine ⟨fun a h => ?_, fun g s a hg h => ?_, fun name d' a h h' => ?_, fun d' a h h' => ?_, fun d' d'' a h h'' h' => ?_,
    fun n m b a h h' => ?_, fun b h => ?_, fun b h => ?_, fun _ s os h => ?_⟩
  · rw [he _ (by simp)]; exact hv a h
  · cases hg
    obtain ⟨b, h1, h2⟩ := runs_times hq h rfl (binaryAt_other (by simp))
    rw [h2, hv b h1, he _ (by simp)]; rfl
  · rw [binaryAt_other (by simp)] at h
    cases h
    rw [hv a h', he _ (by simp)]; rfl
  · rw [flattenPlus_other (by simp)] at h
    cases h
    rw [hv a h', he _ (by simp)]; rfl
  · rw [binaryAt_other (by simp)] at h
    cases h
    rw [flattenPlus_other (by simp)] at h''
    cases h''
    rw [hv a h', he _ (by simp)]; rfl
  · simp only [derivativeBody, if_true, bind_ok] at h
    obtain ⟨⟨k, b'⟩, h1, h2⟩ := h
    cases h2
    have : (Spec.Form.postfix f o).expr (quirks env) (.primed n) = f.expr (quirks env) (.primed (n + 1)) := by rw [Form.expr, ho]
    rw [this, ← hs.primed (n + 1) k _ a h1 h']
    congr 1
    omega
  · rw [number_other (by simp)] at h; cases h; rfl
  · rw [zero_other (by simp) (by simp)] at h; cases h; rfl
  · cases h; exact ⟨_, rfl, Or.inl rfl⟩

theorem sound_postfix (hq : env.flattenTimes = false) {o : Postfix} {f : Spec.Form} {t : Tok} {c : Cst} (hs : Sound env f c)
    (h1 : o.op ≠ .Derivative) : Sound env (.postfix f o) (.node (.postfix o.op) [c, .tok t]) := by
  by_cases h2 : o.op = .HermitianConjugate
  · have he : ∀ r, (Spec.Form.postfix f o).expr (quirks env) r = r.of (.call (word "ConjugateTranspose") [f.expr (quirks env) .value]) := by
      intro r; cases r <;> simp only [Form.expr, h2]
    refine sound_ordinary hq ⟨by simp, by simp, by simp, by simp, by simpa using h1, by simp⟩ (fun r => ?_) rfl rfl fun a h => ?_
    · rw [he, he .value]; rfl
    · obtain ⟨rec, hrec, data, h⟩ := runs_node h
      rw [h2] at h
      simp only [nodeAst, postfixAst, expect2, ok_bind, bind_ok] at h
      obtain ⟨b, h6, h7⟩ := h
      cases h7
      rw [he, erase_callS, w_ConjugateTranspose, List.map_cons, hs.value b (hrec _ _ h6)]; rfl
  · have he : ∀ r, (Spec.Form.postfix f o).expr (quirks env) r = r.of (.call (operator o.op.toSymbol) [f.expr (quirks env) .value]) := by
      intro r
      cases r <;> simp only [Form.expr] <;> split <;> first | rfl | simp_all
    refine sound_ordinary hq ⟨by simp, by simp, by simp, by simp, by simpa using h1, by simp⟩ (fun r => ?_) rfl rfl fun a h => ?_
    · rw [he, he .value]; rfl
    · obtain ⟨rec, hrec, data, h⟩ := runs_node h
      have h : postfixAst rec o.op [c, .tok t] data = .ok a := h
      unfold postfixAst at h
      simp only [expect2, ok_bind, bind_ok] at h
      obtain ⟨b, h6, h7⟩ := h
      cases h7
      rw [he, erase_callS, List.map_cons, hs.value b (hrec _ _ h6)]; rfl

end CodeParser.Mean
