import Verif.Spec.Link
/-!
Reading from a link what was written to it, and how writers are put together.
-/
namespace CodeParser.LinkP
open CodeParser Wll Spec.Link

theorem resolve_full {n : Name} (h : '`' ∈ n) : resolve n = n := by
  unfold resolve
  rw [if_pos (by simpa using h)]

theorem items_pos : ∀ e : Expr, 1 ≤ e.items.length
  | .sym _ => by simp [Expr.items]
  | .str _ => by simp [Expr.items]
  | .int _ => by simp [Expr.items]
  | .real _ => by simp [Expr.items]
  | .normal _ _ => by simp [Expr.items]

mutual
theorem getExpr_items : ∀ (e : Expr) (f : Nat) (r : List Item), Full e → e.items.length ≤ f →
    getExpr f (e.items ++ r) = some (e, r)
  | .sym n, f, r, h, hf => by
    obtain ⟨f, rfl⟩ := Nat.exists_eq_add_of_le' (Nat.le_trans (items_pos _) hf)
    rw [Full] at h
    simp [Expr.items, getExpr, resolve_full h]
  | .str _, f, r, h, hf => by
    obtain ⟨f, rfl⟩ := Nat.exists_eq_add_of_le' (Nat.le_trans (items_pos _) hf)
    simp [Expr.items, getExpr]
  | .int _, f, r, h, hf => by
    obtain ⟨f, rfl⟩ := Nat.exists_eq_add_of_le' (Nat.le_trans (items_pos _) hf)
    simp [Expr.items, getExpr]
  | .real _, f, r, h, hf => by
    obtain ⟨f, rfl⟩ := Nat.exists_eq_add_of_le' (Nat.le_trans (items_pos _) hf)
    simp [Expr.items, getExpr]
  | .normal hd as, f, r, h, hf => by
    obtain ⟨f, rfl⟩ := Nat.exists_eq_add_of_le' (Nat.le_trans (items_pos _) hf)
    rw [Full] at h
    have h1 := items_pos hd
    simp only [Expr.items, List.length_cons, List.length_append] at hf
    have e1 := getExpr_items hd f (Expr.itemsL as ++ r) h.1 (by omega)
    have e2 := getExprs_items as f r h.2 (by omega)
    simp only [Expr.items, List.cons_append, List.append_assoc, getExpr, e1, e2]
theorem getExprs_items : ∀ (es : List Expr) (f : Nat) (r : List Item), FullL es → (Expr.itemsL es).length + 1 ≤ f →
    getExprs f es.length (Expr.itemsL es ++ r) = some (es, r)
  | [], f, r, _, _ => by cases f <;> simp [Expr.itemsL, getExprs]
  | e :: es, f, r, h, hf => by
    rw [FullL] at h
    have h1 := items_pos e
    simp only [Expr.itemsL, List.length_append] at hf
    obtain ⟨f, rfl⟩ := Nat.exists_eq_add_of_le' (Nat.le_trans h1 (by omega : _ ≤ f))
    have e1 := getExpr_items e f (Expr.itemsL es ++ r) h.1 (by omega)
    have e2 := getExprs_items es f r h.2 (by omega)
    simp only [Expr.itemsL, List.append_assoc, List.length_cons, getExprs, e1, e2]
end

theorem get_items {e : Expr} (h : Full e) : get e.items = some (e, []) := by
  have := getExpr_items e e.items.length [] h (Nat.le_refl _)
  rwa [List.append_nil] at this

theorem itemsL_append : ∀ as bs : List Expr, Expr.itemsL (as ++ bs) = Expr.itemsL as ++ Expr.itemsL bs
  | [], _ => rfl
  | a :: as, bs => by simp [Expr.itemsL, itemsL_append as bs]

theorem fullL_append : ∀ {as bs : List Expr}, FullL as → FullL bs → FullL (as ++ bs)
  | [], _, _, h => h
  | _ :: _, _, h, h' => ⟨h.1, fullL_append h.2 h'⟩

theorem cutL_refl : ∀ es : List Expr, CutL es es
  | [] => .nil
  | e :: es => .cons (.refl e) (cutL_refl es)

theorem cutL_append : ∀ {as as' bs bs' : List Expr}, CutL as as' → CutL bs bs' → CutL (as ++ bs) (as' ++ bs')
  | [], _, _, _, .nil, h => h
  | _ :: _, _, _, _, .cons h h1, h2 => .cons h (cutL_append h1 h2)

theorem cutL_length : ∀ {as as' : List Expr}, CutL as as' → as'.length = as.length
  | _, _, .nil => rfl
  | _, _, .cons _ h => by simp [cutL_length h]

theorem cutList_length : ∀ {as as' : List Expr}, CutList as as' → as'.length = as.length
  | _, _, .nil => rfl
  | _, _, .cons _ h => by simp [cutList_length h]
  | _, _, .aborted h => by simp [cutList_length h]

/-- There is no abort. -/
def Never (ab : Nat → Bool) : Prop := ∀ k, ab k = false

/-- A writer that writes these expressions, or those that aborts make of them; with `none`, one that
panics. -/
def Den (C : List Expr → List Expr → Prop) (w : W) : Option (List Expr) → Prop
  | none => ∀ ab, Never ab → ∀ k, w ab k = none
  | some es => ∀ ab k, ∃ es' k', w ab k = some (Expr.itemsL es', k') ∧ C es es' ∧ (FullL es → FullL es') ∧
      (Never ab → es' = es)

theorem fullL_of_append : ∀ {as bs : List Expr}, FullL (as ++ bs) → FullL as ∧ FullL bs
  | [], _, h => ⟨trivial, h⟩
  | _ :: _, _, h => ⟨⟨h.1, (fullL_of_append h.2).1⟩, (fullL_of_append h.2).2⟩

theorem Den.seq' {C : List Expr → List Expr → Prop} {a b : W} {oa ob : Option (List Expr)}
    (hC : ∀ {as as' bs bs'}, C as as' → C bs bs' → C (as ++ bs) (as' ++ bs'))
    (ha : Den C a oa) (hb : Den C b ob) : Den C (a ;> b) (do return (← oa) ++ (← ob)) := by
  cases oa with
  | none =>
    intro ab hab k
    simp only [W.seq, ha ab hab k]
  | some as =>
    cases ob with
    | none =>
      intro ab hab k
      obtain ⟨es', k', h1, -⟩ := ha ab k
      simp only [W.seq, h1, hb ab hab k']
    | some bs =>
      intro ab k
      obtain ⟨as', k', h1, h2, h3, h4⟩ := ha ab k
      obtain ⟨bs', k'', g1, g2, g3, g4⟩ := hb ab k'
      refine ⟨as' ++ bs', k'', ?_, hC h2 g2, ?_, ?_⟩
      · simp only [W.seq, h1, g1, itemsL_append]
      · exact fun h => fullL_append (h3 (fullL_of_append h).1) (g3 (fullL_of_append h).2)
      · exact fun h => by rw [h4 h, g4 h]

theorem Den.seq {a b : W} {oa ob : Option (List Expr)}
    (ha : Den CutL a oa) (hb : Den CutL b ob) : Den CutL (a ;> b) (do return (← oa) ++ (← ob)) :=
  Den.seq' cutL_append ha hb

/-- Writing fixed items. -/
theorem Den.items {C : List Expr → List Expr → Prop} {es : List Expr} (hC : C es es) :
    Den C (W.put (Expr.itemsL es)) (some es) :=
  fun _ k => ⟨es, k, rfl, hC, id, fun _ => rfl⟩

theorem Den.put {e : Expr} {is : List Item} (h : is = e.items) : Den CutL (W.put is) (some [e]) := by
  have : is = Expr.itemsL [e] := by rw [h]; simp [Expr.itemsL]
  rw [this]
  exact Den.items (cutL_refl _)

theorem Den.nil : Den CutL (W.put []) (some []) := Den.items (es := []) CutL.nil

theorem Den.fail {C : List Expr → List Expr → Prop} : Den C W.fail none := fun _ _ _ => rfl

/-- A function and its arguments. -/
theorem Den.fn {w : W} {o : Option (List Expr)} {n : Nat} {h : Name} (hw : Den CutL w o)
    (hn : ∀ es, o = some es → es.length = n) : Den CutL (W.fn h n ;> w) (o.map fun es => [.normal (.sym h) es]) := by
  cases o with
  | none =>
    intro ab hab k
    simp only [W.seq, W.fn, W.put, hw ab hab k]
  | some es =>
    intro ab k
    obtain ⟨es', k', h1, h2, h3, h4⟩ := hw ab k
    refine ⟨[.normal (.sym h) es'], k', ?_, .cons (.normal (.refl _) h2) .nil, ?_, fun h => by rw [h4 h]⟩
    · simp only [W.seq, W.fn, W.put, h1, Expr.itemsL, Expr.items, Wll.fn, List.append_nil, cutL_length h2, hn es rfl]
      rfl
    · exact fun h => ⟨⟨h.1.1, h3 h.1.2⟩, trivial⟩

theorem Den.congr {C : List Expr → List Expr → Prop} {w : W} {o o' : Option (List Expr)} (h : Den C w o) (ho : o = o') :
    Den C w o' := ho ▸ h

theorem Den.each : ∀ {α : Type} {f : α → Option Expr} {w : α → W} (as : List α),
    (∀ a ∈ as, Den CutL (w a) ((f a).map ([·]))) → Den CutL (W.each (as.map w)) (all f as)
  | _, _, _, [], _ => Den.nil
  | _, f, w, a :: as, h => by
    refine ((h a List.mem_cons_self).seq (Den.each as fun b hb => h b (List.mem_cons_of_mem _ hb))).congr ?_
    rw [all]
    cases f a <;> cases all f as <;> rfl

theorem all_length : ∀ {α : Type} {f : α → Option Expr} (as : List α) (es : List Expr), all f as = some es →
    es.length = as.length
  | _, _, [], _, h => by cases h; rfl
  | _, f, a :: as, es, h => by
    rw [all] at h
    cases h1 : f a with
    | none => simp [h1] at h
    | some e =>
      cases h2 : all f as with
      | none => simp [h1, h2] at h
      | some es' =>
        simp [h1, h2] at h
        subst h
        simp [all_length as es' h2]

/-- A function of some arguments. -/
theorem Den.listOf {α : Type} {f : α → Option Expr} {w : α → W} {h : Name} (as : List α)
    (hw : ∀ a ∈ as, Den CutL (w a) ((f a).map ([·]))) :
    Den CutL (W.fn h as.length ;> W.each (as.map w)) ((all f as).map fun es => [.normal (.sym h) es]) :=
  Den.fn (Den.each as hw) (all_length as)

theorem Den.one {w : W} {o : Option Expr} {h : Name} (hw : Den CutL w (o.map ([·]))) :
    Den CutL (W.fn h 1 ;> w) (o.map fun e => [.normal (.sym h) [e]]) := by
  refine (Den.fn (n := 1) hw ?_).congr (by cases o <;> rfl)
  intro es hes
  cases o with
  | none => cases hes
  | some e => cases hes; rfl

theorem Den.two {w v : W} {o p : Option Expr} {h : Name} (hw : Den CutL w (o.map ([·])))
    (hv : Den CutL v (p.map ([·]))) :
    Den CutL (W.fn h 2 ;> w ;> v) (do return [.normal (.sym h) [← o, ← p]]) := by
  refine (Den.fn (n := 2) (hw.seq hv) ?_).congr (by cases o <;> cases p <;> rfl)
  intro es hes
  cases o <;> cases p <;> cases hes
  rfl

theorem Den.three {w v u : W} {o p q : Option Expr} {h : Name} (hw : Den CutL w (o.map ([·])))
    (hv : Den CutL v (p.map ([·]))) (hu : Den CutL u (q.map ([·]))) :
    Den CutL (W.fn h 3 ;> w ;> v ;> u) (do return [.normal (.sym h) [← o, ← p, ← q]]) := by
  refine (Den.fn (n := 3) (hw.seq (hv.seq hu)) ?_).congr (by cases o <;> cases p <;> cases q <;> rfl)
  intro es hes
  cases o <;> cases p <;> cases q <;> cases hes
  rfl

/-- Fixed items. -/
theorem Den.sym {s : Sym} : Den CutL (W.sym s) ((some (symbol s)).map ([·])) := Den.put rfl
theorem Den.name {n : Name} : Den CutL (W.name n) ((some (Expr.sym n)).map ([·])) := Den.put rfl
theorem Den.lit {cs : List Char} : Den CutL (W.lit cs) ((some (text cs)).map ([·])) := Den.put rfl
theorem Den.str {t : List UInt8} : Den CutL (W.str t) ((some (Expr.str t)).map ([·])) := Den.put rfl
theorem Den.nat {n : Nat} : Den CutL (W.nat n) ((some (Spec.Link.nat n)).map ([·])) := Den.put rfl
theorem Den.expr {e : Expr} : Den CutL (W.expr e) ((some e).map ([·])) := Den.put rfl

/-! ### Sources -/

theorem den_index (n : Nat) : Den CutL (putIndex n) ((indexExpr n).map ([·])) := by
  unfold putIndex indexExpr
  split
  · exact Den.nat
  · exact Den.fail

theorem den_loc (l : Loc) : Den CutL (putLoc l) ((some (locExpr l)).map ([·])) := by
  cases l with
  | lineCol l c => exact Den.two (h := cs! "System`List") Den.nat Den.nat
  | index i => exact Den.two (h := cs! "System`List") Den.nat Den.nat

theorem den_spanRhs (a b : Loc) : Den CutL (putSpanRhs a b) ((spanExpr a b).map ([·])) := by
  cases a with
  | lineCol l c =>
    cases b with
    | lineCol l' c' => exact Den.two (h := cs! "System`List") (den_loc (.lineCol l c)) (den_loc (.lineCol l' c'))
    | index j => exact Den.fail
  | index i =>
    cases b with
    | lineCol l' c' => exact Den.fail
    | index j =>
      cases j with
      | zero => exact Den.fail
      | succ j => exact Den.two (h := cs! "System`List") Den.nat Den.nat

theorem den_pos (p : BoxPos) : Den CutL (putBoxPos p) ((posExpr p).map ([·])) := by
  cases p with
  | «at» ix =>
    refine (Den.listOf (h := cs! "System`List") ix fun n _ => den_index n).congr ?_
    rw [posExpr]
    cases all indexExpr ix <;> rfl
  | spanning ix a b =>
    refine (Den.fn (h := cs! "System`List") (n := ix.length + 1)
      ((Den.each ix fun n _ => den_index n).seq (Den.two (h := cs! "System`Span") (den_index a) (den_index b))) ?_).congr ?_
    · intro es hes
      cases h1 : all indexExpr ix with
      | none => simp [h1] at hes
      | some xs =>
        have := all_length _ _ h1
        cases h2 : indexExpr a with
        | none => simp [h1, h2] at hes
        | some x =>
          cases h3 : indexExpr b with
          | none => simp [h1, h2, h3] at hes
          | some y =>
            simp [h1, h2, h3] at hes
            subst hes
            simp [this]
    · rw [posExpr]
      cases all indexExpr ix <;> cases indexExpr a <;> cases indexExpr b <;> rfl
  | before ix =>
    refine (Den.one (h := cs! "System`Before") (o := (all indexExpr ix).map list)
      ((Den.listOf (h := cs! "System`List") ix fun n _ => den_index n).congr ?_)).congr ?_
    · cases all indexExpr ix <;> rfl
    · rw [posExpr]
      cases all indexExpr ix <;> rfl
  | after ix =>
    refine (Den.one (h := cs! "System`After") (o := (all indexExpr ix).map list)
      ((Den.listOf (h := cs! "System`List") ix fun n _ => den_index n).congr ?_)).congr ?_
    · cases all indexExpr ix <;> rfl
    · rw [posExpr]
      cases all indexExpr ix <;> rfl

theorem den_sourceRhs (s : Source) : Den CutL (putSourceRhs s) ((sourceExpr s).map ([·])) := by
  cases s with
  | span a b => exact den_spanRhs a b
  | box p => exact den_pos p
  | unknown => exact Den.fail

theorem include_omitted (compat : Bool) (s : Source) : includeSource compat s = !omitted compat s := by
  cases s with
  | span a b => rfl
  | unknown => rfl
  | box p => cases p <;> rfl

theorem den_span (s : Loc × Loc) :
    Den CutL (putSpan s) (((spanExpr s.1 s.2).map fun e => assoc [rule (.sym (cs! "CodeParser`Source")) e]).map ([·])) := by
  refine (Den.one (h := cs! "System`Association")
    (o := (spanExpr s.1 s.2).map fun e => rule (.sym (cs! "CodeParser`Source")) e)
    ((Den.two (h := cs! "System`Rule") (Den.sym (s := .CodeParser_Source)) (den_spanRhs _ _)).congr ?_)).congr ?_
  · cases spanExpr s.1 s.2 <;> rfl
  · cases spanExpr s.1 s.2 <;> rfl

theorem den_rule (compat : Bool) (s : Source) :
    Den CutL (if includeSource compat s then
      W.fn Sym.System_Rule.name 2 ;> W.sym .CodeParser_Source ;> putSourceRhs s else W.put []) (sourceRule compat s) := by
  rw [include_omitted, sourceRule]
  cases omitted compat s with
  | true => exact Den.nil
  | false =>
    refine (Den.two (h := cs! "System`Rule") (Den.sym (s := .CodeParser_Source)) (den_sourceRhs s)).congr ?_
    cases sourceExpr s <;> rfl

theorem rule_length (compat : Bool) (s : Source) (es : List Expr) (h : sourceRule compat s = some es) :
    es.length = if includeSource compat s then 1 else 0 := by
  rw [include_omitted]
  rw [sourceRule] at h
  cases ho : omitted compat s with
  | true => rw [ho] at h; cases h; rfl
  | false =>
    rw [ho] at h
    cases h1 : sourceExpr s with
    | none => simp [h1] at h
    | some e => simp [h1] at h; subst h; rfl

theorem den_source (compat : Bool) (s : Source) : Den CutL (putSource compat s) ((dataExpr compat s).map ([·])) := by
  have h1 := den_rule compat s
  have h2 := rule_length compat s
  unfold putSource
  cases h : includeSource compat s with
  | true =>
    rw [h] at h1 h2
    refine (Den.fn (h := cs! "System`Association") (n := 1) h1 h2).congr ?_
    rw [dataExpr]
    cases sourceRule compat s <;> rfl
  | false =>
    have h3 : sourceRule compat s = some [] := by
      rw [include_omitted] at h
      rw [sourceRule]
      have : omitted compat s = true := by simpa using h
      rw [this]
      rfl
    rw [dataExpr, h3]
    exact Den.put rfl

theorem den_source' (compat : Bool) (o : Option Source) :
    Den CutL (putSource' compat o) ((do dataExpr compat (← o) : Option Expr).map ([·])) := by
  cases o with
  | none => exact Den.fail
  | some s => exact den_source compat s

theorem den_locs (ls : List Loc) : Den CutL (putLocs ls) ((some (list (ls.map locExpr))).map ([·])) := by
  have : all (fun l => some (locExpr l)) ls = some (ls.map locExpr) := by
    induction ls with
    | nil => rfl
    | cons l ls ih => rw [all, ih]; rfl
  refine (Den.listOf (h := cs! "System`List") (f := fun l => some (locExpr l)) ls fun l _ => den_loc l).congr ?_
  rw [this]
  rfl

/-! ### Trees -/

theorem headSym_eq (k : NodeKind) : headSym k = nodeHead k := by cases k <;> rfl

theorem opSym_eq (k : NodeKind) : opSym k = nodeOp k := by
  cases k with
  | syntaxError e => cases e <;> rfl
  | _ => rfl

theorem den_text (t : List UInt8) : Den CutL (putText t) ((textExpr t).map ([·])) := by
  unfold putText textExpr
  split
  · exact Den.str
  · exact Den.fail

theorem den_token (compat : Bool) (k : TK) (t : List UInt8) (s : Source) :
    Den CutL (putToken compat k t s) ((tokenExpr compat k t s).map ([·])) := by
  unfold putToken
  refine (Den.three (Den.sym (s := k.toSymbol)) (den_text t) (den_source compat s)).congr ?_
  rw [tokenExpr]
  cases textExpr t <;> cases dataExpr compat s <;> first | rfl | (cases k.isError <;> rfl)

/-- What an element of a sequence may become. -/
theorem den_unless {w : W} {o : Option Expr} {v : W} {p : Option (List Expr)} (hw : Den CutL w (o.map ([·])))
    (hv : Den CutList v p) : Den CutList (unlessAborted w ;> v) (do return (← o) :: (← p)) := by
  cases o with
  | none =>
    intro ab hab k
    simp only [W.seq, unlessAborted, hab k, hw ab hab (k + 1)]
    rfl
  | some e =>
    cases p with
    | none =>
      intro ab hab k
      obtain ⟨es', k', h1, -⟩ := hw ab (k + 1)
      simp [W.seq, unlessAborted, hab k, h1, hv ab hab k']
    | some es =>
      intro ab k
      cases hk : ab k with
      | true =>
        obtain ⟨es', k', h1, h2, h3, h4⟩ := hv ab (k + 1)
        refine ⟨.sym (cs! "System`$Aborted") :: es', k', ?_, .aborted h2, ?_, ?_⟩
        · simp only [W.seq, unlessAborted, hk, if_true, W.sym, W.put, h1]
          rfl
        · exact fun h => ⟨by simp [Full], h3 h.2⟩
        · exact fun h => by rw [h k] at hk; cases hk
      | false =>
        obtain ⟨as', k', h1, h2, h3, h4⟩ := hw ab (k + 1)
        obtain ⟨es', k'', g1, g2, g3, g4⟩ := hv ab k'
        cases h2 with
        | @cons _ e' _ _ hc hn =>
          cases hn
          refine ⟨e' :: es', k'', ?_, .cons hc g2, ?_, ?_⟩
          · simp [W.seq, unlessAborted, hk, h1, g1, Expr.itemsL]
          · exact fun h => ⟨(h3 ⟨h.1, trivial⟩).1, g3 h.2⟩
          · exact fun h => by rw [(List.cons.inj (h4 h)).1, g4 h]

/-- A list whose elements may become `$Aborted`. -/
theorem den_list {w : W} {o : Option (List Expr)} {n : Nat} (hw : Den CutList w o)
    (hn : ∀ es, o = some es → es.length = n) :
    Den CutL (W.fn Sym.System_List.name n ;> w) ((o.map list).map ([·])) := by
  cases o with
  | none =>
    intro ab hab k
    simp only [W.seq, W.fn, W.put, hw ab hab k]
  | some es =>
    intro ab k
    obtain ⟨es', k', h1, h2, h3, h4⟩ := hw ab k
    refine ⟨[list es'], k', ?_, .cons (.list h2) .nil, ?_, fun h => by rw [h4 h]⟩
    · simp only [W.seq, W.fn, W.put, h1, Expr.itemsL, list, Expr.items, Wll.fn, List.append_nil, cutList_length h2,
        hn es rfl]
      rfl
    · exact fun h => ⟨⟨h.1.1, h3 h.1.2⟩, trivial⟩

theorem trees_length : ∀ {compat : Bool} (cs : List Tree) (es : List Expr), treesExpr compat cs = some es →
    es.length = cs.length
  | _, [], _, h => by rw [treesExpr] at h; cases h; rfl
  | compat, c :: cs, es, h => by
    rw [treesExpr] at h
    cases h1 : treeExpr compat c with
    | none => simp [h1] at h
    | some e =>
      cases h2 : treesExpr compat cs with
      | none => simp [h1, h2] at h
      | some es' =>
        simp [h1, h2] at h
        subst h
        simp [trees_length cs es' h2]

mutual
theorem den_tree (compat : Bool) : ∀ t : Tree, Den CutL (t.put compat) ((treeExpr compat t).map ([·]))
  | .leaf k t s => by rw [Tree.put, treeExpr]; exact den_token compat k t s
  | .node k cs => by
    rw [Tree.put, treeExpr, headSym_eq, opSym_eq]
    refine (Den.three (Den.sym (s := nodeOp k)) (den_seq compat cs) (den_source' compat (seqSource cs))).congr ?_
    cases treesExpr compat cs <;> cases seqSource cs <;> try rfl
    rename_i es s
    simp only [Option.map_some, Option.bind_eq_bind, Option.bind_some]
    cases dataExpr compat s <;> rfl
  | .call h m op b => by
    rw [Tree.put, treeExpr]
    refine (Den.three (den_seq compat h)
      (o := (treesExpr compat h).map list)
      (p := do return bodyExpr m op (list (← treesExpr compat b)) (← dataExpr compat (← seqSource b)))
      ((Den.three (Den.sym (s := op.toSymbol)) (den_seq compat b) (den_source' compat (seqSource b))).congr ?_)
      (den_source' compat (Tree.source (.call h m op b)))).congr ?_
    · cases treesExpr compat b <;> cases seqSource b <;> try rfl
      rename_i es s
      simp only [Option.map_some, Option.bind_eq_bind, Option.bind_some]
      cases dataExpr compat s <;> cases m <;> rfl
    · cases treesExpr compat h <;> try rfl
      cases treesExpr compat b <;> try rfl
      cases seqSource b <;> try rfl
      rename_i s
      simp only [Option.map_some, Option.bind_eq_bind, Option.bind_some]
      cases dataExpr compat s <;> try rfl
      cases (Tree.call h m op b).source <;> try rfl
      rename_i s'
      simp only [Option.bind_some]
      cases dataExpr compat s' <;> rfl
  | .callAgg h m op b => by
    rw [Tree.put, treeExpr]
    refine (Den.three (den_tree compat h)
      (p := do return bodyExpr m op (list (← treesExpr compat b)) (← dataExpr compat (← seqSource b)))
      ((Den.three (Den.sym (s := op.toSymbol)) (den_seq compat b) (den_source' compat (seqSource b))).congr ?_)
      (den_source' compat (Tree.source (.callAgg h m op b)))).congr ?_
    · cases treesExpr compat b <;> cases seqSource b <;> try rfl
      rename_i es s
      simp only [Option.map_some, Option.bind_eq_bind, Option.bind_some]
      cases dataExpr compat s <;> cases m <;> rfl
    · cases treeExpr compat h <;> try rfl
      cases treesExpr compat b <;> try rfl
      cases seqSource b <;> try rfl
      rename_i s
      simp only [Option.map_some, Option.bind_eq_bind, Option.bind_some]
      cases dataExpr compat s <;> try rfl
      cases (Tree.callAgg h m op b).source <;> try rfl
      rename_i s'
      simp only [Option.bind_some]
      cases dataExpr compat s' <;> rfl
  | .box kind cs s => by
    rw [Tree.put, treeExpr]
    refine (Den.three (Den.name (n := boxName kind)) (den_seq compat cs) (den_source compat s)).congr ?_
    cases treesExpr compat cs <;> cases dataExpr compat s <;> rfl
  | .code a b s => by
    rw [Tree.put, treeExpr]
    refine (Den.three (Den.expr (e := a)) (Den.expr (e := b)) (den_source compat s)).congr ?_
    cases dataExpr compat s <;> rfl
theorem den_seq (compat : Bool) : ∀ cs : List Tree,
    Den CutL (putSeq compat cs) (((treesExpr compat cs).map list).map ([·]))
  | cs => by
    rw [putSeq]
    exact den_list (den_all compat cs) (trees_length cs)
theorem den_all (compat : Bool) : ∀ cs : List Tree, Den CutList (putAll compat cs) (treesExpr compat cs)
  | [] => by rw [putAll, treesExpr]; exact Den.items (es := []) CutList.nil
  | c :: cs => by
    rw [putAll, treesExpr]
    exact den_unless (den_tree compat c) (den_all compat cs)
end

end CodeParser.LinkP
