import Verif.Proofs.Link2
import Verif.Model.FromExpr
import Verif.Props.TokenKind
/-!
Names of symbols, and operators and token kinds that are looked up by them.
-/
namespace CodeParser.LinkP
open CodeParser Wll Spec.Link

theorem tick (s : Sym) : '`' ∈ s.name := by
  have : s.name.contains '`' = true := by cases s <;> rfl
  simpa using this

/-- The lexicographic order. -/
def ltChars : List Char → List Char → Bool
  | [], [] => false
  | [], _ :: _ => true
  | _ :: _, [] => false
  | c :: cs, d :: ds => Nat.blt c.toNat d.toNat || (c.toNat == d.toNat && ltChars cs ds)

theorem blt_iff {a b : Nat} : Nat.blt a b = true ↔ a < b := by simp [Nat.blt, Nat.ble_eq]; omega

theorem ltChars_irrefl : ∀ cs : List Char, ltChars cs cs = false
  | [] => rfl
  | c :: cs => by
    have : Nat.blt c.toNat c.toNat = false := by
      rw [← Bool.not_eq_true, blt_iff]; omega
    simp [ltChars, ltChars_irrefl cs, this]

theorem ltChars_trans : ∀ {a b c : List Char}, ltChars a b = true → ltChars b c = true → ltChars a c = true
  | [], [], _, h, _ => by simp [ltChars] at h
  | [], _ :: _, [], _, h => by simp [ltChars] at h
  | [], _ :: _, _ :: _, _, _ => rfl
  | _ :: _, [], _, h, _ => by simp [ltChars] at h
  | _ :: _, _ :: _, [], _, h => by simp [ltChars] at h
  | x :: a, y :: b, z :: c, h, g => by
    simp only [ltChars, Bool.or_eq_true, Bool.and_eq_true, beq_iff_eq, blt_iff] at h g ⊢
    rcases h with h | ⟨h, h'⟩ <;> rcases g with g | ⟨g, g'⟩
    · exact .inl (by omega)
    · exact .inl (by omega)
    · exact .inl (by omega)
    · exact .inr ⟨by omega, ltChars_trans h' g'⟩

/-- Each name is smaller than the next one. -/
def rising : Nat → Nat → Bool
  | _, 0 => true
  | i, n + 1 => ltChars (Sym.ofNat i).name (Sym.ofNat (i + 1)).name && rising (i + 1) n

theorem rising_at : ∀ (n i : Nat), rising i n = true → ∀ j, i ≤ j → j < i + n →
    ltChars (Sym.ofNat j).name (Sym.ofNat (j + 1)).name = true
  | 0, _, _, _, _, _ => by omega
  | n + 1, i, h, j, h1, h2 => by
    simp only [rising, Bool.and_eq_true] at h
    by_cases e : j = i
    · subst e; exact h.1
    · exact rising_at n (i + 1) h.2 j (by omega) (by omega)

theorem rising_all : rising 0 852 = true := by decide +kernel

theorem ctorIdx_lt (s : Sym) : s.ctorIdx < 853 := by cases s <;> decide

theorem name_lt : ∀ (d i : Nat), i + d + 1 < 853 →
    ltChars (Sym.ofNat i).name (Sym.ofNat (i + d + 1)).name = true
  | 0, i, h => rising_at 852 0 rising_all i (by omega) (by omega)
  | d + 1, i, h => ltChars_trans (name_lt d i (by omega))
      (rising_at 852 0 rising_all (i + d + 1) (by omega) (by omega))

theorem name_inj {s t : Sym} (h : s.name = t.name) : s = t := by
  have key : ∀ {s t : Sym}, s.ctorIdx < t.ctorIdx → s.name ≠ t.name := by
    intro s t hlt he
    have := name_lt (t.ctorIdx - s.ctorIdx - 1) s.ctorIdx (by have := ctorIdx_lt t; omega)
    rw [show s.ctorIdx + (t.ctorIdx - s.ctorIdx - 1) + 1 = t.ctorIdx by omega, Sym.ofNat_ctorIdx, Sym.ofNat_ctorIdx,
      he, ltChars_irrefl] at this
    cases this
  rcases Nat.lt_trichotomy s.ctorIdx t.ctorIdx with hlt | heq | hgt
  · exact absurd h (key hlt)
  · have := congrArg Sym.ofNat heq
    rwa [Sym.ofNat_ctorIdx, Sym.ofNat_ctorIdx] at this
  · exact absurd h.symm (key hgt)

theorem name_beq (s t : Sym) : (s.name == t.name) = (s == t) := by
  by_cases h : s = t
  · subst h; simp
  · have : s.name ≠ t.name := fun e => h (name_inj e)
    rw [beq_eq_false_iff_ne.mpr h, beq_eq_false_iff_ne.mpr this]

theorem armOf_name {α : Type} (s : Sym) : ∀ arms : List (Sym × α), armOf arms s.name = arms.lookup s
  | [] => rfl
  | (t, a) :: arms => by
    have ih := armOf_name s arms
    unfold armOf at ih ⊢
    simp only [name_beq] at ih
    rw [List.find?_cons, List.lookup_cons]
    simp only [name_beq]
    by_cases h : t = s
    · subst h; simp
    · have h' : s ≠ t := fun e => h e.symm
      rw [beq_eq_false_iff_ne.mpr h, beq_eq_false_iff_ne.mpr h']
      exact ih

theorem opOf_name {α : Type} {arms : List (Sym × α)} {s : Sym} {o : α} (h : arms.lookup s = some o) :
    opOf arms (symbol s) = .ok o := by
  simp only [opOf, symbol, armOf_name, h]

theorem kindOf_name (k : TK) : kindOf (symbol k.toSymbol) = .ok (backKind k) := by
  have h := Props.C39_token_kind k
  unfold TK.fromSymbol at h
  simp only [kindOf, symbol, name_beq, h]
  rfl

theorem errorOf_name (k : SyntaxErrorKind) : errorOf (symbol (nodeOp (.syntaxError k))) = .ok k := by
  cases k <;> rfl

/-! ### Symbols with contexts -/

theorem full_sym (s : Sym) : Full (symbol s) := tick s

theorem fullL_all {α : Type} {f : α → Option Expr} : ∀ (as : List α) {es : List Expr}, all f as = some es →
    (∀ a ∈ as, ∀ e, f a = some e → Full e) → FullL es
  | [], _, h, _ => by cases h; trivial
  | a :: as, es, h, hf => by
    rw [all] at h
    cases h1 : f a with
    | none => simp [h1] at h
    | some e =>
      cases h2 : all f as with
      | none => simp [h1, h2] at h
      | some es' =>
        simp [h1, h2] at h
        subst h
        exact ⟨hf a List.mem_cons_self e h1, fullL_all as h2 fun b hb => hf b (List.mem_cons_of_mem _ hb)⟩

theorem full_list {es : List Expr} (h : FullL es) : Full (list es) := ⟨by simp [Full], h⟩
theorem full_assoc {es : List Expr} (h : FullL es) : Full (assoc es) := ⟨by simp [Full], h⟩
theorem full_rule {a b : Expr} (h : Full a) (h' : Full b) : Full (rule a b) := ⟨by simp [Full], h, h', trivial⟩
theorem full_node {s : Sym} {a b c : Expr} (h : Full a) (h' : Full b) (h'' : Full c) : Full (node s a b c) :=
  ⟨full_sym s, h, h', h'', trivial⟩

theorem full_loc (l : Loc) : Full (locExpr l) := by
  cases l <;> exact full_list ⟨trivial, trivial, trivial⟩

theorem full_span {a b : Loc} {e : Expr} (h : spanExpr a b = some e) : Full e := by
  unfold spanExpr at h
  split at h <;> cases h <;> simp [Full, FullL, list, nat]

theorem full_index {n : Nat} {e : Expr} (h : indexExpr n = some e) : Full e := by
  unfold indexExpr at h
  split at h <;> cases h
  trivial

theorem full_indices {ix : List Nat} {es : List Expr} (h : all indexExpr ix = some es) : FullL es :=
  fullL_all ix h fun _ _ _ => full_index

theorem full_pos {p : BoxPos} {e : Expr} (h : posExpr p = some e) : Full e := by
  cases p with
  | «at» ix =>
    rw [posExpr] at h
    cases h1 : all indexExpr ix with
    | none => simp [h1] at h
    | some es => simp [h1] at h; subst h; exact full_list (full_indices h1)
  | spanning ix a b =>
    rw [posExpr] at h
    cases h1 : all indexExpr ix with
    | none => simp [h1] at h
    | some es =>
    cases h2 : indexExpr a with
    | none => simp [h1, h2] at h
    | some x =>
    cases h3 : indexExpr b with
    | none => simp [h1, h2, h3] at h
    | some y =>
      simp [h1, h2, h3] at h
      subst h
      exact full_list (fullL_append (full_indices h1) ⟨⟨by simp [Full], full_index h2, full_index h3, trivial⟩, trivial⟩)
  | before ix =>
    rw [posExpr] at h
    cases h1 : all indexExpr ix with
    | none => simp [h1] at h
    | some es => simp [h1] at h; subst h; exact ⟨by simp [Full], full_list (full_indices h1), trivial⟩
  | after ix =>
    rw [posExpr] at h
    cases h1 : all indexExpr ix with
    | none => simp [h1] at h
    | some es => simp [h1] at h; subst h; exact ⟨by simp [Full], full_list (full_indices h1), trivial⟩

theorem full_source {s : Source} {e : Expr} (h : sourceExpr s = some e) : Full e := by
  cases s with
  | span a b => exact full_span h
  | box p => exact full_pos h
  | unknown => cases h

theorem full_sourceRule {compat : Bool} {s : Source} {es : List Expr} (h : sourceRule compat s = some es) : FullL es := by
  unfold sourceRule at h
  split at h
  · cases h; trivial
  · cases h1 : sourceExpr s with
    | none => simp [h1] at h
    | some e => simp [h1] at h; subst h; exact ⟨full_rule (by simp [Full]) (full_source h1), trivial⟩

theorem full_data {compat : Bool} {s : Source} {e : Expr} (h : dataExpr compat s = some e) : Full e := by
  unfold dataExpr at h
  cases h1 : sourceRule compat s with
  | none => simp [h1] at h
  | some es => simp [h1] at h; subst h; exact full_assoc (full_sourceRule h1)

theorem full_text {t : List UInt8} {e : Expr} (h : textExpr t = some e) : Full e := by
  unfold textExpr at h
  split at h <;> cases h
  trivial

theorem full_token {compat : Bool} {k : TK} {t : List UInt8} {s : Source} {e : Expr}
    (h : tokenExpr compat k t s = some e) : Full e := by
  unfold tokenExpr at h
  cases h1 : textExpr t with
  | none => simp [h1] at h
  | some x =>
  cases h2 : dataExpr compat s with
  | none => simp [h1, h2] at h
  | some y =>
  simp [h1, h2] at h
  subst h
  exact full_node (full_sym _) (full_text h1) (full_data h2)

mutual
theorem full_tree {compat : Bool} : ∀ {t : Tree} {e : Expr}, treeExpr compat t = some e → Named t → Full e
  | .leaf k t s, e, h, _ => by rw [treeExpr] at h; exact full_token h
  | .node k cs, e, h, hn => by
    rw [treeExpr] at h
    cases h1 : treesExpr compat cs with
    | none => simp [h1] at h
    | some es =>
    cases h2 : seqSource cs with
    | none => simp [h1, h2] at h
    | some s =>
    cases h3 : dataExpr compat s with
    | none => simp [h1, h2, h3] at h
    | some d =>
    simp [h1, h2, h3] at h
    subst h
    exact full_node (full_sym _) (full_list (full_trees h1 hn)) (full_data h3)
  | .call hd m op b, e, h, hn => by
    rw [treeExpr] at h
    cases h0 : treesExpr compat hd with
    | none => simp [h0] at h
    | some hs =>
    cases h1 : treesExpr compat b with
    | none => simp [h0, h1] at h
    | some es =>
    cases h2 : seqSource b with
    | none => simp [h0, h1, h2] at h
    | some s =>
    cases h3 : dataExpr compat s with
    | none => simp [h0, h1, h2, h3] at h
    | some d =>
    cases h4 : (Tree.call hd m op b).source with
    | none => simp [h0, h1, h2, h3, h4] at h
    | some s' =>
    cases h5 : dataExpr compat s' with
    | none => simp [h0, h1, h2, h3, h4, h5] at h
    | some d' =>
    simp [h0, h1, h2, h3, h4, h5] at h
    subst h
    exact full_node (full_list (full_trees h0 hn.1))
      (full_node (full_sym _) (full_list (full_trees h1 hn.2)) (full_data h3)) (full_data h5)
  | .callAgg hd m op b, e, h, hn => by
    rw [treeExpr] at h
    cases h0 : treeExpr compat hd with
    | none => simp [h0] at h
    | some hs =>
    cases h1 : treesExpr compat b with
    | none => simp [h0, h1] at h
    | some es =>
    cases h2 : seqSource b with
    | none => simp [h0, h1, h2] at h
    | some s =>
    cases h3 : dataExpr compat s with
    | none => simp [h0, h1, h2, h3] at h
    | some d =>
    cases h4 : (Tree.callAgg hd m op b).source with
    | none => simp [h0, h1, h2, h3, h4] at h
    | some s' =>
    cases h5 : dataExpr compat s' with
    | none => simp [h0, h1, h2, h3, h4, h5] at h
    | some d' =>
    simp [h0, h1, h2, h3, h4, h5] at h
    subst h
    exact full_node (full_tree h0 hn.1)
      (full_node (full_sym _) (full_list (full_trees h1 hn.2)) (full_data h3)) (full_data h5)
  | .box kind cs s, e, h, hn => by
    rw [treeExpr] at h
    cases h1 : treesExpr compat cs with
    | none => simp [h1] at h
    | some es =>
    cases h3 : dataExpr compat s with
    | none => simp [h1, h3] at h
    | some d =>
    simp [h1, h3] at h
    subst h
    exact full_node (by simp [Full]) (full_list (full_trees h1 hn)) (full_data h3)
  | .code a b s, e, h, hn => by
    rw [treeExpr] at h
    cases h3 : dataExpr compat s with
    | none => simp [h3] at h
    | some d =>
    simp [h3] at h
    subst h
    exact full_node hn.1 hn.2 (full_data h3)
theorem full_trees {compat : Bool} : ∀ {cs : List Tree} {es : List Expr}, treesExpr compat cs = some es → Nameds cs →
    FullL es
  | [], _, h, _ => by rw [treesExpr] at h; cases h; trivial
  | c :: cs, es, h, hn => by
    rw [treesExpr] at h
    cases h1 : treeExpr compat c with
    | none => simp [h1] at h
    | some e =>
      cases h2 : treesExpr compat cs with
      | none => simp [h1, h2] at h
      | some es' =>
        simp [h1, h2] at h
        subst h
        exact ⟨full_tree h1 hn.1, full_trees h2 hn.2⟩
end

theorem full_action {a : Action} {e : Expr} (h : actionExpr a = some e) : Full e := by
  unfold actionExpr at h
  cases h1 : spanExpr a.src.1 a.src.2 with
  | none => simp [h1] at h
  | some x =>
  have hx := full_span h1
  cases hk : a.kind <;> simp [h1, hk] at h <;> subst h <;>
    simp [Full, FullL, node, assoc, rule, text, symbol, Sym.name, hx]

theorem full_listRule {k : Expr} {es : List Expr} (hk : Full k) (h : FullL es) : FullL (listRule k es) := by
  unfold listRule
  split
  · trivial
  · exact ⟨full_rule hk (full_list h), trivial⟩

theorem fullL_map_str (ds : List (List UInt8)) : FullL (ds.map Expr.str) := by
  induction ds with
  | nil => trivial
  | cons d ds ih => exact ⟨trivial, ih⟩

theorem full_issue {compat : Bool} {i : Wll.Issue} {e : Expr} (h : issueExpr compat i = some e) : Full e := by
  unfold issueExpr at h
  cases h1 : dataExpr compat i.src with
  | none => simp [h1] at h
  | some x =>
  cases h2 : all actionExpr i.actions with
  | none => simp [h1, h2] at h
  | some y =>
  cases h3 : all sourceExpr i.sources with
  | none => simp [h1, h2, h3] at h
  | some z =>
  simp only [h1, h2, h3, Option.bind_eq_bind, Option.bind_some, Option.pure_def, Option.some.injEq] at h
  subst h
  refine ⟨full_sym _, trivial, trivial, trivial, full_assoc ?_, trivial⟩
  refine fullL_append (fullL_append (fullL_append ⟨full_data h1, full_rule (by simp [Full]) trivial, trivial⟩
    (full_listRule (by simp [Full]) (fullL_all _ h2 fun _ _ _ => full_action)))
    (full_listRule trivial (fullL_map_str _))) (full_listRule trivial (fullL_all _ h3 fun _ _ _ => full_source))

theorem full_issues {compat : Bool} {is : List Wll.Issue} {e : Expr} (h : issuesExpr compat is = some e) : Full e := by
  unfold issuesExpr at h
  cases h1 : all (issueExpr compat) is with
  | none => simp [h1] at h
  | some es =>
  simp [h1] at h
  subst h
  exact full_list (fullL_all _ h1 fun _ _ _ => full_issue)

theorem full_optRule {k : Expr} {o : Option Expr} (hk : Full k) (h : ∀ e, o = some e → Full e) : FullL (optRule k o) := by
  cases o with
  | none => trivial
  | some e => exact ⟨full_rule hk (h e rfl), trivial⟩

theorem full_opt {α : Type} {f : α → Option Expr} {x : Option α} {y : Option Expr} (h : optExpr f x = some y)
    (hf : ∀ a e, f a = some e → Full e) : ∀ e, y = some e → Full e := by
  rintro e rfl
  cases x with
  | none => cases h
  | some a =>
    rw [optExpr] at h
    cases g : f a with
    | none => simp [g] at h
    | some e' => simp [g] at h; subst h; exact hf a _ g

theorem full_meta {compat : Bool} {m : Meta} {e : Expr} (h : metaExpr compat m = some e) (hm : NamedMeta m) : Full e := by
  unfold metaExpr at h
  obtain ⟨n1, n2, n3, n4, n5⟩ := hm
  cases h1 : optExpr (issuesExpr compat) m.issues with
  | none => simp [h1] at h
  | some x =>
  cases h2 : sourceRule compat m.source with
  | none => simp [h1, h2] at h
  | some y =>
  cases h3 : optExpr (fun as => do return list (← all actionExpr as)) m.actions with
  | none => rw [h1, h2, h3] at h; simp at h
  | some z =>
  rw [h1, h2, h3] at h
  simp only [Option.bind_eq_bind, Option.bind_some, Option.pure_def, Option.some.injEq] at h
  subst h
  refine full_assoc ?_
  refine fullL_append (fullL_append (fullL_append (fullL_append (fullL_append (fullL_append (fullL_append
    (fullL_append (fullL_append ?_ ?_) ?_) ?_) ?_) ?_) ?_) ?_) ?_) ?_
  · exact full_optRule (by simp [Full]) (full_opt h1 fun _ _ => full_issues)
  · exact full_optRule trivial n1
  · exact full_optRule trivial n2
  · exact full_optRule trivial n3
  · exact full_optRule trivial n4
  · exact full_sourceRule h2
  · cases m.confidence with
    | none => trivial
    | some n => cases n <;> exact ⟨trivial, trivial⟩
  · refine full_optRule (by simp [Full]) (full_opt h3 fun as e he => ?_)
    cases g : all actionExpr as with
    | none => simp [g] at he
    | some es => simp [g] at he; subst he; exact full_list (fullL_all _ g fun _ _ _ => full_action)
  · refine full_optRule trivial fun e he => ?_
    cases hd : m.descs with
    | none => rw [hd] at he; cases he
    | some ds => rw [hd] at he; cases he; exact full_list (fullL_map_str ds)
  · exact full_optRule trivial n5

theorem full_container {compat : Bool} {c : Container} {e : Expr} (h : containerExpr compat c = some e)
    (hc : NamedContainer c) : Full e := by
  unfold containerExpr at h
  cases h1 : containerBody compat c.body with
  | none => simp [h1] at h
  | some x =>
  cases h2 : metaExpr compat c.data with
  | none => simp [h1, h2] at h
  | some y =>
  simp [h1, h2] at h
  subst h
  refine full_node ?_ ?_ (full_meta h2 hc.2)
  · cases c.kind <;> simp [kindName, Full]
  · cases hb : c.body with
    | nodes ts =>
      rw [hb, containerBody] at h1
      cases g : treesExpr compat ts with
      | none => simp [g] at h1
      | some es => simp [g] at h1; subst h1; exact full_list (full_trees g (by have := hc.1; rwa [hb] at this))
    | emptyInput => rw [hb] at h1; cases h1; simp [Full, FullL, missingExpr, list, text]
    | encoding u => rw [hb] at h1; cases h1; simp [Full, FullL, missingExpr, list, text]

theorem full_locs (ls : List Loc) : Full (list (ls.map locExpr)) := by
  refine full_list ?_
  induction ls with
  | nil => trivial
  | cons l ls ih => exact ⟨full_loc l, ih⟩

theorem full_result {compat : Bool} {o : Option Expr} {r : Extra} {e : Expr} (h : resultExpr compat o r = some e)
    (ho : ∀ x, o = some x → Full x) : Full e := by
  unfold resultExpr at h
  cases h1 : firstPart o r.unsafeEncoding with
  | none => simp [h1] at h
  | some x =>
  cases h2 : issuesExpr compat (if r.fatal = [] then r.nonFatal else r.fatal) with
  | none => simp [h1, h2] at h
  | some y =>
  simp [h1, h2] at h
  subst h
  have hx : Full x := by
    cases hu : r.unsafeEncoding with
    | none => rw [hu] at h1; exact ho x h1
    | some u => rw [hu] at h1; cases h1; simp [Full, FullL, missingExpr, list, text]
  exact full_list ⟨hx, full_issues h2, full_locs _, full_locs _, full_locs _, full_locs _, trivial⟩

theorem full_astData {compat : Bool} {full : AIssue → Wll.Issue} {d : AMeta} {e : Expr}
    (h : astData compat full d = some e) : Full e := by
  unfold astData at h
  cases h1 : astSource d.source with
  | none => simp [h1] at h
  | some x =>
  cases h2 : all (fun i => issueExpr compat (full i)) d.issues with
  | none => simp [h1, h2] at h
  | some y =>
  simp [h1, h2] at h
  subst h
  refine full_assoc (fullL_append ?_ (full_listRule (by simp [Full]) (fullL_all _ h2 fun _ _ _ => full_issue)))
  cases hs : d.source with
  | none => rw [hs] at h1; cases h1; trivial
  | some s =>
    rw [hs, astSource] at h1
    cases g : spanExpr s.1 s.2 with
    | none => simp [g] at h1
    | some e' => simp [g] at h1; subst h1; exact ⟨full_rule (by simp [Full]) (full_span g), trivial⟩

theorem full_abstract (k : AbstractError) : Full (.sym (abstractName k)) := by
  cases k <;> simp [abstractName, Full]

mutual
theorem full_ast {compat : Bool} {full : AIssue → Wll.Issue} : ∀ {a : Ast} {e : Expr}, astExpr compat full a = some e →
    Full e
  | .leaf k t d, e, h => by
    rw [astExpr] at h
    cases h1 : textExpr t with
    | none => simp [h1] at h
    | some x =>
    cases h2 : astData compat full d with
    | none => simp [h1, h2] at h
    | some y =>
    simp [h1, h2] at h
    subst h
    exact full_node (full_sym _) (full_text h1) (full_astData h2)
  | .error k t d, e, h => by
    rw [astExpr] at h
    cases h1 : textExpr t with
    | none => simp [h1] at h
    | some x =>
    cases h2 : astData compat full d with
    | none => simp [h1, h2] at h
    | some y =>
    simp [h1, h2] at h
    subst h
    exact full_node (full_sym _) (full_text h1) (full_astData h2)
  | .call hd as d, e, h => by
    rw [astExpr] at h
    cases h0 : astExpr compat full hd with
    | none => simp [h0] at h
    | some x =>
    cases h1 : astsExpr compat full as with
    | none => simp [h0, h1] at h
    | some y =>
    cases h2 : astData compat full d with
    | none => simp [h0, h1, h2] at h
    | some z =>
    simp [h0, h1, h2] at h
    subst h
    exact full_node (full_ast h0) (full_list (full_asts h1)) (full_astData h2)
  | .callMissing hd as d, e, h => by
    rw [astExpr] at h
    cases h0 : astExpr compat full hd with
    | none => simp [h0] at h
    | some x =>
    cases h1 : astsExpr compat full as with
    | none => simp [h0, h1] at h
    | some y =>
    cases h2 : astData compat full d with
    | none => simp [h0, h1, h2] at h
    | some z =>
    simp [h0, h1, h2] at h
    subst h
    exact full_node (full_ast h0) (full_list (full_asts h1)) (full_astData h2)
  | .syntaxError k as d, e, h => by
    rw [astExpr] at h
    cases h1 : astsExpr compat full as with
    | none => simp [h1] at h
    | some y =>
    cases h2 : astData compat full d with
    | none => simp [h1, h2] at h
    | some z =>
    simp [h1, h2] at h
    subst h
    exact full_node (full_sym _) (full_list (full_asts h1)) (full_astData h2)
  | .abstractError k as d, e, h => by
    rw [astExpr] at h
    cases h1 : astsExpr compat full as with
    | none => simp [h1] at h
    | some y =>
    cases h2 : astData compat full d with
    | none => simp [h1, h2] at h
    | some z =>
    simp [h1, h2] at h
    subst h
    exact full_node (full_abstract k) (full_list (full_asts h1)) (full_astData h2)
  | .missingCloser k as d, e, h => by
    rw [astExpr] at h
    cases h1 : astsExpr compat full as with
    | none => simp [h1] at h
    | some y =>
    cases h2 : astData compat full d with
    | none => simp [h1, h2] at h
    | some z =>
    simp [h1, h2] at h
    subst h
    exact full_node (full_sym _) (full_list (full_asts h1)) (full_astData h2)
  | .missingOpener k as d, e, h => by
    rw [astExpr] at h
    cases h1 : astsExpr compat full as with
    | none => simp [h1] at h
    | some y =>
    cases h2 : astData compat full d with
    | none => simp [h1, h2] at h
    | some z =>
    simp [h1, h2] at h
    subst h
    exact full_node (full_sym _) (full_list (full_asts h1)) (full_astData h2)
  | .linearBang a b d, e, h => by
    rw [astExpr] at h
    cases h0 : astExpr compat full a with
    | none => simp [h0] at h
    | some x =>
    cases h1 : astExpr compat full b with
    | none => simp [h0, h1] at h
    | some y =>
    cases h2 : astData compat full d with
    | none => simp [h0, h1, h2] at h
    | some z =>
    simp [h0, h1, h2] at h
    subst h
    exact full_node (by simp [Full]) (full_list ⟨full_ast h0, full_ast h1, trivial⟩) (full_astData h2)
theorem full_asts {compat : Bool} {full : AIssue → Wll.Issue} : ∀ {as : List Ast} {es : List Expr},
    astsExpr compat full as = some es → FullL es
  | [], _, h => by rw [astsExpr] at h; cases h; trivial
  | c :: cs, es, h => by
    rw [astsExpr] at h
    cases h1 : astExpr compat full c with
    | none => simp [h1] at h
    | some e =>
      cases h2 : astsExpr compat full cs with
      | none => simp [h1, h2] at h
      | some es' =>
        simp [h1, h2] at h
        subst h
        exact ⟨full_ast h1, full_asts h2⟩
end

end CodeParser.LinkP
