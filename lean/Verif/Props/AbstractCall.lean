import Verif.Model.AbstractCall
import Verif.Proofs.Erase
import Verif.Proofs.Words1
import Verif.Props.Library
/-!
C83: abstraction over the link.  A tree of a text that is sent, and sent back to be abstracted, gives
what abstracting it at once gives.
-/
namespace CodeParser.Props.Library
open CodeParser CodeParser.Spec CodeParser.Wll CodeParser.Spec.Link CodeParser.Spec.Library CodeParser.Props.Link CodeParser.LinkP
open Abs Cst

/-! ### Aggregated trees -/

theorem shape_ne {X : Words.Marks} {k : NodeKind} {cs : List Cst} (h : Words.Shape X k cs) : cs ≠ [] := by
  cases h with
  | «infix» h => cases h <;> simp
  | _ => simp

theorem plain_whole {X : Words.Marks} {c : Cst} (h : Words.Plain X c) : Whole c := by
  induction h with
  | tok => exact .tok
  | node h1 _ ih => exact .node (shape_ne h1) ih
  | call _ h2 _ ih1 ih2 => exact .callAgg (by cases h2 <;> simp) ih1 ih2

/-- Aggregated trees can be sent. -/
theorem aggregated_sendable {cfg : Cfg} {conv : Conv} {first : FirstLine} {input : List Char} {r : ParseResult} {cs : List Cst}
    (h : parseBytesCst cfg conv first (encode input) = .ok r) (ha : aggregateL r.syntax' = .ok cs) :
    (∀ c ∈ cs, Whole c) ∧ Sendable conv (limit cfg input.length) (leavesL cs) ∧ ∀ t ∈ leavesL cs, isGap t.kind = false := by
  obtain ⟨ds, h1, h2, h3⟩ := C36_aggregate h
  rw [ha] at h1
  cases h1
  refine ⟨fun d hd => ?_, ?_, fun t ht => ?_⟩
  · obtain ⟨c, hc, hs⟩ := strippedL_mem h2 d hd
    exact plain_whole (Words.strip_plain (X := ⟨fun _ => True, fun _ => True⟩) (form h c hc) hs (fun _ _ _ _ _ => trivial)
      fun _ _ _ => trivial)
  · refine (result_small h).sub ?_
    rw [h3]
    exact List.filter_sublist
  · rw [h3] at ht
    simpa using (List.mem_filter.mp ht).2

/-! ### The tree that arrives -/

theorem backKind_gap : ∀ k : TK, isGap k = false → backKind k = k := forall_of_all (by decide +kernel)

mutual
theorem same_newlines : ∀ {c : Cst}, (∀ t ∈ leaves c, isGap t.kind = false) →
    mapTok (fun t => { t with kind := backKind t.kind }) c = c
  | .tok t, h => by
    rw [mapTok, backKind_gap _ (h t (by simp [leaves]))]
  | .node k cs, h => by rw [mapTok, same_newlinesL (cs := cs) h]
  | .call f m op b, h => by
    rw [mapTok, same_newlinesL (cs := f) fun t ht => h t (by simp [leaves, ht]),
      same_newlinesL (cs := b) fun t ht => h t (by simp [leaves, ht])]
  | .callAgg f m op b, h => by
    rw [mapTok, same_newlines (c := f) fun t ht => h t (by simp [leaves, ht]),
      same_newlinesL (cs := b) fun t ht => h t (by simp [leaves, ht])]
  | .box k cs, h => by rw [mapTok, same_newlinesL (cs := cs) h]
  | .code n, h => by rw [mapTok]
theorem same_newlinesL : ∀ {cs : List Cst}, (∀ t ∈ leavesL cs, isGap t.kind = false) →
    mapToks (fun t => { t with kind := backKind t.kind }) cs = cs
  | [], _ => rfl
  | c :: cs, h => by
    rw [mapToks, same_newlines (c := c) fun t ht => h t (by simp [leavesL, ht]),
      same_newlinesL (cs := cs) fun t ht => h t (by simp [leavesL, ht])]
end

mutual
theorem toCst_ofCst : ∀ {c : Cst}, Whole c → (ofCst c).toCst = some (Erase.er c)
  | .tok t, _ => by rw [ofCst, ofTok, Tree.toCst, Erase.er]; rfl
  | .node k cs, h => by
    cases h with
    | node _ h2 => rw [ofCst, Tree.toCst, toCsts_ofCsts h2, Erase.er]; rfl
  | .call f m op b, h => by
    cases h with
    | call _ _ h3 h4 => rw [ofCst, Tree.toCst, toCsts_ofCsts h3, toCsts_ofCsts h4, Erase.er]; rfl
  | .callAgg f m op b, h => by
    cases h with
    | callAgg _ h3 h4 => rw [ofCst, Tree.toCst, toCst_ofCst h3, toCsts_ofCsts h4, Erase.er]; rfl
  | .box .., h => by cases h
  | .code .., h => by cases h
theorem toCsts_ofCsts : ∀ {cs : List Cst}, (∀ c ∈ cs, Whole c) → Tree.toCsts (ofCsts cs) = some (Erase.ers cs)
  | [], _ => rfl
  | c :: cs, h => by
    rw [ofCsts, Tree.toCsts, toCst_ofCst (h c (by simp)), toCsts_ofCsts fun d hd => h d (by simp [hd]), Erase.ers]
    rfl
end

theorem containerKindOf_name (k : ContainerKind) : containerKindOf (.sym (kindName k)) = .ok k := by cases k <;> decide

theorem containerKindOf_eq {e : Wll.Expr} {k : ContainerKind} (h : containerKindOf e = .ok k) : e = .sym (kindName k) := by
  cases e with
  | sym n =>
    unfold containerKindOf at h
    simp only at h
    repeat' split at h
    all_goals first | (cases h; next hn => rw [hn]; rfl) | cases h
  | _ => cases h

/-! ### C83 -/

variable {cfg : Cfg} {conv : Conv} {first : FirstLine} {input : List Char} {r : ParseResult} {cs : List Cst}

/-- C83: each aggregated tree of a text is sent as one complete expression `e`; and the library, asked to
abstract `e` with some quirks, sends the abstract syntax that abstracting the tree with these quirks gives,
as one complete expression, and panics exactly if there is none. -/
theorem C83_abstract (H : Host) (full : AIssue → Wll.Issue) (debug : List UInt8 → List UInt8)
    (h : parseBytesCst cfg conv first (encode input) = .ok r) (hl : 1 + (cfg.tabWidth + 4) * input.length < 2 ^ 32)
    (ha : aggregateL r.syntax' = .ok cs) {kind : ContainerKind} (hk : isText kind = true)
    (rules : List (List Char × Wll.Expr)) (hr : ∀ x ∈ rules, x.1 ∈ quirkNames) :
    ∀ c ∈ cs, ∃ e, treeExpr H.compat (ofCst c) = some e ∧ Sends ((ofCst c).put H.compat) (some e) ∧
      (∀ a, abstractCst (settingsOf rules debug) c = .ok a → ∃ w,
        abstractCall H full debug [.expr e, .expr (assoc (rules.map fun x => rule (text x.1) x.2)), .expr (.sym (kindName kind))] =
          .answers w ∧ Sends w (astExpr H.compat full a)) ∧
      (∀ x, abstractCst (settingsOf rules debug) c = .error x →
        abstractCall H full debug [.expr e, .expr (assoc (rules.map fun x => rule (text x.1) x.2)), .expr (.sym (kindName kind))] =
          .panics) := by
  intro c hc
  obtain ⟨hw, hs, hg⟩ := aggregated_sendable h ha
  have hs' : Sendable conv (limit cfg input.length) (leaves c) := hs.sub (leaves_sublist hc)
  obtain ⟨e, he⟩ := tree_sendable H.compat (hw c hc) hs'
  have hread : readTree H.f64 kind e = .ok (ofCst c) := by
    have h1 : readTree H.f64 kind e = .ok (back H.compat (ofCst c)) :=
      treeOf_ok H.f64 he (proper_ofCst H.compat hk hl (hw c hc) hs') (Nat.le_refl _)
    rw [h1, back_ofCst H.compat (hw c hc), same_newlines fun t ht => hg t (mem_leavesL hc t ht)]
  have hcall : abstractCall H full debug [.expr e, .expr (assoc (rules.map fun x => rule (text x.1) x.2)), .expr (.sym (kindName kind))] =
      match abstractCst (settingsOf rules debug) c with
      | .error _ => .panics
      | .ok a => .answers (Ast.put H.compat full a) := by
    unfold abstractCall
    simp only [C82_quirks rules hr, containerKindOf_name, hread, abstractTree, toCst_ofCst (hw c hc), Erase.abstractCst_er]
    rfl
  refine ⟨e, he, he ▸ C52_tree H.compat _ (named_ofCst c), fun a h1 => ?_, fun x h1 => ?_⟩
  · rw [hcall, h1]
    exact ⟨_, rfl, sends_of_den (den_ast H.compat full a) fun _ h => full_ast h⟩
  · rw [hcall, h1]

theorem mapA_forall {f : Cst → A Ast} : ∀ {cs : List Cst} {as : List Ast}, mapA f cs = .ok as → List.Forall₂ (fun c a => f c = .ok a) cs as
  | [], as, h => by cases h; exact .nil
  | c :: cs, as, h => by
    unfold Abs.mapA at h
    cases h1 : f c with
    | error e => rw [h1] at h; cases h
    | ok a =>
      rw [h1] at h
      cases h2 : Abs.mapA f cs with
      | error e => simp only [h2] at h; cases h
      | ok as' =>
        simp only [h2] at h
        cases h
        exact .cons h1 (mapA_forall h2)

theorem forall_sent {compat : Bool} {P : Wll.Expr → Ast → Prop} {f : Cst → A Ast} : ∀ {cs : List Cst} {as : List Ast},
    List.Forall₂ (fun c a => f c = .ok a) cs as →
    (∀ c ∈ cs, ∃ e, treeExpr compat (ofCst c) = some e ∧ ∀ a, f c = .ok a → P e a) →
    ∃ es, treesExpr compat (ofCsts cs) = some es ∧ List.Forall₂ P es as
  | _, _, .nil, _ => ⟨[], rfl, .nil⟩
  | c :: cs, _, .cons h hs, hp => by
    obtain ⟨e, h1, h2⟩ := hp c (by simp)
    obtain ⟨es, h3, h4⟩ := forall_sent hs fun d hd => hp d (by simp [hd])
    exact ⟨e :: es, by rw [ofCsts, treesExpr, h1, h3]; rfl, .cons (h2 _ h) h4⟩

/-- C83: parsing a text to aggregated trees, sending these, and having each of them abstracted gives, one
by one, what parsing the text to abstract syntax gives. -/
theorem C83_same (H : Host) (full : AIssue → Wll.Issue) (debug : List UInt8 → List UInt8)
    (h : parseBytesCst cfg conv first (encode input) = .ok r) (hl : 1 + (cfg.tabWidth + 4) * input.length < 2 ^ 32)
    (ha : aggregateL r.syntax' = .ok cs) {kind : ContainerKind} (hk : isText kind = true)
    (rules : List (List Char × Wll.Expr)) (hr : ∀ x ∈ rules, x.1 ∈ quirkNames) {as : List Ast} {u : Option Unsafe}
    (hp : parseBytesAsts cfg (settingsOf rules debug) conv first (encode input) = .ok (as, u)) :
    ∃ es, Sends (putSeq H.compat (ofCsts cs)) (some (list es)) ∧
      List.Forall₂ (fun e a => ∃ w,
        abstractCall H full debug [.expr e, .expr (assoc (rules.map fun x => rule (text x.1) x.2)), .expr (.sym (kindName kind))] =
          .answers w ∧ Sends w (astExpr H.compat full a)) es as := by
  unfold parseBytesAsts at hp
  simp only [h, ha] at hp
  cases hm : Abs.mapA (abstractCst (settingsOf rules debug)) cs with
  | error e => simp only [hm] at hp; cases hp
  | ok as' =>
    simp only [hm] at hp
    cases hp
    obtain ⟨es, h1, h2⟩ := forall_sent (mapA_forall hm) fun c hc => by
      obtain ⟨e, g1, -, g2, -⟩ := C83_abstract H full debug h hl ha hk rules hr c hc
      exact ⟨e, g1, g2⟩
    refine ⟨es, ?_, h2⟩
    have := C52_trees H.compat (ofCsts cs) (named_ofCsts cs)
    rwa [h1] at this

/-- C83: whatever is not in order ends in a panic: there are three arguments, an expression that is read as a
tree of the given kind of container, an association of quirks, and the name of the kind. -/
theorem C83_only (H : Host) (full : AIssue → Wll.Issue) (debug : List UInt8 → List UInt8) (args : List Arg)
    (h : abstractCall H full debug args ≠ .panics) :
    ∃ e q kind t, args = [.expr e, q, .expr (.sym (kindName kind))] ∧ QuirkArg q ∧ readTree H.f64 kind e = .ok t := by
  unfold abstractCall at h
  split at h
  · next e q k =>
    cases hq : quirksOf q with
    | error x => rw [hq] at h; exact absurd rfl h
    | ok qs =>
      cases hk : containerKindOf k with
      | error x => rw [hq] at h; simp only [hk] at h; exact absurd rfl h
      | ok kind =>
        cases ht : readTree H.f64 kind e with
        | error x => rw [hq] at h; simp only [hk, ht] at h; exact absurd rfl h
        | ok t => exact ⟨e, .expr q, kind, t, by rw [containerKindOf_eq hk], quirks_eq rfl hq, ht⟩
  · exact absurd rfl h

/-! ### Examples -/

/-- The strings a reply sends if nobody aborts. -/
def repliedStrings : Reply → Option (List (List UInt8))
  | .answers w => strings w
  | _ => none

/-- The words of an issue, for the examples. -/
def noWords (_ : AIssue) : Wll.Issue := ⟨.CodeParser_SyntaxIssue, .Ambiguous, [], .error, .unknown, 0, [], [], []⟩

/-- What the library sends for each tree of a text that is sent to be abstracted. -/
def overLink (rules : List (List Char × Wll.Expr)) (kind : Name) (input : List Char) : Option (List (Option (List (List UInt8)))) :=
  match parseBytesCst Cfg.default .lineColumn .notScript (encode input) with
  | .error _ => none
  | .ok r =>
    match aggregateL r.syntax' with
    | .error _ => none
    | .ok cs => (treesExpr true (ofCsts cs)).map fun es => es.map fun e =>
      repliedStrings (abstractCall host noWords id [.expr e, .expr (assoc (rules.map fun x => rule (text x.1) x.2)), .expr (.sym kind)])

/-- Two lines with comments and a quotient: the strings of the abstract syntax. -/
example : overLink quirkRulesOf (cs! "System`String") (cs! "a/(*c*)2\nf[x]") =
    some [some ([cs! "Times", cs! "a", cs! "Power", cs! "2", cs! "-1"].map utf8), some ([cs! "f", cs! "x"].map utf8)] := by
  decide +kernel

/-- No name of a kind of containers: the calls panic. -/
example : overLink quirkRulesOf (cs! "System`Text") (cs! "a/(*c*)2\nf[x]") = some [none, none] := by decide +kernel

/-- The hypotheses of the theorems for this text. -/
example : (match parseBytesCst Cfg.default .lineColumn .notScript (encode (cs! "a/(*c*)2\nf[x]")) with
      | .ok r => (match aggregateL r.syntax' with
        | .ok cs => cs.map fun c => (Abs.abstractCst (settingsOf quirkRulesOf id) c).isOk
        | .error _ => [])
      | .error _ => []) = [true, true] ∧
    1 + (Cfg.default.tabWidth + 4) * (cs! "a/(*c*)2\nf[x]").length < 2 ^ 32 ∧ isText .string = true ∧
    kindName .string = cs! "System`String" ∧ ∀ r ∈ quirkRulesOf, r.1 ∈ quirkNames := by decide +kernel

end CodeParser.Props.Library
