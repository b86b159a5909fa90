import Verif.Proofs.Mail
import Verif.Props.AbstractCall
/-!
C84: the abstract syntax of a text can always be sent.
-/
namespace CodeParser.Props.Library
open CodeParser CodeParser.Spec CodeParser.Wll CodeParser.Spec.Link CodeParser.Spec.Library CodeParser.Props.Link CodeParser.LinkP
open Abs Cst Mail

theorem all_ok {α : Type} {f : α → Option Wll.Expr} : ∀ {as : List α}, (∀ a ∈ as, ∃ e, f a = some e) → ∃ es, all f as = some es
  | [], _ => ⟨[], rfl⟩
  | a :: as, h => by
    obtain ⟨e, h1⟩ := h a (by simp)
    obtain ⟨es, h2⟩ := all_ok (as := as) fun b hb => h b (by simp [hb])
    exact ⟨e :: es, by rw [all, h1, h2]; rfl⟩

section
variable {conv : Conv} {n : Nat} {full : AIssue → Wll.Issue} (hfull : ∀ i, Places i (full i)) (compat : Bool)
include hfull

theorem astData_ok {d : AMeta} (h : Tidy (Small conv n) d) : ∃ e, astData compat full d = some e := by
  obtain ⟨is, hi⟩ := all_ok (f := fun i => issueExpr compat (full i)) (as := d.issues) fun i hm => by
    obtain ⟨h1, h2⟩ := h.2 i hm
    obtain ⟨g1, g2, g3⟩ := hfull i
    obtain ⟨e1, he1⟩ := data_ok compat h1.1 h1.2
    obtain ⟨e2, he2⟩ := all_ok (f := sourceExpr) (as := i.more.map fun s => .span s.1 s.2) fun s hs => by
      obtain ⟨x, hx, rfl⟩ := List.mem_map.mp hs
      exact span_ok (h2 x hx).1 (h2 x hx).2
    exact ⟨_, by rw [issueExpr, g1, g2, g3, he1, he2]; rfl⟩
  cases hs : d.source with
  | none => exact ⟨_, by rw [astData, hi, hs]; rfl⟩
  | some s =>
    obtain ⟨e, he⟩ := span_ok (h.1 s hs).1 (h.1 s hs).2
    exact ⟨_, by rw [astData, hi, hs, astSource, he]; rfl⟩

mutual
theorem ast_ok : ∀ {a : Ast}, Neat (Small conv n) a → ∃ e, astExpr compat full a = some e
  | .leaf .., h => by
    cases h with
    | leaf h1 h2 =>
      obtain ⟨d, hd⟩ := astData_ok hfull compat h2
      exact ⟨_, by rw [astExpr, textExpr, if_pos (show (fromUtf8 _).isSome = true from h1), hd]; rfl⟩
  | .error .., h => by
    cases h with
    | error h1 h2 =>
      obtain ⟨d, hd⟩ := astData_ok hfull compat h2
      exact ⟨_, by rw [astExpr, textExpr, if_pos (show (fromUtf8 _).isSome = true from h1), hd]; rfl⟩
  | .call .., h => by
    cases h with
    | call h1 h2 h3 =>
      obtain ⟨d, hd⟩ := astData_ok hfull compat h3
      obtain ⟨e, he⟩ := ast_ok h1
      obtain ⟨es, hes⟩ := asts_ok h2
      exact ⟨_, by rw [astExpr, he, hes, hd]; rfl⟩
  | .callMissing .., h => by
    cases h with
    | callMissing h1 h2 h3 =>
      obtain ⟨d, hd⟩ := astData_ok hfull compat h3
      obtain ⟨e, he⟩ := ast_ok h1
      obtain ⟨es, hes⟩ := asts_ok h2
      exact ⟨_, by rw [astExpr, he, hes, hd]; rfl⟩
  | .syntaxError .., h => by
    cases h with
    | syntaxError h2 h3 =>
      obtain ⟨d, hd⟩ := astData_ok hfull compat h3
      obtain ⟨es, hes⟩ := asts_ok h2
      exact ⟨_, by rw [astExpr, hes, hd]; rfl⟩
  | .abstractError .., h => by
    cases h with
    | abstractError h2 h3 =>
      obtain ⟨d, hd⟩ := astData_ok hfull compat h3
      obtain ⟨es, hes⟩ := asts_ok h2
      exact ⟨_, by rw [astExpr, hes, hd]; rfl⟩
  | .missingCloser .., h => by
    cases h with
    | missingCloser h2 h3 =>
      obtain ⟨d, hd⟩ := astData_ok hfull compat h3
      obtain ⟨es, hes⟩ := asts_ok h2
      exact ⟨_, by rw [astExpr, hes, hd]; rfl⟩
  | .missingOpener .., h => by
    cases h with
    | missingOpener h2 h3 =>
      obtain ⟨d, hd⟩ := astData_ok hfull compat h3
      obtain ⟨es, hes⟩ := asts_ok h2
      exact ⟨_, by rw [astExpr, hes, hd]; rfl⟩
  | .linearBang .., h => by
    cases h with
    | linearBang h1 h2 h3 =>
      obtain ⟨d, hd⟩ := astData_ok hfull compat h3
      obtain ⟨e, he⟩ := ast_ok h1
      obtain ⟨f, hf⟩ := ast_ok h2
      exact ⟨_, by rw [astExpr, he, hf, hd]; rfl⟩
theorem asts_ok : ∀ {as : List Ast}, (∀ a ∈ as, Neat (Small conv n) a) → ∃ es, astsExpr compat full as = some es
  | [], _ => ⟨[], rfl⟩
  | a :: as, h => by
    obtain ⟨e, h1⟩ := ast_ok (h a (by simp))
    obtain ⟨es, h2⟩ := asts_ok (as := as) fun b hb => h b (by simp [hb])
    exact ⟨e :: es, by rw [astsExpr, h1, h2]; rfl⟩
end
end

/-! ### C84 -/

variable {cfg : Cfg} {conv : Conv} {first : FirstLine} {input : List Char} {env : AEnv}

theorem aggregated_okay {r : ParseResult} {cs : List Cst} (h : parseBytesCst cfg conv first (encode input) = .ok r)
    (ha : aggregateL r.syntax' = .ok cs) : ∀ c ∈ cs, Okay (Small conv (limit cfg input.length)) c := fun c hc t ht => by
  obtain ⟨-, hs, -⟩ := aggregated_sendable h ha
  obtain ⟨-, h1, h2, h3⟩ := hs.2 t (mem_leavesL hc t ht)
  exact ⟨h3, h1, h2⟩

theorem mail_debug {debug : List UInt8 → List UInt8} (hdebug : ∀ s : List Char, ∃ s' : List Char, debug (encode s) = encode s')
    (t : List UInt8) (h : Valid t) : Valid (debug t) := by
  obtain ⟨s, rfl⟩ := valid_iff.mp h
  obtain ⟨s', e⟩ := hdebug s
  rw [e]
  exact valid_iff.mpr ⟨s', rfl⟩

theorem all_length {α : Type} {f : α → Option Wll.Expr} : ∀ {as : List α} {es : List Wll.Expr}, all f as = some es → es.length = as.length
  | [], _, h => by cases h; rfl
  | a :: as, es, h => by
    rw [all] at h
    cases h1 : f a with
    | none => rw [h1] at h; cases h
    | some e =>
      cases h2 : all f as with
      | none => rw [h1, h2] at h; cases h
      | some es' => rw [h1, h2] at h; cases h; simp [all_length h2]

theorem left_mem {α β : Type} {R : α → β → Prop} : ∀ {as : List α} {bs : List β}, List.Forall₂ R as bs → ∀ a ∈ as, ∃ b ∈ bs, R a b
  | _, _, .cons h hs, a, ha => by
    rcases List.mem_cons.mp ha with rfl | ha
    · exact ⟨_, by simp, h⟩
    · obtain ⟨b, hb, h⟩ := left_mem hs a ha
      exact ⟨b, by simp [hb], h⟩

/-- C84: if parsing a text to abstract syntax does not panic, sending the result does not panic either: it is
sent as a list of complete expressions, one for each tree.  (`debug` is how the program prints a string; it
gives a string.) -/
theorem C84_sends (compat : Bool) {full : AIssue → Wll.Issue} (hfull : ∀ i, Places i (full i))
    (hdebug : ∀ s : List Char, ∃ s' : List Char, env.debug (encode s) = encode s') {as : List Ast} {u : Option Unsafe}
    (hp : parseBytesAsts cfg env conv first (encode input) = .ok (as, u)) :
    ∃ es, es.length = as.length ∧ Sends (putAstSeq compat full as) (some (list es)) := by
  unfold parseBytesAsts at hp
  cases h : parseBytesCst cfg conv first (encode input) with
  | error e => simp only [h] at hp; cases hp
  | ok r =>
    simp only [h] at hp
    cases ha : aggregateL r.syntax' with
    | error e => simp only [ha] at hp; cases hp
    | ok cs =>
      simp only [ha] at hp
      cases hm : Abs.mapA (abstractCst env) cs with
      | error e => simp only [hm] at hp; cases hp
      | ok as' =>
        simp only [hm] at hp
        cases hp
        have hn := ens_mapA (fun c hc => ens_abstract (mail_debug hdebug) (aggregated_okay h ha c hc)) _ hm
        obtain ⟨es, he⟩ := all_ok (f := astExpr compat full) fun a hm => ast_ok hfull compat (hn a hm)
        refine ⟨es, all_length he, ?_⟩
        have := C52_asts compat full as
        rwa [he] at this

/-- C84: the library, asked to abstract a tree of a text, answers with a complete expression unless the
abstraction itself panics. -/
theorem C84_call (H : Host) {full : AIssue → Wll.Issue} (hfull : ∀ i, Places i (full i)) {debug : List UInt8 → List UInt8}
    (hdebug : ∀ s : List Char, ∃ s' : List Char, debug (encode s) = encode s') {r : ParseResult} {cs : List Cst}
    (h : parseBytesCst cfg conv first (encode input) = .ok r) (hl : 1 + (cfg.tabWidth + 4) * input.length < 2 ^ 32)
    (ha : aggregateL r.syntax' = .ok cs) {kind : ContainerKind} (hk : isText kind = true)
    (rules : List (List Char × Wll.Expr)) (hr : ∀ x ∈ rules, x.1 ∈ quirkNames) :
    ∀ c ∈ cs, ∃ e, treeExpr H.compat (ofCst c) = some e ∧
      ∀ a, abstractCst (settingsOf rules debug) c = .ok a → ∃ w x,
        abstractCall H full debug [.expr e, .expr (assoc (rules.map fun x => rule (text x.1) x.2)), .expr (.sym (kindName kind))] =
          .answers w ∧ astExpr H.compat full a = some x ∧ Sends w (some x) := by
  intro c hc
  obtain ⟨e, he, -, h1, -⟩ := C83_abstract H full debug h hl ha hk rules hr c hc
  refine ⟨e, he, fun a hab => ?_⟩
  obtain ⟨w, hw, hs⟩ := h1 a hab
  obtain ⟨x, hx⟩ := ast_ok hfull H.compat
    (ens_abstract (env := settingsOf rules debug) (mail_debug hdebug) (aggregated_okay h ha c hc) a hab)
  exact ⟨w, x, hw, hx, hx ▸ hs⟩

/-- C84: for a text without errors and without `()` the call is answered for every tree (with the quirk
`InfixBinaryAt` there must be no `Plus\[InvisibleApplication]x`, nor the same with the name of another
operator). -/
theorem C84_correct (H : Host) {full : AIssue → Wll.Issue} (hfull : ∀ i, Places i (full i)) {debug : List UInt8 → List UInt8}
    (hdebug : ∀ s : List Char, ∃ s' : List Char, debug (encode s) = encode s') {r : ParseResult} {cs : List Cst}
    (h : parseBytesCst cfg conv first (encode input) = .ok r) (hl : 1 + (cfg.tabWidth + 4) * input.length < 2 ^ 32)
    (ha : aggregateL r.syntax' = .ok cs) {kind : ContainerKind} (hk : isText kind = true)
    (rules : List (List Char × Wll.Expr)) (hr : ∀ x ∈ rules, x.1 ∈ quirkNames)
    (he : ∀ c ∈ r.syntax', ¬ Flawed c) (hp : ∀ n, In n r.syntax' → ¬ EmptyParens n)
    (hq : (settingsOf rules debug).infixBinaryAt = true → ∀ n, In n r.syntax' → ¬ InvisiblyApplied n) :
    ∃ es, Sends (putSeq H.compat (ofCsts cs)) (some (list es)) ∧ es.length = (Spec.proper r.syntax').length ∧
      ∀ e ∈ es, ∃ w x,
        abstractCall H full debug [.expr e, .expr (assoc (rules.map fun x => rule (text x.1) x.2)), .expr (.sym (kindName kind))] =
          .answers w ∧ Sends w (some x) := by
  obtain ⟨as, has, hlen⟩ := C37_correct_partial (env := settingsOf rules debug) h he hp hq
  unfold parseBytesAsts at has
  simp only [h, ha] at has
  cases hm : Abs.mapA (abstractCst (settingsOf rules debug)) cs with
  | error e => simp only [hm] at has; cases has
  | ok as' =>
    simp only [hm] at has
    cases has
    obtain ⟨es, h1, h2⟩ := forall_sent (mapA_forall hm) fun c hc => C84_call H hfull hdebug h hl ha hk rules hr c hc
    refine ⟨es, ?_, h2.length_eq.trans hlen, fun e he => ?_⟩
    · have := C52_trees H.compat (ofCsts cs) (named_ofCsts cs)
      rwa [h1] at this
    · obtain ⟨a, -, w, x, hw, -, hs⟩ := left_mem h2 e he
      exact ⟨w, x, hw, hs⟩

/-! ### Examples -/

/-- An issue with its places. -/
def placed (i : AIssue) : Wll.Issue :=
  ⟨.CodeParser_SyntaxIssue, .Ambiguous, [], .error, .span i.src.1 i.src.2, 0, [], [], i.more.map fun s => .span s.1 s.2⟩

/-- The hypotheses on the issues and on printing. -/
example : (∀ i, Places i (placed i)) ∧ ∀ s : List Char, ∃ s' : List Char, (fun t : List UInt8 => 34 :: (t ++ [34])) (encode s) = encode s' :=
  ⟨fun _ => ⟨rfl, rfl, rfl⟩, fun s => ⟨'"' :: (s ++ ['"']), by simp only [encode, List.flatMap_cons, List.flatMap_append, List.flatMap_nil]; rfl⟩⟩

/-- A text with errors, a strange call (which is an issue with two places) and a file name. -/
example : (match parseBytesAsts Cfg.default (settingsOf quirkRulesOf fun t => 34 :: (t ++ [34])) .lineColumn .notScript
        (encode (cs! "1[2]; <<a/b; f[(*é*)\"ü\",+]")) with
      | .ok (as, _) => (all (astExpr true placed) as).map List.length
      | .error _ => none) = some 1 := by decide +kernel

end CodeParser.Props.Library
