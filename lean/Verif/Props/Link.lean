import Verif.Proofs.Link7
import Verif.Props.Tokenize
/-!
Properties C52-C55: what the library sends over a link, and what it reads back.
-/
namespace CodeParser.Props.Link
open CodeParser Wll Spec Spec.Link LinkP Cst

/-! ### C52: what is sent is one complete expression -/

theorem sends_of_den {w : W} {o : Option Expr} (h : Den CutL w (o.map ([·]))) (hf : ∀ e, o = some e → Full e) :
    Sends w o := by
  cases o with
  | none => exact fun ab k hn => h ab hn k
  | some e => exact fun ab k => h.get (hf e rfl) ab k

/-- C52 for a tree: whatever the user aborts, what is sent is one complete expression. -/
theorem C52_tree (compat : Bool) (t : Tree) (hn : Named t) : Sends (t.put compat) (treeExpr compat t) :=
  sends_of_den (den_tree compat t) fun _ h => full_tree h hn

/-- C52 for a sequence of trees. -/
theorem C52_trees (compat : Bool) (ts : List Tree) (hn : Nameds ts) :
    Sends (putSeq compat ts) ((treesExpr compat ts).map list) :=
  sends_of_den (den_seq compat ts) fun e h => by
    obtain ⟨es, h1, rfl⟩ := Option.map_eq_some_iff.mp h
    exact full_list (full_trees h1 hn)

theorem full_all {α : Type} {f : α → Option Expr} (hf : ∀ a e, f a = some e → Full e) {as : List α} {e : Expr}
    (h : (all f as).map list = some e) : Full e := by
  obtain ⟨es, h1, rfl⟩ := Option.map_eq_some_iff.mp h
  exact full_list (fullL_all as h1 fun a _ => hf a)

/-- C52 for a sequence of abstract syntax trees. -/
theorem C52_asts (compat : Bool) (full : AIssue → Wll.Issue) (as : List Ast) :
    Sends (putAstSeq compat full as) ((all (astExpr compat full) as).map list) :=
  sends_of_den (den_seqOf as (den_ast compat full)) fun _ h => full_all (fun _ _ => full_ast) h

/-- The expression of a token. -/
def tokExpr (compat : Bool) (t : Tok) : Option Expr := tokenExpr compat t.kind t.text (.span t.start t.stop)

/-- C52 for a sequence of tokens. -/
theorem C52_tokens (compat : Bool) (ts : List Tok) : Sends (putTokens compat ts) ((all (tokExpr compat) ts).map list) :=
  sends_of_den (den_seqOf ts fun t => den_token compat t.kind t.text _) fun _ h => full_all (fun _ _ => full_token) h

/-- C52 for an issue. -/
theorem C52_issue (compat : Bool) (i : Wll.Issue) : Sends (i.put compat) (issueExpr compat i) :=
  sends_of_den (den_issue compat i) fun _ => full_issue

/-- C52 for a container. -/
theorem C52_container (compat : Bool) (c : Container) (hc : NamedContainer c) :
    Sends (c.put compat) (containerExpr compat c) :=
  sends_of_den (den_container compat c) fun _ h => full_container h hc

/-- C52 for the result of parsing to concrete syntax: a list of six expressions. -/
theorem C52_result (compat : Bool) (ts : List Tree) (hn : Nameds ts) (r : Wll.Extra) :
    Sends (putResult compat (putSeq compat ts) r) (resultExpr compat ((treesExpr compat ts).map list) r) :=
  sends_of_den (den_result compat r (den_seq compat ts)) fun _ h => full_result h fun e h => by
    obtain ⟨es, h1, rfl⟩ := Option.map_eq_some_iff.mp h
    exact full_list (full_trees h1 hn)

/-- C52 for the result of parsing to abstract syntax. -/
theorem C52_result_asts (compat : Bool) (full : AIssue → Wll.Issue) (as : List Ast) (r : Wll.Extra) :
    Sends (putResult compat (putAstSeq compat full as) r)
      (resultExpr compat ((all (astExpr compat full) as).map list) r) :=
  sends_of_den (den_result compat r (den_seqOf as (den_ast compat full))) fun _ h => full_result h fun _ h =>
    full_all (fun _ _ => full_ast) h

/-- C52 for the result of tokenizing. -/
theorem C52_result_tokens (compat : Bool) (ts : List Tok) (r : Wll.Extra) :
    Sends (putResult compat (putTokens compat ts) r) (resultExpr compat ((all (tokExpr compat) ts).map list) r) :=
  sends_of_den (den_result compat r (den_seqOf ts fun t => den_token compat t.kind t.text _)) fun _ h =>
    full_result h fun _ h => full_all (fun _ _ => full_token) h

/-- A source, for the examples. -/
def src (a b : Nat) : Wll.Source := .span (.lineCol 1 a) (.lineCol 1 b)

/-- `f[x]` and a newline, for the examples. -/
def call : List Tree := [
  .call [.leaf .Symbol (utf8 (cs! "f")) (src 1 2)] false .CodeParser_GroupSquare
    [.leaf .OpenSquare (utf8 (cs! "[")) (src 2 3), .leaf .Symbol (utf8 (cs! "x")) (src 3 4),
      .leaf .CloseSquare (utf8 (cs! "]")) (src 4 5)],
  .leaf .ToplevelNewline [10] (.span (.lineCol 1 5) (.lineCol 2 1))]

example : Nameds call ∧ (treesExpr true call).isSome = true := ⟨by simp [call, Named, Nameds], by decide +kernel⟩

/-- Two tokens, for the examples. -/
def two : List Tree := [.leaf .Symbol (utf8 (cs! "f")) (src 1 2), .leaf .Symbol (utf8 (cs! "g")) (src 2 3)]

/-- If the user aborts before the second token is sent, it is `$Aborted`, and the expression is still
complete. -/
example : ∃ is k e, putSeq true two (fun k => decide (k = 1)) 0 = some (is, k) ∧
    get is = some (list [e, .sym (cs! "System`$Aborted")], []) := ⟨_, _, _, rfl, rfl⟩

/-- A text that is not UTF-8 cannot be sent. -/
example : treeExpr true (.leaf .Symbol [0xff] (src 1 2)) = none := by decide +kernel

/-! ### C53: trees are read back -/

/-- C53: a tree that is sent, taken from the link and read as part of a container of a fitting kind
is the tree again, except that newlines on the top level are read as newlines inside of expressions
(`C53_violated`) and that sources that are not sent are unknown. -/
theorem C53_round_trip_partial (f64 : Int → Nat) (compat : Bool) (kind : ContainerKind) (t : Tree) (hn : Named t)
    (hp : Proper compat kind t) (ab : Nat → Bool) (ha : NeverAborts ab) (k : Nat) {is : List Item} {k' : Nat}
    (h : t.put compat ab k = some (is, k')) :
    ∃ e, get is = some (e, []) ∧ readTree f64 kind e = .ok (back compat t) := by
  have hs := C52_tree compat t hn
  cases he : treeExpr compat t with
  | none => rw [he] at hs; rw [hs ab k ha] at h; cases h
  | some e =>
    rw [he] at hs
    obtain ⟨is', k'', e', h1, h2, -, h3⟩ := hs ab k
    rw [h] at h1
    cases h1
    rw [h3 ha] at h2
    exact ⟨e, h2, treeOf_ok f64 he hp (Nat.le_refl _)⟩

mutual
/-- No newline on the top level, and all sources are sent. -/
def Plain (compat : Bool) : Tree → Prop
  | .leaf k _ s => k ≠ .ToplevelNewline ∧ (omitted compat s = true → s = .unknown)
  | .node _ cs => Plains compat cs
  | .call h _ _ b => Plains compat h ∧ Plains compat b
  | .callAgg h _ _ b => Plain compat h ∧ Plains compat b
  | .box _ cs s => Plains compat cs ∧ (omitted compat s = true → s = .unknown)
  | .code _ _ s => omitted compat s = true → s = .unknown
/-- The same for some trees. -/
def Plains (compat : Bool) : List Tree → Prop
  | [] => True
  | c :: cs => Plain compat c ∧ Plains compat cs
end

theorem backSource_eq {compat : Bool} {s : Wll.Source} (h : omitted compat s = true → s = .unknown) :
    backSource compat s = s := by
  unfold backSource
  split
  · next ho => exact (h ho).symm
  · rfl

mutual
theorem back_eq {compat : Bool} : ∀ {t : Tree}, Plain compat t → back compat t = t
  | .leaf k t s, h => by rw [Plain] at h; rw [back, backKind, if_neg h.1, backSource_eq h.2]
  | .node k cs, h => by rw [Plain] at h; rw [back, backs_eq h]
  | .call f m op b, h => by rw [Plain] at h; rw [back, backs_eq h.1, backs_eq h.2]
  | .callAgg f m op b, h => by rw [Plain] at h; rw [back, back_eq h.1, backs_eq h.2]
  | .box n cs s, h => by rw [Plain] at h; rw [back, backs_eq h.1, backSource_eq h.2]
  | .code a b s, h => by rw [Plain] at h; rw [back, backSource_eq h]
theorem backs_eq {compat : Bool} : ∀ {ts : List Tree}, Plains compat ts → backs compat ts = ts
  | [], _ => rfl
  | t :: ts, h => by rw [Plains] at h; rw [backs, back_eq h.1, backs_eq h.2]
end

/-- C53 for trees in which there is nothing that changes. -/
theorem C53_exact_partial (f64 : Int → Nat) (compat : Bool) (kind : ContainerKind) (t : Tree) (hn : Named t)
    (hp : Proper compat kind t) (ht : Plain compat t) (ab : Nat → Bool) (ha : NeverAborts ab) (k : Nat)
    {is : List Item} {k' : Nat} (h : t.put compat ab k = some (is, k')) :
    ∃ e, get is = some (e, []) ∧ readTree f64 kind e = .ok t := by
  have := C53_round_trip_partial f64 compat kind t hn hp ab ha k h
  rwa [back_eq ht] at this

example : Propers true .string call ∧ (∀ ab, (putSeq true call ab 0).isSome = true) := by
  refine ⟨by simp [call, Proper, Propers, Fits, src, isText], fun ab => ?_⟩
  obtain ⟨es, h⟩ : ∃ es, treesExpr true call = some es := Option.isSome_iff_exists.mp (by decide +kernel)
  have := C52_trees true call (by simp [call, Named, Nameds])
  rw [h] at this
  obtain ⟨is, k, _, h1, -⟩ := this ab 0
  rw [h1]
  rfl

/-- C53 does not hold in general: a newline on the top level is read back as a newline inside of an
expression. -/
theorem C53_violated (f64 : Int → Nat) : ∃ (t t' : Tree) (is : List Item) (k : Nat) (e : Expr),
    t.put true (fun _ => false) 0 = some (is, k) ∧ get is = some (e, []) ∧ readTree f64 .string e = .ok t' ∧
    t = .leaf .ToplevelNewline [10] (src 1 2) ∧ t' = .leaf .InternalNewline [10] (src 1 2) := by
  have h : ∃ e, treeExpr true (.leaf .ToplevelNewline [10] (src 1 2)) = some e :=
    Option.isSome_iff_exists.mp (by decide +kernel)
  obtain ⟨e, h⟩ := h
  have hs := C52_tree true (.leaf .ToplevelNewline [10] (src 1 2)) (by simp [Named])
  rw [h] at hs
  obtain ⟨is, k, -, h1, -⟩ := hs (fun _ => false) 0
  obtain ⟨e, h2, h3⟩ := C53_round_trip_partial f64 true .string _ (by simp [Named])
    (by simp [Proper, Fits, src, isText]) (fun _ => false) (fun _ => rfl) 0 h1
  exact ⟨_, _, is, k, e, h1, h2, h3, rfl, rfl⟩

/-! ### C54: issues and containers are read back -/

/-- C54 for issues: an issue that is sent, evaluated by the Wolfram Language and read is the issue
again, except that a source that is not sent is unknown. -/
theorem C54_issue_partial (f64 : Int → Nat) (compat : Bool) (kind : ContainerKind) (i : Wll.Issue)
    (hf : FitsIssue compat kind i) (ab : Nat → Bool) (k : Nat) (ha : NeverAborts ab) {is : List Item} {k' : Nat}
    (h : i.put compat ab k = some (is, k')) :
    ∃ e, get is = some (e, []) ∧ ∀ n, 4 ≤ n → issueOf f64 kind n (flat e) = .ok (backIssue compat i) := by
  have hs := C52_issue compat i
  cases he : issueExpr compat i with
  | none => rw [he] at hs; rw [hs ab k ha] at h; cases h
  | some e =>
    rw [he] at hs
    obtain ⟨is', k'', e', h1, h2, -, h3⟩ := hs ab k
    rw [h] at h1
    cases h1
    rw [h3 ha] at h2
    exact ⟨e, h2, fun n hn => issueOf_ok f64 he hf hn⟩

/-- C54 for containers: a container that is sent, evaluated by the Wolfram Language and read is the
container again, up to what C53 says about its trees and what evaluation does to the expressions in
it. -/
theorem C54_container_partial (f64 : Int → Nat) (compat : Bool) (c : Container) (hn : NamedContainer c)
    (hf : FitsContainer compat c) (ab : Nat → Bool) (k : Nat) (ha : NeverAborts ab) {is : List Item} {k' : Nat}
    (h : c.put compat ab k = some (is, k')) :
    ∃ e, get is = some (e, []) ∧ containerOf f64 (flat e) = .ok (backContainer compat c) := by
  have hs := C52_container compat c hn
  cases he : containerExpr compat c with
  | none => rw [he] at hs; rw [hs ab k ha] at h; cases h
  | some e =>
    rw [he] at hs
    obtain ⟨is', k'', e', h1, h2, -, h3⟩ := hs ab k
    rw [h] at h1
    cases h1
    rw [h3 ha] at h2
    exact ⟨e, h2, containerOf_ok f64 he hf⟩

/-- An issue, for the examples. -/
def issue : Wll.Issue :=
  { make := .CodeParser_SyntaxIssue, tag := .UnexpectedCharacter, msg := utf8 (cs! "Unexpected"), sev := .warning,
    src := src 1 2, val := 4602678819172646912,
    actions := [⟨utf8 (cs! "Insert space"), .insert [32], (.lineCol 1 1, .lineCol 1 1)⟩,
      ⟨utf8 (cs! "Delete"), .delete, (.lineCol 1 1, .lineCol 1 2)⟩], descs := [utf8 (cs! "why")], sources := [] }

/-- A container, for the examples. -/
def container : Container :=
  { kind := .string, body := .nodes call,
    data := { source := .span (.lineCol 1 1) (.lineCol 2 1), issues := some [issue],
              tabs := some (list [list [nat 1, nat 2]]), fileName := some (text (cs! "a.wl")) } }

example : NamedContainer container ∧ FitsContainer true container ∧ (containerExpr true container).isSome = true := by
  refine ⟨?_, ?_, by decide +kernel⟩
  · simp [NamedContainer, container, NamedMeta, call, Named, Nameds, Full, FullL, list, nat, text]
  · simp [FitsContainer, container, FitsMeta, FitsIssue, FitsAction, issue, call, Proper, Propers, Fits, src, isText]

/-- How the reading of an issue fails that is sent. -/
def issueFails (f64 : Int → Nat) (i : Wll.Issue) : Option RErr :=
  match i.put true (fun _ => false) 0 with
  | none => none
  | some (is, _) =>
    match get is with
    | some (e, []) =>
      match issueOf f64 .string 9 (flat e) with
      | .error x => some x
      | .ok _ => none
    | _ => none

/-- How the reading of a container fails that is sent. -/
def containerFails (f64 : Int → Nat) (c : Container) : Option RErr :=
  match c.put true (fun _ => false) 0 with
  | none => none
  | some (is, _) =>
    match get is with
    | some (e, []) =>
      match containerOf f64 (flat e) with
      | .error x => some x
      | .ok _ => none
    | _ => none

/-- C54 does not hold for issues with additional sources: reading one panics. -/
theorem C54_sources_violated (f64 : Int → Nat) :
    issueFails f64 { issue with sources := [src 3 4] } = some .panic := by rfl

/-- C54 does not hold for data with a confidence level, which is sent without its name: reading a
container with such data fails. -/
theorem C54_confidence_violated (f64 : Int → Nat) :
    containerFails f64 ⟨.string, .emptyInput, { source := .unknown, confidence := some (.int 1) }⟩ = some .err := by rfl

/-! ### C55: what parsing gives can be sent and read back -/

/-- The trees with the kinds of newlines that are read back. -/
def sameNewlines (cs : List Cst) : List Cst := mapToks (fun t => { t with kind := backKind t.kind }) cs

mutual
theorem back_ofCst (compat : Bool) : ∀ {c : Cst}, Whole c →
    back compat (ofCst c) = ofCst (mapTok (fun t => { t with kind := backKind t.kind }) c)
  | .tok t, _ => by rw [ofCst, ofTok, back, mapTok, ofCst, ofTok, backSource_eq (by simp [omitted])]
  | .node k cs, h => by
    cases h with
    | node _ h2 => rw [ofCst, back, mapTok, ofCst, backs_ofCsts compat h2, sameNewlines]
  | .call f m op b, h => by
    cases h with
    | call _ _ h3 h4 => rw [ofCst, back, mapTok, ofCst, backs_ofCsts compat h3, backs_ofCsts compat h4, sameNewlines, sameNewlines]
  | .callAgg f m op b, h => by
    cases h with
    | callAgg _ h3 h4 => rw [ofCst, back, mapTok, ofCst, back_ofCst compat h3, backs_ofCsts compat h4, sameNewlines]
  | .box .., h => by cases h
  | .code .., h => by cases h
theorem backs_ofCsts (compat : Bool) : ∀ {cs : List Cst}, (∀ c ∈ cs, Whole c) →
    backs compat (ofCsts cs) = ofCsts (sameNewlines cs)
  | [], _ => rfl
  | c :: cs, h => by
    rw [ofCsts, backs, back_ofCst compat (h c (by simp)), backs_ofCsts compat fun d hd => h d (by simp [hd])]
    rfl
end

variable {cfg : Cfg} {conv : Conv} {first : FirstLine} {bs : List UInt8} {r : ParseResult}

/-- C55: whatever bytes are parsed, the library has an answer: if the positions of the issues can be sent,
one complete expression is sent.  It has the trees, or the reason
that there are none exactly if the bytes are not UTF-8 or contain a byte order mark. -/
theorem C55_answer (compat : Bool) (h : parseBytesCst cfg conv first bs = .ok r)
    (x : Wll.Extra) (hx : x.unsafeEncoding = r.unsafeEncoding)
    (hi : ∃ e, issuesExpr compat (if x.fatal = [] then x.nonFatal else x.fatal) = some e) :
    ∃ e, resultExpr compat ((treesExpr compat (ofCsts r.syntax')).map list) x = some e ∧
      Sends (putResult compat (putSeq compat (ofCsts r.syntax')) x) (some e) := by
  have hs := C52_result compat (ofCsts r.syntax') (named_ofCsts _) x
  obtain ⟨i, hi⟩ := hi
  suffices ∃ f, firstPart ((treesExpr compat (ofCsts r.syntax')).map list) x.unsafeEncoding = some f by
    obtain ⟨f, hf⟩ := this
    have he : ∃ e, resultExpr compat ((treesExpr compat (ofCsts r.syntax')).map list) x = some e :=
      ⟨_, by rw [resultExpr, hf, hi]; rfl⟩
    obtain ⟨e, he⟩ := he
    exact ⟨e, he, he ▸ hs⟩
  cases hu : x.unsafeEncoding with
  | some u => exact ⟨_, rfl⟩
  | none =>
    have hv := (C44_parse h).not
    rw [← hx, hu] at hv
    simp only [ne_eq, not_true_eq_false, not_false_eq_true, true_iff, not_or, Classical.not_not] at hv
    obtain ⟨input, rfl⟩ := hv.1
    obtain ⟨hw, hse⟩ := result_sendable h
    obtain ⟨es, he⟩ := trees_sendable compat hw hse
    exact ⟨_, by rw [he]; rfl⟩

/-- C55: the trees of a text are read back as they were, up to the kinds of newlines, if the text is
not so long that positions do not fit the machine. -/
theorem C55_round_trip (f64 : Int → Nat) (compat : Bool) {kind : ContainerKind} (hk : isText kind = true)
    {input : List Char} (h : parseBytesCst cfg conv first (encode input) = .ok r)
    (hl : 1 + (cfg.tabWidth + 4) * input.length < 2 ^ 32) (ab : Nat → Bool) (ha : NeverAborts ab) (k : Nat) :
    ∃ is k' es, putSeq compat (ofCsts r.syntax') ab k = some (is, k') ∧ get is = some (list es, []) ∧
      mapR (readTree f64 kind) es = .ok (ofCsts (sameNewlines r.syntax')) := by
  obtain ⟨hw, hse⟩ := result_sendable h
  obtain ⟨es, he⟩ := trees_sendable compat hw hse
  have hs := C52_trees compat (ofCsts r.syntax') (named_ofCsts _)
  rw [he] at hs
  obtain ⟨is, k', e', h1, h2, -, h3⟩ := hs ab k
  rw [h3 ha] at h2
  refine ⟨is, k', es, h1, h2, ?_⟩
  rw [← backs_ofCsts compat hw]
  exact readTrees_ok f64 he (propers_ofCsts compat hk hl hw hse)

/-- A text with a newline and a string that does not end satisfies the hypotheses. -/
example : ∃ r, parseBytesCst Cfg.default .lineColumn .notScript (encode (cs! "f[x]\n\"ab")) = .ok r ∧
    (leavesL r.syntax').map Tok.kind = [.Symbol, .OpenSquare, .Symbol, .CloseSquare, .ToplevelNewline, .Error_UnterminatedString] ∧
    1 + (Cfg.default.tabWidth + 4) * (cs! "f[x]\n\"ab").length < 2 ^ 32 := by
  have : (match parseBytesCst Cfg.default .lineColumn .notScript (encode (cs! "f[x]\n\"ab")) with
    | .ok r => (leavesL r.syntax').map Tok.kind == [.Symbol, .OpenSquare, .Symbol, .CloseSquare, .ToplevelNewline, .Error_UnterminatedString]
    | .error _ => false) = true := by decide +kernel
  cases h : parseBytesCst Cfg.default .lineColumn .notScript (encode (cs! "f[x]\n\"ab")) with
  | error e => rw [h] at this; cases this
  | ok r =>
    rw [h] at this
    exact ⟨r, rfl, by simpa using this, by decide⟩

end CodeParser.Props.Link
