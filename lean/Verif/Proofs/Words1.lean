import Verif.Proofs.Abstract1
import Verif.Spec.Words
/-!
The words of a text in its abstract syntax trees (helper lemmas): the shape of the concrete trees.
-/
namespace CodeParser.Words
open CodeParser Spec Cst Props

/-- The token is not a word. -/
def Quiet (t : Tok) : Prop := wordKind t.kind = false

/-- Every other tree is a token that is not a word. -/
inductive Alt : List Cst → Prop
  | one {l} : Alt [l]
  | more {l o cs} : Quiet o → Alt cs → Alt (l :: .tok o :: cs)

theorem Alt.snoc {cs : List Cst} {o : Tok} {r : Cst} (h : Alt cs) (ho : Quiet o) : Alt (cs ++ [.tok o, r]) := by
  induction h with
  | one => exact .more ho .one
  | more h _ ih => exact .more h ih

/-- The compound operators whose first token is left out. -/
def leading : CompoundOp → Bool
  | .Blank | .BlankSequence | .BlankNullSequence | .Slot | .SlotSequence | .Out => true
  | _ => false

/-- Tokens in certain places: in front of `@`, and between parentheses around more than one expression. -/
structure Marks where
  head : Tok → Prop
  crowd : Tok → Prop

/-- Where the tokens are that are not operands. -/
inductive Shape (X : Marks) : NodeKind → List Cst → Prop
  | «prefix» {op o r} : Quiet o → Shape X (.prefix op) [.tok o, r]
  | integrate {op o cs} : Quiet o → Shape X (.prefixBinary op) (.tok o :: cs)
  | «postfix» {op l o} : Quiet o → Shape X (.postfix op) [l, .tok o]
  | binary {op l o r} : Quiet o → (op = .CodeParser_BinaryAt → ∀ t, l = .tok t → X.head t) → Shape X (.binary op) [l, .tok o, r]
  | ternary {op l o m o' r} : Quiet o → Quiet o' → Shape X (.ternary op) [l, .tok o, m, .tok o', r]
  | «infix» {op cs} : Alt cs → Shape X (.infix op) cs
  | compound {op c d} : (leading op = true → ∃ t, c = .tok t ∧ Quiet t) → Shape X (.compound op) [c, d]
  | group {op o mid c} : Quiet o → Quiet c → (op = .CodeParser_GroupParen → mid.length ≤ 1 ∨ ∀ t ∈ wordsOfL mid, X.crowd t) → Shape X (.group op) (.tok o :: (mid ++ [.tok c]))
  | missing {op o cs} : Quiet o → Shape X (.groupMissingCloser op) (.tok o :: cs)
  | error {err l o r} : Quiet o → Shape X (.syntaxError err) [l, .tok o, r]

/-- The same for the brackets of a call. -/
inductive CallShape : Bool → List Cst → Prop
  | group {o mid c} : Quiet o → Quiet c → CallShape false (.tok o :: (mid ++ [.tok c]))
  | missing {o cs} : Quiet o → CallShape true (.tok o :: cs)

/-- All nodes of a tree have such shapes. -/
inductive Plain (X : Marks) : Cst → Prop
  | tok {t} : Plain X (.tok t)
  | node {k cs} : Shape X k cs → (∀ c ∈ cs, Plain X c) → Plain X (.node k cs)
  | call {h m op b} : Plain X h → CallShape m b → (∀ c ∈ b, Plain X c) → Plain X (.callAgg h m op b)

/-! ### Facts about the tables -/

theorem word_prefix : ∀ k : TK, wordKind k = true →
    (match k.prefixParselet with | .op _ _ | .integral _ _ | .group _ _ => false | _ => true) = true := forall_of_all (by decide +kernel)

theorem word_infix : ∀ k : TK, wordKind k = true →
    (match k.infixParselet with
      | .binary _ _ | .infix _ _ | .postfix _ _ | .call _ _ | .equal | .colonEqual | .times | .comma | .colonColon
      | .semi | .colon | .semiSemi | .greaterGreater | .greaterGreaterGreater => false
      | _ => true) = true := forall_of_all (by decide +kernel)

theorem word_closer : ∀ k : TK, k.isCloser = true → wordKind k = false := forall_of_all (by decide +kernel)

theorem word_gap : ∀ k : TK, isGap k = true → wordKind k = false := forall_of_all (by decide +kernel)

theorem word_error : ∀ k : TK, k.isError = true → wordKind k = true → k = .Error_PrefixImplicitNull ∨ k = .Error_InfixImplicitNull :=
  forall_of_all (by decide +kernel)

theorem not_word {k : TK} (h : wordKind k = true → False) : wordKind k = false := by
  cases hk : wordKind k with
  | false => rfl
  | true => exact (h hk).elim

theorem opens_quiet {t : Tok} {op : GroupOp} (h : Opens t.kind op) : Quiet t := not_word fun hk => by
  rcases h with h | h
  · have := word_prefix _ hk; rw [h] at this; cases this
  · have := word_infix _ hk; rw [h] at this; cases this

theorem infix_quiet {t : Tok} {op : InfixOp} (h : InfixOf t.kind op) : Quiet t := not_word fun hk => by
  have := word_infix _ hk
  generalize t.kind = k at *
  cases h with
  | _ h => first | (rw [h] at this; cases this) | cases hk

theorem binary_quiet {t : Tok} {op : BinaryOp} {p : Nat} (h : BinaryOf t.kind op p) : Quiet t := not_word fun hk => by
  have := word_infix _ hk
  generalize t.kind = k at *
  cases h <;> first | (cases hk; done) | (rename_i h; rw [h] at this; cases this)

theorem ternary_quiet {t t' : Tok} {op : TernaryOp} {p p' : Nat} (h : TernaryOf t.kind t'.kind op p p') : Quiet t ∧ Quiet t' := by
  unfold Quiet
  generalize t.kind = k at *
  generalize t'.kind = k' at *
  cases h <;> exact ⟨rfl, rfl⟩

theorem put_quiet {t : Tok} {op : BinaryOp} (h : PutOf t.kind op) : Quiet t := not_word fun hk => by
  have := word_infix _ hk
  generalize t.kind = k at *
  cases h with
  | _ h => rw [h] at this; cases this

theorem error_quiet {t : Tok} {err : SyntaxErrorKind} {p : Nat} (h : ErrorOf t.kind err p) : Quiet t := by
  unfold Quiet
  generalize t.kind = k at *
  cases h <;> rfl

theorem blank_quiet {t : Tok} {op : CompoundOp} (h : BlankOf t.kind op) : Quiet t := by
  unfold Quiet
  generalize t.kind = k at *
  cases h <;> rfl

/-! ### What remains of a node -/

section
variable {X : Marks} {ds : List Cst}

theorem alt_chain {op : InfixOp} {p : Nat} {cs : List Cst} {x : Cst} (h : Chain op p cs x) : ∀ {ds : List Cst},
    (∀ c ∈ cs, Form c) → StrippedL cs ds → Alt ds := by
  induction h with
  | one hl =>
    intro ds hf h
    obtain ⟨d, ds', rfl, -, h'⟩ := strippedL_cons hl (hf _ (by simp)) h
    cases h'
    exact .one
  | @more cs x ts o us r _ ho ht hu hr _ _ ih =>
    intro ds hf h
    obtain ⟨a, b, rfl, h1, h2⟩ := strippedL_append h
    obtain ⟨y, b, rfl, h3, h4⟩ := strippedL_append h2
    cases strippedL_tt ht (form_spare hf (by intro c hc; simp [hc])) h3
    obtain ⟨b, rfl, h5⟩ := strippedL_tok (infixOf_gap ho) h4
    obtain ⟨y, b, rfl, h6, h7⟩ := strippedL_append h5
    cases strippedL_tt hu (form_spare hf (by intro c hc; simp [hc])) h6
    obtain ⟨d, b, rfl, -, h8⟩ := strippedL_cons hr (hf _ (by simp)) h7
    cases h8
    exact (ih (fun c hc => hf c (by simp [hc])) h1).snoc (infix_quiet ho)

theorem compound_shape {op : CompoundOp} {cs : List Cst} (h : CompoundShape op cs) (hs : StrippedL cs ds) :
    Shape X (.compound op) ds := by
  have tok2 : ∀ {a b : Tok} {ds : List Cst}, isGap a.kind = false → isGap b.kind = false →
      StrippedL [.tok a, .tok b] ds → ds = [.tok a, .tok b] := by
    intro a b ds ha hb h
    obtain ⟨_, rfl, h1⟩ := strippedL_tok ha h
    obtain ⟨_, rfl, h2⟩ := strippedL_tok hb h1
    cases h2; rfl
  cases h with
  | blank h1 h2 =>
    cases tok2 (blankOf_gap h1) (by rcases h2 with h | h <;> rw [h] <;> rfl) hs
    exact .compound fun _ => ⟨_, rfl, blank_quiet h1⟩
  | pattern h1 h2 =>
    cases tok2 (by rw [h1]; rfl) (patternOf_gap h2) hs
    generalize Tok.kind _ = k at h2
    cases h2 <;> exact .compound fun h => by cases h
  | patternHead h1 h2 h3 =>
    obtain ⟨_, rfl, h4⟩ := strippedL_tok (by rw [h1]; rfl) hs
    cases h4 with
    | keep h5 h6 =>
      cases h6
      generalize Tok.kind _ = k at h2
      cases h2 <;> exact .compound fun h => by cases h
  | default h1 h2 =>
    cases tok2 (by rw [h1]; rfl) (by rw [h2]; rfl) hs
    exact .compound fun h => by cases h
  | slot h1 h2 =>
    cases tok2 (by rw [h1]; rfl) (by rcases h2 with h | h <;> rw [h] <;> rfl) hs
    exact .compound fun _ => ⟨_, rfl, by unfold Quiet; rw [h1]; rfl⟩
  | slotSequence h1 h2 =>
    cases tok2 (by rw [h1]; rfl) (by rw [h2]; rfl) hs
    exact .compound fun _ => ⟨_, rfl, by unfold Quiet; rw [h1]; rfl⟩
  | out h1 h2 =>
    cases tok2 (by rw [h1]; rfl) (by rw [h2]; rfl) hs
    exact .compound fun _ => ⟨_, rfl, by unfold Quiet; rw [h1]; rfl⟩

theorem quiet_kind {t : Tok} {k : TK} (h : t.kind = k) (hk : wordKind k = false) : Quiet t := by unfold Quiet; rw [h]; exact hk

theorem file_gap : ∀ k : TK, isFile k = true → isGap k = false := forall_of_all (by decide +kernel)
theorem file_word {t : Tok} (h : isFile t.kind = true) (hs : spare t.kind = false) : Operand (.tok t) := by
  have : ∀ k : TK, isFile k = true → k.isCloser = false ∧ k ≠ .Colon := by
    have : ∀ k : TK, isFile k = true → (k.isCloser = false ∧ (k != .Colon) = true) := forall_of_all (by decide +kernel)
    exact fun k hk => ⟨(this k hk).1, by simpa using (this k hk).2⟩
  exact operand_tok (file_gap _ h) hs (this _ h).1 (this _ h).2

theorem form_tok {t : Tok} (h : Form (.tok t)) : spare t.kind = false := by cases h with | tok h => exact h

theorem strip_two {o : Tok} {ts : List Tok} {r : Cst} (hf : ∀ c ∈ .tok o :: (tt ts ++ [r]), Form c) (ht : Tr ts) (hr : Operand r)
    (h : StrippedL (tt ts ++ [r]) ds) : ∃ r', ds = [r'] := by
  obtain ⟨y, b, rfl, h1, h2⟩ := strippedL_append h
  cases strippedL_tt ht (form_spare hf (by intro c hc; simp [hc])) h1
  obtain ⟨r', b, rfl, -, h3⟩ := strippedL_cons hr (hf _ (by simp)) h2
  cases h3
  exact ⟨r', rfl⟩

set_option maxHeartbeats 800000 in
/-- What remains of a node. -/
theorem shape {k : NodeKind} {cs : List Cst} (h : NodeOK Recovered k cs) (hf : ∀ c ∈ cs, Form c) (hs : StrippedL cs ds)
    (hp : crowded (.node k cs) = true → ∀ t ∈ leavesL cs, X.crowd t) (hX : k = .binary .CodeParser_BinaryAt → ∀ t bs, cs = .tok t :: bs → X.head t) : Shape X k ds := by
  cases h with
  | @prefixOp o ts r p op h1 h2 h3 h4 =>
    have hg : isGap o.kind = false := by
      cases hg : isGap o.kind with
      | false => rfl
      | true => have := prefix_gap _ hg; rw [h1] at this; cases this
    obtain ⟨b, rfl, e1⟩ := strippedL_tok hg hs
    obtain ⟨r', rfl⟩ := strip_two hf h2 h3 e1
    exact .prefix (not_word fun hk => by have := word_prefix _ hk; rw [h1] at this; cases this)
  | @get o ts f h1 h2 h3 =>
    obtain ⟨b, rfl, e1⟩ := strippedL_tok (by rw [h1]; rfl) hs
    obtain ⟨r', rfl⟩ := strip_two hf h2 (file_word h3 (form_tok (hf _ (by simp)))) e1
    exact .prefix (quiet_kind h1 rfl)
  | @integral o ts r op1 op2 h1 h2 h3 h4 =>
    have hg : isGap o.kind = false := by
      cases hg : isGap o.kind with
      | false => rfl
      | true => have := prefix_gap _ hg; rw [h1] at this; cases this
    obtain ⟨b, rfl, e1⟩ := strippedL_tok hg hs
    obtain ⟨r', rfl⟩ := strip_two hf h2 h3 e1
    exact .prefix (not_word fun hk => by have := word_prefix _ hk; rw [h1] at this; cases this)
  | @integrate o ts r us d op1 op2 h1 h2 h3 h4 h5 h6 h7 =>
    have hg : isGap o.kind = false := by
      cases hg : isGap o.kind with
      | false => rfl
      | true => have := prefix_gap _ hg; rw [h1] at this; cases this
    obtain ⟨b, rfl, e1⟩ := strippedL_tok hg hs
    exact .integrate (not_word fun hk => by have := word_prefix _ hk; rw [h1] at this; cases this)
  | @«postfix» l ts o p op h1 h2 h3 h4 =>
    have hg : isGap o.kind = false := infix_gap' (by rw [h1]; simp) (by rw [h1]; simp)
    obtain ⟨l', b, rfl, -, e1⟩ := strippedL_cons h2 (hf _ (by simp)) hs
    obtain ⟨y, b, rfl, e2, e3⟩ := strippedL_append e1
    cases strippedL_tt h3 (form_spare hf (by intro c hc; simp [hc])) e2
    obtain ⟨b, rfl, e4⟩ := strippedL_tok hg e3
    cases e4
    exact .postfix (not_word fun hk => by have := word_infix _ hk; rw [h1] at this; cases this)
  | @binary l ts o us r op p h1 h2 h3 h4 h5 h6 h7 =>
    obtain ⟨l', r', rfl, hl, -⟩ := strip_three hf h2 h3 (binaryOf_gap h1) h4 h5 hs
    refine .binary (binary_quiet h1) ?_
    rintro rfl t rfl
    cases hl
    exact hX rfl t _ rfl
  | @unset l ts o us d h1 h2 h3 h4 h5 h6 =>
    obtain ⟨l', r', rfl, -, h⟩ := strip_three hf h2 h3 (infix_gap' (by rw [h1]; simp) (by rw [h1]; simp)) h4 (dot_operand h5) hs
    exact .binary (not_word fun hk => by have := word_infix _ hk; rw [h1] at this; cases this) (by simp)
  | @put l ts o us f op h1 h2 h3 h4 h5 h6 =>
    obtain ⟨l', r', rfl, -, h⟩ := strip_three hf h2 h3 (putOf_gap h1) h4 (file_word h5 (form_tok (hf _ (by simp)))) hs
    exact .binary (put_quiet h1) (by rintro rfl; generalize Tok.kind _ = k at h1; cases h1)
  | @ternary l ts o us m vs o' ws r op p p' h1 h2 h3 h4 h5 h6 h7 h8 h9 h10 h11 h12 =>
    obtain ⟨f1, f2, f3⟩ := ternaryOf_fact h1
    obtain ⟨l', b, rfl, -, e1⟩ := strippedL_cons h2 (hf _ (by simp)) hs
    obtain ⟨y, b, rfl, e2, e3⟩ := strippedL_append e1
    cases strippedL_tt h3 (form_spare hf (by intro c hc; simp [hc])) e2
    obtain ⟨b, rfl, e4⟩ := strippedL_tok f1 e3
    obtain ⟨y, b, rfl, e5, e6⟩ := strippedL_append e4
    cases strippedL_tt h4 (form_spare hf (by intro c hc; simp [hc])) e5
    obtain ⟨m', r', rfl, -, -⟩ := strip_three (fun c hc => hf c (by simp at hc ⊢; tauto)) h5 h6 f2 h7 h8 e6
    exact .ternary (ternary_quiet h1).1 (ternary_quiet h1).2
  | @tagUnset l ts o us m vs o' ws d h1 h1' h2 h3 h4 h5 h6 h7 h8 h9 h10 h11 =>
    obtain ⟨l', b, rfl, -, e1⟩ := strippedL_cons h2 (hf _ (by simp)) hs
    obtain ⟨y, b, rfl, e2, e3⟩ := strippedL_append e1
    cases strippedL_tt h3 (form_spare hf (by intro c hc; simp [hc])) e2
    obtain ⟨b, rfl, e4⟩ := strippedL_tok (by rw [h1]; rfl) e3
    obtain ⟨y, b, rfl, e5, e6⟩ := strippedL_append e4
    cases strippedL_tt h4 (form_spare hf (by intro c hc; simp [hc])) e5
    obtain ⟨m', r', rfl, -, h⟩ := strip_three (fun c hc => hf c (by simp at hc ⊢; tauto)) h5 h6 (by rw [h1']; rfl) h7 (dot_operand h8) e6
    exact .ternary (quiet_kind h1 rfl) (quiet_kind h1' rfl)
  | «infix» h h' => exact .infix (alt_chain h hf hs)
  | compound h => exact compound_shape h hs
  | @group op cs h =>
    obtain ⟨o, mid, c, he, h1, h2, h3, h4, h5⟩ := h
    obtain ⟨mid', rfl, hl⟩ := strip_group he (opens_gap h1) h3 hf hs
    have hv := strippedL_leaves hs
    refine .group (opens_quiet h1) (word_closer _ h3) ?_
    rintro rfl
    rcases Nat.lt_or_ge 3 (proper cs).length with h6 | h6
    · refine Or.inr fun t ht => hp (by simpa [crowded] using h6) t ?_
      have : t ∈ leavesL (.tok o :: (mid' ++ [.tok c])) := by
        rw [leavesL, leavesL_append]
        exact List.mem_append_right _ (List.mem_append_left _ (List.mem_filter.mp ht).1)
      rw [hv] at this
      exact (List.mem_filter.mp this).1
    · exact Or.inl (by omega)
  | missing h =>
    rcases h with ⟨o, mid, rfl, h1, h2⟩ | ⟨o, ts, rfl, h1⟩ <;>
    · obtain ⟨b, rfl, -⟩ := strippedL_tok (opens_gap h1) hs
      exact .missing (opens_quiet h1)
  | @error l ts o us r err p h1 h2 h3 h4 h5 h6 h7 =>
    obtain ⟨l', r', rfl, -, -⟩ := strip_three hf h2 h3 (errorOf_gap h1) h4 h5 hs
    exact .error (error_quiet h1)

theorem callShape {h : List Cst} {m : Bool} {op : CallOp} {b : List Cst} (hc : CallOK Recovered h m op b) (hf : ∀ c ∈ b, Form c)
    (hs : StrippedL b ds) : CallShape m ds := by
  cases hc with
  | group _ _ _ _ h =>
    obtain ⟨o, mid, c, he, h1, h2, h3, h4, h5⟩ := h
    obtain ⟨mid', rfl, hl⟩ := strip_group he (opens_gap h1) h3 hf hs
    exact .group (opens_quiet h1) (word_closer _ h3)
  | missing _ _ _ _ h =>
    rcases h with ⟨o, mid, rfl, h1, h2⟩ | ⟨o, ts, rfl, h1⟩ <;>
    · obtain ⟨b, rfl, -⟩ := strippedL_tok (opens_gap h1) hs
      exact .missing (opens_quiet h1)

theorem strip_plain {c : Cst} (h : Form c) : ∀ {d : Cst}, Stripped c d → (∀ n, Sub n c → crowded n = true → ∀ t ∈ leaves n, X.crowd t) →
    (∀ t bs, Sub (.node (.binary .CodeParser_BinaryAt) (.tok t :: bs)) c → X.head t) → Plain X d := by
  induction h with
  | tok h =>
    intro d hs _ _
    rw [(stripped_tok hs).1]
    exact .tok
  | node h1 h2 ih =>
    intro d hs hp hX
    cases hs with
    | node hs =>
      refine .node (shape h1 h2 hs (hp _ .refl) (by rintro rfl t bs rfl; exact hX t bs .refl)) fun c hc => ?_
      obtain ⟨c', hc', h⟩ := strippedL_mem hs c hc
      exact ih c' hc' h (fun n hn => hp n (.node hc' hn)) fun t bs hn => hX t bs (.node hc' hn)
  | call h1 h2 h3 ih1 ih2 =>
    intro d hs hp hX
    cases hs with
    | call hs1 hs2 =>
      refine .call ?_ (callShape h1 h3 hs2) fun c hc => ?_
      · obtain ⟨c', hc', h⟩ := strippedL_mem hs1 _ List.mem_cons_self
        exact ih1 c' hc' h (fun n hn => hp n (.head hc' hn)) fun t bs hn => hX t bs (.head hc' hn)
      · obtain ⟨c', hc', h⟩ := strippedL_mem hs2 c hc
        exact ih2 c' hc' h (fun n hn => hp n (.body hc' hn)) fun t bs hn => hX t bs (.body hc' hn)
end
end CodeParser.Words
