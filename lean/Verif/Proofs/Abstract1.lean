import Verif.Model.Abstract
import Verif.Spec.Abstract
import Verif.Spec.Aggregate
import Verif.Props.Aggregate
/-!
What trees without white space look like, in a form for induction; their positions (helper
lemmas).
-/
namespace CodeParser
open Spec Props Cst

/-- A sequence of operands separated by operators belonging to `op`. -/
inductive Links (op : InfixOp) : List Cst → Prop
  | one {l} : Links op [l]
  | more {l o cs} : InfixOf o.kind op → Links op cs → Links op (l :: .tok o :: cs)

/-- What the children of a node look like without white space, as far as abstraction needs it. -/
inductive Fit (q : Bool) : NodeKind → List Cst → Prop
  | prefixOp {op o r} : op ≠ .Get → Fit q (.prefix op) [.tok o, r]
  | get {o f} : f.kind = .String → Fit q (.prefix .Get) [.tok o, .tok f]
  | integrate {op o r d} : Fit q (.prefixBinary op) [.tok o, r, d]
  | postfix {op l o} : (op = .Derivative → o.kind = .SingleQuote) → Fit q (.postfix op) [l, .tok o]
  | binary {op l o r} : op ≠ .Unset → op ≠ .Put → op ≠ .PutAppend →
      (op = .CodeParser_BinaryAt → q = true → ∀ s, l = .tok s → s.kind = .Symbol → ∀ op : InfixOp, s.text = op.toSymbol.short →
        o.kind = .At) → Fit q (.binary op) [l, .tok o, r]
  | unset {l o d} : o.kind = .Equal → d.kind = .Dot → Fit q (.binary .Unset) [l, .tok o, .tok d]
  | put {op l o f} : op = .Put ∨ op = .PutAppend → f.kind = .String → Fit q (.binary op) [l, .tok o, .tok f]
  | ternary {op l o m o' r} : op ≠ .TagUnset → Fit q (.ternary op) [l, .tok o, m, .tok o', r]
  | tagUnset {l o m o' d} : o'.kind = .Equal → d.kind = .Dot → Fit q (.ternary .TagUnset) [l, .tok o, m, .tok o', .tok d]
  | infix {op cs} : Links op cs → op ≠ .CodeParser_InfixTilde → Fit q (.infix op) cs
  | compound {op c d} : (op = .CodeParser_PatternOptionalDefault → ∃ t, d = .tok t ∧ t.kind = .UnderDot) →
      (op = .Slot → ∃ t, d = .tok t ∧ (t.kind = .Integer ∨ t.kind = .String)) →
      (op = .SlotSequence ∨ op = .Out → ∃ t, d = .tok t ∧ t.kind = .Integer) → Fit q (.compound op) [c, d]
  | group {op o mid c} : (op = .CodeParser_GroupParen → mid.length = 1) → (isNaked op = true → mid.length ≤ 1) →
      Fit q (.group op) (.tok o :: (mid ++ [.tok c]))
  | missing {op o cs} : Fit q (.groupMissingCloser op) (.tok o :: cs)
  | error {err l o r} : Fit q (.syntaxError err) [l, .tok o, r]

/-- What the children of a call look like without white space, as far as abstraction needs it. -/
inductive FitCall : Bool → CallOp → List Cst → Prop
  | group {op o mid c} : (op = .CodeParser_GroupSquare → mid.length ≤ 1) → FitCall false op (.tok o :: (mid ++ [.tok c]))
  | missing {op o cs} : FitCall true op (.tok o :: cs)

/-- A tree that abstraction can handle. -/
inductive Ready' (q : Bool) : Cst → Prop
  | tok {t} : spare t.kind = false → Ready' q (.tok t)
  | node {k cs} : Fit q k cs → (∀ c ∈ cs, Ready' q c) → Ready' q (.node k cs)
  | call {h m op b} : Ready' q h → FitCall m op b → (∀ c ∈ b, Ready' q c) → Ready' q (.callAgg h m op b)

theorem Links.snoc {op : InfixOp} {cs : List Cst} {o : Tok} {r : Cst} (h : Links op cs) (ho : InfixOf o.kind op) :
    Links op (cs ++ [.tok o, r]) := by
  induction h with
  | one => exact .more ho .one
  | more h _ ih => exact .more h ih

/-! ### Removing white space -/

theorem strippedL_append : ∀ {a b ds : List Cst}, StrippedL (a ++ b) ds →
    ∃ x y, ds = x ++ y ∧ StrippedL a x ∧ StrippedL b y
  | [], _, ds, h => ⟨[], ds, rfl, .nil, h⟩
  | c :: a, b, ds, h => by
    rw [List.cons_append] at h
    cases h with
    | drop h1 h2 =>
      obtain ⟨x, y, rfl, h3, h4⟩ := strippedL_append h2
      exact ⟨x, y, rfl, .drop h1 h3, h4⟩
    | keep h1 h2 =>
      obtain ⟨x, y, rfl, h3, h4⟩ := strippedL_append h2
      exact ⟨_, y, rfl, .keep h1 h3, h4⟩

theorem stripped_tok {t : Tok} {d : Cst} (h : Stripped (.tok t) d) : d = .tok t ∧ isGap t.kind = false := by
  cases h with
  | tok h => exact ⟨rfl, h⟩

theorem strippedL_tt : ∀ {ts : List Tok} {ds : List Cst}, Tr ts → (∀ t ∈ ts, spare t.kind = false) → StrippedL (tt ts) ds → ds = []
  | [], _, _, _, h => by cases h; rfl
  | t :: ts, ds, h1, h2, h => by
    have hw : isGap t.kind = true := (trivia_white _ (h2 t (by simp))) ▸ h1 t (by simp)
    cases h with
    | drop _ h => exact strippedL_tt (fun t ht => h1 t (by simp [ht])) (fun t ht => h2 t (by simp [ht])) h
    | keep h _ => rw [(stripped_tok h).2] at hw; cases hw

/-- Of an operand, something remains. -/
theorem strippedL_cons {l : Cst} {cs ds : List Cst} (hl : Operand l) (hf : Form l) (h : StrippedL (l :: cs) ds) :
    ∃ d ds', ds = d :: ds' ∧ Stripped l d ∧ StrippedL cs ds' := by
  cases h with
  | drop h _ =>
    cases hf with
    | tok h' => rw [← trivia_white _ h', hl.1] at h; cases h
  | keep h1 h2 => exact ⟨_, _, rfl, h1, h2⟩

theorem strippedL_tok {t : Tok} {cs ds : List Cst} (ht : isGap t.kind = false) (h : StrippedL (.tok t :: cs) ds) :
    ∃ ds', ds = .tok t :: ds' ∧ StrippedL cs ds' := by
  cases h with
  | drop h _ => rw [ht] at h; cases h
  | keep h1 h2 => exact ⟨_, by rw [(stripped_tok h1).1], h2⟩

theorem form_spare {ts : List Tok} {cs : List Cst} (h : ∀ c ∈ cs, Form c) (hs : ∀ c ∈ tt ts, c ∈ cs) :
    ∀ t ∈ ts, spare t.kind = false := fun t ht => by
  have := h _ (hs _ (List.mem_map_of_mem ht))
  cases this with
  | tok h => exact h

theorem stripped_trivia {c d : Cst} (hf : Form c) (h : Stripped c d) : c.isTrivia = false := by
  cases h with
  | tok h =>
    cases hf with
    | tok h' => exact (trivia_white _ h').trans h
  | node => rfl
  | call => rfl

theorem strippedL_length : ∀ {cs ds : List Cst}, (∀ c ∈ cs, Form c) → StrippedL cs ds → ds.length = (proper cs).length
  | _, _, _, .nil => rfl
  | .tok t :: cs, ds, hf, .drop h1 h2 => by
    have hs : spare t.kind = false := by cases hf _ List.mem_cons_self with | tok h => exact h
    have : (Cst.tok t).isTrivia = true := (trivia_white _ hs).trans h1
    rw [strippedL_length (fun c hc => hf c (by simp [hc])) h2]
    simp [proper, this]
  | c :: cs, d :: ds, hf, .keep h1 h2 => by
    have := stripped_trivia (hf c (by simp)) h1
    rw [List.length_cons, strippedL_length (fun c hc => hf c (by simp [hc])) h2]
    simp [proper, this]

theorem strippedL_mem : ∀ {cs ds : List Cst}, StrippedL cs ds → ∀ d ∈ ds, ∃ c ∈ cs, Stripped c d
  | _, _, .nil, d, hd => by cases hd
  | _, _, .drop _ h2, d, hd => by
    obtain ⟨c, hc, h⟩ := strippedL_mem h2 d hd
    exact ⟨c, by simp [hc], h⟩
  | _, _, .keep h1 h2, d, hd => by
    rcases List.mem_cons.mp hd with rfl | hd
    · exact ⟨_, by simp, h1⟩
    · obtain ⟨c, hc, h⟩ := strippedL_mem h2 d hd
      exact ⟨c, by simp [hc], h⟩

/-! ### Facts about the tables -/

theorem gap_opens : ∀ k : TK, isGap k = true → (∀ op, k.prefixParselet ≠ .group k op) ∧ (∀ op, k.infixParselet ≠ .call k op) := by
  have : ∀ k : TK, isGap k = true → ((match k.prefixParselet with | .group _ _ => false | _ => true) = true ∧
      (match k.infixParselet with | .call _ _ => false | _ => true) = true) := forall_of_all (by decide +kernel)
  intro k hk
  obtain ⟨h1, h2⟩ := this k hk
  refine ⟨fun op h => ?_, fun op h => ?_⟩
  · rw [h] at h1; cases h1
  · rw [h] at h2; cases h2

theorem opens_gap {k : TK} {op : GroupOp} (h : Opens k op) : isGap k = false := by
  cases hg : isGap k with
  | false => rfl
  | true =>
    rcases h with h | h
    · exact absurd h ((gap_opens k hg).1 op)
    · exact absurd h ((gap_opens k hg).2 op)

theorem closer_gap : ∀ k : TK, k.isCloser = true → isGap k = false := forall_of_all (by decide +kernel)

theorem prefix_gap : ∀ k : TK, isGap k = true →
    (match k.prefixParselet with | .op _ _ | .integral _ _ => false | _ => true) = true := forall_of_all (by decide +kernel)

theorem infix_gap : ∀ k : TK, isGap k = true →
    (match k.infixParselet with
      | .assertFalse | .toplevelNewline => true
      | _ => false) = true := forall_of_all (by decide +kernel)

theorem infix_gap' {k : TK} (h1 : k.infixParselet ≠ .assertFalse) (h2 : k.infixParselet ≠ .toplevelNewline) : isGap k = false := by
  cases h : isGap k with
  | false => rfl
  | true =>
    have := infix_gap k h
    split at this <;> simp_all

theorem infixOf_gap {k : TK} {op : InfixOp} (h : InfixOf k op) : isGap k = false := by
  refine infix_gap' ?_ ?_ <;> · intro h'; cases h <;> rename_i h <;> rw [h] at h' <;> cases h'

theorem binaryOf_gap {k : TK} {op : BinaryOp} {q : Nat} (h : BinaryOf k op q) : isGap k = false := by
  refine infix_gap' ?_ ?_ <;> · intro h'; cases h <;> rename_i h <;> rw [h] at h' <;> cases h'

theorem putOf_gap {k : TK} {op : BinaryOp} (h : PutOf k op) : isGap k = false := by
  refine infix_gap' ?_ ?_ <;> · intro h'; cases h <;> rename_i h <;> rw [h] at h' <;> cases h'

theorem prefix_table : ∀ k : TK,
    (match k.prefixParselet with | .op _ .Get | .integral _ .Get => false | _ => true) = true := forall_of_all (by decide +kernel)

/-- What abstraction relies on for the tokens behind an operand. -/
def infixFact (k : TK) : Bool :=
  match k.infixParselet with
  | .postfix _ .Derivative => k = .SingleQuote
  | .equal => k = .Equal
  | .binary _ .Unset | .binary _ .Put | .binary _ .PutAppend => false
  | .binary _ .CodeParser_BinaryAt => k = .At || k = .LongName_InvisibleApplication
  | .infix _ .Plus => k = .Plus || k = .LongName_ImplicitPlus || k = .Minus || k = .LongName_Minus
  | .infix _ .CodeParser_InfixInequality => ((inequalityOperatorToSymbol k).bind vectorInequalityAffinity).isSome
  | .infix _ .CodeParser_InfixTilde => false
  | _ => true

theorem infix_table : ∀ k : TK, infixFact k = true := forall_of_all (by decide +kernel)

theorem binaryOf_fact {k : TK} {op : BinaryOp} {p : Nat} (h : BinaryOf k op p) :
    op ≠ .Unset ∧ op ≠ .Put ∧ op ≠ .PutAppend ∧
      (op = .CodeParser_BinaryAt → k = .At ∨ k = .LongName_InvisibleApplication) := by
  have hk := infix_table k
  unfold infixFact at hk
  cases h with
  | table h =>
    rw [h] at hk
    cases op <;> simp_all
  | _ => simp

theorem infixOf_plus {k : TK} (h : InfixOf k .Plus) :
    k = .Plus ∨ k = .LongName_ImplicitPlus ∨ k = .Minus ∨ k = .LongName_Minus := by
  have hk := infix_table k
  unfold infixFact at hk
  cases h with
  | table h => rw [h] at hk; simpa [or_assoc] using hk

theorem infixOf_inequality {k : TK} (h : InfixOf k .CodeParser_InfixInequality) :
    ∃ s a, inequalityOperatorToSymbol k = some s ∧ vectorInequalityAffinity s = some a := by
  have hk := infix_table k
  unfold infixFact at hk
  cases h with
  | table h =>
    rw [h] at hk
    simp only at hk
    cases h1 : inequalityOperatorToSymbol k with
    | none => simp [h1] at hk
    | some s =>
      cases h2 : vectorInequalityAffinity s with
      | none => simp [h1, h2] at hk
      | some a => exact ⟨s, a, rfl, h2⟩

theorem infixOf_tilde {k : TK} (h : InfixOf k .CodeParser_InfixTilde) : False := by
  have hk := infix_table k
  unfold infixFact at hk
  cases h with
  | table h => rw [h] at hk; cases hk

/-! ### What remains of a node -/

section
variable {q : Bool} {ds : List Cst}

theorem strip_chain {op : InfixOp} {p : Nat} {cs : List Cst} {x : Cst} (h : Chain op p cs x) : ∀ {ds : List Cst},
    (∀ c ∈ cs, Form c) → StrippedL cs ds → Links op ds := by
  induction h with
  | one hl =>
    intro ds hf h
    obtain ⟨d, ds', rfl, -, h'⟩ := strippedL_cons hl (hf _ (by simp)) h
    cases h'
    exact .one
  | @more cs x ts o us r _ ho ht hu hr _ _ ih =>
    intro ds hf h
    obtain ⟨a, b, rfl, h1, h2⟩ := strippedL_append h
    obtain ⟨y, b, rfl, h3, h4⟩ := strippedL_append h2
    cases strippedL_tt ht (form_spare hf (by intro c hc; simp [hc])) h3
    obtain ⟨b, rfl, h5⟩ := strippedL_tok (infixOf_gap ho) h4
    obtain ⟨y, b, rfl, h6, h7⟩ := strippedL_append h5
    cases strippedL_tt hu (form_spare hf (by intro c hc; simp [hc])) h6
    obtain ⟨d, b, rfl, -, h8⟩ := strippedL_cons hr (hf _ (by simp)) h7
    cases h8
    exact (ih (fun c hc => hf c (by simp [hc])) h1).snoc ho

theorem strip_group {o c : Tok} {mid cs : List Cst} (hcs : cs = .tok o :: (mid ++ [.tok c]))
    (ho : isGap o.kind = false) (hc : c.kind.isCloser = true) (hf : ∀ c ∈ cs, Form c) (h : StrippedL cs ds) :
    ∃ mid', ds = .tok o :: (mid' ++ [.tok c]) ∧ (proper cs).length = mid'.length + 2 := by
  have hlen := strippedL_length hf h
  subst hcs
  obtain ⟨b, rfl, h1⟩ := strippedL_tok ho h
  obtain ⟨x, y, rfl, h2, h3⟩ := strippedL_append h1
  obtain ⟨b, rfl, h4⟩ := strippedL_tok (closer_gap _ hc) h3
  cases h4
  exact ⟨x, rfl, by rw [← hlen]; simp⟩

theorem blankOf_gap {k : TK} {op : CompoundOp} (h : BlankOf k op) : isGap k = false := by cases h <;> rfl

theorem patternOf_gap {k : TK} {op : CompoundOp} (h : PatternOf k op) : isGap k = false := by cases h <;> rfl

theorem compound_fit {op : CompoundOp} {cs : List Cst} (h : CompoundShape op cs) (hs : StrippedL cs ds) :
    Fit q (.compound op) ds := by
  have tok2 : ∀ {a b : Tok} {ds : List Cst}, isGap a.kind = false → isGap b.kind = false →
      StrippedL [.tok a, .tok b] ds → ds = [.tok a, .tok b] := by
    intro a b ds ha hb h
    obtain ⟨_, rfl, h1⟩ := strippedL_tok ha h
    obtain ⟨_, rfl, h2⟩ := strippedL_tok hb h1
    cases h2; rfl
  cases h with
  | blank h1 h2 =>
    cases tok2 (blankOf_gap h1) (by rcases h2 with h | h <;> rw [h] <;> rfl) hs
    generalize Tok.kind _ = k at h1
    cases h1 <;> exact .compound (by simp) (by simp) (by simp)
  | pattern h1 h2 =>
    cases tok2 (by rw [h1]; rfl) (patternOf_gap h2) hs
    generalize Tok.kind _ = k at h2
    cases h2 <;> exact .compound (by simp) (by simp) (by simp)
  | patternHead h1 h2 h3 =>
    obtain ⟨_, rfl, h4⟩ := strippedL_tok (by rw [h1]; rfl) hs
    cases h4 with
    | keep h5 h6 =>
      cases h6
      generalize Tok.kind _ = k at h2
      cases h2 <;> exact .compound (by simp) (by simp) (by simp)
  | default h1 h2 =>
    cases tok2 (by rw [h1]; rfl) (by rw [h2]; rfl) hs
    exact .compound (fun _ => ⟨_, rfl, h2⟩) (by simp) (by simp)
  | slot h1 h2 =>
    cases tok2 (by rw [h1]; rfl) (by rcases h2 with h | h <;> rw [h] <;> rfl) hs
    exact .compound (by simp) (fun _ => ⟨_, rfl, h2⟩) (by simp)
  | slotSequence h1 h2 =>
    cases tok2 (by rw [h1]; rfl) (by rw [h2]; rfl) hs
    exact .compound (by simp) (by simp) (fun _ => ⟨_, rfl, h2⟩)
  | out h1 h2 =>
    cases tok2 (by rw [h1]; rfl) (by rw [h2]; rfl) hs
    exact .compound (by simp) (by simp) (fun _ => ⟨_, rfl, h2⟩)

theorem file_string {t : Tok} (h : isFile t.kind = true) (hf : Fine q (.tok t)) : t.kind = .String := by
  obtain ⟨h1, h2⟩ := hf
  cases hk : t.kind <;> rw [hk] at h h1 h2 <;> first | rfl | (cases h; done) | (cases h1; done) | exact absurd rfl h2

/-- `[l] ++ ts ++ [o] ++ us ++ [r]` without white space. -/
theorem strip_three {l r : Cst} {o : Tok} {ts us : List Tok} (hf : ∀ c ∈ l :: (tt ts ++ .tok o :: (tt us ++ [r])), Form c)
    (hl : Operand l) (ht : Tr ts) (ho : isGap o.kind = false) (hu : Tr us) (hr : Operand r)
    (h : StrippedL (l :: (tt ts ++ .tok o :: (tt us ++ [r]))) ds) :
    ∃ l' r', ds = [l', .tok o, r'] ∧ Stripped l l' ∧ Stripped r r' := by
  obtain ⟨l', b, rfl, h0, h1⟩ := strippedL_cons hl (hf _ (by simp)) h
  obtain ⟨y, b, rfl, h3, h4⟩ := strippedL_append h1
  cases strippedL_tt ht (form_spare hf (by intro c hc; simp [hc])) h3
  obtain ⟨b, rfl, h5⟩ := strippedL_tok ho h4
  obtain ⟨y, b, rfl, h6, h7⟩ := strippedL_append h5
  cases strippedL_tt hu (form_spare hf (by intro c hc; simp [hc])) h6
  obtain ⟨d, b, rfl, h9, h8⟩ := strippedL_cons hr (hf _ (by simp)) h7
  cases h8
  exact ⟨l', d, rfl, h0, h9⟩

theorem operand_tok {t : Tok} (h1 : isGap t.kind = false) (h2 : spare t.kind = false) (h3 : t.kind.isCloser = false)
    (h4 : t.kind ≠ .Colon) : Operand (.tok t) :=
  ⟨(trivia_white _ h2).trans h1, h3, h4, fun h => by rw [h] at h2; cases h2⟩

theorem file_operand {t : Tok} (h : t.kind = .String) : Operand (.tok t) := by
  refine ⟨?_, ?_, ?_, ?_⟩ <;> rw [h] <;> first | rfl | decide

theorem dot_operand {t : Tok} (h : t.kind = .Dot) : Operand (.tok t) := by
  refine ⟨?_, ?_, ?_, ?_⟩ <;> rw [h] <;> first | rfl | decide

theorem ternaryOf_fact {k k' : TK} {op : TernaryOp} {p p' : Nat} (h : TernaryOf k k' op p p') :
    isGap k = false ∧ isGap k' = false ∧ op ≠ .TagUnset := by
  cases h <;> exact ⟨rfl, rfl, by simp⟩

theorem errorOf_gap {k : TK} {err : SyntaxErrorKind} {p : Nat} (h : ErrorOf k err p) : isGap k = false := by cases h <;> rfl

theorem trivia_of {cs : List Cst} {o : Tok} (hf : ∀ c ∈ cs, Form c) (h : .tok o ∈ cs) (hg : isGap o.kind = false) : o.kind.isTrivia = false := by
  cases hf _ h with
  | tok h => exact (trivia_white _ h).trans hg

theorem operand_trivia {c : Cst} (h : Operand c) : c.isTrivia = false := by
  cases c with
  | tok => exact h.1
  | _ => rfl

theorem proper_three {l r : Cst} {o : Tok} {ts us : List Tok} (hl : Operand l) (ht : Tr ts) (ho : o.kind.isTrivia = false) (hu : Tr us)
    (hr : Operand r) : proper (l :: (tt ts ++ .tok o :: (tt us ++ [r]))) = [l, .tok o, r] := by
  have e1 := proper_tt ht
  have e2 := proper_tt hu
  unfold proper at e1 e2 ⊢
  rw [List.filter_cons_of_pos (by simp [operand_trivia hl]), List.filter_append, e1, List.nil_append,
    List.filter_cons_of_pos (by simp [Cst.isTrivia, ho]), List.filter_append, e2, List.nil_append,
    List.filter_cons_of_pos (by simp [operand_trivia hr]), List.filter_nil]

/-- What remains of a node. -/
theorem fit {k : NodeKind} {cs : List Cst} (h : NodeOK Recovered k cs) (hf : ∀ c ∈ cs, Form c) (hs : StrippedL cs ds)
    (hk : Fine q (.node k cs)) (hc : ∀ c ∈ cs, Fine q c) : Fit q k ds := by
  have one : ∀ {o : Tok} {ts : List Tok} {r : Cst}, cs = .tok o :: (tt ts ++ [r]) → isGap o.kind = false → Tr ts → Operand r →
      ∃ r', ds = [.tok o, r'] ∧ Stripped r r' := by
    rintro o ts r rfl ho ht hr
    obtain ⟨b, rfl, h1⟩ := strippedL_tok ho hs
    obtain ⟨x, y, rfl, h2, h3⟩ := strippedL_append h1
    cases strippedL_tt ht (form_spare hf (by intro c hc; simp [hc])) h2
    obtain ⟨d, b, rfl, h4, h5⟩ := strippedL_cons hr (hf _ (by simp)) h3
    cases h5
    exact ⟨d, rfl, h4⟩
  cases h with
  | @prefixOp o ts r p op h1 h2 h3 h4 =>
    have hg : isGap o.kind = false := by
      cases hg : isGap o.kind with
      | false => rfl
      | true => have := prefix_gap _ hg; rw [h1] at this; cases this
    obtain ⟨r', rfl, -⟩ := one rfl hg h2 h3
    refine .prefixOp ?_
    rintro rfl
    have := prefix_table o.kind
    rw [h1] at this; cases this
  | @get o ts f h1 h2 h3 =>
    have hs' := file_string h3 (hc (.tok f) (by simp))
    obtain ⟨r', rfl, h⟩ := one rfl (by rw [h1]; rfl) h2 (file_operand hs')
    rw [(stripped_tok h).1]
    exact .get hs'
  | @integral o ts r op1 op2 h1 h2 h3 h4 =>
    have hg : isGap o.kind = false := by
      cases hg : isGap o.kind with
      | false => rfl
      | true => have := prefix_gap _ hg; rw [h1] at this; cases this
    obtain ⟨r', rfl, -⟩ := one rfl hg h2 h3
    refine .prefixOp ?_
    rintro rfl
    have := prefix_table o.kind
    rw [h1] at this; cases this
  | @integrate o ts r us d op1 op2 h1 h2 h3 h4 h5 h6 h7 =>
    have hg : isGap o.kind = false := by
      cases hg : isGap o.kind with
      | false => rfl
      | true => have := prefix_gap _ hg; rw [h1] at this; cases this
    obtain ⟨b, rfl, h1⟩ := strippedL_tok hg hs
    obtain ⟨x, y, rfl, e2, e3⟩ := strippedL_append h1
    cases strippedL_tt h2 (form_spare hf (by intro c hc; simp [hc])) e2
    obtain ⟨d, b, rfl, -, e5⟩ := strippedL_cons h3 (hf _ (by simp)) e3
    obtain ⟨x, y, rfl, e6, e7⟩ := strippedL_append e5
    cases strippedL_tt h5 (form_spare hf (by intro c hc; simp [hc])) e6
    obtain ⟨d, b, rfl, -, e8⟩ := strippedL_cons h6 (hf _ (by simp)) e7
    cases e8
    exact .integrate
  | @«postfix» l ts o p op h1 h2 h3 h4 =>
    have hg : isGap o.kind = false := infix_gap' (by rw [h1]; simp) (by rw [h1]; simp)
    obtain ⟨l', b, rfl, -, e1⟩ := strippedL_cons h2 (hf _ (by simp)) hs
    obtain ⟨y, b, rfl, e2, e3⟩ := strippedL_append e1
    cases strippedL_tt h3 (form_spare hf (by intro c hc; simp [hc])) e2
    obtain ⟨b, rfl, e4⟩ := strippedL_tok hg e3
    cases e4
    refine .postfix ?_
    rintro rfl
    have := infix_table o.kind
    unfold infixFact at this
    rw [h1] at this
    simpa using this
  | @binary l ts o us r op p h1 h2 h3 h4 h5 h6 h7 =>
    obtain ⟨l', r', rfl, hl, -⟩ := strip_three hf h2 h3 (binaryOf_gap h1) h4 h5 hs
    obtain ⟨e1, e2, e3, e4⟩ := binaryOf_fact h1
    refine .binary e1 e2 e3 (fun h hq s hs' hk' iop hi => (e4 h).resolve_right fun hinv => ?_)
    subst hs' h
    cases hl
    refine hk hq ⟨s, o, r, ?_, ⟨hk', iop, hi⟩, hinv⟩
    exact proper_three (l := .tok s) h2 h3 (trivia_of hf (by simp) (binaryOf_gap h1)) h4 h5
  | @unset l ts o us d h1 h2 h3 h4 h5 h6 =>
    obtain ⟨l', r', rfl, -, h⟩ := strip_three hf h2 h3 (infix_gap' (by rw [h1]; simp) (by rw [h1]; simp)) h4 (dot_operand h5) hs
    rw [(stripped_tok h).1]
    refine .unset ?_ h5
    have := infix_table o.kind
    unfold infixFact at this
    rw [h1] at this
    simpa using this
  | @put l ts o us f op h1 h2 h3 h4 h5 h6 =>
    have hs' := file_string h5 (hc (.tok f) (by simp))
    obtain ⟨l', r', rfl, -, h⟩ := strip_three hf h2 h3 (putOf_gap h1) h4 (file_operand hs') hs
    rw [(stripped_tok h).1]
    exact .put (by cases h1 <;> simp) hs'
  | @ternary l ts o us m vs o' ws r op p p' h1 h2 h3 h4 h5 h6 h7 h8 h9 h10 h11 h12 =>
    obtain ⟨f1, f2, f3⟩ := ternaryOf_fact h1
    obtain ⟨l', b, rfl, -, e1⟩ := strippedL_cons h2 (hf _ (by simp)) hs
    obtain ⟨y, b, rfl, e2, e3⟩ := strippedL_append e1
    cases strippedL_tt h3 (form_spare hf (by intro c hc; simp [hc])) e2
    obtain ⟨b, rfl, e4⟩ := strippedL_tok f1 e3
    obtain ⟨y, b, rfl, e5, e6⟩ := strippedL_append e4
    cases strippedL_tt h4 (form_spare hf (by intro c hc; simp [hc])) e5
    obtain ⟨m', r', rfl, -, -⟩ := strip_three (fun c hc => hf c (by simp at hc ⊢; tauto)) h5 h6 f2 h7 h8 e6
    exact .ternary f3
  | @tagUnset l ts o us m vs o' ws d h1 h1' h2 h3 h4 h5 h6 h7 h8 h9 h10 h11 =>
    obtain ⟨l', b, rfl, -, e1⟩ := strippedL_cons h2 (hf _ (by simp)) hs
    obtain ⟨y, b, rfl, e2, e3⟩ := strippedL_append e1
    cases strippedL_tt h3 (form_spare hf (by intro c hc; simp [hc])) e2
    obtain ⟨b, rfl, e4⟩ := strippedL_tok (by rw [h1]; rfl) e3
    obtain ⟨y, b, rfl, e5, e6⟩ := strippedL_append e4
    cases strippedL_tt h4 (form_spare hf (by intro c hc; simp [hc])) e5
    obtain ⟨m', r', rfl, -, h⟩ := strip_three (fun c hc => hf c (by simp at hc ⊢; tauto)) h5 h6 (by rw [h1']; rfl) h7 (dot_operand h8) e6
    rw [(stripped_tok h).1]
    exact .tagUnset h1' h8
  | «infix» h h' =>
    refine .infix (strip_chain h hf hs) ?_
    rintro rfl
    cases h with
    | one =>
      obtain ⟨l, rest, o, e1, e2, -⟩ := h'
      cases e1
      cases e2
    | more _ ho => exact infixOf_tilde ho
  | compound h => exact compound_fit h hs
  | @group op cs h =>
    obtain ⟨o, mid, c, he, h1, h2, h3, h4, h5⟩ := h
    obtain ⟨mid', rfl, hl⟩ := strip_group he (opens_gap h1) h3 hf hs
    obtain ⟨k1, k2⟩ := hk
    exact .group (fun h => by have := k1 h; omega) (fun h => by have := k2 h; omega)
  | missing h =>
    rcases h with ⟨o, mid, rfl, h1, h2⟩ | ⟨o, ts, rfl, h1⟩ <;>
    · obtain ⟨b, rfl, h1⟩ := strippedL_tok (opens_gap h1) hs
      exact .missing
  | @error l ts o us r err p h1 h2 h3 h4 h5 h6 h7 =>
    obtain ⟨l', r', rfl, -, -⟩ := strip_three hf h2 h3 (errorOf_gap h1) h4 h5 hs
    exact .error

theorem fitCall {h : List Cst} {m : Bool} {op : CallOp} {b : List Cst} (hc : CallOK Recovered h m op b) (hf : ∀ c ∈ b, Form c)
    (hs : StrippedL b ds) (hk : Fine q (.call h m op b)) : FitCall m op ds := by
  cases hc with
  | group _ _ _ _ h =>
    obtain ⟨o, mid, c, he, h1, h2, h3, h4, h5⟩ := h
    obtain ⟨mid', rfl, hl⟩ := strip_group he (opens_gap h1) h3 hf hs
    refine .group ?_
    rintro rfl
    have : (proper b).length ≤ 3 := hk
    omega
  | missing _ _ _ _ h =>
    rcases h with ⟨o, mid, rfl, h1, h2⟩ | ⟨o, ts, rfl, h1⟩ <;>
    · obtain ⟨b, rfl, h1⟩ := strippedL_tok (opens_gap h1) hs
      exact .missing

theorem strip_ready {c : Cst} (h : Form c) : ∀ {d : Cst}, Stripped c d → (∀ n, Sub n c → Fine q n) → Ready' q d := by
  induction h with
  | tok h =>
    intro d hs _
    rw [(stripped_tok hs).1]
    exact .tok h
  | node h1 h2 ih =>
    intro d hs hF
    cases hs with
    | node hs =>
      refine .node (fit h1 h2 hs (hF _ .refl) fun c hc => hF _ (.node hc .refl)) fun c hc => ?_
      obtain ⟨c', hc', h⟩ := strippedL_mem hs c hc
      exact ih c' hc' h fun n hn => hF n (.node hc' hn)
  | call h1 h2 h3 ih1 ih2 =>
    intro d hs hF
    cases hs with
    | call hs1 hs2 =>
      refine .call ?_ (fitCall h1 h3 hs2 (hF _ .refl)) fun c hc => ?_
      · obtain ⟨c', hc', h⟩ := strippedL_mem hs1 _ List.mem_cons_self
        exact ih1 c' hc' h fun n hn => hF n (.head hc' hn)
      · obtain ⟨c', hc', h⟩ := strippedL_mem hs2 c hc
        exact ih2 c' hc' h fun n hn => hF n (.body hc' hn)

end

/-! ### Positions -/

theorem Fit.ne {q : Bool} {k : NodeKind} {cs : List Cst} (h : Fit q k cs) : cs ≠ [] := by
  cases h with
  | «infix» h _ => cases h <;> simp
  | _ => simp

theorem FitCall.ne {m : Bool} {op : CallOp} {cs : List Cst} (h : FitCall m op cs) : cs ≠ [] := by cases h <;> simp

section
variable {q : Bool} {c : Cst} {cs : List Cst}

theorem mem_leavesL {c : Cst} {cs : List Cst} (h : c ∈ cs) : ∀ t ∈ leaves c, t ∈ leavesL cs := by
  induction cs with
  | nil => cases h
  | cons d cs ih =>
    intro t ht
    simp only [leavesL, List.mem_append]
    rcases List.mem_cons.mp h with rfl | h
    · exact Or.inl ht
    · exact Or.inr (ih h t ht)

theorem leaves_sublist {c : Cst} {cs : List Cst} (h : c ∈ cs) : (leaves c).Sublist (leavesL cs) := by
  induction cs with
  | nil => cases h
  | cons d cs ih =>
    simp only [leavesL]
    rcases List.mem_cons.mp h with rfl | h
    · exact List.sublist_append_left _ _
    · exact (ih h).trans (List.sublist_append_right _ _)

/-- The position `s` goes from the first to the last of the tokens `ts`. -/
def SpanOf (ts : List Tok) (s : ASrc) : Prop := ∃ a b, ts.head? = some a ∧ ts.getLast? = some b ∧ s = (a.start, b.stop)

theorem between_ok {ts : List Tok} (ho : Ordered ts) {a b x y : Tok} (ha : ts.head? = some a) (hb : ts.getLast? = some b)
    (hx : x ∈ ts) : Abs.between (a.start, y.stop) (x.start, b.stop) = .ok (a.start, b.stop) := by
  have h1 := (ordered_le ho ha hb hx).1
  have h2 := (ordered_le ho ha hb (List.mem_of_getLast? hb)).1
  have h3 := ho.2 b (List.mem_of_getLast? hb)
  unfold Abs.between
  rw [if_pos]
  simp only [Bool.and_eq_true]
  exact ⟨h1, Loc.le_trans h2 h3⟩

theorem hull_append {a b : List Tok} {s t : ASrc} (ho : Ordered (a ++ b)) (hs : SpanOf a s) (ht : SpanOf b t) :
    ∃ u, Abs.between s t = .ok u ∧ SpanOf (a ++ b) u := by
  obtain ⟨a1, a2, h1, h2, rfl⟩ := hs
  obtain ⟨b1, b2, h3, h4, rfl⟩ := ht
  have e1 : (a ++ b).head? = some a1 := by rw [List.head?_append, h1]; rfl
  have e2 : (a ++ b).getLast? = some b2 := by rw [List.getLast?_append, h4]; rfl
  exact ⟨_, between_ok ho e1 e2 (List.mem_append_right _ (List.mem_of_head? h3)), a1, b2, e1, e2, rfl⟩

mutual
theorem getSource_ok : ∀ {c : Cst}, Ready' q c → Ordered (leaves c) → ∃ s, Abs.getSource c = .ok s ∧ SpanOf (leaves c) s
  | .tok t, _, _ => ⟨_, by rw [Abs.getSource], t, t, rfl, rfl, rfl⟩
  | .node k cs, h, ho => by
    cases h with
    | node h1 h2 =>
      obtain ⟨a, x, h3, h4, h5⟩ := firstSource_ok h1.ne h2 ho
      obtain ⟨y, b, h6, h7, h8⟩ := lastSource_ok h1.ne h2 ho
      exact ⟨(a.start, b.stop), by rw [Abs.getSource, h5, h8]; exact between_ok ho h3 h7 h6, a, b, h3, h7, rfl⟩
  | .callAgg h m op b, hc, ho => by
    cases hc with
    | call h1 h2 h3 =>
      have ho2 := ho.sub (List.sublist_append_right (leaves h) (leavesL b))
      obtain ⟨s, e1, e2⟩ := getSource_ok h1 (ho.sub (List.sublist_append_left _ _))
      obtain ⟨a, x, f1, f2, f3⟩ := firstSource_ok h2.ne h3 ho2
      obtain ⟨y, z, f4, f5, f6⟩ := lastSource_ok h2.ne h3 ho2
      have e3 := between_ok (y := x) ho2 f1 f5 f4
      obtain ⟨u, e4, e5⟩ := hull_append ho e2 ⟨a, z, f1, f5, rfl⟩
      refine ⟨u, ?_, e5⟩
      rw [Abs.getSource, e1, f3, f6]
      show (Abs.between _ _ >>= _) = _
      rw [e3]
      exact e4
  | .call .., h, _ => by cases h
  | .box .., h, _ => by cases h
  | .code .., h, _ => by cases h
theorem firstSource_ok : ∀ {cs : List Cst}, cs ≠ [] → (∀ c ∈ cs, Ready' q c) → Ordered (leavesL cs) →
    ∃ a x, (leavesL cs).head? = some a ∧ x ∈ leavesL cs ∧ Abs.firstSource cs = .ok (a.start, Tok.stop x)
  | [], h, _, _ => absurd rfl h
  | c :: cs, _, h, ho => by
    obtain ⟨s, h1, a, b, h2, h3, rfl⟩ := getSource_ok (h c (by simp)) (ho.sub (leaves_sublist (by simp)))
    refine ⟨a, b, ?_, ?_, ?_⟩
    · simp only [leavesL, List.head?_append, h2]; rfl
    · exact mem_leavesL List.mem_cons_self _ (List.mem_of_getLast? h3)
    · rw [Abs.firstSource, h1]
theorem lastSource_ok : ∀ {cs : List Cst}, cs ≠ [] → (∀ c ∈ cs, Ready' q c) → Ordered (leavesL cs) →
    ∃ x b, x ∈ leavesL cs ∧ (leavesL cs).getLast? = some b ∧ Abs.lastSource cs = .ok (Tok.start x, b.stop)
  | [], h, _, _ => absurd rfl h
  | [c], _, h, ho => by
    obtain ⟨s, h1, a, b, h2, h3, rfl⟩ := getSource_ok (h c (by simp)) (ho.sub (leaves_sublist (by simp)))
    refine ⟨a, b, ?_, ?_, ?_⟩
    · exact mem_leavesL List.mem_cons_self _ (List.mem_of_head? h2)
    · simp only [leavesL, List.append_nil, h3]
    · rw [Abs.lastSource, h1]
  | c :: d :: cs, _, h, ho => by
    obtain ⟨x, b, h1, h2, h3⟩ := lastSource_ok (cs := d :: cs) (by simp) (fun c hc => h c (by simp [hc]))
      (ho.sub (by simp only [leavesL]; exact List.sublist_append_right _ _))
    refine ⟨x, b, ?_, ?_, ?_⟩
    · rw [leavesL]; exact List.mem_append_right _ h1
    · rw [leavesL, List.getLast?_append, h2]; rfl
    · rw [Abs.lastSource, h3]
end

theorem seqSource_ok (h0 : cs ≠ []) (h : ∀ c ∈ cs, Ready' q c) (ho : Ordered (leavesL cs)) :
    ∃ s, Abs.seqSource cs = .ok s ∧ SpanOf (leavesL cs) s := by
  obtain ⟨a, x, h3, h4, h5⟩ := firstSource_ok h0 h ho
  obtain ⟨y, b, h6, h7, h8⟩ := lastSource_ok h0 h ho
  exact ⟨(a.start, b.stop), by rw [Abs.seqSource, h5, h8]; exact between_ok ho h3 h7 h6, a, b, h3, h7, rfl⟩

end
end CodeParser
