import Verif.Spec.Grouping
import Verif.Props.Parser
/-!
Property C31: operators are grouped according to their precedence and associativity.
-/
namespace CodeParser.Props
open CodeParser Spec Cst

theorem keeps_iff {q p : Nat} : keeps q p ↔ TighterOrLeft q p := by
  unfold keeps TighterOrLeft
  have h1 : (q ||| 1) / 2 = q / 2 := by simp [Nat.or_div_two]
  have h2 : (q ||| 1) % 2 = 1 := by simp [Nat.or_mod_two_eq_one]
  omega

theorem not_keeps_iff {q p : Nat} : ¬ keeps p q ↔ TighterOrRight q p := by
  rw [keeps_iff]
  unfold TighterOrLeft TighterOrRight
  omega

theorem keeps_trans {a b c : Nat} (h : keeps a b) (h' : keeps b c) : keeps a c := by
  rw [keeps_iff] at *
  unfold TighterOrLeft at *
  omega

theorem not_keeps_trans {a b c : Nat} (h : ¬ keeps a b) (h' : ¬ keeps b c) : ¬ keeps a c := by
  rw [not_keeps_iff] at *
  unfold TighterOrRight at *
  omega

variable {ρ : GroupOp → List Cst → Prop}

theorem chainPrec_opPrec {k : TK} {p : Nat} (h : chainPrec k = some p) : opPrec k = some p := by
  unfold chainPrec at h
  unfold opPrec
  split at h <;> simp_all

theorem chainPrec_trivia {k : TK} {p : Nat} (h : chainPrec k = some p) : k.isTrivia = false := by
  refine infix_trivia ?_
  unfold chainPrec at h
  split at h <;> simp_all

theorem atom_kinds {t : Tok} (h : Atom (.tok t)) : chainPrec t.kind = none ∧ t.kind.isError = false ∧ invented t.kind = false ∧
    t.kind ≠ .LongName_DifferentialD ∧ t.kind ≠ .LongName_CapitalDifferentialD := by
  rcases h with h | h | h | h | h <;> rw [h] <;> decide

theorem opens_kinds : ∀ k : TK, isOpener k = true →
    k ≠ .Fake_ImplicitOne ∧ k ≠ .LongName_DifferentialD ∧ k ≠ .LongName_CapitalDifferentialD :=
  forall_of_all (by decide +kernel)

theorem closer_kinds : ∀ k : TK, k.isCloser = true → k.isError = false ∧ invented k = false :=
  forall_of_all (by decide +kernel)

theorem opener_of {k : TK} {op : GroupOp} (h : Opens k op) : isOpener k = true := by
  unfold isOpener
  rcases h with h | h <;> simp [h]

/-- What is needed of the first token of an operand. -/
def FirstOK (c : Cst) : Prop := ∃ t, Spec.first c = some t ∧ t.kind ≠ .Fake_ImplicitOne ∧
  t.kind ≠ .LongName_DifferentialD ∧ t.kind ≠ .LongName_CapitalDifferentialD

/-- `Row p cs x`: operands separated by operators of precedence `p`, the last operand being `x`. -/
inductive Row (p : Nat) : List Cst → Cst → Prop
  | one {l} : Flat l → Operand l → Row p [l] l
  | more {cs x ts o us r} : Row p cs x → Tr ts → Tr us → chainPrec o.kind = some p → Flat r → Operand r →
      Yields x ts (leftPrec o r) → Holds p r → Row p (cs ++ (tt ts ++ .tok o :: (tt us ++ [r]))) r

theorem Row.proper {p : Nat} {cs ts us : List _} {o : Tok} {r : Cst} (h1 : Tr ts) (h2 : Tr us)
    (h3 : chainPrec o.kind = some p) (h4 : Operand r) :
    proper (cs ++ (tt ts ++ .tok o :: (tt us ++ [r]))) = proper cs ++ [.tok o, r] := by
  rw [proper_append, proper_tt_append h1, proper_tok_cons (chainPrec_trivia h3), proper_tt_append h2, proper_operand h4]

theorem Row.odd {p : Nat} {cs : List Cst} {x : Cst} (h : Row p cs x) : (Spec.proper cs).length % 2 = 1 := by
  induction h with
  | one h1 h2 => rw [proper_operand h2]; rfl
  | more _ h1 h2 h3 _ h4 _ _ ih => rw [Row.proper h1 h2 h3 h4]; simp; omega

theorem Row.last {p : Nat} {cs : List Cst} {x : Cst} (h : Row p cs x) : cs.getLast? = some x ∧ Flat x ∧ OperandOf cs x := by
  cases h with
  | one h1 h2 => exact ⟨rfl, h1, [], [], proper_operand h2, rfl⟩
  | @more cs x ts o us r h0 h1 h2 h3 h5 h4 _ _ =>
    refine ⟨by simp [List.getLast?_append, List.getLast?_cons], h5, Spec.proper cs ++ [.tok o], [], by rw [Row.proper h1 h2 h3 h4]; simp, ?_⟩
    have := Row.odd h0
    simp; omega

theorem Row.first {p : Nat} {cs : List Cst} {x : Cst} (h : Row p cs x) : ∃ l rest, cs = l :: rest ∧ Flat l ∧ OperandOf cs l := by
  induction h with
  | @one l h1 h2 => exact ⟨l, [], rfl, h1, [], [], proper_operand h2, rfl⟩
  | more _ h1 h2 h3 _ h4 _ _ ih =>
    obtain ⟨l, rest, rfl, hl, a, b, h5, h6⟩ := ih
    exact ⟨l, _, rfl, hl, a, b ++ _, by rw [Row.proper h1 h2 h3 h4, h5, List.append_assoc]; rfl, h6⟩

theorem Row.head {p : Nat} {cs : List Cst} {x : Cst} (h : Row p cs x) {l : Cst} {rest : List Cst} (hc : cs = l :: rest) :
    Operand l := by
  induction h generalizing l rest with
  | one h1 h2 => cases hc; exact h2
  | @more cs x ts o us r hrow _ _ _ _ _ _ _ ih =>
    obtain ⟨l', rest', rfl, -⟩ := hrow.first
    cases hc
    exact ih rfl

/-- Operands and operators in a row. -/
theorem binary_row {op : BinaryOp} {cs : List Cst} {k : NodeKind} (hk : k = .binary op) (hc : chained k = true)
    (h : NodeOK ρ k cs) {p : Nat} (h1 : ∀ c, OperandOf cs c → Flat c) (h2 : ∀ c, OperatorOf cs c → IsOp p c) :
    ∃ x, Row p cs x ∧ 3 ≤ (Spec.proper cs).length := by
  subst hk
  cases h with
  | @binary l ts o us r op q a1 a2 a3 a4 a5 a6 a7 =>
    have hp : Spec.proper (l :: (tt ts ++ .tok o :: (tt us ++ [r]))) = [l, .tok o, r] := by
      rw [proper_operand_cons a2, proper_tt_append a3, proper_tok_cons (binaryOf_trivia a1), proper_tt_append a4, proper_operand a5]
    obtain ⟨_, ht, h3⟩ := h2 (.tok o) ⟨[l], [r], hp, rfl⟩
    cases ht
    have hq : q = p := by
      cases a1 <;> simp_all [chainPrec, chained]
    subst hq
    have hl : leftPrec o r = opPrec o.kind := by
      unfold leftPrec
      rw [if_neg]
      intro hk
      rw [hk] at a1
      have hn : TK.infixParselet .Fake_ImplicitTimes = .times := rfl
      cases a1 <;> simp_all
    exact ⟨r, .more (cs := [l]) (.one (h1 l ⟨[], _, hp, rfl⟩) a2) a3 a4 h3 (h1 r ⟨[l, .tok o], [], by rw [hp]; rfl, by simp⟩) a5 (by rw [hl]; exact a6) a7,
      by rw [hp]; exact Nat.le_refl 3⟩
  | unset => simp [chained] at hc
  | put h => cases h <;> simp [chained] at hc

theorem chain_row {op : InfixOp} {q p : Nat} {cs : List Cst} {x : Cst} (h : Chain op q cs x) (hq : q = p)
    (h1 : ∀ c, OperandOf cs c → Flat c) (h2 : ∀ c, OperatorOf cs c → IsOp p c) : Row p cs x := by
  subst hq
  induction h with
  | one h => exact .one (h1 _ ⟨[], [], proper_operand h, rfl⟩) h
  | @more cs x ts o us r hch a1 a2 a3 a4 a5 a6 ih =>
    have hp : Spec.proper (cs ++ (tt ts ++ .tok o :: (tt us ++ [r]))) = Spec.proper cs ++ [.tok o, r] := by
      rw [proper_append, proper_tt_append a2, proper_tok_cons (infixOf_trivia a1), proper_tt_append a3, proper_operand a4]
    have ih := ih
      (fun c ⟨a, b, e, ho⟩ => h1 c ⟨a, b ++ [.tok o, r], by rw [hp, e]; simp, ho⟩)
      (fun c ⟨a, b, e, ho⟩ => h2 c ⟨a, b ++ [.tok o, r], by rw [hp, e]; simp, ho⟩)
    have hodd := ih.odd
    obtain ⟨_, ht, h3⟩ := h2 (.tok o) ⟨Spec.proper cs, [r], hp, hodd⟩
    cases ht
    exact .more ih a2 a3 h3 (h1 r ⟨Spec.proper cs ++ [.tok o], [], by rw [hp]; simp, by simp; omega⟩) a4 a5 a6

theorem chain_first {op : InfixOp} {q : Nat} {l x : Cst} {rest : List Cst} (h : Chain op q (l :: rest) x) : Operand l := by
  generalize hc : l :: rest = cs at h
  induction h generalizing l rest with
  | one h => cases hc; exact h
  | @more cs x ts o us r hch a1 a2 a3 a4 a5 a6 ih =>
    cases cs with
    | nil => exact absurd rfl (CodeParser.Chain.ne hch)
    | cons d ds =>
      cases hc
      exact ih rfl

theorem node_row {k : NodeKind} {cs : List Cst} (hc : chained k = true)
    (h : NodeOK ρ k cs) {p : Nat} (h1 : ∀ c, OperandOf cs c → Flat c) (h2 : ∀ c, OperatorOf cs c → IsOp p c) :
    ∃ x, Row p cs x ∧ 3 ≤ (Spec.proper cs).length := by
  cases k with
  | binary op => exact binary_row rfl hc h h1 h2
  | «infix» op =>
    cases h with
    | @«infix» cs x op q a1 a2 =>
      obtain ⟨l, rest, o, rfl, ho, hp⟩ := a2
      obtain ⟨hl, b, hb⟩ : Operand l ∧ ∃ b, Spec.proper rest = .tok o :: b := by
        refine ⟨chain_first a1, ?_⟩
        unfold opAfter at ho
        split at ho
        · next o' hf =>
          cases ho
          unfold Spec.proper
          rw [← List.head?_filter] at hf
          cases hr : rest.filter fun c => !c.isTrivia with
          | nil => rw [hr] at hf; cases hf
          | cons d b => rw [hr] at hf; cases hf; exact ⟨b, rfl⟩
        · cases ho
      have hpr : Spec.proper (l :: rest) = l :: .tok o :: b := by rw [proper_operand_cons hl, hb]
      obtain ⟨_, ht, h3⟩ := h2 (.tok o) ⟨[l], b, hpr, rfl⟩
      cases ht
      have hq : q = p := by
        have := chainPrec_opPrec h3
        rw [this] at hp
        exact (Option.some.inj hp).symm
      have hr := chain_row a1 hq h1 h2
      refine ⟨x, hr, ?_⟩
      have := hr.odd
      rw [hpr] at this ⊢
      simp only [List.length_cons] at this ⊢
      omega
  | _ => cases hc

/-- Every tree in `n` looks as it should. -/
def All (ρ : GroupOp → List Cst → Prop) (n : Cst) : Prop := ∀ m, Sub m n → Looks ρ m

theorem All.child {k : NodeKind} {cs : List Cst} {c : Cst} (h : All ρ (.node k cs)) (hc : c ∈ cs) : All ρ c :=
  fun m hm => h m (.node hc hm)

theorem operand_mem {cs : List Cst} {c : Cst} (h : OperandOf cs c) : c ∈ cs := by
  obtain ⟨a, b, h, -⟩ := h
  have : c ∈ Spec.proper cs := by rw [h]; simp
  exact (List.mem_filter.mp this).1

theorem endsL_last : ∀ {cs : List Cst} {x : Cst}, cs.getLast? = some x → endsL cs = ends x
  | [], _, h => by cases h
  | [c], _, h => by cases h; rfl
  | _ :: c :: cs, x, h => by
    rw [List.getLast?_cons_cons] at h
    rw [endsL, endsL_last h]

theorem tailsL_last : ∀ {cs : List Cst} {x : Cst}, cs.getLast? = some x → tailsL cs = tails x
  | [], _, h => by cases h
  | [c], _, h => by cases h; rfl
  | _ :: c :: cs, x, h => by
    rw [List.getLast?_cons_cons] at h
    rw [tailsL, tailsL_last h]

/-- A chain ends properly, and starts with a token of an atom. -/
theorem flat_edges {n : Cst} (hf : Flat n) (ha : All ρ n) : ends n = true ∧ FirstOK n := by
  induction hf with
  | @atom c h =>
    have hl := ha c .refl
    cases c with
    | tok t =>
      obtain ⟨-, h1, h2, h3, h4⟩ := atom_kinds h
      refine ⟨by simp [ends, h1, h2], t, rfl, ?_, h3, h4⟩
      rintro h; rw [h] at h2; cases h2
    | node k cs =>
      cases k with
      | group op =>
        cases hl with
        | group hg =>
          obtain ⟨o, mid, c, rfl, h1, -, h2, -⟩ := hg
          refine ⟨?_, o, rfl, opens_kinds _ (opener_of h1)⟩
          have := closer_kinds _ h2
          rw [ends, endsL_last (x := .tok c) (by simp [List.getLast?_cons])]
          · simp [ends, this]
          · intro op' h'; cases h'
          · intro h'; cases h'
      | _ => cases h
    | call hd m op body =>
      cases hl with
      | @group l ts _ _ _ a1 a2 a3 a4 a5 =>
        cases l with
        | tok t =>
          have h : t.kind = .Symbol := h
          exact ⟨rfl, t, rfl, by rw [h]; decide, by rw [h]; decide, by rw [h]; decide⟩
        | _ => cases h
      | missing a1 a2 a3 a4 a5 =>
        exfalso
        revert h
        simp only [Atom]
        exact id
    | _ => cases h
  | @node k cs p hc h1 h2 ih =>
    obtain ⟨x, hr, -⟩ := node_row (ρ := ρ) hc (ha _ .refl) h1 h2
    obtain ⟨hx1, -, hx2⟩ := hr.last
    obtain ⟨l, rest, rfl, -, hl⟩ := hr.first
    refine ⟨?_, ?_⟩
    · have := (ih x hx2 (ha.child (operand_mem hx2))).1
      rw [ends, endsL_last hx1, this]
      all_goals (intros; subst_vars; simp_all [chained])
    · obtain ⟨t, ht, h⟩ := (ih l hl (ha.child (operand_mem hl))).2
      exact ⟨t, ht, h⟩

theorem split_cases {A B pre post : List Cst} {c : Cst} (h : A ++ B = pre ++ c :: post) :
    (∃ m, A = pre ++ c :: m ∧ post = m ++ B) ∨ ∃ m, pre = A ++ m ∧ B = m ++ c :: post := by
  rcases List.append_eq_append_iff.mp h with ⟨m, h1, h2⟩ | ⟨m, h1, h2⟩
  · exact Or.inr ⟨m, h1, h2⟩
  · cases m with
    | nil =>
      right
      exact ⟨[], by simpa using h1.symm, by simpa using h2.symm⟩
    | cons d m =>
      cases h2
      exact Or.inl ⟨m, h1, rfl⟩

/-- What is to be shown about the operators of a chain. -/
structure Bounds (n : Cst) : Prop where
  right : ∀ p, Holds p n → ∀ q, Oper q n → ¬ keeps p q
  left : ∀ p, (∀ t ∈ tails n, keeps t p) → ∀ q, Oper q n → keeps q p

theorem yields_tails {x : Cst} {ts : List Tok} {o : Tok} {r : Cst} {p : Nat} (h : Yields x ts (leftPrec o r))
    (hn : ∀ t ∈ ts, t.kind ≠ .ToplevelNewline) (he : ends x = true) (hr : FirstOK r) (hp : chainPrec o.kind = some p) :
    ∀ q ∈ tails x, keeps q p := by
  have hlp : leftPrec o r = some p := by
    have h1 := chainPrec_opPrec hp
    unfold leftPrec
    split
    · next hk =>
      obtain ⟨t, h2, h3, h4, h5⟩ := hr
      rw [h2]
      simp only
      have : some Prec.STAR = some p := by rw [← h1, hk]; rfl
      exact this
    · exact h1
  rw [hlp] at h
  rcases h with ⟨t, h1, h2⟩ | h | h
  · exact absurd h2 (hn t h1)
  · rw [he] at h; cases h
  · exact h p rfl

theorem oper_tok {q : Nat} {t : Tok} (h : Oper q (.tok t)) : False := by cases h

/-- The operators in the operands of a row. -/
theorem row_bounds {p : Nat} {cs : List Cst} {x : Cst} (h : Row p cs x) (hb : ∀ c, OperandOf cs c → Bounds c)
    (he : ∀ c, OperandOf cs c → ends c = true ∧ FirstOK c) (hn : ∀ t, .tok t ∈ cs → t.kind ≠ .ToplevelNewline) :
    ∀ pre c post, cs = pre ++ c :: post → ∀ q, Oper q c → (post ≠ [] → keeps q p) ∧ (pre ≠ [] → ¬ keeps p q) := by
  induction h with
  | @one l h1 h2 =>
    intro pre c post h q _
    cases pre with
    | nil => cases h; exact ⟨fun h => absurd rfl h, fun h => absurd rfl h⟩
    | cons a pre => have := congrArg List.length h; simp at this
  | @more cs x ts o us r hrow h1 h2 h3 h4 h5 h6 h7 ih =>
    intro pre c post h q hq
    have hin : ∀ c ∈ cs, c ∈ cs ++ (tt ts ++ .tok o :: (tt us ++ [r])) := fun c hc => List.mem_append_left _ hc
    have hr := (Row.more hrow h1 h2 h3 h4 h5 h6 h7).last.2.2
    have hop : ∀ c, OperandOf cs c → OperandOf (cs ++ (tt ts ++ .tok o :: (tt us ++ [r]))) c := by
      rintro c ⟨a, b, e, ho⟩
      exact ⟨a, b ++ [.tok o, r], by rw [Row.proper h1 h2 h3 h5, e]; simp, ho⟩
    have ih := ih (fun c hc => hb c (hop c hc)) (fun c hc => he c (hop c hc)) (fun t ht => hn t (hin _ ht))
    rcases split_cases h with ⟨m, hm, rfl⟩ | ⟨m, rfl, hm⟩
    · have := ih pre c m hm q hq
      refine ⟨fun _ => ?_, this.2⟩
      cases m with
      | cons d m => exact this.1 (by simp)
      | nil =>
        obtain ⟨hx, -, hox⟩ := hrow.last
        have hc : c = x := by
          rw [hm] at hx
          simpa using hx
        subst hc
        exact (hb c (hop c hox)).left p (yields_tails h6
          (fun t ht => hn t (by simp [tt, ht])) (he c (hop c hox)).1 (he r hr).2 h3) q hq
    · have hB : (tt ts ++ .tok o :: tt us) ++ [r] = m ++ c :: post := by rw [← hm]; simp
      rcases split_cases hB with ⟨m', h8, -⟩ | ⟨m', -, h8⟩
      · have hmem : c ∈ tt ts ++ .tok o :: tt us := by rw [h8]; simp
        simp only [tt, List.mem_append, List.mem_map, List.mem_cons] at hmem
        rcases hmem with ⟨t, -, rfl⟩ | rfl | ⟨t, -, rfl⟩ <;> cases hq
      · cases m' with
        | cons _ _ => have := congrArg List.length h8; simp at this
        | nil =>
          cases h8
          exact ⟨fun h => absurd rfl h, fun _ => (hb r hr).right p h7 q hq⟩

theorem proper_mem {cs : List Cst} {c : Cst} (h : c ∈ Spec.proper cs) : c ∈ cs := (List.mem_filter.mp h).1

theorem leaf_child {k : NodeKind} {cs : List Cst} {c : Cst} (hc : c ∈ cs) {t : Tok} (h : t ∈ leaves c) : t ∈ leaves (.node k cs) :=
  (leavesL_infix hc).subset h

theorem oper_cases {k : NodeKind} {cs : List Cst} {q : Nat} (h : Oper q (.node k cs)) :
    (∃ c, OperatorOf cs c ∧ IsOp q c) ∨ ∃ c ∈ cs, Oper q c := by
  cases h with
  | here _ h1 h2 => exact Or.inl ⟨_, h1, h2⟩
  | deeper _ h1 h2 => exact Or.inr ⟨_, operand_mem h1, h2⟩

theorem opAfter_proper {rest : List Cst} {o : Tok} {b : List Cst} (h : Spec.proper rest = .tok o :: b) : opAfter rest = some o := by
  unfold opAfter
  rw [← List.head?_filter]
  have : List.filter (fun c => !c.isTrivia) rest = .tok o :: b := h
  rw [this]
  rfl

theorem flat_heads {k : NodeKind} {cs : List Cst} {x : Cst} {p : Nat} (hc : chained k = true) (hr : Row p cs x)
    (hlen : 3 ≤ (Spec.proper cs).length) (h2 : ∀ c, OperatorOf cs c → IsOp p c) (hfl : ∀ l, OperandOf cs l → FirstOK l) :
    (∃ l rest, cs = l :: rest ∧ OperandOf cs l ∧ heads (.node k cs) = p :: heads l) ∧ tails (.node k cs) = p :: tails x := by
  have hlast := hr.last
  obtain ⟨l, rest, rfl, -, hl⟩ := hr.first
  have hlo := hr.head rfl
  rw [proper_operand_cons hlo] at hlen
  obtain ⟨c, b, hb⟩ : ∃ c b, Spec.proper rest = c :: b := by
    cases h : Spec.proper rest with
    | nil => rw [h] at hlen; simp at hlen
    | cons c b => exact ⟨c, b, rfl⟩
  obtain ⟨o, rfl, ho⟩ := h2 c ⟨[l], b, by rw [proper_operand_cons hlo, hb]; rfl, rfl⟩
  have hoa := opAfter_proper hb
  have hop := chainPrec_opPrec ho
  have hone : isImplicitOne l = false := by
    obtain ⟨t, ht, h, -⟩ := hfl l hl
    cases l with
    | tok t' => cases ht; simpa [isImplicitOne] using h
    | _ => rfl
  have hlp : lastPrec k (l :: rest) = some p := by
    cases k with
    | binary op => cases op <;> first | (cases hc; done) | simp [lastPrec, hoa, hop]
    | «infix» op =>
      have : op ≠ .MessageName := by rintro rfl; cases hc
      simp [lastPrec, hoa, hop, this]
    | _ => cases hc
  have hlo' : leftOpen k = true := by cases k <;> first | rfl | (cases hc; done)
  refine ⟨⟨l, rest, rfl, hl, ?_⟩, ?_⟩
  · rw [heads, hone, hlo', hoa]
    simp [hop]
  · rw [tails, hlp, tailsL_last hlast.1]

theorem op_prec {p q : Nat} {c : Cst} (h : IsOp p c) (h' : IsOp q c) : p = q := by
  obtain ⟨t, rfl, h⟩ := h
  obtain ⟨t', h1, h2⟩ := h'
  cases h1
  rw [h] at h2
  exact Option.some.inj h2

theorem atom_oper {c : Cst} {q : Nat} (h : Atom c) (h' : Oper q c) : False := by
  have key : ∀ {k : NodeKind} {cs : List Cst}, Atom (.node k cs) → chained k = true → False := by
    intro k cs h hc
    cases k <;> first | (cases hc; done) | cases h
  cases h' with
  | here hc => exact key h hc
  | deeper hc => exact key h hc

/-- The operators of a chain lie between those at its edges. -/
theorem flat_bounds {n : Cst} (hf : Flat n) (ha : All ρ n) (hn : ∀ t ∈ leaves n, t.kind ≠ .ToplevelNewline) : Bounds n := by
  induction hf with
  | @atom c h => exact ⟨fun p _ q hq => (atom_oper h hq).elim, fun p _ q hq => (atom_oper h hq).elim⟩
  | @node k cs p hc h1 h2 ih =>
    obtain ⟨x, hr, hlen⟩ := node_row (ρ := ρ) hc (ha _ .refl) h1 h2
    have hB : ∀ c, OperandOf cs c → Bounds c :=
      fun c hoc => ih c hoc (ha.child (operand_mem hoc)) (fun t ht => hn t (leaf_child (operand_mem hoc) ht))
    have hE : ∀ c, OperandOf cs c → ends c = true ∧ FirstOK c :=
      fun c hoc => flat_edges (h1 c hoc) (ha.child (operand_mem hoc))
    have hb := row_bounds hr hB hE (fun t ht => hn t (leaf_child ht (by simp [leaves])))
    obtain ⟨⟨l, rest, rfl, hlo, hh⟩, ht⟩ := flat_heads hc hr hlen h2 (fun l hl => (hE l hl).2)
    refine ⟨fun p' hp' q hq => ?_, fun p' hp' q hq => ?_⟩
    · have hpp : ¬ keeps p' p := hp' p (by rw [hh]; simp)
      rcases oper_cases hq with ⟨c, h3, h4⟩ | ⟨c, h3, h4⟩
      · rw [op_prec h4 (h2 c h3)]; exact hpp
      · obtain ⟨pre, post, e⟩ := List.append_of_mem h3
        cases pre with
        | nil =>
          cases e
          exact (hB l hlo).right p' (fun h hh' => hp' h (by rw [hh]; simp [hh'])) q h4
        | cons a pre => exact not_keeps_trans hpp ((hb _ c post e q h4).2 (by simp))
    · have hpp : keeps p p' := hp' p (by rw [ht]; simp)
      rcases oper_cases hq with ⟨c, h3, h4⟩ | ⟨c, h3, h4⟩
      · rw [op_prec h4 (h2 c h3)]; exact hpp
      · obtain ⟨pre, post, e⟩ := List.append_of_mem h3
        cases post with
        | nil =>
          have hx := hr.last
          have : c = x := by rw [e] at hx; simpa using hx.1
          subst this
          exact (hB c hx.2.2).left p' (fun t ht' => hp' t (by rw [ht]; simp [ht'])) q h4
        | cons a post => exact keeps_trans ((hb pre c _ e q h4).1 (by simp)) hpp

variable {cfg : Cfg} {conv : Conv} {first : FirstLine} {bs : List UInt8} {r : ParseResult}

theorem all_looks (h : parseBytesCst cfg conv first bs = .ok r) {n : Cst} (hn : In n r.syntax') : All Recovered n := by
  intro m hm
  obtain ⟨c, hc, hs⟩ := hn
  exact looks h ⟨c, hc, sub_trans hm hs⟩

/-- C31: in a chain of operators, the operators of a node are the loosest of its chain: all
operators in an operand that has something to its right are tighter than those of the node,
or the same and left associative, and all operators in an operand that has something to its
left are tighter than those of the node, or the same and right associative. -/
theorem C31_chain (h : parseBytesCst cfg conv first bs = .ok r) {k : NodeKind} {cs : List Cst} (hn : In (.node k cs) r.syntax')
    (hk : chained k = true) (hf : Flat (.node k cs)) (hnl : ∀ t ∈ leaves (.node k cs), t.kind ≠ .ToplevelNewline) :
    ∃ p, (∀ c, OperatorOf cs c → IsOp p c) ∧ (∃ c, OperatorOf cs c) ∧
      ∀ pre c post, cs = pre ++ c :: post → ∀ q, Oper q c →
        (post ≠ [] → TighterOrLeft q p) ∧ (pre ≠ [] → TighterOrRight q p) := by
  have ha := all_looks h hn
  cases hf with
  | atom h => exact (atom_oper (q := 0) h (by cases k <;> first | cases hk | cases h)).elim
  | @node k cs p hc h1 h2 =>
    obtain ⟨x, hr, hlen⟩ := node_row (ρ := Recovered) hc (ha _ .refl) h1 h2
    have hB : ∀ c, OperandOf cs c → Bounds c := fun c hoc => flat_bounds (h1 c hoc) (ha.child (operand_mem hoc))
      (fun t ht => hnl t (leaf_child (operand_mem hoc) ht))
    have hE : ∀ c, OperandOf cs c → ends c = true ∧ FirstOK c :=
      fun c hoc => flat_edges (h1 c hoc) (ha.child (operand_mem hoc))
    have hb := row_bounds hr hB hE (fun t ht => hnl t (leaf_child ht (by simp [leaves])))
    refine ⟨p, h2, ?_, ?_⟩
    · cases hp : Spec.proper cs with
      | nil => rw [hp] at hlen; simp at hlen
      | cons a b =>
        cases b with
        | nil => rw [hp] at hlen; simp at hlen
        | cons c b => exact ⟨c, [a], b, hp, rfl⟩
    · intro pre c post e q hq
      have := hb pre c post e q hq
      rw [keeps_iff, not_keeps_iff] at this
      exact this

/-- The node is a group. -/
def isGroup : NodeKind → Bool
  | .group _ => true
  | _ => false

/-- The tree is an operator of precedence `p`. -/
def isOpB (p : Option Nat) : Cst → Bool
  | .tok t => p.isSome && chainPrec t.kind == p
  | _ => false

mutual
/-- A test for chains, for the examples. -/
def flatB : Cst → Bool
  | .tok t => t.kind == .Symbol || t.kind == .String || t.kind == .Integer || t.kind == .Real || t.kind == .Rational
  | .node k cs => isGroup k || (chained k && rowB ((opAfter cs.tail).bind fun o => chainPrec o.kind) 0 cs)
  | _ => false
/-- The same for operands and operators of a precedence. -/
def rowB (p : Option Nat) : Nat → List Cst → Bool
  | _, [] => true
  | n, c :: cs =>
    if c.isTrivia then rowB p n cs
    else if n % 2 = 0 then flatB c && rowB p (n + 1) cs
    else isOpB p c && rowB p (n + 1) cs
end

mutual
theorem flatB_sound : ∀ {c : Cst}, flatB c = true → Flat c
  | .tok t, h => .atom (by simpa [flatB, Atom, or_assoc] using h)
  | .node k cs, h => by
    rw [flatB] at h
    cases hk : isGroup k with
    | true =>
      refine .atom ?_
      cases k <;> first | trivial | cases hk
    | false =>
      rw [hk] at h
      simp only [Bool.false_or, Bool.and_eq_true] at h
      have hs := rowB_sound h.2
      cases hp : (opAfter cs.tail).bind fun o => chainPrec o.kind with
      | none =>
        rw [hp] at hs
        refine .node (p := 0) h.1 (fun c ⟨a, b, e, ho⟩ => (hs a c b e).1 (by omega)) (fun c ⟨a, b, e, ho⟩ => ?_)
        obtain ⟨p, hp', -⟩ := (hs a c b e).2 (by omega)
        cases hp'
      | some p =>
        rw [hp] at hs
        refine .node (p := p) h.1 (fun c ⟨a, b, e, ho⟩ => (hs a c b e).1 (by omega)) (fun c ⟨a, b, e, ho⟩ => ?_)
        obtain ⟨p', hp', h'⟩ := (hs a c b e).2 (by omega)
        cases hp'
        exact h'
  | .call .., h => by simp [flatB] at h
  | .callAgg .., h => by simp [flatB] at h
  | .box .., h => by simp [flatB] at h
  | .code .., h => by simp [flatB] at h

theorem rowB_sound {p : Option Nat} : ∀ {cs : List Cst} {n : Nat}, rowB p n cs = true → ∀ a c b, Spec.proper cs = a ++ c :: b →
    ((a.length + n) % 2 = 0 → Flat c) ∧ ((a.length + n) % 2 = 1 → ∃ p', p = some p' ∧ IsOp p' c)
  | [], _, _, a, c, b, e => by simp [Spec.proper] at e
  | d :: cs, n, h, a, c, b, e => by
    rw [rowB] at h
    split at h
    · next ht =>
      have : Spec.proper (d :: cs) = Spec.proper cs := by simp [Spec.proper, ht]
      rw [this] at e
      exact rowB_sound h a c b e
    · next ht =>
      have hd : Spec.proper (d :: cs) = d :: Spec.proper cs := by simp [Spec.proper, ht]
      rw [hd] at e
      split at h
      · next hn =>
        simp only [Bool.and_eq_true] at h
        cases a with
        | nil =>
          cases e
          exact ⟨fun _ => flatB_sound h.1, fun h' => by simp only [List.length_nil] at h'; omega⟩
        | cons x a =>
          have := rowB_sound h.2 a c b (List.cons.inj e).2
          have hl : (x :: a).length + n = a.length + (n + 1) := by simp only [List.length_cons]; omega
          rw [hl]
          exact this
      · next hn =>
        simp only [Bool.and_eq_true] at h
        cases a with
        | nil =>
          cases e
          refine ⟨fun h' => by simp only [List.length_nil] at h'; omega, fun _ => ?_⟩
          have h1 := h.1
          cases d with
          | tok t =>
            simp only [isOpB, Bool.and_eq_true, beq_iff_eq] at h1
            obtain ⟨p', hp⟩ := Option.isSome_iff_exists.mp h1.1
            exact ⟨p', hp, t, rfl, by rw [h1.2, hp]⟩
          | _ => cases h1
        | cons x a =>
          have := rowB_sound h.2 a c b (List.cons.inj e).2
          have hl : (x :: a).length + n = a.length + (n + 1) := by simp only [List.length_cons]; omega
          rw [hl]
          exact this
end

/-- `a - b*c^d^e + (f = g)/h/i == 2`: a chain. -/
def chain : List UInt8 := bytes
  ['a',' ','-',' ','b','*','c','^','d','^','e',' ','+',' ','(','f',' ','=',' ','g',')','/','h','/','i',' ','=','=',' ','2']

/-- The chain meets the hypotheses of `C31_chain`, and its outermost operator is `==`. -/
theorem chain_example : ∃ (r : ParseResult) (cs : List Cst), parseBytesCst Cfg.default .lineColumn .notScript chain = .ok r ∧
    In (.node (.infix .CodeParser_InfixInequality) cs) r.syntax' ∧ Flat (.node (.infix .CodeParser_InfixInequality) cs) ∧
    ∀ t ∈ leaves (.node (.infix .CodeParser_InfixInequality) cs), t.kind ≠ .ToplevelNewline := by
  obtain ⟨r, h1, h2⟩ := of_parses (first := .notScript) (bs := chain)
    (p := fun r => match r.syntax' with
      | [.node (.infix .CodeParser_InfixInequality) cs] => flatB (.node (.infix .CodeParser_InfixInequality) cs) &&
        (leaves (.node (.infix .CodeParser_InfixInequality) cs)).all fun t => t.kind != .ToplevelNewline
      | _ => false) (by decide +kernel)
  split at h2
  · next cs heq =>
    simp only [Bool.and_eq_true] at h2
    refine ⟨r, cs, h1, ⟨_, by rw [heq]; exact List.mem_cons_self, .refl⟩, flatB_sound h2.1, fun t ht => ?_⟩
    simpa using List.all_eq_true.mp h2.2 t ht
  · cases h2

/-! The tree of a chain of binary operators is determined by its tokens. -/

theorem bin_operand {c : Cst} (h : Bin c) : Operand c := by
  cases h with
  | atom h => rcases h with h | h | h | h | h <;> simp [Operand, h] <;> decide
  | node => trivial

theorem bin_proper {l r : Cst} {ts us : List Tok} {o : Tok} (hl : Bin l) (hr : Bin r) (h1 : Tr ts) (h2 : Tr us)
    (ho : (chainPrec o.kind).isSome = true) : Spec.proper (l :: (tt ts ++ .tok o :: (tt us ++ [r]))) = [l, .tok o, r] := by
  obtain ⟨p, hp⟩ := Option.isSome_iff_exists.mp ho
  rw [proper_operand_cons (bin_operand hl), proper_tt_append h1, proper_tok_cons (chainPrec_trivia hp), proper_tt_append h2,
    proper_operand (bin_operand hr)]

theorem bin_flat {c : Cst} (h : Bin c) : Flat c := by
  induction h with
  | atom h => exact .atom h
  | @node op l ts o us r h1 h2 h3 h4 h5 h6 ih1 ih2 =>
    obtain ⟨p, hp⟩ := Option.isSome_iff_exists.mp h4
    have hpr := bin_proper h5 h6 h2 h3 h4
    refine .node (p := p) h1 ?_ ?_
    · rintro c ⟨a, b, e, ho⟩
      rw [hpr] at e
      match a, e with
      | [], e => cases e; exact ih1
      | [_], e => simp at ho
      | [_, _], e => cases e; exact ih2
      | _ :: _ :: _ :: a, e => have := congrArg List.length e; simp at this
    · rintro c ⟨a, b, e, ho⟩
      rw [hpr] at e
      match a, e with
      | [], e => simp at ho
      | [_], e => cases e; exact ⟨o, rfl, hp⟩
      | [_, _], e => simp at ho
      | _ :: _ :: _ :: a, e => have := congrArg List.length e; simp at this

theorem leavesL_tt (ts : List Tok) (cs : List Cst) : leavesL (tt ts ++ cs) = ts ++ leavesL cs := by
  induction ts with
  | nil => rfl
  | cons t ts ih => simp only [tt, List.map_cons, List.cons_append, leavesL, leaves] at ih ⊢; rw [ih]; rfl

theorem bin_leaves {k : NodeKind} {l r : Cst} {ts us : List Tok} {o : Tok} :
    leaves (.node k (l :: (tt ts ++ .tok o :: (tt us ++ [r])))) = leaves l ++ (ts ++ o :: (us ++ leaves r)) := by
  simp only [leaves, leavesL, leavesL_tt, List.append_nil, List.singleton_append]

/-- What the leaves of a chain are. -/
theorem bin_leaf {c : Cst} (h : Bin c) : ∀ t ∈ leaves c, Atom (.tok t) ∨ t.kind.isTrivia = true ∨
    ∃ p, chainPrec t.kind = some p ∧ Oper p c := by
  induction h with
  | atom h => intro t ht; cases List.mem_singleton.mp ht; exact Or.inl h
  | @node op l ts o us r h1 h2 h3 h4 h5 h6 ih1 ih2 =>
    obtain ⟨p, hp⟩ := Option.isSome_iff_exists.mp h4
    have hpr := bin_proper h5 h6 h2 h3 h4
    intro t ht
    rw [bin_leaves] at ht
    simp only [List.mem_append, List.mem_cons] at ht
    rcases ht with ht | ht | rfl | ht | ht
    · rcases ih1 t ht with h | h | ⟨p, h, h'⟩
      · exact Or.inl h
      · exact Or.inr (Or.inl h)
      · exact Or.inr (Or.inr ⟨p, h, .deeper h1 ⟨[], _, hpr, rfl⟩ h'⟩)
    · exact Or.inr (Or.inl (h2 t ht))
    · exact Or.inr (Or.inr ⟨p, hp, .here h1 ⟨[l], _, hpr, rfl⟩ ⟨t, rfl, hp⟩⟩)
    · exact Or.inr (Or.inl (h3 t ht))
    · rcases ih2 t ht with h | h | ⟨p, h, h'⟩
      · exact Or.inl h
      · exact Or.inr (Or.inl h)
      · exact Or.inr (Or.inr ⟨p, h, .deeper h1 ⟨[l, .tok o], [], hpr, by simp⟩ h'⟩)

theorem bin_ends {c : Cst} (h : Bin c) : (∃ t ts, leaves c = t :: ts ∧ Atom (.tok t)) ∧
    ∃ t ts, leaves c = ts ++ [t] ∧ Atom (.tok t) := by
  induction h with
  | @atom t h => exact ⟨⟨t, [], rfl, h⟩, t, [], rfl, h⟩
  | node h1 h2 h3 h4 h5 h6 ih1 ih2 =>
    rw [bin_leaves]
    obtain ⟨⟨t, ts, h, ha⟩, -⟩ := ih1
    obtain ⟨-, ⟨t', ts', h', ha'⟩⟩ := ih2
    exact ⟨⟨t, _, by rw [h]; rfl, ha⟩, t', _, by rw [h']; simp only [← List.append_assoc, ← List.cons_append]; rfl, ha'⟩

theorem atom_trivia {t : Tok} (h : Atom (.tok t)) : t.kind.isTrivia = false := by
  rcases h with h | h | h | h | h <;> rw [h] <;> decide

/-- Trivia up to the first other token. -/
theorem trivia_split : ∀ {ts ts' : List Tok} {o o' : Tok} {a b : List Tok}, Tr ts → Tr ts' → o.kind.isTrivia = false →
    o'.kind.isTrivia = false → ts ++ o :: a = ts' ++ o' :: b → ts = ts' ∧ o = o' ∧ a = b
  | [], [], _, _, _, _, _, _, _, _, e => by cases e; exact ⟨rfl, rfl, rfl⟩
  | [], t :: ts', _, _, _, _, _, h, h1, _, e => by
    cases e
    have := h t List.mem_cons_self
    rw [this] at h1; cases h1
  | t :: ts, [], _, _, _, _, h, _, _, h1, e => by
    cases e
    have := h t List.mem_cons_self
    rw [this] at h1; cases h1
  | t :: ts, t' :: ts', _, _, _, _, h, h', h1, h2, e => by
    cases (List.cons.inj e).1
    obtain ⟨rfl, h3⟩ := trivia_split (fun x hx => h x (List.mem_cons_of_mem _ hx)) (fun x hx => h' x (List.mem_cons_of_mem _ hx))
      h1 h2 (List.cons.inj e).2
    exact ⟨rfl, h3⟩

/-- The bounds of the operands of a binary node. -/
theorem bin_bounds {op : BinaryOp} {l r : Cst} {ts us : List Tok} {o : Tok} {p : Nat} (hc : chained (.binary op) = true)
    (h2 : Tr ts) (h3 : Tr us) (hp : chainPrec o.kind = some p) (h5 : Bin l) (h6 : Bin r)
    (ha : All ρ (.node (.binary op) (l :: (tt ts ++ .tok o :: (tt us ++ [r])))))
    (hn : ∀ t ∈ leaves (.node (.binary op) (l :: (tt ts ++ .tok o :: (tt us ++ [r])))), t.kind ≠ .ToplevelNewline) :
    (∀ q, Oper q l → keeps q p) ∧ ∀ q, Oper q r → ¬ keeps p q := by
  have hf := bin_flat (.node hc h2 h3 (by rw [hp]; rfl) h5 h6)
  cases hf with
  | atom h => exact (atom_oper (q := 0) h (by cases h)).elim
  | @node k cs p' hc h1 h2' =>
    have hpp : p' = p := by
      refine op_prec (h2' (.tok o) ⟨[l], [r], bin_proper h5 h6 h2 h3 (by rw [hp]; rfl), rfl⟩) ⟨o, rfl, hp⟩
    subst hpp
    obtain ⟨x, hr, hlen⟩ := node_row (ρ := ρ) hc (ha _ .refl) h1 h2'
    have hb := row_bounds hr
      (fun c hoc => flat_bounds (h1 c hoc) (ha.child (operand_mem hoc)) (fun t ht => hn t (leaf_child (operand_mem hoc) ht)))
      (fun c hoc => flat_edges (h1 c hoc) (ha.child (operand_mem hoc)))
      (fun t ht => hn t (leaf_child ht (by simp [leaves])))
    exact ⟨fun q hq => (hb [] l _ rfl q hq).1 (by simp),
      fun q hq => (hb (l :: (tt ts ++ .tok o :: tt us)) r [] (by simp) q hq).2 (by simp)⟩

/-- An operator that lies in the left operand of another operator does not have the other
one in its right operand. -/
theorem bin_prefix {l l' r r' : Cst} {ts us us' ts' : List Tok} {o o' : Tok} {p p' : Nat} {a : List Tok} (hl' : Bin l') (hr : Bin r)
    (h2 : Tr ts) (h3 : Tr us) (hp : chainPrec o.kind = some p) (hp' : chainPrec o'.kind = some p')
    (hb : ∀ q, Oper q r → ¬ keeps p q) (hb' : ∀ q, Oper q l' → keeps q p')
    (e1 : leaves l' = leaves l ++ a) (e2 : ts ++ o :: (us ++ leaves r) = a ++ (ts' ++ o' :: (us' ++ leaves r'))) : a = [] := by
  by_contra hne
  obtain ⟨-, t, x, hx, hta⟩ := bin_ends hl'
  obtain ⟨y, rfl⟩ : ∃ y, a = y ++ [t] := by
    rw [e1] at hx
    obtain ⟨y, z, rfl⟩ : ∃ y z, a = y ++ [z] := ⟨a.dropLast, a.getLast hne, (List.dropLast_append_getLast hne).symm⟩
    rw [← List.append_assoc] at hx
    have := (List.append_inj' hx rfl).2
    cases this
    exact ⟨y, rfl⟩
  have hno : ∀ {t : Tok} {p : Nat}, chainPrec t.kind = some p → Atom (.tok t) → False := by
    intro t p h ha
    rw [(atom_kinds ha).1] at h; cases h
  have hot := chainPrec_trivia hp
  have hot' := chainPrec_trivia hp'
  rw [List.append_assoc] at e2
  rcases List.append_eq_append_iff.mp e2 with ⟨z, h4, h5⟩ | ⟨z, h4, h5⟩
  · -- `o` lies in `a`
    cases z with
    | nil =>
      have := (List.cons.inj h5).1
      subst this
      exact hno hp hta
    | cons d z =>
      obtain ⟨rfl, h8⟩ := List.cons.inj h5
      have hol : o ∈ leaves l' := by rw [e1, h4]; simp
      obtain ⟨q, h6, h7⟩ : ∃ q, chainPrec o.kind = some q ∧ Oper q l' := by
        rcases bin_leaf hl' o hol with h | h | h
        · exact (hno hp h).elim
        · rw [hot] at h; cases h
        · exact h
      rw [hp] at h6; cases h6
      have ho'r : o' ∈ us ++ leaves r := by rw [h8]; simp
      obtain ⟨q, h8, h9⟩ : ∃ q, chainPrec o'.kind = some q ∧ Oper q r := by
        rcases List.mem_append.mp ho'r with h | h
        · have := h3 o' h; rw [hot'] at this; cases this
        · rcases bin_leaf hr o' h with h | h | h
          · exact (hno hp' h).elim
          · rw [hot'] at h; cases h
          · exact h
      rw [hp'] at h8; cases h8
      exact hb _ h9 (hb' _ h7)
  · -- `a` ends in trivia
    cases z with
    | nil =>
      have := (List.cons.inj h5).1
      subst this
      exact hno hp hta
    | cons d z =>
      obtain ⟨rfl, -⟩ := List.cons.inj h5
      have := h2 t (by rw [h4]; simp)
      rw [atom_trivia hta] at this; cases this

theorem binary_op {k : TK} {op op' : BinaryOp} {q q' : Nat} (h : BinaryOf k op q) (h' : BinaryOf k op' q')
    (hc : chained (.binary op) = true) (hc' : chained (.binary op') = true) : op = op' := by
  cases h <;> cases h' <;> simp_all [chained]

theorem bin_op {op : BinaryOp} {l r : Cst} {ts us : List Tok} {o : Tok} (hc : chained (.binary op) = true)
    (h2 : Tr ts) (h3 : Tr us) (ho : (chainPrec o.kind).isSome = true) (h5 : Bin l) (h6 : Bin r)
    (ha : All ρ (.node (.binary op) (l :: (tt ts ++ .tok o :: (tt us ++ [r]))))) : ∃ q, BinaryOf o.kind op q := by
  have hl := ha _ .refl
  have hpr := bin_proper h5 h6 h2 h3 ho
  generalize hcs : l :: (tt ts ++ .tok o :: (tt us ++ [r])) = cs at hl hpr
  cases hl with
  | binary a1 a2 a3 a4 a5 =>
    rw [proper_operand_cons a2, proper_tt_append a3, proper_tok_cons (binaryOf_trivia a1), proper_tt_append a4,
      proper_operand a5] at hpr
    cases hpr
    exact ⟨_, a1⟩
  | unset => cases hc
  | put h => cases h <;> cases hc

/-- Chains of binary operators with the same leaves are the same trees. -/
theorem bin_unique {n : Cst} (hn : Bin n) : ∀ {m : Cst}, Bin m → All ρ n → All ρ m →
    (∀ t ∈ leaves n, t.kind ≠ .ToplevelNewline) → leaves n = leaves m → n = m := by
  induction hn with
  | @atom t h =>
    intro m hm _ _ _ e
    cases hm with
    | @atom t' h' => cases e; rfl
    | node h1 h2 h3 h4 h5 h6 =>
      rw [bin_leaves] at e
      obtain ⟨⟨x, xs, hx, -⟩, -⟩ := bin_ends h5
      have := congrArg List.length e
      rw [hx] at this
      simp [leaves] at this
  | @node op l ts o us r h1 h2 h3 h4 h5 h6 ih1 ih2 =>
    intro m hm han ham hnl e
    cases hm with
    | atom h =>
      rw [bin_leaves] at e
      obtain ⟨⟨x, xs, hx, -⟩, -⟩ := bin_ends h5
      have := congrArg List.length e
      rw [hx] at this
      simp [leaves] at this
    | @node op' l' ts' o' us' r' h1' h2' h3' h4' h5' h6' =>
      obtain ⟨p, hp⟩ := Option.isSome_iff_exists.mp h4
      obtain ⟨p', hp'⟩ := Option.isSome_iff_exists.mp h4'
      have hnl' := hnl
      rw [e] at hnl'
      have hb := bin_bounds h1 h2 h3 hp h5 h6 han hnl
      have hb' := bin_bounds h1' h2' h3' hp' h5' h6' ham hnl'
      have hop := bin_op h1 h2 h3 h4 h5 h6 han
      have hop' := bin_op h1' h2' h3' h4' h5' h6' ham
      have hal : All ρ l := han.child (by simp)
      have hal' : All ρ l' := ham.child (by simp)
      have har : All ρ r := han.child (by simp)
      have har' : All ρ r' := ham.child (by simp)
      have hnll : ∀ t ∈ leaves l, t.kind ≠ .ToplevelNewline := fun t ht => hnl t (leaf_child (by simp) ht)
      have hnlr : ∀ t ∈ leaves r, t.kind ≠ .ToplevelNewline := fun t ht => hnl t (leaf_child (by simp) ht)
      rw [bin_leaves, bin_leaves] at e
      have hll : leaves l = leaves l' := by
        rcases List.append_eq_append_iff.mp e with ⟨a, e1, e2⟩ | ⟨a, e1, e2⟩
        · have := bin_prefix h5' h6 h2 h3 hp hp' hb.2 hb'.1 e1 e2
          rw [e1, this, List.append_nil]
        · have := bin_prefix h5 h6' h2' h3' hp' hp hb'.2 hb.1 e1 e2
          rw [e1, this, List.append_nil]
      rw [hll] at e
      obtain ⟨rfl, rfl, e3⟩ := trivia_split h2 h2' (chainPrec_trivia hp) (chainPrec_trivia hp') (List.append_cancel_left e)
      obtain ⟨⟨x, xs, hx, hxa⟩, -⟩ := bin_ends h6
      obtain ⟨⟨x', xs', hx', hxa'⟩, -⟩ := bin_ends h6'
      have e' := e3
      rw [hx, hx'] at e'
      obtain ⟨rfl, -⟩ := trivia_split h3 h3' (atom_trivia hxa) (atom_trivia hxa') e'
      have hrr := List.append_cancel_left e3
      obtain ⟨q, hop⟩ := hop
      obtain ⟨q', hop'⟩ := hop'
      cases binary_op hop hop' h1 h1'
      rw [ih1 h5' hal hal' hnll hll, ih2 h6' har har' hnlr hrr]

/-- A token without its text and position. -/
def bare (t : Tok) : Tok := ⟨t.kind, [], [], .index 0, .index 0⟩

mutual
theorem skeleton_eq : ∀ c : Cst, skeleton c = mapTok bare c
  | .tok t => rfl
  | .node k cs => by rw [skeleton, mapTok, skeletons_eq cs]
  | .call h m op b => by rw [skeleton, mapTok, skeletons_eq h, skeletons_eq b]
  | .callAgg h m op b => by rw [skeleton, mapTok, skeleton_eq h, skeletons_eq b]
  | .box k cs => by rw [skeleton, mapTok, skeletons_eq cs]
  | .code n => by rw [skeleton, mapTok]
theorem skeletons_eq : ∀ cs : List Cst, skeletons cs = mapToks bare cs
  | [] => rfl
  | c :: cs => by rw [skeletons, mapToks, skeleton_eq c, skeletons_eq cs]
end

theorem bin_map {f : Tok → Tok} (hf : ∀ t, (f t).kind = t.kind) {c : Cst} (h : Bin c) : Bin (mapTok f c) := by
  induction h with
  | @atom t h => exact .atom (by unfold Atom at h ⊢; simpa [hf] using h)
  | @node op l ts o us r h1 h2 h3 h4 h5 h6 ih1 ih2 =>
    have : mapTok f (.node (.binary op) (l :: (tt ts ++ .tok o :: (tt us ++ [r])))) =
        .node (.binary op) (mapTok f l :: (tt (ts.map f) ++ .tok (f o) :: (tt (us.map f) ++ [mapTok f r]))) := by
      simp [mapTok, mapToks_eq, tt, Function.comp_def]
    rw [this]
    have ht : ∀ {ts : List Tok}, Tr ts → Tr (ts.map f) := by
      intro ts h t ht
      obtain ⟨t', h', rfl⟩ := List.mem_map.mp ht
      rw [hf]; exact h t' h'
    exact .node h1 (ht h2) (ht h3) (by rw [hf]; exact h4) ih1 ih2

theorem all_map {f : Tok → Tok} (hf : ∀ t, (f t).kind = t.kind) {c : Cst} (h : All Recovered c) : All Recovered (mapTok f c) := by
  intro m hm
  obtain ⟨m', h1, rfl⟩ := sub_map hm rfl
  exact looks_map hf (h m' h1)

/-- C31: the tree of a chain of binary operators is determined by the kinds of its tokens:
wherever tokens of the same kinds form such a chain, in whatever input, they are grouped in
the same way. -/
theorem C31_determined {cfg' : Cfg} {conv' : Conv} {first' : FirstLine} {bs' : List UInt8} {r' : ParseResult}
    (h : parseBytesCst cfg conv first bs = .ok r) (h' : parseBytesCst cfg' conv' first' bs' = .ok r') {n m : Cst}
    (hn : In n r.syntax') (hm : In m r'.syntax') (hbn : Bin n) (hbm : Bin m)
    (hnl : ∀ t ∈ leaves n, t.kind ≠ .ToplevelNewline) (he : (leaves n).map Tok.kind = (leaves m).map Tok.kind) :
    skeleton n = skeleton m := by
  have hb : ∀ t, (bare t).kind = t.kind := fun _ => rfl
  rw [skeleton_eq, skeleton_eq]
  refine bin_unique (bin_map hb hbn) (bin_map hb hbm) (all_map hb (all_looks h hn)) (all_map hb (all_looks h' hm)) ?_ ?_
  · intro t ht
    rw [leaves_map] at ht
    obtain ⟨t', h1, rfl⟩ := List.mem_map.mp ht
    exact hnl t' h1
  · rw [leaves_map, leaves_map]
    have : bare = (fun k => (⟨k, [], [], .index 0, .index 0⟩ : Tok)) ∘ Tok.kind := rfl
    rw [this, ← List.map_map, ← List.map_map, he]

theorem bin_three {op : BinaryOp} {l r : Cst} {o : Tok} (h1 : chained (.binary op) = true) (h4 : (chainPrec o.kind).isSome = true)
    (hl : Bin l) (hr : Bin r) : Bin (.node (.binary op) [l, .tok o, r]) :=
  .node (ts := []) (us := []) h1 (fun _ h => by cases h) (fun _ h => by cases h) h4 hl hr

/-- `a=b^c^d` meets the hypotheses of `C31_determined`: it is grouped as `a=(b^(c^d))`. -/
theorem determined_example : ∃ (r : ParseResult) (n : Cst), parseBytesCst Cfg.default .lineColumn .notScript
    (bytes ['a','=','b','^','c','^','d']) = .ok r ∧ In n r.syntax' ∧ Bin n ∧ ∀ t ∈ leaves n, t.kind ≠ .ToplevelNewline := by
  obtain ⟨r, h1, h2⟩ := of_parses (first := .notScript) (bs := bytes ['a','=','b','^','c','^','d'])
    (p := fun r => match r.syntax' with
      | [.node (.binary .Set) [.tok a, .tok o1, .node (.binary .Power) [.tok b, .tok o2,
          .node (.binary .Power) [.tok c, .tok o3, .tok d]]]] =>
        a.kind == .Symbol && b.kind == .Symbol && c.kind == .Symbol && d.kind == .Symbol && o1.kind == .Equal &&
          o2.kind == .Caret && o3.kind == .Caret
      | _ => false) (by decide +kernel)
  split at h2
  · next a o1 b o2 c o3 d heq =>
    simp only [Bool.and_eq_true, beq_iff_eq] at h2
    obtain ⟨⟨⟨⟨⟨⟨ha, hb⟩, hc⟩, hd⟩, h3⟩, h4⟩, h5⟩ := h2
    refine ⟨r, _, h1, ⟨_, by rw [heq]; exact List.mem_cons_self, .refl⟩, ?_, ?_⟩
    · exact bin_three rfl (by rw [h3]; rfl) (.atom (Or.inl ha)) (bin_three rfl (by rw [h4]; rfl) (.atom (Or.inl hb))
        (bin_three rfl (by rw [h5]; rfl) (.atom (Or.inl hc)) (.atom (Or.inl hd))))
    · intro t ht
      simp only [leaves, leavesL, List.append_nil, List.cons_append, List.nil_append, List.mem_cons,
        List.not_mem_nil, or_false] at ht
      rcases ht with rfl | rfl | rfl | rfl | rfl | rfl | rfl <;> simp [*]
  · cases h2

end CodeParser.Props
