import Verif.Model.TokenKind
import Verif.Model.Gen.Operators
import Mathlib.Data.List.Nodup
import Mathlib.Data.List.Chain
/-!
Properties C15 (token-kind bits), C16 (openers and closers), C39 (operators and
their symbols).  The domains are finite; each statement ranges over all of it.
-/
namespace CodeParser.Props
open CodeParser

/-- Every kind is in the list of all kinds. -/
theorem mem_all (k : TK) : k ∈ TK.all := by
  have h : TK.all = (List.range TK.all.length).map TK.ofNat := by decide +kernel
  have hb : k.ctorIdx < TK.all.length := by
    have : TK.all.length = 436 := by decide +kernel
    rw [this]; cases k <;> exact Nat.le_of_ble_eq_true rfl
  rw [h, List.mem_map]
  exact ⟨k.ctorIdx, List.mem_range.mpr hb, TK.ofNat_ctorIdx k⟩

theorem forall_of_all {P : TK → Prop} [DecidablePred P] (h : TK.all.all (fun k => decide (P k)) = true)
    (k : TK) : P k := by
  rw [List.all_eq_true] at h
  simpa using h k (mem_all k)

/-! The bit pattern of a kind has three fields. -/

theorem id_lt (k : TK) : k.id < 512 :=
  forall_of_all (P := fun k => k.id < 512) (by decide +kernel) k

/-- The first group field, as the code computes it. -/
def grp1 (k : TK) : Nat :=
  if TK.possibleBeginningList.contains k then TK.group1PossibleBeginning
  else if TK.closersList.contains k then TK.group1Closer
  else if TK.errorList.contains k then TK.group1Error
  else TK.group1None

/-- The second group field, as the code computes it. -/
def grp2 (k : TK) : Nat :=
  if TK.emptyList.contains k then TK.group2Empty
  else if TK.unterminatedList.contains k then TK.group2Unterminated
  else TK.group2None

theorem bits_eq (k : TK) : k.bits = k.id ||| grp1 k ||| grp2 k := rfl

theorem grp1_cases (k : TK) : grp1 k = 512 ∨ grp1 k = 1024 ∨ grp1 k = 1536 ∨ grp1 k = 0 := by
  unfold grp1; split; · exact .inl rfl
  split; · exact .inr (.inl rfl)
  split
  · exact .inr (.inr (.inl rfl))
  · exact .inr (.inr (.inr rfl))

theorem grp2_cases (k : TK) : grp2 k = 2048 ∨ grp2 k = 4096 ∨ grp2 k = 0 := by
  unfold grp2; split; · exact .inl rfl
  split
  · exact .inr (.inl rfl)
  · exact .inr (.inr rfl)

theorem land_id (k : TK) : k.bits &&& 0x1ff = k.id := by
  rw [bits_eq, Nat.and_or_distrib_right, Nat.and_or_distrib_right]
  have h1 : grp1 k &&& 0x1ff = 0 := by rcases grp1_cases k with h | h | h | h <;> rw [h] <;> rfl
  have h2 : grp2 k &&& 0x1ff = 0 := by rcases grp2_cases k with h | h | h <;> rw [h] <;> rfl
  rw [h1, h2, Nat.or_zero, Nat.or_zero]
  exact (Nat.and_two_pow_sub_one_eq_mod k.id 9).trans (Nat.mod_eq_of_lt (id_lt k))

theorem id_land {k : TK} {m : Nat} (h : 0x1ff &&& m = 0) : k.id &&& m = 0 := by
  rw [← land_id, Nat.and_assoc, h, Nat.and_zero]

theorem land_grp1 (k : TK) : k.bits &&& TK.group1Mask = grp1 k := by
  rw [bits_eq, Nat.and_or_distrib_right, Nat.and_or_distrib_right, id_land (by decide)]
  rcases grp1_cases k with h | h | h | h <;> rcases grp2_cases k with h' | h' | h' <;> rw [h, h'] <;> rfl

theorem land_grp2 (k : TK) : k.bits &&& TK.group2Mask = grp2 k := by
  rw [bits_eq, Nat.and_or_distrib_right, Nat.and_or_distrib_right, id_land (by decide)]
  rcases grp1_cases k with h | h | h | h <;> rcases grp2_cases k with h' | h' | h' <;> rw [h, h'] <;> rfl

/-- The documented lists do not overlap. -/
theorem lists_disjoint :
    (∀ k ∈ TK.closersList, k ∉ TK.possibleBeginningList) ∧
    (∀ k ∈ TK.errorList, k ∉ TK.possibleBeginningList ∧ k ∉ TK.closersList) ∧
    (∀ k ∈ TK.unterminatedList, k ∉ TK.emptyList) := by decide +kernel

/-- C15: every classification predicate agrees with the list that documents it. -/
theorem C15_lists (k : TK) :
    (k.isPossibleBeginning = true ↔ k ∈ TK.possibleBeginningList) ∧
    (k.isCloser = true ↔ k ∈ TK.closersList) ∧
    (k.isError = true ↔ k ∈ TK.errorList) ∧
    (k.isEmpty = true ↔ k ∈ TK.emptyList) ∧
    (k.isUnterminated = true ↔ k ∈ TK.unterminatedList) := by
  obtain ⟨d1, d2, d3⟩ := lists_disjoint
  simp only [TK.isPossibleBeginning, TK.isCloser, TK.isError, TK.isEmpty, TK.isUnterminated,
    land_grp1, land_grp2, beq_iff_eq]
  refine ⟨⟨fun h => ?_, fun h => ?_⟩, ⟨fun h => ?_, fun h => ?_⟩, ⟨fun h => ?_, fun h => ?_⟩,
    ⟨fun h => ?_, fun h => ?_⟩, ⟨fun h => ?_, fun h => ?_⟩⟩
  · unfold grp1 at h; split at h
    · next e => exact List.contains_iff_mem.mp e
    · split at h <;> [skip; split at h] <;> cases h
  · unfold grp1; rw [if_pos (List.contains_iff_mem.mpr h)]
  · unfold grp1 at h; split at h
    · cases h
    · split at h
      · next e => exact List.contains_iff_mem.mp e
      · split at h <;> cases h
  · unfold grp1; rw [if_neg (fun e => d1 k h (List.contains_iff_mem.mp e)), if_pos (List.contains_iff_mem.mpr h)]
  · unfold grp1 at h; split at h
    · cases h
    · split at h
      · cases h
      · split at h
        · next e => exact List.contains_iff_mem.mp e
        · cases h
  · unfold grp1
    rw [if_neg (fun e => (d2 k h).1 (List.contains_iff_mem.mp e)),
      if_neg (fun e => (d2 k h).2 (List.contains_iff_mem.mp e)), if_pos (List.contains_iff_mem.mpr h)]
  · unfold grp2 at h; split at h
    · next e => exact List.contains_iff_mem.mp e
    · split at h <;> cases h
  · unfold grp2; rw [if_pos (List.contains_iff_mem.mpr h)]
  · unfold grp2 at h; split at h
    · cases h
    · split at h
      · next e => exact List.contains_iff_mem.mp e
      · cases h
  · unfold grp2; rw [if_neg (fun e => d3 k h (List.contains_iff_mem.mp e)), if_pos (List.contains_iff_mem.mpr h)]

/-- C15: the trivia are exactly newlines, comments and whitespace (and the
reserved, never produced `Buffer` kinds). -/
theorem C15_trivia (k : TK) :
    (k.isTrivia = true ↔ k ∈ [TK.InternalNewline, .ToplevelNewline, .Comment, .Whitespace,
      .Buffer1, .Buffer2, .Buffer3, .Buffer4]) ∧
    (k.isTriviaButNotToplevelNewline = true ↔ k ∈ [TK.InternalNewline, .Comment, .Whitespace, .Buffer1]) := by
  have e1 : k.bits &&& 0x1f8 = k.id &&& 0x1f8 := by
    rw [← land_id k, Nat.and_assoc]; rfl
  have e2 : k.bits &&& 0x1fc = k.id &&& 0x1fc := by
    rw [← land_id k, Nat.and_assoc]; rfl
  unfold TK.isTrivia TK.isTriviaButNotToplevelNewline
  rw [e1, e2]
  exact forall_of_all (P := fun k =>
    ((k.id &&& 0x1f8 == 8) = true ↔ k ∈ [TK.InternalNewline, .ToplevelNewline, .Comment, .Whitespace,
      .Buffer1, .Buffer2, .Buffer3, .Buffer4]) ∧
    ((k.id &&& 0x1fc == 8) = true ↔ k ∈ [TK.InternalNewline, .Comment, .Whitespace, .Buffer1]))
    (by decide +kernel) k

/-- C15: the error kinds are exactly those whose name starts with `Error_`, and
the unterminated kinds exactly those whose name starts with `Error_Unterminated`. -/
theorem C15_error_names (k : TK) :
    (k.isError = true ↔ "Error_".toList <+: k.name) ∧
    (k.isUnterminated = true ↔ "Error_Unterminated".toList <+: k.name) := by
  rw [(C15_lists k).2.2.1, (C15_lists k).2.2.2.2]
  revert k
  have h : TK.all.all (fun k => decide (
    (k ∈ TK.errorList ↔ "Error_".toList.isPrefixOf k.name = true) ∧
    (k ∈ TK.unterminatedList ↔ "Error_Unterminated".toList.isPrefixOf k.name = true))) = true := by
    decide +kernel
  intro k
  have := forall_of_all h k
  simpa only [List.isPrefixOf_iff_prefix] using this

theorem ids_increasing : (TK.all.map TK.id).IsChain (· < ·) := by decide +kernel

/-- C15: distinct kinds have distinct bit patterns, and even distinct low nine bits,
and these are the declared ids. -/
theorem C15_distinct (j k : TK) (h : j.idOfBits = k.idOfBits) : j = k := by
  have hid : ∀ k : TK, k.idOfBits = k.id := land_id
  rw [hid, hid] at h
  have hn : (TK.all.map TK.id).Pairwise (· < ·) := List.isChain_iff_pairwise.mp ids_increasing
  exact List.inj_on_of_nodup_map (hn.imp Nat.ne_of_lt) (mem_all j) (mem_all k) h

theorem C15_distinct_bits (j k : TK) (h : j.bits = k.bits) : j = k :=
  C15_distinct j k (by unfold TK.idOfBits; rw [h])

/-- C15: no kind is in two of the classes "possible beginning", "closer", "error"
and no kind is both empty and unterminated. -/
theorem C15_disjoint (k : TK) :
    ¬ (k.isPossibleBeginning = true ∧ k.isCloser = true) ∧
    ¬ (k.isPossibleBeginning = true ∧ k.isError = true) ∧
    ¬ (k.isCloser = true ∧ k.isError = true) ∧
    ¬ (k.isEmpty = true ∧ k.isUnterminated = true) := by
  simp only [TK.isPossibleBeginning, TK.isCloser, TK.isError, TK.isEmpty, TK.isUnterminated, beq_iff_eq]
  refine ⟨?_, ?_, ?_, ?_⟩ <;> rintro ⟨h1, h2⟩ <;> rw [h1] at h2 <;> exact absurd h2 (by decide)

example : TK.Error_UnterminatedString.isError = true ∧ TK.Error_UnterminatedString.isUnterminated = true ∧
    TK.SemiSemi.isPossibleBeginning = true ∧ TK.Comma.isPossibleBeginning = false := by decide +kernel

/-! ### C16 -/

/-- C16: a token is a recognised closing bracket exactly if it is of a closer kind. -/
theorem C16_closer_kinds (k : TK) : k.isCloser = true ↔ tokenToCloser k ≠ .AssertFalse :=
  (C15_lists k).2.1.trans
    (forall_of_all (P := fun k => k ∈ TK.closersList ↔ tokenToCloser k ≠ .AssertFalse) (by decide +kernel) k)

/-- C16: distinct closing tokens close different brackets. -/
theorem C16_closer_injective (j k : TK) (hj : j.isCloser = true) (h : tokenToCloser j = tokenToCloser k) : j = k := by
  have key : TK.closersList.all (fun j => TK.all.all (fun k =>
      decide (tokenToCloser j = tokenToCloser k → j = k))) = true := by decide +kernel
  rw [List.all_eq_true] at key
  have h1 := key j ((C15_lists j).2.1.mp hj)
  rw [List.all_eq_true] at h1
  exact of_decide_eq_true (h1 k (mem_all k)) h

/-- C16: every opener has a closing token, exactly one, and it is of a closer kind. -/
theorem C16_opener_closer (o : TK) (c : Closer) (h : groupOpenerToCloser o = some c) :
    ∃ k : TK, k.isCloser = true ∧ tokenToCloser k = c ∧ ∀ k', tokenToCloser k' = c → k' = k := by
  have key : ∀ o : TK, groupOpenerToCloser o = none ∨
      ∃ k ∈ TK.closersList, groupOpenerToCloser o = some (tokenToCloser k) :=
    forall_of_all (by decide +kernel)
  rcases key o with h0 | ⟨k, hk, hk'⟩
  · rw [h0] at h; cases h
  · rw [hk'] at h
    have hc := (C15_lists k).2.1.mpr hk
    cases h
    exact ⟨k, hc, rfl, fun k' e => (C16_closer_injective k k' hc e.symm).symm⟩

/-- C16: the only two openers sharing a closer are `[` and `::[`; every closer
kind closes some opener; no token is both an opener and a closer. -/
theorem C16_correspondence :
    (∀ o o' c, groupOpenerToCloser o = some c → groupOpenerToCloser o' = some c →
      o = o' ∨ (o = .OpenSquare ∧ o' = .ColonColonOpenSquare) ∨ (o = .ColonColonOpenSquare ∧ o' = .OpenSquare)) ∧
    (∀ k : TK, k.isCloser = true → ∃ o, groupOpenerToCloser o = some (tokenToCloser k)) ∧
    (∀ k : TK, ¬ (k.isCloser = true ∧ (groupOpenerToCloser k).isSome = true)) := by
  refine ⟨?_, ?_, ?_⟩
  · have key : ∀ o : TK, (groupOpenerToCloser o).isSome = true → ∀ o' : TK,
        groupOpenerToCloser o = groupOpenerToCloser o' →
        o = o' ∨ (o = .OpenSquare ∧ o' = .ColonColonOpenSquare) ∨ (o = .ColonColonOpenSquare ∧ o' = .OpenSquare) := by
      have : TK.all.all (fun o => decide ((groupOpenerToCloser o).isSome = true → TK.all.all (fun o' =>
        decide (groupOpenerToCloser o = groupOpenerToCloser o' →
        o = o' ∨ (o = .OpenSquare ∧ o' = .ColonColonOpenSquare) ∨ (o = .ColonColonOpenSquare ∧ o' = .OpenSquare))) = true)) = true := by
        decide +kernel
      intro o ho
      have h1 := forall_of_all this o ho
      exact forall_of_all h1
    intro o o' c h h'
    exact key o (by rw [h]; rfl) o' (h.trans h'.symm)
  · intro k hk
    have : ∀ k ∈ TK.closersList, ∃ o ∈ TK.all, groupOpenerToCloser o = some (tokenToCloser k) := by
      decide +kernel
    obtain ⟨o, _, h⟩ := this k ((C15_lists k).2.1.mp hk)
    exact ⟨o, h⟩
  · rintro k ⟨hk, ho⟩
    have : ∀ k ∈ TK.closersList, (groupOpenerToCloser k).isSome = false := by decide +kernel
    rw [this k ((C15_lists k).2.1.mp hk)] at ho
    cases ho

example : groupOpenerToCloser .LessBar = some .BarGreater ∧ tokenToCloser .BarGreater = .BarGreater := by decide

/-! ### C39 -/

/-- C39: for each of the nine operator enumerations, converting an operator to its
symbol and back gives the same operator. -/
theorem C39_infix (o : InfixOp) : InfixOp.ofSymbol o.toSymbol = some o := by cases o <;> decide +kernel
theorem C39_prefix (o : PrefixOp) : PrefixOp.ofSymbol o.toSymbol = some o := by cases o <;> decide +kernel
theorem C39_postfix (o : PostfixOp) : PostfixOp.ofSymbol o.toSymbol = some o := by cases o <;> decide +kernel
theorem C39_binary (o : BinaryOp) : BinaryOp.ofSymbol o.toSymbol = some o := by cases o <;> decide +kernel
theorem C39_ternary (o : TernaryOp) : TernaryOp.ofSymbol o.toSymbol = some o := by cases o <;> decide +kernel
theorem C39_prefixBinary (o : PrefixBinaryOp) : PrefixBinaryOp.ofSymbol o.toSymbol = some o := by
  cases o <;> decide +kernel
theorem C39_compound (o : CompoundOp) : CompoundOp.ofSymbol o.toSymbol = some o := by cases o <;> decide +kernel
theorem C39_group (o : GroupOp) : GroupOp.ofSymbol o.toSymbol = some o := by cases o <;> decide +kernel
theorem C39_call (o : CallOp) : CallOp.ofSymbol o.toSymbol = some o := by cases o <;> decide +kernel

theorem lookup_mem {α β} [BEq α] [LawfulBEq α] {l : List (α × β)} {a b} (h : l.lookup a = some b) : (a, b) ∈ l := by
  induction l with
  | nil => simp at h
  | cons p l ih =>
    obtain ⟨x, y⟩ := p
    rw [List.lookup_cons] at h
    by_cases e : a = x
    · subst e; rw [beq_self_eq_true] at h; cases h; exact List.mem_cons_self
    · rw [beq_eq_false_iff_ne.mpr e] at h; exact List.mem_cons_of_mem _ (ih h)

/-- C39, converse: a symbol that converts to an operator is that operator's symbol. -/
theorem C39_symbol_infix (s : Sym) (o : InfixOp) (h : InfixOp.ofSymbol s = some o) : o.toSymbol = s := by
  have : ∀ p ∈ InfixOp.arms, p.2.toSymbol = p.1 := by decide +kernel
  exact this _ (lookup_mem h)
theorem C39_symbol_prefix (s : Sym) (o : PrefixOp) (h : PrefixOp.ofSymbol s = some o) : o.toSymbol = s := by
  have : ∀ p ∈ PrefixOp.arms, p.2.toSymbol = p.1 := by decide +kernel
  exact this _ (lookup_mem h)
theorem C39_symbol_postfix (s : Sym) (o : PostfixOp) (h : PostfixOp.ofSymbol s = some o) : o.toSymbol = s := by
  have : ∀ p ∈ PostfixOp.arms, p.2.toSymbol = p.1 := by decide +kernel
  exact this _ (lookup_mem h)
theorem C39_symbol_binary (s : Sym) (o : BinaryOp) (h : BinaryOp.ofSymbol s = some o) : o.toSymbol = s := by
  have : ∀ p ∈ BinaryOp.arms, p.2.toSymbol = p.1 := by decide +kernel
  exact this _ (lookup_mem h)
theorem C39_symbol_ternary (s : Sym) (o : TernaryOp) (h : TernaryOp.ofSymbol s = some o) : o.toSymbol = s := by
  have : ∀ p ∈ TernaryOp.arms, p.2.toSymbol = p.1 := by decide +kernel
  exact this _ (lookup_mem h)
theorem C39_symbol_prefixBinary (s : Sym) (o : PrefixBinaryOp) (h : PrefixBinaryOp.ofSymbol s = some o) :
    o.toSymbol = s := by
  have : ∀ p ∈ PrefixBinaryOp.arms, p.2.toSymbol = p.1 := by decide +kernel
  exact this _ (lookup_mem h)
theorem C39_symbol_compound (s : Sym) (o : CompoundOp) (h : CompoundOp.ofSymbol s = some o) : o.toSymbol = s := by
  have : ∀ p ∈ CompoundOp.arms, p.2.toSymbol = p.1 := by decide +kernel
  exact this _ (lookup_mem h)
theorem C39_symbol_group (s : Sym) (o : GroupOp) (h : GroupOp.ofSymbol s = some o) : o.toSymbol = s := by
  have : ∀ p ∈ GroupOp.arms, p.2.toSymbol = p.1 := by decide +kernel
  exact this _ (lookup_mem h)
theorem C39_symbol_call (s : Sym) (o : CallOp) (h : CallOp.ofSymbol s = some o) : o.toSymbol = s := by
  have : ∀ p ∈ CallOp.arms, p.2.toSymbol = p.1 := by decide +kernel
  exact this _ (lookup_mem h)

/-- C39 for token kinds: converting to a symbol and back gives the same kind, except
that the two newline kinds share a symbol, which converts to `InternalNewline`. -/
theorem C39_token_kind (k : TK) :
    TK.fromSymbol k.toSymbol = some (if k = .ToplevelNewline then .InternalNewline else k) :=
  forall_of_all (P := fun k =>
    TK.fromSymbol k.toSymbol = some (if k = .ToplevelNewline then .InternalNewline else k)) (by decide +kernel) k

end CodeParser.Props
