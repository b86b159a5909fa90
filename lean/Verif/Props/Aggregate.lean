import Verif.Model.Aggregate
import Verif.Spec.Aggregate
import Verif.Proofs.Form
import Verif.Props.Parser
/-!
Property C36: aggregation removes exactly the white space, newlines and comments.
-/
namespace CodeParser.Props
open CodeParser Spec Cst

variable {cfg : Cfg} {conv : Conv} {first : FirstLine} {bs : List UInt8} {r : ParseResult}

theorem drops_white : ∀ k : TK, spare k = false → aggregateDrops k = isGap k := forall_of_all (by decide +kernel)

theorem trivia_white : ∀ k : TK, spare k = false → k.isTrivia = isGap k := forall_of_all (by decide +kernel)

theorem opens_comment : ∀ k : TK, k.prefixParselet ≠ .group k .Token_Comment ∧ k.infixParselet ≠ .call k .Token_Comment :=
  forall_of_all (by decide +kernel)

theorem not_comment (h : NodeOK Recovered k cs) : k ≠ .group .Token_Comment := by
  rintro rfl
  cases h with
  | group h =>
    obtain ⟨o, mid, c, -, h, -⟩ := h
    rcases h with h | h
    · exact (opens_comment _).1 h
    · exact (opens_comment _).2 h

/-- The trees of a result. -/
theorem form (h : parseBytesCst cfg conv first bs = .ok r) : ∀ c ∈ r.syntax', Form c := by
  obtain ⟨cs, f, ks, u, s, o⟩ := parse_ok h
  intro c hc
  rw [o.eq, mapToks_eq] at hc
  obtain ⟨d, hd, rfl⟩ := List.mem_map.mp hc
  exact CodeParser.TreeOK.form o.kind (o.trees d hd)

theorem aggregate_tok {t : Tok} (h : spare t.kind = false) :
    aggregate (.tok t) = .ok (if isGap t.kind then none else some (.tok t)) := by
  rw [aggregate, drops_white _ h]
  split <;> simp_all

theorem aggregate_node {k : NodeKind} (h : k ≠ .group .Token_Comment) :
    aggregate (.node k cs) = (aggregateL cs).map fun ds => some (.node k ds) := by
  rw [aggregate]
  · cases aggregateL cs <;> rfl
  · exact h

theorem aggregateL_cons {c : Cst} (h : aggregate c = .ok o) (h' : aggregateL cs = .ok ds) :
    aggregateL (c :: cs) = .ok (o.toList ++ ds) := by
  rw [aggregateL, h, h']

theorem aggregateL_tt {ts : List Tok} (h : Tr ts) (h' : ∀ t ∈ ts, spare t.kind = false) :
    aggregateL (tt ts) = .ok [] ∧ StrippedL (tt ts) [] := by
  induction ts with
  | nil => exact ⟨rfl, .nil⟩
  | cons t ts ih =>
    obtain ⟨h1, h2⟩ := ih (fun t ht => h t (by simp [ht])) (fun t ht => h' t (by simp [ht]))
    have hw : isGap t.kind = true := (trivia_white _ (h' t (by simp))) ▸ h t (by simp)
    refine ⟨?_, .drop hw h2⟩
    have := aggregateL_cons (aggregate_tok (h' t (by simp))) h1
    simp only [hw, if_true] at this
    exact this

mutual
theorem aggregate_form : ∀ {c : Cst}, Form c →
    ∃ o, aggregate c = .ok o ∧ (∀ d, o = some d → Stripped c d) ∧ (o = none → ∃ t, c = .tok t ∧ isGap t.kind = true)
  | .tok t, h => by
    cases h with
    | tok h =>
      refine ⟨_, aggregate_tok h, ?_, ?_⟩
      · intro d hd
        split at hd
        · cases hd
        · cases hd; exact .tok (by simp_all)
      · intro hn
        split at hn
        · exact ⟨t, rfl, by assumption⟩
        · cases hn
  | .node k cs, h => by
    cases h with
    | node h1 h2 =>
      obtain ⟨ds, h3, h4⟩ := aggregateL_form h2
      refine ⟨some (.node k ds), ?_, ?_, by simp⟩
      · rw [aggregate_node (not_comment h1), h3]; rfl
      · rintro _ ⟨⟩; exact .node h4
  | .call h m op b, hc => by
    cases hc with
    | call h1 h2 h3 =>
      obtain ⟨hs, h4, h5⟩ := aggregateL_form h2
      obtain ⟨ds, h6, h7⟩ := aggregateL_form h3
      have : ∃ d, hs = [d] := by
        have key : ∀ {l : Cst} {ts : List Tok}, Operand l → Tr ts → h = l :: tt ts → ∃ d, hs = [d] := by
          rintro l ts hl ht rfl
          obtain ⟨e1, e2⟩ := aggregateL_tt ht fun t ht => by
            have := h2 (.tok t) (List.mem_cons_of_mem _ (List.mem_map_of_mem ht))
            cases this with
            | tok h => exact h
          rw [aggregateL, e1] at h4
          have hlf := h2 l (by simp)
          cases hq : aggregate l with
          | error e => rw [hq] at h4; cases h4
          | ok o =>
            rw [hq] at h4
            cases o with
            | some d => exact ⟨d, by cases h4; rfl⟩
            | none =>
              exfalso
              cases l with
              | tok t =>
                cases hlf with
                | tok h =>
                  rw [aggregate_tok h, ← trivia_white _ h, hl.1] at hq
                  cases hq
              | node =>
                cases hlf with
                | node e _ =>
                  rw [aggregate_node (not_comment e)] at hq
                  cases hz : aggregateL _ <;> rw [hz] at hq <;> cases hq
              | call =>
                rw [aggregate] at hq
                repeat' split at hq
                all_goals cases hq
              | _ => cases hlf
        cases h1 with
        | group e1 e2 => exact key e1 e2 rfl
        | missing e1 e2 => exact key e1 e2 rfl
      obtain ⟨d, rfl⟩ := this
      refine ⟨some (.callAgg d m op ds), ?_, ?_, by simp⟩
      · rw [aggregate, h4]; simp only [h6]
      · rintro _ ⟨⟩; exact .call h5 h7
  | .callAgg .., h => by cases h
  | .box .., h => by cases h
  | .code .., h => by cases h
theorem aggregateL_form : ∀ {cs : List Cst}, (∀ c ∈ cs, Form c) → ∃ ds, aggregateL cs = .ok ds ∧ StrippedL cs ds
  | [], _ => ⟨[], rfl, .nil⟩
  | c :: cs, h => by
    obtain ⟨o, h1, h2, h3⟩ := aggregate_form (h c (by simp))
    obtain ⟨ds, h4, h5⟩ := aggregateL_form (cs := cs) fun c hc => h c (by simp [hc])
    refine ⟨_, aggregateL_cons h1 h4, ?_⟩
    cases o with
    | some d => exact .keep (h2 d rfl) h5
    | none =>
      obtain ⟨t, rfl, ht⟩ := h3 rfl
      exact .drop ht h5
end

mutual
theorem stripped_leaves : Stripped c d → leaves d = (leaves c).filter fun t => !isGap t.kind
  | .tok h => by simp [leaves, h]
  | .node h => by simp only [leaves]; exact strippedL_leaves h
  | .call h1 h2 => by
    have := strippedL_leaves h1
    simp only [leavesL, List.append_nil] at this
    simp only [leaves, List.filter_append, this, strippedL_leaves h2]
theorem strippedL_leaves : StrippedL cs ds → leavesL ds = (leavesL cs).filter fun t => !isGap t.kind
  | .nil => rfl
  | .drop h1 h2 => by simp [leavesL, leaves, h1, strippedL_leaves h2]
  | .keep h1 h2 => by simp [leavesL, stripped_leaves h1, strippedL_leaves h2]
end

/-- C36: aggregation of what the parser gives never panics; it keeps every node, and the
tokens that remain are the ones that are not white space, newlines or comments, in their
order. -/
theorem C36_aggregate (h : parseBytesCst cfg conv first bs = .ok r) :
    ∃ ds, aggregateL r.syntax' = .ok ds ∧ StrippedL r.syntax' ds ∧
      leavesL ds = (leavesL r.syntax').filter fun t => !isGap t.kind := by
  obtain ⟨ds, h1, h2⟩ := aggregateL_form (form h)
  exact ⟨ds, h1, h2, strippedL_leaves h2⟩

mutual
theorem aggregate_stripped : Form c → Stripped c d → hasCall c = false → aggregate d = .ok (some d)
  | .tok h, .tok h', _ => by rw [aggregate_tok h, h']; rfl
  | .node h1 h2, .node h, hc => by
    rw [aggregate_node (not_comment h1), aggregateL_stripped h2 h hc]; rfl
  | .call .., .call .., hc => by simp [hasCall] at hc
theorem aggregateL_stripped : (∀ c ∈ cs, Form c) → StrippedL cs ds → hasCallL cs = false → aggregateL ds = .ok ds
  | _, .nil, _ => rfl
  | hf, .drop _ h2, hc => aggregateL_stripped (fun c hc => hf c (by simp [hc])) h2 (by simp [hasCallL] at hc; exact hc.2)
  | hf, .keep h1 h2, hc => by
    simp only [hasCallL, Bool.or_eq_false_iff] at hc
    have e1 := aggregate_stripped (hf _ (by simp)) h1 hc.1
    have e2 := aggregateL_stripped (fun c hc => hf c (by simp [hc])) h2 hc.2
    exact aggregateL_cons e1 e2
end

/-- C36: aggregating again changes nothing, if there is no call.  (Missing: calls, see
`C36_violated`.) -/
theorem C36_again_partial (h : parseBytesCst cfg conv first bs = .ok r) (hc : hasCallL r.syntax' = false) :
    ∃ ds, aggregateL r.syntax' = .ok ds ∧ aggregateL ds = .ok ds := by
  obtain ⟨ds, h1, h2⟩ := aggregateL_form (form h)
  exact ⟨ds, h1, aggregateL_stripped (form h) h2 hc⟩

mutual
theorem aggregate_call : Form c → Stripped c d → hasCall c = true → aggregate d = .error (.panic .callHead)
  | .tok _, .tok _, hc => by simp [hasCall] at hc
  | .node h1 h2, .node h, hc => by rw [aggregate_node (not_comment h1), aggregateL_call h2 h hc]; rfl
  | .call .., .call .., _ => by rw [aggregate]
theorem aggregateL_call : (∀ c ∈ cs, Form c) → StrippedL cs ds → hasCallL cs = true → aggregateL ds = .error (.panic .callHead)
  | _, .nil, hc => by cases hc
  | hf, .drop _ h2, hc => aggregateL_call (fun c hc => hf c (by simp [hc])) h2 (by simpa [hasCallL, hasCall] using hc)
  | hf, .keep h1 h2, hc => by
    simp only [hasCallL, Bool.or_eq_true] at hc
    rw [aggregateL]
    rcases Classical.em (hasCall _ = true) with h | h
    · rw [aggregate_call (hf _ (by simp)) h1 h]
    · rw [aggregate_stripped (hf _ (by simp)) h1 (by simpa using h)]
      simp only
      rw [aggregateL_call (fun c hc => hf c (by simp [hc])) h2 (hc.resolve_left h)]
end

/-- C36: aggregating again panics whenever there is a call. -/
theorem C36_again_panics (h : parseBytesCst cfg conv first bs = .ok r) (hc : hasCallL r.syntax' = true) :
    ∃ ds, aggregateL r.syntax' = .ok ds ∧ aggregateL ds = .error (.panic .callHead) := by
  obtain ⟨ds, h1, h2⟩ := aggregateL_form (form h)
  exact ⟨ds, h1, aggregateL_call (form h) h2 hc⟩

/-- C36 fails as stated: `f[x]` cannot be aggregated again. -/
theorem C36_violated : ∃ (bs : List UInt8) (r : ParseResult) (ds : List Cst),
    parseBytesCst Cfg.default .lineColumn .notScript bs = .ok r ∧ aggregateL r.syntax' = .ok ds ∧
      aggregateL ds = .error (.panic .callHead) := by
  obtain ⟨r, h1, h2⟩ := of_parses (first := .notScript) (bs := bytes ['f','[','x',']'])
    (p := fun r => hasCallL r.syntax') (by decide +kernel)
  obtain ⟨ds, h3⟩ := C36_again_panics h1 h2
  exact ⟨_, r, ds, h1, h3⟩

/-- A program with calls, white space and comments, and one without calls. -/
example : parses .notScript program (fun r => hasCallL r.syntax' && (leavesL r.syntax').any fun t => isGap t.kind) = true := by
  decide +kernel

example : parses .notScript (bytes ['a',' ','+','\n','(','*','c','*',')','b'])
    (fun r => !hasCallL r.syntax' && (leavesL r.syntax').length == 6) = true := by
  decide +kernel

end CodeParser.Props
