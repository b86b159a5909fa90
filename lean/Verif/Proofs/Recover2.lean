import Verif.Proofs.Recover1
/-!
Recovery: the lines of a token or group, with line/column locations (helper lemmas).
-/
namespace CodeParser
open Spec Props

section
variable {cfg : Cfg} {isNew : List Char → Except Err Bool}

/-! ### Columns -/

theorem nextColumn_gt {col : Nat} (h : 1 ≤ col) (c : Char) : col < nextColumn cfg col c := by
  unfold nextColumn
  split
  · have := Nat.div_add_mod (col - 1) cfg.tabWidth
    have := Nat.mod_lt (col - 1) cfg.pos
    omega
  · omega

theorem foldCol_ge : ∀ (cs : List Char) {col : Nat}, 1 ≤ col → col ≤ cs.foldl (nextColumn cfg) col
  | [], _, _ => Nat.le_refl _
  | c :: cs, col, h => by
    have := nextColumn_gt (cfg := cfg) h c
    have := foldCol_ge cs (col := nextColumn cfg col c) (by omega)
    simp only [List.foldl_cons]; omega

theorem colOf_pos (cur : List Char) : 1 ≤ colOf cfg cur := foldCol_ge _ (Nat.le_refl _)

theorem colOf_append (cur d : List Char) : colOf cfg cur ≤ colOf cfg (cur ++ d) := by
  unfold colOf
  rw [List.foldl_append]
  exact foldCol_ge _ (colOf_pos cur)

theorem colOf_lt (cur : List Char) {d : List Char} (h : d ≠ []) : colOf cfg cur < colOf cfg (cur ++ d) := by
  cases d with
  | nil => exact absurd rfl h
  | cons c d =>
    have h1 := nextColumn_gt (cfg := cfg) (colOf_pos (cfg := cfg) cur) c
    have h2 := foldCol_ge (cfg := cfg) d (col := nextColumn cfg (colOf cfg cur) c) (by omega)
    show colOf cfg cur < (cur ++ c :: d).foldl (nextColumn cfg) 1
    rw [List.foldl_append, List.foldl_cons]
    exact Nat.lt_of_lt_of_le h1 h2

theorem width_succ (l : Line) : l.width cfg + 1 = colOf cfg l.content := by
  have := colOf_pos (cfg := cfg) l.content
  unfold Line.width
  unfold colOf at *
  omega

theorem indexColumns_at {d : List Char} (hd : d ≠ []) : ∀ (cur : List Char) (col : Nat), 1 ≤ col →
    indexColumns cfg (cur.foldl (nextColumn cfg) col) col (cur ++ d) = some d
  | [], col, h => by
    cases d with
    | nil => exact absurd rfl hd
    | cons c d =>
      have := nextColumn_gt (cfg := cfg) h c
      simp [indexColumns, this]
  | c :: cur, col, h => by
    have h1 := nextColumn_gt (cfg := cfg) h c
    have h2 := foldCol_ge (cfg := cfg) cur (col := nextColumn cfg col c) (by omega)
    simp only [List.foldl_cons, List.cons_append, indexColumns]
    rw [if_neg (by simp; omega)]
    exact indexColumns_at hd cur _ (by omega)

/-! ### Chunks -/

theorem askLines_cases : ∀ ls : List Line,
    (∃ e l, l ∈ ls ∧ isNew l.content = .error e ∧ askLines isNew ls = .error e) ∨
    ∃ r, askLines isNew ls = .ok r ∧ r.map Prod.fst = ls
  | [] => Or.inr ⟨[], rfl, rfl⟩
  | l :: ls => by
    unfold askLines
    cases h : isNew l.content with
    | error e => exact Or.inl ⟨e, l, List.mem_cons_self, h, rfl⟩
    | ok b =>
      rcases askLines_cases ls with ⟨e, l', h1, h2, h3⟩ | ⟨r, h1, h2⟩
      · exact Or.inl ⟨e, l', List.mem_cons_of_mem _ h1, h2, by rw [h3]⟩
      · exact Or.inr ⟨(l, b) :: r, by rw [h1], by simp [h2]⟩

theorem firstChunk_cases (l : Line) (ls : List Line) :
    (∃ e l', l' ∈ ls ∧ isNew l'.content = .error e ∧ firstChunk isNew (l :: ls) = .error e) ∨
    ∃ more, firstChunk isNew (l :: ls) = .ok (l :: more) ∧ more <+: ls := by
  unfold firstChunk
  rcases askLines_cases (isNew := isNew) ls with ⟨e, l', h1, h2, h3⟩ | ⟨r, h1, h2⟩
  · exact Or.inl ⟨e, l', h1, h2, by simp only [h3]⟩
  · right
    simp only [h1]
    have hc := C41_split_by_pairs ((l, false) :: r) (fun _ right => !right.2)
    revert hc
    generalize splitByPairs ((l, false) :: r) (fun _ right => !right.2) = chunks
    rintro ⟨hc1, hc2, -⟩
    cases chunks with
    | nil => cases hc1
    | cons c cs =>
      have hne := (hc2 c List.mem_cons_self).1
      cases c with
      | nil => exact absurd rfl hne
      | cons x c =>
        simp at hc1
        obtain ⟨rfl, hc1⟩ := hc1
        refine ⟨c.map Prod.fst, rfl, ?_⟩
        rw [← h2, ← hc1, List.map_append]
        exact List.prefix_append _ _

theorem lastGood_some (l : Line) (ls : List Line) (hl : l.content ≠ []) : ∀ n, n ≤ ls.length →
    ∃ i, lastGood (l :: ls) n = some i ∧ i ≤ n ∧ ((l :: ls).getD i default).content ≠ [] ∧
      ∀ j, i < j → j ≤ n → ((l :: ls).getD j default).content = []
  | 0, _ => ⟨0, by simp [lastGood, hl], Nat.le_refl _, hl, by omega⟩
  | n + 1, hn => by
    unfold lastGood
    by_cases h : ((l :: ls).getD (n + 1) default).content = []
    · rw [if_pos h]
      obtain ⟨i, h1, h2, h3, h4⟩ := lastGood_some l ls hl n (by omega)
      refine ⟨i, h1, by omega, h3, fun j hj hn => ?_⟩
      by_cases hj' : j = n + 1
      · subst hj'; exact h
      · exact h4 j hj (by omega)
    · rw [if_neg h]
      exact ⟨n + 1, rfl, Nat.le_refl _, h, by omega⟩

/-- What is known about the lines found for a range that starts at a character `ds` and ends
at `es`. -/
structure Good (cfg : Cfg) (input ds : List Char) (lines lines' : List (List Char × List Char)) (cur : List Char)
    (chunk : List Line) (i : Nat) (d nl : List Char) (more : List Line) : Prop where
  eq : chunk = ⟨cur ++ d, nl⟩ :: more
  ne : d ≠ []
  pre : d <+: ds
  lt : i < chunk.length
  good : (chunk.getD i default).content ≠ []
  blank : ∀ j, i < j → j < chunk.length → (chunk.getD j default).content = []
  count : chunk.length + lines.length ≤ lines'.length + 1
  real : ∀ l ∈ chunk, l ∈ Line.split input

theorem splitLines_eq {input : List Char} (h : input ≠ []) : splitLines input = splitLinesLoop input [] [] := by
  unfold splitLines
  simp [h]

theorem goodLines_lineCol {input ds es : List Char} {start stop : Loc} {lines lines' : List (List Char × List Char)}
    {cur cur' : List Char} (h : InLine cfg input ds start lines cur) (h' : InLine cfg input es stop lines' cur')
    (hl : lines <+: lines') {c : Char} (hc : ds.head? = some c) (h1 : c ≠ '\n') (h2 : c ≠ '\r') :
    (∃ e l, l ∈ Line.split input ∧ isNew l.content = .error e ∧ lines ≠ lines' ∧
      goodLines cfg isNew input ⟨start, stop⟩ = .error e) ∨
    ∃ chunk i d nl more, Good cfg input ds lines lines' cur chunk i d nl more ∧ goodLines cfg isNew input ⟨start, stop⟩ =
      .ok (chunk, i, ⟨start, .lineCol (lines.length + 1 + i) (colOf cfg (chunk.getD i default).content)⟩) := by
  have hin : input ≠ [] := by
    rintro rfl
    have := h.split
    rw [splitLinesLoop_acc _ ds (Nat.le_refl _)] at this
    obtain ⟨d, nl, more, e, -⟩ := splitLinesLoop_first ds cur (by
      intro h0; rw [(List.append_eq_nil_iff.mp h0).2] at hc; cases hc)
    rw [e] at this
    simp [splitLinesLoop] at this
  have hs : splitLines input = lines ++ splitLinesLoop ds cur [] := by
    rw [splitLines_eq hin, h.split, splitLinesLoop_acc _ ds (Nat.le_refl _)]
  obtain ⟨d, nl, more, e, hp, hd⟩ := splitLinesLoop_first ds cur (by
    intro h0; rw [(List.append_eq_nil_iff.mp h0).2] at hc; cases hc)
  have hd := hd c (by rw [hc]; rfl) h1 h2
  rw [e] at hs
  have hS : Line.split input = lines.map (fun l => ⟨l.1, l.2⟩) ++ ⟨cur ++ d, nl⟩ :: more.map (fun l => ⟨l.1, l.2⟩) := by
    unfold Line.split; rw [hs]; simp
  have hll : lines.length ≤ lines'.length := hl.length_le
  obtain ⟨k, hk⟩ : ∃ k, lines'.length = lines.length + k := ⟨lines'.length - lines.length, by omega⟩
  have hr : retainRange (Line.split input) (lines.length + 1 - 1) (lines'.length + 1 - 1 + 1) =
      .ok (⟨cur ++ d, nl⟩ :: (more.map (fun l => ⟨l.1, l.2⟩)).take k) := by
    unfold retainRange
    have e1 : (Line.split input).take (lines'.length + 1 - 1 + 1) =
        lines.map (fun l => ⟨l.1, l.2⟩) ++ ⟨cur ++ d, nl⟩ :: (more.map (fun l => (⟨l.1, l.2⟩ : Line))).take k := by
      rw [hS, hk, List.take_append]
      have : lines.length + k + 1 - 1 + 1 - (lines.map (fun l => (⟨l.1, l.2⟩ : Line))).length = k + 1 := by simp; omega
      rw [this, List.take_of_length_le (by simp; omega)]
      rfl
    simp only [e1]
    rw [if_pos (by simp)]
    congr 1
    rw [List.drop_append]
    simp
  have hg : ∀ {isNew}, goodLines cfg isNew input ⟨start, stop⟩ =
      match firstChunk isNew (⟨cur ++ d, nl⟩ :: (more.map (fun l => (⟨l.1, l.2⟩ : Line))).take k) with
      | .error e => .error e
      | .ok chunk =>
        match lastGood chunk (chunk.length - 1) with
        | none => .error (.panic .recovery)
        | some i => .ok (chunk, i, ⟨start, .lineCol (lines.length + 1 + i) ((chunk.getD i default).width cfg + 1)⟩) := by
    intro isNew
    unfold goodLines linesOf
    rw [h.loc, h'.loc]
    simp only [hr]
    rfl
  rw [hg]
  rcases firstChunk_cases (isNew := isNew) ⟨cur ++ d, nl⟩ ((more.map (fun l => ⟨l.1, l.2⟩)).take k) with
    ⟨e, l', g1, g2, g3⟩ | ⟨more', g1, g2⟩
  · left
    refine ⟨e, l', ?_, g2, ?_, by rw [g3]⟩
    · rw [hS]
      have := List.mem_of_mem_take g1
      simp only [List.mem_append, List.mem_cons]
      exact Or.inr (Or.inr this)
    · intro hll
      rw [hll] at hk
      have : k = 0 := by omega
      subst this
      simp at g1
  · right
    have hlen : more'.length ≤ k := by
      have := g2.length_le
      simp at this; omega
    obtain ⟨i, i1, i2, i3, i4⟩ := lastGood_some ⟨cur ++ d, nl⟩ more' (by simp [hd]) more'.length (Nat.le_refl _)
    refine ⟨⟨cur ++ d, nl⟩ :: more', i, d, nl, more', ⟨rfl, hd, hp, by simp; omega, i3, ?_, ?_, ?_⟩, ?_⟩
    · intro j hj hjl
      simp at hjl
      exact i4 j hj (by omega)
    · simp; omega
    · intro l hl
      rw [hS]
      simp only [List.mem_append, List.mem_cons]
      rcases List.mem_cons.mp hl with rfl | hl
      · exact Or.inr (Or.inl rfl)
      · exact Or.inr (Or.inr (List.mem_of_mem_take (g2.subset hl)))
    · rw [g1]
      have e1 : (Line.mk (cur ++ d) nl :: more').length - 1 = more'.length := by simp
      simp only [e1, i1, width_succ]

end
end CodeParser
