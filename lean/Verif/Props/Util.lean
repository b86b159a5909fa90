import Verif.Model.Issues
import Verif.Model.Util
import Mathlib.Data.List.Chain
/-!
Properties C09 (issue log), C40 (splitting into lines), C41 (splitting into
chunks), C42 (span relations).
-/
namespace CodeParser.Props
open CodeParser

/-! ### C09 -/

/-- Two reports of the same issue: everything equal but the additional sources. -/
def sameIssue (a b : Issue K E) : Prop := a.key = b.key ∧ a.sev = b.sev

/-- The log after a history of reports. -/
def logOf [DecidableEq K] (history : List (Issue K E)) : IssueLog K E :=
  history.foldl IssueLog.add IssueLog.empty

theorem Issue.eq_iff [DecidableEq K] (a b : Issue K E) : a.eq b = true ↔ sameIssue a b := by
  simp [Issue.eq, sameIssue]

/-- What the log looks like for a history (helper invariant). -/
structure LogInv [DecidableEq K] (h : List (Issue K E)) (log : IssueLog K E) : Prop where
  nonFatal_sub : log.nonFatal.Sublist (h.filter (·.sev ≠ .fatal))
  fatal_sub : log.fatal.Sublist (h.filter (·.sev = .fatal))
  nonFatal_nodup : log.nonFatal.Pairwise (fun a b => ¬ sameIssue a b)
  fatal_nodup : log.fatal.Pairwise (fun a b => ¬ sameIssue a b)
  complete : ∀ i ∈ h, i.sev ≠ .fatal → ∃ j ∈ log.nonFatal, sameIssue j i
  fatal_complete : ∀ i ∈ h, i.sev = .fatal → log.fatal.length = 10 ∨ ∃ j ∈ log.fatal, sameIssue j i
  bound : log.fatal.length ≤ 10

theorem logInv [DecidableEq K] (h : List (Issue K E)) : LogInv h (logOf h) := by
  suffices ∀ (t : List (Issue K E)) (h : List (Issue K E)) (log : IssueLog K E), LogInv h log →
      LogInv (h ++ t) (t.foldl IssueLog.add log) by
    have h0 : LogInv ([] : List (Issue K E)) IssueLog.empty := by
      constructor <;> simp [IssueLog.empty]
    have := this h [] IssueLog.empty h0
    rwa [List.nil_append] at this
  intro t
  induction t with
  | nil => intro h log hl; simpa using hl
  | cons i t ih =>
    intro h log hl
    have : h ++ i :: t = (h ++ [i]) ++ t := by simp
    rw [this, List.foldl_cons]
    apply ih
    unfold IssueLog.add
    by_cases hs : i.sev = .fatal
    · rw [if_pos hs]
      by_cases hlen : log.fatal.length ≥ 10
      · rw [if_pos hlen]
        have h10 : log.fatal.length = 10 := Nat.le_antisymm hl.bound hlen
        exact ⟨by simpa [hs] using hl.nonFatal_sub,
          by rw [List.filter_append]; exact hl.fatal_sub.trans (List.sublist_append_left ..),
          hl.nonFatal_nodup, hl.fatal_nodup,
          by
            intro j hj hjs
            rcases List.mem_append.mp hj with hj | hj
            · exact hl.complete j hj hjs
            · simp at hj; subst hj; exact absurd hs hjs,
          fun _ _ _ => .inl h10, hl.bound⟩
      · rw [if_neg hlen]
        by_cases hany : log.fatal.any (fun o => o.eq i)
        · rw [if_pos hany]
          refine ⟨by simpa [hs] using hl.nonFatal_sub,
            by rw [List.filter_append]; exact hl.fatal_sub.trans (List.sublist_append_left ..),
            hl.nonFatal_nodup, hl.fatal_nodup, ?_, ?_, hl.bound⟩
          · intro j hj hjs
            rcases List.mem_append.mp hj with hj | hj
            · exact hl.complete j hj hjs
            · simp at hj; subst hj; exact absurd hs hjs
          · intro j hj hjs
            rcases List.mem_append.mp hj with hj | hj
            · exact hl.fatal_complete j hj hjs
            · simp at hj; subst hj
              simp only [List.any_eq_true, Issue.eq_iff] at hany
              exact .inr hany
        · rw [if_neg hany]
          simp only [List.any_eq_true, Issue.eq_iff, not_exists, not_and] at hany
          refine ⟨by simpa [hs] using hl.nonFatal_sub,
            by rw [List.filter_append]; exact hl.fatal_sub.append (by simp [hs]),
            hl.nonFatal_nodup, ?_, ?_, ?_, ?_⟩
          · rw [List.pairwise_append]
            exact ⟨hl.fatal_nodup, by simp, by simpa using hany⟩
          · intro j hj hjs
            rcases List.mem_append.mp hj with hj | hj
            · exact hl.complete j hj hjs
            · simp at hj; subst hj; exact absurd hs hjs
          · intro j hj hjs
            rcases List.mem_append.mp hj with hj | hj
            · rcases hl.fatal_complete j hj hjs with h | ⟨k, hk, hk'⟩
              · omega
              · exact .inr ⟨k, by simp [hk], hk'⟩
            · simp at hj; subst hj
              exact .inr ⟨j, by simp, rfl, rfl⟩
          · simp; omega
    · rw [if_neg hs]
      by_cases hany : log.nonFatal.any (fun o => o.eq i)
      · rw [if_pos hany]
        refine ⟨by rw [List.filter_append]; exact hl.nonFatal_sub.trans (List.sublist_append_left ..),
          by simpa [hs] using hl.fatal_sub, hl.nonFatal_nodup, hl.fatal_nodup, ?_, ?_, hl.bound⟩
        · intro j hj hjs
          rcases List.mem_append.mp hj with hj | hj
          · exact hl.complete j hj hjs
          · simp at hj; subst hj
            simpa only [List.any_eq_true, Issue.eq_iff] using hany
        · intro j hj hjs
          rcases List.mem_append.mp hj with hj | hj
          · exact hl.fatal_complete j hj hjs
          · simp at hj; subst hj; exact absurd hjs hs
      · rw [if_neg hany]
        simp only [List.any_eq_true, Issue.eq_iff, not_exists, not_and] at hany
        refine ⟨by rw [List.filter_append]; exact hl.nonFatal_sub.append (by simp [hs]),
          by simpa [hs] using hl.fatal_sub, ?_, hl.fatal_nodup, ?_, ?_, hl.bound⟩
        · rw [List.pairwise_append]
          exact ⟨hl.nonFatal_nodup, by simp, by simpa using hany⟩
        · intro j hj hjs
          rcases List.mem_append.mp hj with hj | hj
          · obtain ⟨k, hk, hk'⟩ := hl.complete j hj hjs
            exact ⟨k, by simp [hk], hk'⟩
          · simp at hj; subst hj
            exact ⟨j, by simp, rfl, rfl⟩
        · intro j hj hjs
          rcases List.mem_append.mp hj with hj | hj
          · exact hl.fatal_complete j hj hjs
          · simp at hj; subst hj; exact absurd hjs hs

/-- C09: after any history of reports, the fatal list has at most ten entries,
neither list has two entries for the same issue, both lists are subsequences of
the reports of their severity (so they are in report order and nothing is
invented), every non-fatal issue reported has an entry, and every fatal issue
has one unless ten fatal issues are already stored. -/
theorem C09_issue_log [DecidableEq K] (history : List (Issue K E)) :
    (logOf history).fatal.length ≤ 10 ∧
    (logOf history).fatal.Pairwise (fun a b => ¬ sameIssue a b) ∧
    (logOf history).nonFatal.Pairwise (fun a b => ¬ sameIssue a b) ∧
    (logOf history).fatal.Sublist (history.filter (·.sev = .fatal)) ∧
    (logOf history).nonFatal.Sublist (history.filter (·.sev ≠ .fatal)) ∧
    (∀ i ∈ history, i.sev ≠ .fatal → ∃ j ∈ (logOf history).nonFatal, sameIssue j i) ∧
    (∀ i ∈ history, i.sev = .fatal →
      (logOf history).fatal.length = 10 ∨ ∃ j ∈ (logOf history).fatal, sameIssue j i) :=
  let h := logInv history
  ⟨h.bound, h.fatal_nodup, h.nonFatal_nodup, h.fatal_sub, h.nonFatal_sub, h.complete, h.fatal_complete⟩

/-- C09, order: the entry stored for an issue is its first report. Stated
incrementally: reporting more never removes, changes or reorders entries. -/
theorem C09_append_only [DecidableEq K] (history more : List (Issue K E)) :
    (logOf history).fatal <+: (logOf (history ++ more)).fatal ∧
    (logOf history).nonFatal <+: (logOf (history ++ more)).nonFatal := by
  unfold logOf
  rw [List.foldl_append]
  generalize List.foldl IssueLog.add IssueLog.empty history = log
  induction more generalizing log with
  | nil => exact ⟨List.prefix_refl _, List.prefix_refl _⟩
  | cons i t ih =>
    rw [List.foldl_cons]
    have h := ih (log.add i)
    have h2 : log.fatal <+: (log.add i).fatal ∧ log.nonFatal <+: (log.add i).nonFatal := by
      unfold IssueLog.add
      repeat' split
      all_goals exact ⟨by simp, by simp⟩
    exact ⟨h2.1.trans h.1, h2.2.trans h.2⟩

example : (logOf [(⟨1, .fatal, 0⟩ : Issue Nat Nat), ⟨2, .warning, 0⟩, ⟨1, .fatal, 7⟩, ⟨2, .error, 0⟩,
    ⟨2, .warning, 9⟩]).nonFatal.length = 2 ∧
    (logOf ((List.range 20).map fun n => (⟨n, .fatal, 0⟩ : Issue Nat Nat))).fatal.length = 10 := by
  decide +kernel

/-! ### C41 -/

theorem splitLoop_spec (pred : α → α → Bool) : ∀ (fuel : Nat) (slice : List α) (ri : Nat)
    (chunks : List (List α)), 1 ≤ ri → ri ≤ slice.length → slice.length ≤ ri + fuel →
    (slice.take ri).IsChain (fun a b => pred a b = true) →
    (∀ c ∈ chunks, c ≠ [] ∧ c.IsChain (fun a b => pred a b = true)) →
    (chunks ++ [slice.take ri]).IsChain (fun c d => ∃ x y, c.getLast? = some x ∧ d.head? = some y ∧ pred x y = false) →
    ((splitByPairsLoop pred fuel slice ri chunks).flatten = chunks.flatten ++ slice ∧
     (∀ c ∈ splitByPairsLoop pred fuel slice ri chunks, c ≠ [] ∧ c.IsChain (fun a b => pred a b = true)) ∧
     (splitByPairsLoop pred fuel slice ri chunks).IsChain
        (fun c d => ∃ x y, c.getLast? = some x ∧ d.head? = some y ∧ pred x y = false)) := by
  intro fuel
  induction fuel with
  | zero =>
    intro slice ri chunks h1 h2 h3 h4 h5 h6
    have : ri = slice.length := by omega
    subst this
    rw [List.take_length] at h4 h6
    have hne : slice ≠ [] := by rintro rfl; simp at h1
    simp only [splitByPairsLoop, List.isEmpty_iff, hne, if_false]
    refine ⟨by simp, ?_, h6⟩
    intro c hc
    rcases List.mem_append.mp hc with hc | hc
    · exact h5 c hc
    · simp at hc; subst hc; exact ⟨hne, h4⟩
  | succ fuel ih =>
    intro slice ri chunks h1 h2 h3 h4 h5 h6
    have hne : slice ≠ [] := by rintro rfl; simp at h2; omega
    unfold splitByPairsLoop
    by_cases hlt : ri < slice.length
    · rw [dif_pos ⟨hlt, h1⟩]
      have hlast : (slice.take ri).getLast? = some (slice[ri - 1]'(by omega)) := by
        rw [List.getLast?_take]; simp [show ri ≠ 0 by omega]
      by_cases hp : pred (slice[ri - 1]'(by omega)) slice[ri] = true
      · simp only [hp, if_true]
        refine ih slice (ri + 1) chunks (by omega) (by omega) (by omega) ?_ h5 ?_
        · rw [List.take_succ_eq_append_getElem hlt, List.isChain_append]
          refine ⟨h4, by simp, ?_⟩
          intro x hx y hy
          rw [hlast] at hx
          simp at hx hy; subst hx hy; exact hp
        · rw [List.isChain_append] at h6 ⊢
          refine ⟨h6.1, by simp, ?_⟩
          intro x hx y hy
          simp at hy; subst hy
          obtain ⟨a, b, ha, hb, hab⟩ := h6.2.2 x hx (slice.take ri) (by simp)
          refine ⟨a, b, ha, ?_, hab⟩
          rw [List.head?_take] at hb ⊢
          simpa [show ri ≠ 0 by omega] using hb
      · simp only [hp]
        have := ih (slice.drop (ri + 1 - 1)) 1 (chunks ++ [slice.take (ri + 1 - 1)]) (by omega)
          (by simp; omega) (by simp; omega) ?_ ?_ ?_
        · simp only [Nat.add_sub_cancel, List.flatten_append, List.flatten_cons, List.flatten_nil,
            List.append_nil, List.append_assoc, List.take_append_drop] at this
          exact this
        · simp only [Nat.add_sub_cancel]
          rw [List.take_one]; cases (List.drop ri slice).head? <;> simp
        · intro c hc
          simp only [Nat.add_sub_cancel] at hc
          rcases List.mem_append.mp hc with hc | hc
          · exact h5 c hc
          · simp at hc; subst hc
            refine ⟨?_, h4⟩
            simp; exact ⟨by omega, hne⟩
        · simp only [Nat.add_sub_cancel]
          rw [List.isChain_append]
          refine ⟨h6, by simp, ?_⟩
          intro x hx y hy
          simp at hx hy; subst hx hy
          refine ⟨_, _, hlast, ?_, by simpa using hp⟩
          rw [List.head?_take]; simp [List.head?_drop]
    · rw [dif_neg (by omega)]
      have : ri = slice.length := by omega
      subst this
      rw [List.take_length] at h4 h6
      simp only [List.isEmpty_iff, hne, if_false]
      refine ⟨by simp, ?_, h6⟩
      intro c hc
      rcases List.mem_append.mp hc with hc | hc
      · exact h5 c hc
      · simp at hc; subst hc; exact ⟨hne, h4⟩

/-- C41: concatenating the chunks gives back the sequence, no chunk is empty,
within a chunk the predicate holds of all neighbours, and it fails between the
last element of a chunk and the first of the next one. -/
theorem C41_split_by_pairs (xs : List α) (pred : α → α → Bool) :
    (splitByPairs xs pred).flatten = xs ∧
    (∀ c ∈ splitByPairs xs pred, c ≠ [] ∧ c.IsChain (fun a b => pred a b = true)) ∧
    (splitByPairs xs pred).IsChain
      (fun c d => ∃ x y, c.getLast? = some x ∧ d.head? = some y ∧ pred x y = false) := by
  unfold splitByPairs
  split
  · next h => simp at h; simp [h]
  · split
    · next h h1 =>
      match xs, h1 with
      | [a], _ => simp
    · next h h1 =>
      have hne : xs ≠ [] := by simpa using h
      have hlen : 1 ≤ xs.length := List.length_pos_iff.mpr hne
      have := splitLoop_spec pred xs.length xs 1 [] (by omega) hlen (by omega) ?_ (by simp) (by simp)
      · simpa using this
      · rw [List.take_one]; cases xs.head? <;> simp

example : splitByPairs [1, 3, 5, 4, 7, 9, 6, 2, 3] (fun a b => a % 2 == b % 2)
    = [[1, 3, 5], [4], [7, 9], [6, 2], [3]] := by decide +kernel

/-! ### C40 -/

/-- A line as C40 wants it: no terminator inside, and a legal separator. -/
def goodLine (l : List Char × List Char) : Prop :=
  '\n' ∉ l.1 ∧ '\r' ∉ l.1 ∧
  (l.2 = [] ∨ l.2 = ['\n'] ∨ l.2 = ['\r'] ∨ l.2 = ['\r', '\n'])

/-- `a` may be followed by the line `b`: `a` has a separator, and if it is a lone
CR the text goes on with something else than LF (a CR LF pair is never split). -/
def goodNext (a b : List Char × List Char) : Prop :=
  a.2 ≠ [] ∧ (a.2 = ['\r'] → (b.1 ++ b.2).head? ≠ some '\n')

theorem splitLinesLoop_spec : ∀ (input cur : List Char) (lines : List (List Char × List Char)),
    '\n' ∉ cur → '\r' ∉ cur →
    (∀ l ∈ lines, goodLine l ∧ l.1 ++ l.2 ≠ []) → lines.IsChain goodNext →
    (∀ l, lines.getLast? = some l → l.2 ≠ [] ∧
      (l.2 = ['\r'] → (cur ++ input).head? ≠ some '\n')) →
    (((splitLinesLoop input cur lines).map (fun l => l.1 ++ l.2)).flatten
        = (lines.map (fun l => l.1 ++ l.2)).flatten ++ cur ++ input ∧
     (∀ l ∈ splitLinesLoop input cur lines, goodLine l ∧ l.1 ++ l.2 ≠ []) ∧
     (splitLinesLoop input cur lines).IsChain goodNext) := by
  intro input cur lines
  have key : ∀ (lines : List (List Char × List Char)) (cur sep after : List Char),
      '\n' ∉ cur → '\r' ∉ cur → sep ≠ [] → (sep = ['\n'] ∨ sep = ['\r'] ∨ sep = ['\r', '\n']) →
      (sep = ['\r'] → after.head? ≠ some '\n') →
      (∀ l ∈ lines, goodLine l ∧ l.1 ++ l.2 ≠ []) → lines.IsChain goodNext →
      (∀ l, lines.getLast? = some l → l.2 ≠ [] ∧
        (l.2 = ['\r'] → (cur ++ sep ++ after).head? ≠ some '\n')) →
      (∀ l ∈ lines ++ [(cur, sep)], goodLine l ∧ l.1 ++ l.2 ≠ []) ∧
      (lines ++ [(cur, sep)]).IsChain goodNext ∧
      (∀ l, (lines ++ [(cur, sep)]).getLast? = some l → l.2 ≠ [] ∧
        (l.2 = ['\r'] → ([] ++ after).head? ≠ some '\n')) := by
    intro lines cur sep after hn hr hs hsep haft hg hc hlast
    refine ⟨?_, ?_, ?_⟩
    · intro l hl
      rcases List.mem_append.mp hl with hl | hl
      · exact hg l hl
      · simp at hl; subst hl
        exact ⟨⟨hn, hr, .inr hsep⟩, by simp [hs]⟩
    · rw [List.isChain_append]
      refine ⟨hc, by simp, ?_⟩
      intro x hx y hy
      simp at hy; subst hy
      obtain ⟨h1, h2⟩ := hlast x hx
      refine ⟨h1, fun he => ?_⟩
      have := h2 he
      simp only
      rw [List.head?_append] at this
      intro h; rw [h] at this; simp at this
    · intro l hl
      simp at hl; subst hl
      exact ⟨hs, by simpa using haft⟩
  induction input, cur, lines using splitLinesLoop.induct with
  | case1 cur lines h =>
    intro hn hr hg hc hlast
    simp at h
    simp [splitLinesLoop, h]
    exact ⟨fun a b hab => by simpa using hg _ hab, hc⟩
  | case2 cur lines h =>
    intro hn hr hg hc hlast
    simp at h
    simp only [splitLinesLoop, List.isEmpty_iff, h, if_false]
    refine ⟨by simp, ?_, ?_⟩
    · intro l hl
      rcases List.mem_append.mp hl with hl | hl
      · exact hg l hl
      · simp at hl; subst hl
        exact ⟨⟨hn, hr, .inl rfl⟩, by simp [h]⟩
    · rw [List.isChain_append]
      refine ⟨hc, by simp, ?_⟩
      intro x hx y hy
      simp at hy; subst hy
      obtain ⟨h1, h2⟩ := hlast x hx
      exact ⟨h1, fun he => by simpa using h2 he⟩
  | case3 rest cur lines ih =>
    intro hn hr hg hc hlast
    obtain ⟨k1, k2, k3⟩ := key lines cur ['\n'] rest hn hr (by simp) (by simp) (by simp) hg hc (by simpa using hlast)
    have := ih (by simp) (by simp) k1 k2 k3
    simp only [splitLinesLoop]
    refine ⟨?_, this.2⟩
    rw [this.1]; simp
  | case4 rest cur lines ih =>
    intro hn hr hg hc hlast
    obtain ⟨k1, k2, k3⟩ := key lines cur ['\r', '\n'] rest hn hr (by simp) (by simp) (by simp) hg hc (by simpa using hlast)
    have := ih (by simp) (by simp) k1 k2 k3
    simp only [splitLinesLoop]
    refine ⟨?_, this.2⟩
    rw [this.1]; simp
  | case5 rest cur lines hx ih =>
    intro hn hr hg hc hlast
    obtain ⟨k1, k2, k3⟩ := key lines cur ['\r'] rest hn hr (by simp) (by simp)
      (by
        intro _ h
        cases rest with
        | nil => simp at h
        | cons a t => simp at h; subst h; exact hx t rfl) hg hc (by simpa using hlast)
    have := ih (by simp) (by simp) k1 k2 k3
    rw [splitLinesLoop]
    · refine ⟨?_, this.2⟩
      rw [this.1]; simp
    · exact hx
  | case6 c rest cur lines h1 h2 h3 ih =>
    intro hn hr hg hc hlast
    have e : splitLinesLoop (c :: rest) cur lines = splitLinesLoop rest (cur ++ [c]) lines := by
      rw [splitLinesLoop]
      all_goals assumption
    rw [e]
    have := ih (by simp; exact ⟨hn, fun h => h1 h.symm⟩) (by simp; exact ⟨hr, fun h => h3 h.symm⟩) hg hc (by simpa using hlast)
    refine ⟨?_, this.2⟩
    rw [this.1]; simp

/-- C40: gluing lines and separators together gives back the text; no line
contains LF or CR; every separator is LF, CR or CR LF, except that the last line
may have none; a CR LF pair is never split over two lines; and, unless the text is
empty, no entry is empty. -/
theorem C40_split_lines (input : List Char) :
    ((splitLines input).map (fun l => l.1 ++ l.2)).flatten = input ∧
    (∀ l ∈ splitLines input, goodLine l) ∧
    (splitLines input).IsChain goodNext ∧
    splitLines input ≠ [] ∧
    (input ≠ [] → ∀ l ∈ splitLines input, l.1 ++ l.2 ≠ []) := by
  unfold splitLines
  by_cases h : input = []
  · subst h; simp [goodLine]
  · simp only [List.isEmpty_iff, h, if_false]
    have := splitLinesLoop_spec input [] [] (by simp) (by simp) (by simp) (by simp) (by simp)
    refine ⟨by simpa using this.1, fun l hl => (this.2.1 l hl).1, this.2.2, ?_, fun _ l hl => (this.2.1 l hl).2⟩
    intro he
    rw [he] at this
    simp at this; exact h this

example : splitLines "a\r\nb\rc\n\nd".toList =
    [("a".toList, "\r\n".toList), ("b".toList, "\r".toList), ("c".toList, "\n".toList),
     ([], "\n".toList), ("d".toList, [])] := by decide +kernel

/-! ### C42 -/

/-- Lexicographic order of line/column positions. -/
def posLe (a b : LineColumn) : Prop := a.line < b.line ∨ (a.line = b.line ∧ a.column ≤ b.column)

/-- C42: a position is contained in a line/column span exactly when it is between
the two ends in lexicographic order. -/
theorem C42_contains (s : LineColumnSpan) (p : LineColumn) :
    s.contains p = true ↔ posLe s.start p ∧ posLe p s.stop := by
  obtain ⟨⟨l1, c1⟩, ⟨l2, c2⟩⟩ := s
  obtain ⟨l, c⟩ := p
  simp only [LineColumnSpan.contains, posLe]
  split
  · next h => simp at h ⊢; omega
  · next h =>
    simp at h
    split
    · next h' => simp at h' ⊢; omega
    · next h' =>
      simp at h'
      split
      · next h2 => simp at h2 ⊢; omega
      · next h2 =>
        simp at h2
        split
        · next h3 => simp at h3 ⊢; omega
        · next h3 => simp at h3 ⊢; omega

/-- C42: two (well-formed) line/column spans that `overlaps` reports have a
position in common, and of two spans with a common position at least one reports
overlapping the other. -/
theorem C42_overlaps_partial (a b : LineColumnSpan)
    (ha : posLe a.start a.stop) (hb : posLe b.start b.stop) :
    (a.overlaps b = true ∨ b.overlaps a = true) ↔
      ∃ p, a.contains p = true ∧ b.contains p = true := by
  simp only [LineColumnSpan.overlaps, Bool.or_eq_true, C42_contains]
  constructor
  · rintro ((h | h) | (h | h))
    · exact ⟨b.start, h, .inr ⟨rfl, Nat.le_refl _⟩, hb⟩
    · exact ⟨b.stop, h, hb, .inr ⟨rfl, Nat.le_refl _⟩⟩
    · exact ⟨a.start, ⟨.inr ⟨rfl, Nat.le_refl _⟩, ha⟩, h⟩
    · exact ⟨a.stop, ⟨ha, .inr ⟨rfl, Nat.le_refl _⟩⟩, h⟩
  · rintro ⟨p, h1, h2⟩
    obtain ⟨⟨l1, c1⟩, ⟨l2, c2⟩⟩ := a
    obtain ⟨⟨l3, c3⟩, ⟨l4, c4⟩⟩ := b
    obtain ⟨l, c⟩ := p
    simp only [posLe] at *
    omega

/-- C42, violated part: `overlaps` on line/column spans is not symmetric; a span
properly inside another one does not report overlapping it. -/
theorem C42_overlaps_not_symmetric :
    ∃ a b : LineColumnSpan, posLe a.start a.stop ∧ posLe b.start b.stop ∧
      a.overlaps b = true ∧ b.overlaps a = false :=
  ⟨⟨⟨1, 1⟩, ⟨1, 9⟩⟩, ⟨⟨1, 3⟩, ⟨1, 4⟩⟩, by simp [posLe], by simp [posLe], by decide, by decide⟩

/-- C42: on well-formed character spans intersection never panics, is symmetric,
and is exactly the set of common indices. -/
theorem C42_intersection (a b : CharacterSpan) (ha : a.start ≤ a.stop) (hb : b.start ≤ b.stop) :
    ∃ r, a.intersection b = some r ∧ b.intersection a = some r ∧
      (∀ i, (∃ s, r = some s ∧ s.start ≤ i ∧ i ≤ s.stop) ↔
        (a.start ≤ i ∧ i ≤ a.stop) ∧ (b.start ≤ i ∧ i ≤ b.stop)) ∧
      (r.isSome ↔ ∃ i, (a.start ≤ i ∧ i ≤ a.stop) ∧ (b.start ≤ i ∧ i ≤ b.stop)) := by
  obtain ⟨a1, a2⟩ := a
  obtain ⟨b1, b2⟩ := b
  simp only at ha hb
  refine ⟨if max a1 b1 > min a2 b2 then none else some ⟨max a1 b1, min a2 b2⟩, ?_, ?_, ?_, ?_⟩
  · unfold CharacterSpan.intersection
    by_cases h : a1 < b1
    · simp [h, ha, hb]; split <;> simp
    · simp [h, ha, hb, Nat.max_comm b1 a1, Nat.min_comm b2 a2]; split <;> simp
  · unfold CharacterSpan.intersection
    by_cases h : b1 < a1
    · simp [h, ha, hb, Nat.max_comm b1 a1, Nat.min_comm b2 a2]; split <;> simp
    · simp [h, ha, hb]; split <;> simp
  · intro i
    split
    · simp; omega
    · simp; omega
  · split
    · simp; intro x _ _ _; omega
    · simp; exact ⟨max a1 b1, by omega⟩

/-- C42: containment of character spans is containment of the sets of indices. -/
theorem C42_contains_span (a b : CharacterSpan) (hb : b.start ≤ b.stop) :
    a.containsSpan b = true ↔ ∀ i, b.start ≤ i ∧ i ≤ b.stop → a.start ≤ i ∧ i ≤ a.stop := by
  simp only [CharacterSpan.containsSpan, ge_iff_le, Bool.and_eq_true, decide_eq_true_eq]
  constructor
  · intro h i hi; omega
  · intro h; exact ⟨(h b.start ⟨Nat.le_refl _, hb⟩).1, (h b.stop ⟨hb, Nat.le_refl _⟩).2⟩

example : (⟨3, 4⟩ : CharacterSpan).intersection ⟨1, 3⟩ = some (some ⟨3, 3⟩) := by decide

end CodeParser.Props
