import Verif.Model.LongNames
import Verif.Spec.Char
/-!
C14: lookups in the long-name tables find exactly the table's entries.
-/
namespace CodeParser.Props
open CodeParser Spec

/-! ### Binary search in general -/

/-- The list is laid out for a search with `cmp`: of any two elements, the earlier
one is `Less` or the later one is `Greater`. -/
def SearchSorted {α} (cmp : α → Ordering) (xs : List α) : Prop :=
  xs.Pairwise fun a b => cmp a = .lt ∨ cmp b = .gt

theorem SearchSorted.get {α} {cmp : α → Ordering} {xs : List α} (h : SearchSorted cmp xs) {i j : Nat}
    {a b : α} (hij : i < j) (hi : xs[i]? = some a) (hj : xs[j]? = some b) :
    cmp a = .lt ∨ cmp b = .gt := by
  obtain ⟨hi', rfl⟩ := List.getElem?_eq_some_iff.mp hi
  obtain ⟨hj', rfl⟩ := List.getElem?_eq_some_iff.mp hj
  exact List.pairwise_iff_getElem.mp h i j hi' hj' hij

theorem bsearchGo_spec {α} {cmp : α → Ordering} {xs : List α} (h : SearchSorted cmp xs) :
    ∀ (n l r : Nat), r - l < n → r ≤ xs.length →
      (∀ i a, i < l → xs[i]? = some a → cmp a = .lt) →
      (∀ i a, r ≤ i → xs[i]? = some a → cmp a = .gt) →
      match bsearchGo cmp xs n l r with
      | some i => ∃ a, xs[i]? = some a ∧ cmp a = .eq
      | none => ∀ a ∈ xs, cmp a ≠ .eq := by
  intro n
  induction n with
  | zero => intro l r hn; omega
  | succ n ih =>
    intro l r hn hr hl hg
    unfold bsearchGo
    by_cases hlr : l < r
    · simp only [hlr, if_true]
      have hm : l + (r - l) / 2 < xs.length := by omega
      rw [List.getElem?_eq_getElem hm]
      have hget : xs[l + (r - l) / 2]? = some xs[l + (r - l) / 2] := List.getElem?_eq_getElem hm
      cases hc : cmp xs[l + (r - l) / 2] with
      | lt =>
        simp only [hc]
        refine ih _ _ (by omega) hr (fun i a hi ha => ?_) hg
        rcases Nat.lt_or_ge i (l + (r - l) / 2) with hlt | hge
        · rcases h.get hlt ha hget with h1 | h1
          · exact h1
          · rw [hc] at h1; cases h1
        · have : i = l + (r - l) / 2 := by omega
          subst this; rw [hget] at ha; cases ha; exact hc
      | gt =>
        simp only [hc]
        refine ih _ _ (by omega) (by omega) hl (fun i a hi ha => ?_)
        rcases Nat.lt_or_ge (l + (r - l) / 2) i with hlt | hge
        · rcases h.get hlt hget ha with h1 | h1
          · rw [hc] at h1; cases h1
          · exact h1
        · have : i = l + (r - l) / 2 := by omega
          subst this; rw [hget] at ha; cases ha; exact hc
      | eq =>
        simp only [hc]
        exact ⟨_, hget, hc⟩
    · simp only [hlr, if_false]
      intro a ha he
      obtain ⟨i, hi, rfl⟩ := List.mem_iff_getElem.mp ha
      have hs : xs[i]? = some xs[i] := List.getElem?_eq_getElem hi
      rcases Nat.lt_or_ge i l with h1 | h1
      · rw [hl i _ h1 hs] at he; cases he
      · rw [hg i _ (by omega) hs] at he; cases he

/-- C14, the search itself: in a list sorted for `cmp`, binary search returns an
index whose element compares `Equal`, and fails only if no element does. -/
theorem C14_bsearch {α} {cmp : α → Ordering} {xs : List α} (h : SearchSorted cmp xs) :
    match bsearch cmp xs with
    | some i => ∃ a, xs[i]? = some a ∧ cmp a = .eq
    | none => ∀ a ∈ xs, cmp a ≠ .eq :=
  bsearchGo_spec h _ 0 xs.length (by omega) (by omega) (by omega)
    (fun i a hi ha => by rw [List.getElem?_eq_none (by omega)] at ha; cases ha)

/-! ### Orders used as search keys -/

theorem cmpNat_lt {a b : Nat} : cmpNat a b = .lt ↔ a < b := by
  unfold cmpNat; split
  · simp [*]
  · split <;> simp [*]

theorem cmpNat_gt {a b : Nat} : cmpNat a b = .gt ↔ b < a := by
  unfold cmpNat; split
  · simp [*]; omega
  · split <;> simp [*]

theorem cmpNat_eq {a b : Nat} : cmpNat a b = .eq ↔ a = b := by
  unfold cmpNat; split
  · simp; omega
  · split
    · simp; omega
    · simp; omega

theorem cmpBytes_eq {a b : List Nat} : cmpBytes a b = .eq ↔ a = b := by
  induction a generalizing b with
  | nil => cases b <;> simp [cmpBytes]
  | cons x xs ih =>
    cases b with
    | nil => simp [cmpBytes]
    | cons y ys =>
      unfold cmpBytes
      split
      · simp; omega
      · split
        · simp; omega
        · rw [ih]; simp; omega

theorem cmpBytes_gt {a b : List Nat} : cmpBytes a b = .gt ↔ cmpBytes b a = .lt := by
  induction a generalizing b with
  | nil => cases b <;> simp [cmpBytes]
  | cons x xs ih =>
    cases b with
    | nil => simp [cmpBytes]
    | cons y ys =>
      unfold cmpBytes
      by_cases h1 : x < y
      · simp [h1]; omega
      · by_cases h2 : y < x
        · simp [h1, h2]
        · simp [h1, h2, ih]

theorem cmpBytes_trans {a b c : List Nat} (h1 : cmpBytes a b = .lt) (h2 : cmpBytes b c = .lt) :
    cmpBytes a c = .lt := by
  induction a generalizing b c with
  | nil =>
    cases b with
    | nil => simp [cmpBytes] at h1
    | cons y ys =>
      cases c with
      | nil => simp [cmpBytes] at h2
      | cons z zs => simp [cmpBytes]
  | cons x xs ih =>
    cases b with
    | nil => simp [cmpBytes] at h1
    | cons y ys =>
      cases c with
      | nil => simp [cmpBytes] at h2
      | cons z zs =>
        unfold cmpBytes at h1 h2 ⊢
        by_cases c1 : x < z
        · rw [if_pos c1]
        rw [if_neg c1]
        by_cases a1 : x < y
        · by_cases b1 : y < z
          · omega
          rw [if_neg b1] at h2
          by_cases b2 : z < y
          · rw [if_pos b2] at h2; cases h2
          · omega
        rw [if_neg a1] at h1
        by_cases a2 : y < x
        · rw [if_pos a2] at h1; cases h1
        rw [if_neg a2] at h1
        by_cases b1 : y < z
        · omega
        rw [if_neg b1] at h2
        by_cases b2 : z < y
        · rw [if_pos b2] at h2; cases h2
        rw [if_neg b2] at h2
        rw [if_neg (by omega)]
        exact ih h1 h2

/-- If `a < b` then `a < k` or `k < b`. -/
theorem cmpBytes_split {a b k : List Nat} (h : cmpBytes a b = .lt) :
    cmpBytes a k = .lt ∨ cmpBytes b k = .gt := by
  rcases hk : cmpBytes a k with _ | _ | _
  · exact Or.inl rfl
  · right; rw [cmpBytes_eq] at hk; subst hk; exact cmpBytes_gt.mpr h
  · right; exact cmpBytes_gt.mpr (cmpBytes_trans (cmpBytes_gt.mp hk) h)

theorem rank_inj {a b : CP} (h : a.rank = b.rank) : a = b := by
  cases a <;> cases b <;> simp [CP.rank] at h ⊢ <;> omega

/-- Adjacent elements are related (executable). -/
def chainB {α} (r : α → α → Bool) : List α → Bool
  | [] => true
  | [_] => true
  | a :: b :: l => r a b && chainB r (b :: l)

theorem chainB_pairwise {α} {r : α → α → Bool} (ht : ∀ a b c, r a b = true → r b c = true → r a c = true)
    {l : List α} (h : chainB r l = true) : l.Pairwise (fun a b => r a b = true) := by
  induction l with
  | nil => exact .nil
  | cons a l ih =>
    cases l with
    | nil => simp
    | cons b l =>
      simp only [chainB, Bool.and_eq_true] at h
      have ihh := ih h.2
      refine .cons (fun x hx => ?_) ihh
      rcases List.mem_cons.mp hx with rfl | hx
      · exact h.1
      · exact ht _ _ _ h.1 (List.rel_of_pairwise_cons ihh hx)

/-- Strictly increasing names. -/
def nameLt (a b : List Char) : Bool := cmpBytes (nameBytes a) (nameBytes b) == .lt

theorem nameLt_trans (a b c : List Char) (h1 : nameLt a b = true) (h2 : nameLt b c = true) :
    nameLt a c = true := by
  simp only [nameLt, beq_iff_eq] at *; exact cmpBytes_trans h1 h2

/-! ### The shipped tables -/

set_option maxRecDepth 100000

theorem longNameTable_sorted : longNameTable.Pairwise (fun a b => nameLt a.1 b.1 = true) :=
  chainB_pairwise (r := fun a b : List Char × CP => nameLt a.1 b.1) (fun a b c => nameLt_trans a.1 b.1 c.1)
    (by decide +kernel)

theorem rawSet_sorted : rawSet.Pairwise (fun a b => nameLt a b = true) :=
  chainB_pairwise nameLt_trans (by decide +kernel)

theorem natTable_sorted {l : List Nat} (h : chainB (fun a b => decide (a < b)) l = true) :
    l.Pairwise (· < ·) := by
  have := chainB_pairwise (r := fun a b => decide (a < b)) (by simp; omega) h
  simpa using this

theorem charIn_iff {l : List Nat} (h : chainB (fun a b => decide (a < b)) l = true) {p : CP} :
    charIn l p = true ↔ ∃ n ∈ l, p = .char n := by
  cases p with
  | char n =>
    have hs : SearchSorted (fun e => cmpNat e n) l :=
      (natTable_sorted h).imp fun {a b} hab => by
        simp only [cmpNat_lt, cmpNat_gt]; omega
    have := C14_bsearch hs
    simp only [charIn]
    cases hb : bsearch (fun e => cmpNat e n) l with
    | none =>
      simp only [hb] at this
      simp only [Option.isSome_none, Bool.false_eq_true, false_iff]
      rintro ⟨m, hm, he⟩
      cases he
      exact this _ hm (cmpNat_eq.mpr rfl)
    | some i =>
      simp only [hb] at this
      obtain ⟨a, ha, hc⟩ := this
      simp only [Option.isSome_some, true_iff]
      rw [cmpNat_eq] at hc; subst hc
      exact ⟨a, List.mem_of_getElem? ha, rfl⟩
  | _ => simp [charIn]

/-- ASCII names: every character fits in a byte. -/
theorem longNameTable_ascii : ∀ e ∈ longNameTable, ∀ c ∈ e.1, c.toNat < 128 := by
  have : (longNameTable.all fun e => e.1.all fun c => decide (c.toNat < 128)) = true := by
    decide +kernel
  simpa using this

theorem rawSet_ascii : ∀ e ∈ rawSet, ∀ c ∈ e, c.toNat < 128 := by
  have : (rawSet.all fun e => e.all fun c => decide (c.toNat < 128)) = true := by
    decide +kernel
  simpa using this

theorem bytes_toNat {n : List Char} (h : ∀ c ∈ n, c.toNat < 128) :
    (Spec.bytes n).map UInt8.toNat = nameBytes n := by
  simp only [Spec.bytes, nameBytes, List.map_map]
  apply List.map_congr_left
  intro c hc
  have := h c hc
  simp [Spec.byte]
  omega

theorem map_toNat_inj {a b : List UInt8} (h : a.map UInt8.toNat = b.map UInt8.toNat) : a = b :=
  List.map_inj_right (fun _ _ h => UInt8.toNat_inj.mp h) |>.mp h

/-- C14 for the table of long names: looking up a name gives a code point if and only
if the table registers that code point under that name. -/
theorem C14_longname {name : List UInt8} {p : CP} :
    longnameToCodepoint name = some p ↔ ∃ n, (n, p) ∈ longNameTable ∧ name = Spec.bytes n := by
  have hs : SearchSorted (fun e : List Char × CP => cmpBytes (nameBytes e.1) (name.map UInt8.toNat))
      longNameTable :=
    longNameTable_sorted.imp fun {a b} hab => by
      simp only [nameLt, beq_iff_eq] at hab; exact cmpBytes_split hab
  have hb := C14_bsearch hs
  unfold longnameToCodepoint
  cases hc : bsearch (fun e : List Char × CP => cmpBytes (nameBytes e.1) (name.map UInt8.toNat))
      longNameTable with
  | none =>
    simp only [hc] at hb
    simp only [reduceCtorEq, false_iff]
    rintro ⟨n, hn, rfl⟩
    exact hb _ hn (cmpBytes_eq.mpr (bytes_toNat (longNameTable_ascii _ hn)).symm)
  | some i =>
    simp only [hc] at hb
    obtain ⟨⟨n, q⟩, ha, he⟩ := hb
    rw [cmpBytes_eq] at he
    have hmem := List.mem_of_getElem? ha
    have hname : name = Spec.bytes n := map_toNat_inj (he.symm.trans (bytes_toNat (longNameTable_ascii _ hmem)).symm)
    simp only [ha, Option.map_some]
    constructor
    · rintro h; cases h; exact ⟨n, hmem, hname⟩
    · rintro ⟨n', hn', hname'⟩
      have h2 : nameBytes n = nameBytes n' := by
        rw [← bytes_toNat (longNameTable_ascii _ hmem), ← bytes_toNat (longNameTable_ascii _ hn'),
          ← hname, ← hname']
      obtain ⟨i', hi', hget'⟩ := List.mem_iff_getElem.mp hn'
      obtain ⟨hi, hget⟩ := List.getElem?_eq_some_iff.mp ha
      have hpw := List.pairwise_iff_getElem.mp longNameTable_sorted
      rcases Nat.lt_trichotomy i i' with hlt | heq | hgt
      · have := hpw i i' hi hi' hlt
        rw [hget, hget'] at this
        simp [nameLt, h2, cmpBytes_eq.mpr] at this
      · subst heq; rw [hget] at hget'; cases hget'; rfl
      · have := hpw i' i hi' hi hgt
        rw [hget, hget'] at this
        simp [nameLt, h2, cmpBytes_eq.mpr] at this

/-- C14 for the set of raw names. -/
theorem C14_raw {name : List UInt8} :
    isRaw name = true ↔ ∃ n ∈ rawSet, name = Spec.bytes n := by
  have hs : SearchSorted (fun e : List Char => cmpBytes (nameBytes e) (name.map UInt8.toNat))
      rawSet :=
    rawSet_sorted.imp fun {a b} hab => by
      simp only [nameLt, beq_iff_eq] at hab; exact cmpBytes_split hab
  have hb := C14_bsearch hs
  unfold isRaw
  cases hc : bsearch (fun e : List Char => cmpBytes (nameBytes e) (name.map UInt8.toNat)) rawSet with
  | none =>
    simp only [hc] at hb
    simp only [Option.isSome_none, Bool.false_eq_true, false_iff]
    rintro ⟨n, hn, rfl⟩
    exact hb _ hn (cmpBytes_eq.mpr (bytes_toNat (rawSet_ascii _ hn)).symm)
  | some i =>
    simp only [hc] at hb
    obtain ⟨n, ha, he⟩ := hb
    rw [cmpBytes_eq] at he
    have hmem := List.mem_of_getElem? ha
    simp only [Option.isSome_some, true_iff]
    exact ⟨n, hmem, map_toNat_inj (he.symm.trans (bytes_toNat (rawSet_ascii _ hmem)).symm)⟩

/-- C14 for the tables of multi-byte operators, whitespace, uninterpretable and
ordinary letter-like characters and of characters with an ASCII replacement: the
test succeeds exactly for the characters listed. -/
theorem C14_chars (p : CP) :
    (p.isMBPunctuation = true ↔ ∃ n ∈ mbPunctuationTable, p = .char n) ∧
    (p.isMBWhitespace = true ↔ p = .char 0xf3a2 ∨ ∃ n ∈ mbWhitespaceTable, p = .char n) ∧
    (p.isMBUninterpretable = true ↔ ∃ n ∈ mbUninterpretableTable, p = .char n) ∧
    (p.isMBNotStrangeLetterlike = true ↔ ∃ n ∈ mbNotStrangeLetterlikeTable, p = .char n) ∧
    (p.hasAsciiReplacement = true ↔ ∃ n ∈ asciiReplacementKeys, p = .char n) := by
  refine ⟨charIn_iff (by decide +kernel), ?_, charIn_iff (by decide +kernel),
    charIn_iff (by decide +kernel), charIn_iff (by decide +kernel)⟩
  rw [← charIn_iff (l := mbWhitespaceTable) (by decide +kernel)]
  simp [CP.isMBWhitespace]

/-- C14 for the table of newline characters. -/
theorem C14_newline (p : CP) : p.isMBNewline = true ↔ p ∈ mbNewlineTable := by
  have hs : SearchSorted (fun e : CP => e.cmp p) mbNewlineTable := by
    have : mbNewlineTable.Pairwise (fun a b => a.rank < b.rank) := by
      have := chainB_pairwise (r := fun a b : CP => decide (a.rank < b.rank)) (l := mbNewlineTable)
        (by simp; omega) (by decide +kernel)
      simpa using this
    refine this.imp fun {a b} hab => ?_
    simp only [CP.cmp, cmpNat_lt, cmpNat_gt]; omega
  have hb := C14_bsearch hs
  unfold CP.isMBNewline
  cases hc : bsearch (fun e : CP => e.cmp p) mbNewlineTable with
  | none =>
    simp only [hc] at hb
    simp only [Option.isSome_none, Bool.false_eq_true, false_iff]
    intro h
    exact hb _ h (by simp [CP.cmp, cmpNat_eq])
  | some i =>
    simp only [hc] at hb
    obtain ⟨a, ha, he⟩ := hb
    rw [CP.cmp, cmpNat_eq] at he
    have := rank_inj he; subst this
    simpa using List.mem_of_getElem? ha

/-- The table from code points to long names is not sorted in the order the search
uses (`"` and `\` are special code points, which sort before all characters, but
stand between them), and lookups do miss entries: `\[RawDoubleQuote]` is in the
table and is not found. -/
theorem C14_codepoint_table_violated :
    (CP.metaDoubleQuote, ['R', 'a', 'w', 'D', 'o', 'u', 'b', 'l', 'e', 'Q', 'u', 'o', 't', 'e'])
        ∈ codePointNameTable ∧
      codepointToLongname .metaDoubleQuote = none := by
  constructor
  · decide +kernel
  · decide +kernel

example : longnameToCodepoint [65, 108, 112, 104, 97] = some (.char 0x3b1) := by decide +kernel
example : longnameToCodepoint [65, 108, 112, 104] = none := by decide +kernel

end CodeParser.Props
