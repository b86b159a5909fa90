import Verif.Model.Show
import Verif.Props.Char
/-!
Lemmas about the tables of long names, for C56.
-/
namespace CodeParser.Props
open CodeParser Spec

/-! ### The tables -/

theorem bsearchGo_eq {α} {cmp : α → Ordering} {xs : List α} : ∀ n l r i, bsearchGo cmp xs n l r = some i →
    ∃ a, xs[i]? = some a ∧ cmp a = .eq := by
  intro n
  induction n with
  | zero => intro l r i h; cases h
  | succ n ih =>
    intro l r i h
    unfold bsearchGo at h
    split at h
    · simp only at h
      split at h
      · cases h
      · rename_i a ha
        split at h
        · exact ih _ _ _ h
        · exact ih _ _ _ h
        · rename_i hc
          simp only [Option.some.injEq] at h
          subst h
          exact ⟨a, ha, hc⟩
    · cases h

theorem cmp_inj {p q : CP} (h : p.cmp q = .eq) : p = q := by
  have : p.rank = q.rank := by
    unfold CP.cmp cmpNat at h
    split at h
    · cases h
    · split at h
      · cases h
      · omega
  cases p <;> cases q <;> simp only [CP.rank] at this <;> first | rfl | omega | (congr 1; omega)

theorem codepointToLongname_mem {p : CP} {name : List Char} (h : codepointToLongname p = some name) :
    (p, name) ∈ codePointNameTable := by
  unfold codepointToLongname bsearch at h
  generalize codePointNameTable = t at h ⊢
  generalize hb : bsearchGo (fun e : CP × List Char => e.1.cmp p) t (t.length + 1) 0 t.length = o at h
  cases o with
  | none => cases h
  | some i =>
    obtain ⟨a, ha, hc⟩ := bsearchGo_eq _ _ _ _ hb
    simp only [ha, Option.map_some, Option.some.injEq] at h
    have := cmp_inj hc
    subst this; subst h
    exact List.mem_of_getElem? ha

theorem codePointNames_ok : (codePointNameTable.all fun e => longnameToCodepoint (bytes e.2) == some e.1 &&
    (!isRaw (bytes e.2) || match e.1 with | .char n => decide (n ≤ 0x7f) | .metaDoubleQuote | .metaBackslash => true | _ => false)) = true := by
  decide +kernel

theorem names_ascii : ∀ e ∈ codePointNameTable, ∀ c ∈ e.2, c.toNat < 128 := by
  have : (codePointNameTable.all fun e => e.2.all fun c => decide (c.toNat < 128)) = true := by
    decide +kernel
  simpa using this

theorem longNames_named : (longNameTable.all fun e => isRaw (bytes e.1) ||
    match codepointToLongname e.2 with
    | some n => !isRaw (bytes n)
    | none => false) = true := by
  decide +kernel

/-- The names of code points are registered long names of these. -/
theorem names_registered {p : CP} {name : List Char} (h : codepointToLongname p = some name) : (name, p) ∈ longNameTable := by
  have := List.all_eq_true.mp codePointNames_ok _ (codepointToLongname_mem h)
  simp only [Bool.and_eq_true, beq_iff_eq] at this
  obtain ⟨n, hn, he⟩ := C14_longname.mp this.1
  have hi := names_ascii _ (codepointToLongname_mem h)
  have := bytes_inj hi (longNameTable_ascii _ hn) he
  simp only at this
  rw [this]; exact hn

theorem names_not_raw {n : Nat} {name : List Char} (hn : 0x7f < n) (h : codepointToLongname (.char n) = some name) : name ∉ rawSet := by
  have := List.all_eq_true.mp codePointNames_ok _ (codepointToLongname_mem h)
  simp only [Bool.and_eq_true, beq_iff_eq, Bool.or_eq_true, Bool.not_eq_true', decide_eq_true_eq] at this
  intro hr
  rcases this.2 with h1 | h1
  · rw [C14_raw.mpr ⟨name, hr, rfl⟩] at h1; cases h1
  · omega

/-- A character that was read by its long name has a long name. -/
theorem named_again {p : CP} {name : List Char} (h : (name, p) ∈ longNameTable) (hr : name ∉ rawSet) :
    ∃ name', codepointToLongname p = some name' ∧ (name', p) ∈ longNameTable ∧ name' ∉ rawSet := by
  have := List.all_eq_true.mp longNames_named _ h
  simp only [Bool.or_eq_true] at this
  rcases this with h1 | h1
  · obtain ⟨n, hn, he⟩ := C14_raw.mp h1
    have : name = n := bytes_inj (longNameTable_ascii _ h) (rawSet_ascii _ hn) he
    exact absurd (this ▸ hn) hr
  · cases hc : codepointToLongname p with
    | none => rw [hc] at h1; cases h1
    | some n' =>
      rw [hc] at h1
      refine ⟨n', rfl, names_registered hc, fun hr' => ?_⟩
      simp only [Bool.not_eq_true'] at h1
      rw [C14_raw.mpr ⟨n', hr', rfl⟩] at h1; cases h1

theorem raw_points : (longNameTable.all fun e => !isRaw (bytes e.1) ||
    match e.2 with
    | .metaDoubleQuote => true
    | .metaBackslash => true
    | .char n => decide (n ≠ 0x5c ∧ n < 128)
    | _ => false) = true := by
  decide +kernel

theorem no_continuation : (longNameTable.all fun e =>
    match e.2 with
    | .contLF => false
    | .contCR => false
    | .contCRLF => false
    | _ => true) = true := by
  decide +kernel

end CodeParser.Props
