import Verif.Proofs.Words3
import Verif.Props.Aggregate
/-!
C81: the names and strings of a text are those of its abstract syntax trees.
-/
namespace CodeParser.Props
open CodeParser Spec Cst Abs

/-! ### The main theorem -/

section
variable {cfg : Cfg} {env : AEnv} {conv : Conv} {first : FirstLine} {bs : List UInt8} {r : ParseResult}

theorem sameWords_of {quote : List UInt8 → List UInt8} {out : Tok → Prop} {cs : List Cst} {as : List Ast}
    (h : Words.Like quote out (Words.wcL cs) (Words.waL as)) : SameWords quote out cs as := by
  obtain ⟨K, D, h1, h2, h3⟩ := h
  obtain ⟨ls, hls⟩ : ∃ ls : List Leaf, (ls : Multiset Leaf) = Words.waL as := ⟨_, rfl⟩
  obtain ⟨ks, rfl⟩ := Quot.exists_rep K
  obtain ⟨ds, rfl⟩ := Quot.exists_rep D
  have : ∃ ls' : List Leaf, (ls' : Multiset Leaf) = Words.waL as ∧ ∃ ks' : List Tok, (ks' : Multiset Tok) = (ks : Multiset Tok) ∧ List.Forall₂ (Stands quote) ls' ks' := by
    replace h2 : Multiset.Rel (Stands quote) (Words.waL as) (ks : Multiset Tok) := h2
    generalize Words.waL as = L at h2
    generalize (ks : Multiset Tok) = K' at h2
    clear h1 hls
    induction h2 with
    | zero => exact ⟨[], rfl, [], rfl, .nil⟩
    | cons hab _ ih =>
      obtain ⟨l, rfl, k, rfl, hf⟩ := ih
      exact ⟨_ :: l, rfl, _ :: k, rfl, .cons hab hf⟩
  obtain ⟨ls', e1, ks', e2, hf⟩ := this
  refine ⟨ks', ds, ls', ?_, fun t ht => h3 t ht, Multiset.coe_eq_coe.mp e1, hf⟩
  refine Multiset.coe_eq_coe.mp ?_
  rw [← Multiset.coe_add, e2]
  exact h1.symm

/-- C81: the names and strings of a text, and the places where something is missing, are those in its abstract syntax
trees: each is there once, at its place, and nothing else has a place – except that the words of `LeftOut` may be missing. -/
theorem C81_words (h : parseBytesCst cfg conv first bs = .ok r) {as : List Ast} {u : Option Unsafe}
    (ha : parseBytesAsts cfg env conv first bs = .ok (as, u)) :
    SameWords env.debug (LeftOut env.infixBinaryAt r.syntax') r.syntax' as := by
  obtain ⟨ds, h1, h2, h3⟩ := C36_aggregate h
  let H : Words.Marks := ⟨fun t => ∃ bs, In (.node (.binary .CodeParser_BinaryAt) (.tok t :: bs)) r.syntax',
    fun t => ∃ n, In n r.syntax' ∧ crowded n = true ∧ t ∈ leaves n⟩
  have hp : ∀ d ∈ ds, Words.Plain H d := fun d hd => by
    obtain ⟨c, hc, hs⟩ := strippedL_mem h2 d hd
    exact Words.strip_plain (form h c hc) hs (fun n hn hcr t ht => ⟨n, ⟨c, hc, hn⟩, hcr, ht⟩) fun t bs hn => ⟨bs, c, hc, hn⟩
  have O : Words.Outs env H (LeftOut env.infixBinaryAt r.syntax') :=
    ⟨fun h1 h2 => Or.inl ⟨h1, h2⟩, fun h1 h2 h3 h4 => Or.inr (Or.inl ⟨h1, h2, ⟨_, h3⟩, h4⟩), fun h1 => Or.inr (Or.inr h1)⟩
  have hw : wordsOfL ds = wordsOfL r.syntax' := by
    unfold wordsOfL
    rw [h3, List.filter_filter]
    refine List.filter_congr fun t _ => ?_
    cases hk : wordKind t.kind with
    | false => rfl
    | true =>
      cases hg : isGap t.kind with
      | false => rfl
      | true => rw [Words.word_gap _ hg] at hk; cases hk
  have hm : Spot.Sat (fun as => Words.Like env.debug (LeftOut env.infixBinaryAt r.syntax') (Words.wcL ds) (Words.waL as)) (mapA (abstractCst env) ds) := by
    have := Words.Like.mapA (q := env.debug) (w := Words.wc) (f := abstractCst env) (bs := ds) fun d hd => Words.abstractCst_gives O (hp d hd)
    rwa [Words.sum_wc] at this
  unfold parseBytesAsts at ha
  rw [h] at ha
  simp only [h1] at ha
  split at ha
  · cases ha
  · rename_i as' hA
    cases ha
    refine sameWords_of ?_
    have := hm _ hA
    unfold Words.wcL at this ⊢
    rwa [hw] at this

/-- C81: so no name and no string is lost if none is the symbol for commas, there are no operators in front of `@` or the
quirk is off, and there is one expression between parentheses. -/
theorem C81_all (h : parseBytesCst cfg conv first bs = .ok r) {as : List Ast} {u : Option Unsafe}
    (ha : parseBytesAsts cfg env conv first bs = .ok (as, u))
    (h1 : ∀ t ∈ wordsOfL r.syntax', nameText t.text ≠ utf8 "CodeParser`Comma".toList) (h2 : env.infixBinaryAt = false)
    (h3 : ∀ n, In n r.syntax' → crowded n = false) :
    ∃ ls : List Leaf, ls.Perm (wordsInL as) ∧ ∃ ts : List Tok, ts.Perm (wordsOfL r.syntax') ∧ List.Forall₂ (Stands env.debug) ls ts := by
  obtain ⟨kept, lost, ls, hp, hl, hls, hf⟩ := C81_words h ha
  have : lost = [] := by
    refine List.eq_nil_iff_forall_not_mem.mpr fun t ht => ?_
    rcases hl t ht with h' | h' | ⟨n, hn, hc, _⟩
    · exact h1 t (hp.mem_iff.mp (List.mem_append_right _ ht)) h'.2
    · rw [h2] at h'; cases h'.1
    · rw [h3 n hn] at hc; cases hc
  subst this
  exact ⟨ls, hls, kept, by simpa using hp, hf⟩

/-- C81: every name in the abstract syntax was written: each word of the trees is at the place of a token of the text. -/
theorem C81_written (h : parseBytesCst cfg conv first bs = .ok r) {as : List Ast} {u : Option Unsafe}
    (ha : parseBytesAsts cfg env conv first bs = .ok (as, u)) {l : Leaf} (hl : l ∈ wordsInL as) :
    ∃ t ∈ wordsOfL r.syntax', Stands env.debug l t := by
  obtain ⟨kept, lost, ls, hp, -, hls, hf⟩ := C81_words h ha
  have : ∀ {ls : List Leaf} {ts : List Tok}, List.Forall₂ (Stands env.debug) ls ts → l ∈ ls → ∃ t ∈ ts, Stands env.debug l t := by
    intro ls ts hf
    induction hf with
    | nil => intro h; cases h
    | cons h1 _ ih =>
      intro h
      rcases List.mem_cons.mp h with rfl | h
      · exact ⟨_, by simp, h1⟩
      · obtain ⟨t, ht, hs⟩ := ih h
        exact ⟨t, by simp [ht], hs⟩
  obtain ⟨t, ht, hs⟩ := this hf (hls.mem_iff.mpr hl)
  exact ⟨t, hp.mem_iff.mp (List.mem_append_left _ ht), hs⟩
end

/-! ### Examples -/

/-- The words in the abstract syntax of a text, and those of the text itself. -/
def bothWords (s : String) : Option (List (List UInt8) × List (List UInt8)) :=
  match parseBytesCst Cfg.default .lineColumn .notScript (encode s.toList), parseBytesAsts Cfg.default AEnv.default .lineColumn .notScript (encode s.toList) with
  | .ok r, .ok (as, _) => some ((wordsInL as).map fun l => l.2.1, (wordsOfL r.syntax').map fun t => t.text)
  | _, _ => none

/-- The two lists of words. -/
def wordsAre (s : String) (inTree inText : List String) : Bool :=
  bothWords s == some (inTree.map fun w => utf8 w.toList, inText.map fun w => utf8 w.toList)

example : wordsAre "f[x] + y / z - \"s\"" ["f", "x", "y", "z", "\"s\""] ["f", "x", "y", "z", "\"s\""] = true := by decide +kernel
example : wordsAre "a ~ b ~ c // d" ["d", "b", "a", "c"] ["a", "b", "c", "d"] = true := by decide +kernel
example : wordsAre "a::b" ["a", "\"b\""] ["a", "b"] = true := by decide +kernel
example : wordsAre "a; ;b" ["a", "Null", "b"] ["a", "", "b"] = true := by decide +kernel
/-- The quirk: an operator's own name in front of `@`. -/
example : wordsAre "a + Plus @ b" ["a", "b"] ["a", "Plus", "b"] = true := by decide +kernel
/-- The symbol for commas, when it is written, is taken for commas. -/
example : wordsAre "f[CodeParser`Comma[a, b]]" ["f", "a", "b"] ["f", "CodeParser`Comma", "a", "b"] = true := by decide +kernel
/-- Negation forgets what is between parentheses after a zero, with the mistake that led to it. -/
theorem C81_forgets : wordsAre "-(0 ] b)" [] ["b"] = true := by decide +kernel

mutual
/-- Some parentheses in the tree are around more than one expression. -/
def someCrowded : Cst → Bool
  | .node k cs => crowded (.node k cs) || someCrowdedL cs
  | .call h _ _ b => someCrowdedL h || someCrowdedL b
  | _ => false
/-- The same for trees. -/
def someCrowdedL : List Cst → Bool
  | [] => false
  | c :: cs => someCrowded c || someCrowdedL cs
end

theorem someCrowdedL_mem : ∀ {cs : List Cst} {c : Cst}, someCrowdedL cs = false → c ∈ cs → someCrowded c = false
  | c :: cs, x, h, hx => by
    simp only [someCrowdedL, Bool.or_eq_false_iff] at h
    rcases List.mem_cons.mp hx with rfl | hx
    · exact h.1
    · exact someCrowdedL_mem h.2 hx

theorem someCrowded_sub {n c : Cst} (h : Sub n c) : someCrowded c = false → crowded n = false := by
  induction h with
  | refl =>
    intro h
    cases n with
    | node k cs => simp only [someCrowded, Bool.or_eq_false_iff] at h; exact h.1
    | _ => rfl
  | node hc _ ih => intro h; simp only [someCrowded, Bool.or_eq_false_iff] at h; exact ih (someCrowdedL_mem h.2 hc)
  | head hc _ ih => intro h; simp only [someCrowded, Bool.or_eq_false_iff] at h; exact ih (someCrowdedL_mem h.1 hc)
  | body hc _ ih => intro h; simp only [someCrowded, Bool.or_eq_false_iff] at h; exact ih (someCrowdedL_mem h.2 hc)

/-- The text has abstract syntax, has some words, and meets what `C81_all` asks for. -/
def wordy (s : String) : Bool :=
  match parseBytesCst Cfg.default .lineColumn .notScript (encode s.toList),
    parseBytesAsts Cfg.default { AEnv.default with infixBinaryAt := false } .lineColumn .notScript (encode s.toList) with
  | .ok r, .ok (_, _) => !(wordsOfL r.syntax').isEmpty && !someCrowdedL r.syntax' &&
      (wordsOfL r.syntax').all fun t => nameText t.text != utf8 "CodeParser`Comma".toList
  | _, _ => false



example : ∃ r as u, parseBytesCst Cfg.default .lineColumn .notScript (encode "-(x y) + Plus @ {a, \"b\"}".toList) = .ok r ∧
    parseBytesAsts Cfg.default { AEnv.default with infixBinaryAt := false } .lineColumn .notScript (encode "-(x y) + Plus @ {a, \"b\"}".toList) = .ok (as, u) ∧
    (∀ t ∈ wordsOfL r.syntax', nameText t.text ≠ utf8 "CodeParser`Comma".toList) ∧ ∀ n, In n r.syntax' → crowded n = false := by
  have h : wordy "-(x y) + Plus @ {a, \"b\"}" = true := by decide +kernel
  unfold wordy at h
  split at h
  · rename_i r as u h1 h2
    simp only [Bool.and_eq_true, Bool.not_eq_true', List.all_eq_true, bne_iff_ne] at h
    exact ⟨r, as, u, h1, h2, h.2, fun n ⟨c, hc, hn⟩ => someCrowded_sub hn (someCrowdedL_mem h.1.2 hc)⟩
  · cases h
end CodeParser.Props
