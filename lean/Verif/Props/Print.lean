import Verif.Proofs.Print
import Verif.Proofs.Link7
import Verif.Props.Meaning
import Verif.Props.Link
/-!
C75: printed trees.
-/
namespace CodeParser.Props
open CodeParser Wll Spec LinkP Cst Mean Abs

theorem span_print {n : Nat} {a b : Loc} (ha : Small .lineColumn n a) (hb : Small .lineColumn n b) :
    ∃ p, printSource (.span a b) = some p := by
  cases a with
  | lineCol l c =>
    cases b with
    | lineCol l' c' => exact ⟨_, rfl⟩
    | index j => have := ha.1.symm.trans hb.1; cases this
  | index i => have := ha.1; cases this

theorem hull_print {n : Nat} {ts : List Tok} {s : Option Wll.Source} (h : Sendable .lineColumn n ts) (hs : LinkP.Hull ts s) :
    ∃ p, printSource' s = some p := by
  obtain ⟨a, b, h1, h2, rfl⟩ := hs
  exact span_print (h.2 a (List.mem_of_head? h1)).2.1 (h.2 b (List.mem_of_getLast? h2)).2.2.1

mutual
theorem print_ok {n : Nat} : ∀ {c : Cst}, Whole c → Sendable .lineColumn n (leaves c) → ∃ x, (ofCst c).print = some x
  | .tok t, _, h => by
    obtain ⟨-, h1, h2, h3⟩ := h.2 t (by simp [leaves])
    obtain ⟨p, hp⟩ := span_print h1 h2
    exact ⟨_, by rw [ofCst, ofTok, Tree.print, printToken, if_pos h3, hp]; rfl⟩
  | .node k cs, hw, h => by
    cases hw with
    | node h1 h2 =>
      obtain ⟨xs, hx⟩ := prints_ok h2 h
      obtain ⟨p, hp⟩ := hull_print h (LinkP.seqSource_ok h1 h2 h)
      exact ⟨_, by rw [ofCst, Tree.print, hx, hp]; rfl⟩
  | .call f m op b, hw, h => by
    have hs := LinkP.source_ok hw h
    cases hw with
    | call h1 h2 h3 h4 =>
      have hb : Sendable .lineColumn n (leavesL b) := h.sub (List.sublist_append_right _ _)
      obtain ⟨xs, hx⟩ := prints_ok h3 (h.sub (List.sublist_append_left _ _))
      obtain ⟨ys, hy⟩ := prints_ok h4 hb
      obtain ⟨q, hq⟩ := hull_print hb (LinkP.seqSource_ok h2 h4 hb)
      obtain ⟨p, hp⟩ := hull_print h hs
      rw [ofCst] at hp
      exact ⟨_, by rw [ofCst, Tree.print, hx, hy, hq, hp]; rfl⟩
  | .callAgg f m op b, hw, h => by
    have hs := LinkP.source_ok hw h
    cases hw with
    | callAgg h2 h3 h4 =>
      have hb : Sendable .lineColumn n (leavesL b) := h.sub (List.sublist_append_right _ _)
      obtain ⟨xs, hx⟩ := print_ok h3 (h.sub (List.sublist_append_left _ _))
      obtain ⟨ys, hy⟩ := prints_ok h4 hb
      obtain ⟨q, hq⟩ := hull_print hb (LinkP.seqSource_ok h2 h4 hb)
      obtain ⟨p, hp⟩ := hull_print h hs
      rw [ofCst] at hp
      exact ⟨_, by rw [ofCst, Tree.print, hx, hy, hq, hp]; rfl⟩
  | .box .., h, _ => by cases h
  | .code .., h, _ => by cases h
theorem prints_ok {n : Nat} : ∀ {cs : List Cst}, (∀ c ∈ cs, Whole c) → Sendable .lineColumn n (leavesL cs) →
    ∃ x, printAll (ofCsts cs) = some x
  | [], _, _ => ⟨[], rfl⟩
  | c :: cs, hw, h => by
    obtain ⟨x, hx⟩ := print_ok (hw c (by simp)) (h.sub (leaves_sublist (by simp)))
    obtain ⟨xs, hxs⟩ := prints_ok (cs := cs) (fun d hd => hw d (by simp [hd]))
      (h.sub (by simp only [leavesL]; exact List.sublist_append_right _ _))
    exact ⟨_, by rw [ofCsts, printAll, hx, hxs]; rfl⟩
end

/-- C75: with positions in lines and columns, which is what the command line tool uses, the trees of
every text can be printed. -/
theorem C75_printed {cfg : Cfg} {first : FirstLine} {input : List Char} {r : ParseResult}
    (h : parseBytesCst cfg .lineColumn first (encode input) = .ok r) : ∃ x, printSeq (ofCsts r.syntax') = some x := by
  obtain ⟨h1, h2⟩ := result_sendable h
  obtain ⟨x, hx⟩ := prints_ok h1 h2
  exact ⟨_, by rw [printSeq, hx]; rfl⟩

/-- C75: what is printed tells which trees are printed, up to the kind of newlines, if the ends of
all texts can be seen. -/
theorem C75_determined_partial {ts ts' : List Tree} {x : List UInt8} (h : printSeq ts = some x) (h' : printSeq ts' = some x)
    (l : Legibles ts) (l' : Legibles ts') : newlinesAll ts = newlinesAll ts' := by
  obtain ⟨y, h1, h2⟩ := Option.map_eq_some_iff.mp h
  obtain ⟨y', h1', h2'⟩ := Option.map_eq_some_iff.mp h'
  have e : printList y ++ [] = printList y' ++ [] := by rw [h2, h2']
  exact (trees_cut h1 h1' l l' (list_cut e)).1

/-- Trees for the example: `f["\""]`, a newline, a comment with a quote. -/
private def shown : List Tree := [
  .call [.leaf .Symbol (bytes "f".toList) (Link.src 1 2)] false .CodeParser_GroupSquare
    [.leaf .OpenSquare (bytes "[".toList) (Link.src 2 3), .leaf .String (bytes "\"\\\"\"".toList) (Link.src 3 7),
      .leaf .CloseSquare (bytes "]".toList) (Link.src 7 8)],
  .leaf .ToplevelNewline [10] (.span (.lineCol 1 8) (.lineCol 2 1)),
  .leaf .Comment (bytes "(*\"*)".toList) (.span (.lineCol 2 1) (.lineCol 2 6))]

/-- They are printed as the trees of that text are, and the ends of all texts can be seen. -/
example : (∃ x, printParse Cfg.default .lineColumn .notScript (encode "f[\"\\\"\"]\n(*\"*)".toList) = some x ∧ printSeq shown = some x) ∧
    Legibles shown := by
  refine ⟨?_, ?_⟩
  · obtain ⟨x, hx⟩ := Option.isSome_iff_exists.mp (show (printSeq shown).isSome = true by decide +kernel)
    exact ⟨x, (by decide +kernel : printParse Cfg.default .lineColumn .notScript (encode "f[\"\\\"\"]\n(*\"*)".toList) = printSeq shown).trans hx, hx⟩
  simp only [shown, Legibles, Legible, and_true]
  exact ⟨⟨.plain (by decide) (by decide) (by decide), .plain (by decide) (by decide) (by decide),
      .string (body := bytes "\\\"\"".toList) (by decide), .plain (by decide) (by decide) (by decide)⟩,
    .plain (by decide) (by decide) (by decide), .comment (body := bytes "\"*)".toList) (by decide)⟩

/-- C75 fails as stated: what is printed is not an expression that can be read back, because there is a
comma behind the last element of a list.  Read by the parser itself, what is printed for `1` has one
element too many. -/
theorem C75_violated : ∃ x as u,
    printParse Cfg.default .lineColumn .notScript (encode "1".toList) = some (encode x) ∧
    parseBytesAsts Cfg.default AEnv.default .lineColumn .notScript (encode x) = .ok (as, u) ∧
    as.map erase = [.call (word "System`List") [.call (word "CodeParser`LeafNode") [word "System`Integer", .leaf .String (bytes "\"1\"".toList),
      .call (word "List") [.call (word "List") [number 1, number 1], .call (word "List") [number 1, number 2]]], word "Null"]] := by
  have h : denotes "System`List[CodeParser`LeafNode[System`Integer, \"1\", {{1, 1}, {1, 2}}], ]".toList
      [.call (word "System`List") [.call (word "CodeParser`LeafNode") [word "System`Integer", .leaf .String (bytes "\"1\"".toList),
      .call (word "List") [.call (word "List") [number 1, number 1], .call (word "List") [number 1, number 2]]], word "Null"]] = true := by
    decide +kernel
  obtain ⟨as, u, h1, h2⟩ := of_denotes h
  exact ⟨_, as, u, by decide +kernel, h1, h2⟩

/-- C75 fails also for strings, whose quotes are not escaped. -/
theorem C75_quotes_violated : ∃ x as u,
    printParse Cfg.default .lineColumn .notScript (encode "\"a\"".toList) = some (encode x) ∧
    parseBytesAsts Cfg.default AEnv.default .lineColumn .notScript (encode x) = .ok (as, u) ∧
    as.map erase = [.call (word "System`List") [.call (word "CodeParser`LeafNode") [word "System`String",
      .call (word "Times") [.leaf .String (bytes "\"\"".toList), word "a", .leaf .String (bytes "\"\"".toList)],
      .call (word "List") [.call (word "List") [number 1, number 1], .call (word "List") [number 1, number 4]]], word "Null"]] := by
  have h : denotes "System`List[CodeParser`LeafNode[System`String, \"\"a\"\", {{1, 1}, {1, 4}}], ]".toList
      [.call (word "System`List") [.call (word "CodeParser`LeafNode") [word "System`String",
      .call (word "Times") [.leaf .String (bytes "\"\"".toList), word "a", .leaf .String (bytes "\"\"".toList)],
      .call (word "List") [.call (word "List") [number 1, number 1], .call (word "List") [number 1, number 4]]], word "Null"]] = true := by
    decide +kernel
  obtain ⟨as, u, h1, h2⟩ := of_denotes h
  exact ⟨_, as, u, by decide +kernel, h1, h2⟩

private def unprintable (conv : Conv) (bs : List UInt8) : Bool :=
  match parseBytesCst Cfg.default conv .notScript bs with
  | .ok r => (printSeq (ofCsts r.syntax')).isNone
  | .error _ => false

private theorem of_unprintable {conv : Conv} {bs : List UInt8} (h : unprintable conv bs = true) :
    ∃ r, parseBytesCst Cfg.default conv .notScript bs = .ok r ∧ printSeq (ofCsts r.syntax') = none := by
  unfold unprintable at h
  split at h
  · next r hr => exact ⟨r, hr, by simpa using h⟩
  · cases h

/-- C75 fails for bytes that are not UTF-8 and for positions that are indices of characters: printing
the trees, which are there, panics. -/
theorem C75_panics :
    (∃ r, parseBytesCst Cfg.default .lineColumn .notScript [0xff] = .ok r ∧ printSeq (ofCsts r.syntax') = none) ∧
    (∃ r, parseBytesCst Cfg.default .characterIndex .notScript (encode "a".toList) = .ok r ∧ printSeq (ofCsts r.syntax') = none) :=
  ⟨of_unprintable (by decide +kernel), of_unprintable (by decide +kernel)⟩

end CodeParser.Props
