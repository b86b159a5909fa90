import Verif.Model.Visit
import Verif.Spec.Visit
/-!
Property C43: visiting the nodes of a tree.
-/
namespace CodeParser.Props
open CodeParser CodeParser.Spec

mutual
/-- The nodes of a tree with their paths, parents first (helper). -/
def walk : List Nat → Cst → List (List Nat × Cst)
  | p, .tok t => [(p, .tok t)]
  | p, .node k cs => (p, .node k cs) :: walkL p 0 cs
  | p, .call h m op b => (p, .call h m op b) :: (walkL p 0 h ++ walkL p h.length b)
  | p, .callAgg h m op b => (p, .callAgg h m op b) :: (walk (p ++ [0]) h ++ walkL p 1 b)
  | p, .box k cs => (p, .box k cs) :: walkL p 0 cs
  | p, .code n => [(p, .code n)]
/-- The nodes of the children of the node at `p` from number `i` on (helper). -/
def walkL : List Nat → Nat → List Cst → List (List Nat × Cst)
  | _, _, [] => []
  | p, i, c :: cs => walk (p ++ [i]) c ++ walkL p (i + 1) cs
end

mutual
theorem walk_visit (f : σ → Cst → σ) (p : List Nat) (s : σ) (c : Cst) :
    Cst.visit f s c = (walk p c).foldl (fun s x => f s x.2) s := by
  match c with
  | .tok t => simp [walk, Cst.visit]
  | .node k cs => simp [walk, Cst.visit, walkL_visit f p 0]
  | .call h m op b => simp [walk, Cst.visit, walkL_visit f p 0 _ h, walkL_visit f p h.length _ b]
  | .callAgg h m op b =>
    simp [walk, Cst.visit, walk_visit f (p ++ [0]) _ h, walkL_visit f p 1 _ b]
  | .box k cs => simp [walk, Cst.visit, walkL_visit f p 0]
  | .code n => simp [walk, Cst.visit]
theorem walkL_visit (f : σ → Cst → σ) (p : List Nat) (i : Nat) (s : σ) (cs : List Cst) :
    Cst.visitL f s cs = (walkL p i cs).foldl (fun s x => f s x.2) s := by
  match cs with
  | [] => simp [walkL, Cst.visitL]
  | c :: cs => simp [walkL, Cst.visitL, walk_visit f (p ++ [i]) _ c, walkL_visit f p (i + 1) _ cs]
end

theorem walkL_append (p : List Nat) (i : Nat) (xs ys : List Cst) :
    walkL p i (xs ++ ys) = walkL p i xs ++ walkL p (i + xs.length) ys := by
  induction xs generalizing i with
  | nil => simp [walkL]
  | cons x xs ih => simp [walkL, ih, Nat.add_assoc, Nat.add_comm 1]

theorem walk_kids (p : List Nat) (c : Cst) : walk p c = (p, c) :: walkL p 0 (kids c) := by
  cases c <;> simp [walk, kids, walkL, walkL_append]

mutual
theorem walk_at (p : List Nat) (c : Cst) (q : List Nat) (d : Cst) :
    (q, d) ∈ walk p c ↔ ∃ r, q = p ++ r ∧ nodeAt r c = some d := by
  rw [walk_kids]
  have key : (q, d) ∈ walkL p 0 (kids c) ↔
      ∃ j r, q = p ++ (0 + j) :: r ∧ (kids c)[j]? >>= nodeAt r = some d := by
    match c with
    | .tok t => simp [walkL, kids]
    | .node k cs => exact walkL_at p 0 cs q d
    | .call h m op b =>
      show _ ∈ walkL p 0 (h ++ b) ↔ ∃ j r, _ ∧ (h ++ b)[j]? >>= nodeAt r = some d
      rw [walkL_append, List.mem_append, walkL_at p 0 h q d, walkL_at p (0 + h.length) b q d]
      constructor
      · rintro (⟨j, r, e, n⟩ | ⟨j, r, e, n⟩)
        · refine ⟨j, r, e, ?_⟩
          have : j < h.length := by
            rcases Nat.lt_or_ge j h.length with hl | hl
            · exact hl
            · simp [List.getElem?_eq_none hl] at n
          rwa [List.getElem?_append_left this]
        · refine ⟨h.length + j, r, by simpa [Nat.add_assoc] using e, ?_⟩
          rw [List.getElem?_append_right (by omega)]
          simpa using n
      · rintro ⟨j, r, e, n⟩
        rcases Nat.lt_or_ge j h.length with hl | hl
        · rw [List.getElem?_append_left hl] at n; exact Or.inl ⟨j, r, e, n⟩
        · rw [List.getElem?_append_right hl] at n
          refine Or.inr ⟨j - h.length, r, ?_, n⟩
          rw [e]; congr 2; omega
    | .callAgg h m op b =>
      show _ ∈ walkL p 0 (h :: b) ↔ ∃ j r, _ ∧ (h :: b)[j]? >>= nodeAt r = some d
      rw [walkL, List.mem_append, walk_at (p ++ [0]) h q d, walkL_at p (0 + 1) b q d]
      constructor
      · rintro (⟨r, e, n⟩ | ⟨j, r, e, n⟩)
        · exact ⟨0, r, by simpa using e, by simpa using n⟩
        · exact ⟨j + 1, r, by simpa [Nat.add_comm] using e, by simpa using n⟩
      · rintro ⟨j, r, e, n⟩
        cases j with
        | zero => exact Or.inl ⟨r, by simpa using e, by simpa using n⟩
        | succ j => exact Or.inr ⟨j, r, by simpa [Nat.add_comm] using e, by simpa using n⟩
    | .box k cs => exact walkL_at p 0 cs q d
    | .code n => simp [walkL, kids]
  rw [List.mem_cons, key]
  constructor
  · rintro (e | ⟨j, r, e, n⟩)
    · cases e; exact ⟨[], by simp, rfl⟩
    · exact ⟨j :: r, by simpa using e, n⟩
  · rintro ⟨r, e, n⟩
    match r with
    | [] => left; cases n; simp [e]
    | j :: r => exact Or.inr ⟨j, r, by simpa using e, n⟩
termination_by (sizeOf c, 1)
theorem walkL_at (p : List Nat) (i : Nat) (cs : List Cst) (q : List Nat) (d : Cst) :
    (q, d) ∈ walkL p i cs ↔ ∃ j r, q = p ++ (i + j) :: r ∧ cs[j]? >>= nodeAt r = some d := by
  match cs with
  | [] => simp [walkL]
  | c :: cs =>
    rw [walkL, List.mem_append, walk_at (p ++ [i]) c q d, walkL_at p (i + 1) cs q d]
    constructor
    · rintro (⟨r, e, n⟩ | ⟨j, r, e, n⟩)
      · exact ⟨0, r, by simpa using e, by simpa using n⟩
      · exact ⟨j + 1, r, by rw [e]; congr 2; omega, by simpa using n⟩
    · rintro ⟨j, r, e, n⟩
      cases j with
      | zero => exact Or.inl ⟨r, by simpa using e, by simpa using n⟩
      | succ j => exact Or.inr ⟨j, r, by rw [e]; congr 2; omega, by simpa using n⟩
termination_by (sizeOf cs, 0)
end

theorem lt_append (p : List Nat) {q r : List Nat} (h : q < r) : p ++ q < p ++ r :=
  List.append_left_lt h

mutual
theorem walk_sorted (p : List Nat) (c : Cst) : (walk p c).Pairwise (fun x y => x.1 < y.1) := by
  have key : (walkL p 0 (kids c)).Pairwise (fun x y => x.1 < y.1) := by
    match c with
    | .tok t => exact List.Pairwise.nil
    | .node k cs => exact walkL_sorted p 0 cs
    | .call h m op b =>
      show (walkL p 0 (h ++ b)).Pairwise _
      rw [walkL_append]
      refine List.pairwise_append.mpr ⟨walkL_sorted p 0 h, walkL_sorted p _ b, ?_⟩
      intro ⟨q, d⟩ hx ⟨q', d'⟩ hy
      obtain ⟨j, r, rfl, n⟩ := (walkL_at ..).mp hx
      obtain ⟨j', r', rfl, _⟩ := (walkL_at ..).mp hy
      have : j < h.length := by
        rcases Nat.lt_or_ge j h.length with hl | hl
        · exact hl
        · simp [List.getElem?_eq_none hl] at n
      exact lt_append p (List.cons_lt_cons_iff.mpr (Or.inl (by omega)))
    | .callAgg h m op b =>
      show (walkL p 0 (h :: b)).Pairwise _
      rw [walkL]
      refine List.pairwise_append.mpr ⟨walk_sorted (p ++ [0]) h, walkL_sorted p _ b, ?_⟩
      intro ⟨q, d⟩ hx ⟨q', d'⟩ hy
      obtain ⟨r, rfl, _⟩ := (walk_at ..).mp hx
      obtain ⟨j', r', rfl, _⟩ := (walkL_at ..).mp hy
      rw [List.append_assoc]
      exact lt_append p (List.cons_lt_cons_iff.mpr (Or.inl (by omega)))
    | .box k cs => exact walkL_sorted p 0 cs
    | .code n => exact List.Pairwise.nil
  rw [walk_kids]
  refine List.pairwise_cons.mpr ⟨?_, key⟩
  intro ⟨q, d⟩ hx
  obtain ⟨j, r, rfl, _⟩ := (walkL_at ..).mp hx
  have := lt_append p (List.nil_lt_cons (0 + j) r)
  simpa using this
termination_by (sizeOf c, 1)
theorem walkL_sorted (p : List Nat) (i : Nat) (cs : List Cst) :
    (walkL p i cs).Pairwise (fun x y => x.1 < y.1) := by
  match cs with
  | [] => exact List.Pairwise.nil
  | c :: cs =>
    rw [walkL]
    refine List.pairwise_append.mpr ⟨walk_sorted (p ++ [i]) c, walkL_sorted p _ cs, ?_⟩
    intro ⟨q, d⟩ hx ⟨q', d'⟩ hy
    obtain ⟨r, rfl, _⟩ := (walk_at ..).mp hx
    obtain ⟨j', r', rfl, _⟩ := (walkL_at ..).mp hy
    rw [List.append_assoc]
    exact lt_append p (List.cons_lt_cons_iff.mpr (Or.inl (by omega)))
termination_by (sizeOf cs, 0)
end

/-- C43: `visit` calls the callback once for every node of the tree, in the order of their
paths: a node before what is below it, children from left to right.  `l` is the sequence of
calls. -/
theorem C43_visit (c : Cst) : ∃ l : List (List Nat × Cst),
    (∀ {σ : Type} (f : σ → Cst → σ) (s : σ), Cst.visit f s c = l.foldl (fun s x => f s x.2) s) ∧
    (∀ p d, (p, d) ∈ l ↔ nodeAt p c = some d) ∧
    l.Pairwise (fun x y => x.1 < y.1) := by
  refine ⟨walk [] c, fun f s => walk_visit f [] s c, fun p d => ?_, walk_sorted [] c⟩
  rw [walk_at]; simp

mutual
/-- A bound that suffices for `mapVisit` (helper). -/
def bound : Cst → Nat
  | .tok _ => 1
  | .node _ cs => boundL cs + 1
  | .call h _ _ b => boundL h + boundL b + 1
  | .callAgg h _ _ b => bound h + boundL b + 1
  | .box _ cs => boundL cs + 1
  | .code _ => 1
/-- A bound that suffices for `mapVisitL` (helper). -/
def boundL : List Cst → Nat
  | [] => 1
  | c :: cs => bound c + boundL cs + 1
end

/-- The callback changes nothing but tokens (helper). -/
def onTok (g : Tok → Tok) : Cst → Cst
  | .tok t => .tok (g t)
  | c => c

mutual
theorem mapVisit_tok (g : Tok → Tok) (f : σ → Cst → Cst × σ) (hf : ∀ s c, (f s c).1 = onTok g c)
    (n : Nat) (s : σ) (c : Cst) (h : bound c ≤ n) :
    Cst.mapVisit f n s c = some (mapTok g c, Cst.visit (fun s c => (f s c).2) s c) := by
  match n, h with
  | 0, h => cases c <;> simp [bound] at h
  | n + 1, h =>
    have e : f s c = (onTok g c, (f s c).2) := by rw [← hf s c]
    rw [Cst.mapVisit, e]
    match c with
    | .tok t => simp [onTok, mapTok, Cst.visit]
    | .node k cs =>
      simp only [bound] at h
      simp [onTok, mapTok, Cst.visit, mapVisitL_tok g f hf n _ cs (by omega)]
    | .call hd m op b =>
      simp only [bound] at h
      simp [onTok, mapTok, Cst.visit, mapVisitL_tok g f hf n _ hd (by omega),
        mapVisitL_tok g f hf n _ b (by omega)]
    | .callAgg hd m op b =>
      simp only [bound] at h
      simp [onTok, mapTok, Cst.visit, mapVisit_tok g f hf n _ hd (by omega),
        mapVisitL_tok g f hf n _ b (by omega)]
    | .box k cs =>
      simp only [bound] at h
      simp [onTok, mapTok, Cst.visit, mapVisitL_tok g f hf n _ cs (by omega)]
    | .code m => simp [onTok, mapTok, Cst.visit]
termination_by (sizeOf c, 1)
theorem mapVisitL_tok (g : Tok → Tok) (f : σ → Cst → Cst × σ) (hf : ∀ s c, (f s c).1 = onTok g c)
    (n : Nat) (s : σ) (cs : List Cst) (h : boundL cs ≤ n) :
    Cst.mapVisitL f n s cs = some (mapTokL g cs, Cst.visitL (fun s c => (f s c).2) s cs) := by
  match n, h with
  | 0, h => cases cs <;> simp [boundL] at h
  | n + 1, h =>
    match cs with
    | [] => simp [Cst.mapVisitL, mapTokL, Cst.visitL]
    | c :: cs =>
      simp only [boundL] at h
      simp [Cst.mapVisitL, mapTokL, Cst.visitL, mapVisit_tok g f hf n _ c (by omega),
        mapVisitL_tok g f hf n _ cs (by omega)]
termination_by (sizeOf cs, 0)
end

mutual
theorem mapTok_id (c : Cst) : mapTok (fun t => t) c = c := by
  match c with
  | .tok t => rfl
  | .node k cs => simp [mapTok, mapTokL_id cs]
  | .call h m op b => simp [mapTok, mapTokL_id h, mapTokL_id b]
  | .callAgg h m op b => simp [mapTok, mapTok_id h, mapTokL_id b]
  | .box k cs => simp [mapTok, mapTokL_id cs]
  | .code n => rfl
theorem mapTokL_id (cs : List Cst) : mapTokL (fun t => t) cs = cs := by
  match cs with
  | [] => rfl
  | c :: cs => simp [mapTokL, mapTok_id c, mapTokL_id cs]
end

/-- C43: `map_visit` with a callback that changes tokens only, into tokens, ends, gives the
tree with every token replaced, and has called the callback as `visit` does (`σ` is what the
callback has seen).  The callback that returns its argument is the case `g t = t`. -/
theorem C43_mapVisit {σ : Type} (g : Tok → Tok) (f : σ → Cst → Cst × σ)
    (tok : ∀ s t, (f s (.tok t)).1 = .tok (g t))
    (other : ∀ s c, (∀ t, c ≠ .tok t) → (f s c).1 = c) (c : Cst) :
    ∃ N, ∀ n ≥ N, ∀ s,
      Cst.mapVisit f n s c = some (mapTok g c, Cst.visit (fun s c => (f s c).2) s c) := by
  refine ⟨bound c, fun n hn s => mapVisit_tok g f ?_ n s c hn⟩
  intro s c
  cases c with
  | tok t => exact tok s t
  | _ => exact other s _ (by simp)

/-- C43: `map_visit` with a callback that returns its argument gives the same tree. -/
theorem C43_mapVisit_id {σ : Type} (f : σ → Cst → Cst × σ) (hf : ∀ s c, (f s c).1 = c) (c : Cst) :
    ∃ N, ∀ n ≥ N, ∀ s, Cst.mapVisit f n s c = some (c, Cst.visit (fun s c => (f s c).2) s c) := by
  obtain ⟨N, h⟩ := C43_mapVisit (fun t => t) f (fun s t => hf s _) (fun s c _ => hf s c) c
  exact ⟨N, fun n hn s => by rw [h n hn s, mapTok_id]⟩

/-- A call `f[a]` with a space behind the head. -/
def visitExample : Cst :=
  .call [.tok ⟨.Symbol, [102], [], .lineCol 1 1, .lineCol 1 2⟩, .tok ⟨.Whitespace, [32], [], .lineCol 1 2, .lineCol 1 3⟩]
    false .CodeParser_GroupSquare
    [.tok ⟨.OpenSquare, [91], [], .lineCol 1 3, .lineCol 1 4⟩,
     .tok ⟨.Symbol, [97], [], .lineCol 1 4, .lineCol 1 5⟩,
     .tok ⟨.CloseSquare, [93], [], .lineCol 1 5, .lineCol 1 6⟩]

example : Cst.visit (fun (n : Nat) _ => n + 1) 0 visitExample = 6 := by decide +kernel
example : (nodeAt [3] visitExample).map Cst.leaves =
    some [⟨.Symbol, [97], [], .lineCol 1 4, .lineCol 1 5⟩] := by decide +kernel
example : ∃ f : Nat → Cst → Cst × Nat, (∀ s c, (f s c).1 = c) ∧
    (f 0 visitExample).2 = 1 := ⟨fun s c => (c, s + 1), by simp, rfl⟩

end CodeParser.Props
