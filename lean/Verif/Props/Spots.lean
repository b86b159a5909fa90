import Verif.Proofs.Spot4
import Verif.Proofs.Place9
import Verif.Props.Abstract
/-!
C78: the positions in abstract syntax trees.
-/
namespace CodeParser.Props
open CodeParser Spec Cst Spot

section
variable {cfg : Cfg} {env : Abs.AEnv} {conv : Conv} {first : FirstLine} {bs : List UInt8}

/-- C78, nesting: in a text without unterminated parts, the position of each node of an abstract
syntax tree encloses the positions in the node; each position goes from the beginning of
a token to the end of one; and the positions in one tree come before those in the next. -/
theorem C78_nested {r : ParseResult} {as : List Ast} {u : Option Unsafe}
    (h : Abs.parseBytesAsts cfg env conv first bs = .ok (as, u)) (hr : parseBytesCst cfg conv first bs = .ok r)
    (ht : ∀ t ∈ leavesL r.syntax', unterminated t.kind = false) :
    (∀ a ∈ as, Nested a ∧ ∀ s ∈ positions a, OnTokens (leavesL r.syntax') s) ∧
    as.Pairwise fun a b => ∀ s ∈ positions a, ∀ s' ∈ positions b, s.2.le s'.1 = true := by
  obtain ⟨r', ds, h1, h2, h3, h6⟩ := Place.asts_inv h
  rw [hr] at h1
  cases h1
  obtain ⟨ds', h2', h5, h4⟩ := C36_aggregate hr
  rw [h2] at h2'
  cases h2'
  have hs : (leavesL ds).Sublist (leavesL r.syntax') := by rw [h4]; exact List.filter_sublist
  have ho := (result_ordered hr ht).sub hs
  have hf : List.Forall₂ (fun d a => Fits (leaves d) a) ds as := mapA_forall h3 fun d hd a ha =>
    abstractCst_fits (ho.sub (leaves_sublist hd)) a ha
  clear h h2 h3 h4 h5 h6 hr ht
  refine ⟨?_, ?_⟩
  · intro a ha
    obtain ⟨d, hd, hda⟩ := forall_left hf ha
    exact hda.mono ((leaves_sublist hd).trans hs)
  · clear hs
    induction hf with
    | nil => exact .nil
    | @cons d a ds as h hf ih =>
      rw [leavesL] at ho
      obtain ⟨hp, hl⟩ := ho
      obtain ⟨hp1, hp2, hp3⟩ := List.pairwise_append.mp hp
      refine .cons ?_ (ih ⟨hp2, fun k hk => hl k (List.mem_append_right _ hk)⟩)
      intro b hb s hs s' hs'
      obtain ⟨d', hd', hf'⟩ := forall_left hf hb
      obtain ⟨t1, ht1, t2, ht2, rfl, _⟩ := h.2 s hs
      obtain ⟨t3, ht3, t4, ht4, rfl, _⟩ := hf'.2 s' hs'
      exact hp3 _ ht2 _ ((leaves_sublist hd').subset ht3)

/-- C78, the position of each tree: after `aggregate` each concrete tree gives one abstract tree,
whose position goes from the first to the last token of the expression, without the parentheses
around it. -/
theorem C78_own {r : ParseResult} {ds : List Cst} {as : List Ast} {u : Option Unsafe}
    (h : Abs.parseBytesAsts cfg env conv first bs = .ok (as, u)) (hr : parseBytesCst cfg conv first bs = .ok r)
    (hd : aggregateL r.syntax' = .ok ds) : List.Forall₂ OwnPosition ds as := by
  obtain ⟨r', ds', h1, h2, h3, _⟩ := Place.asts_inv h
  rw [hr] at h1
  cases h1
  rw [hd] at h2
  cases h2
  exact mapA_forall h3 fun d _ a ha => abstractCst_top a ha
end

/-- Whether a text has no unterminated parts and gives `n` abstract syntax trees with `m` positions. -/
def spotted (bs : List UInt8) (n m : Nat) : Bool :=
  match Abs.parseBytesAsts Cfg.default Abs.AEnv.default .lineColumn .notScript bs,
    parseBytesCst Cfg.default .lineColumn .notScript bs with
  | .ok (as, _), .ok r => decide (as.length = n ∧ (positionsL as).length = m) && (leavesL r.syntax').all fun t => !unterminated t.kind
  | _, _ => false

example : spotted (encode "{a, - b} + c[ ][d]\n(x; y)".toList) 2 12 = true := by decide +kernel

end CodeParser.Props
