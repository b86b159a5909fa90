import Verif.Model.Reader
/-
Model of free-standing helpers: `split_by_pairs`, `split_lines_keep_sep` and the
span relations.  Paths are relative to /repo/crates/wolfram-parser/src.
-/
namespace CodeParser

/-- The `while` loop of `split_by_pairs`, utils.rs:503-521: `slice` and `ri` are
the loop variables `slice` and `right_index`, `chunks` the result so far.  The
loop is unbounded in the code; here `fuel` bounds the number of iterations and
`splitByPairs` supplies `slice.len()`, which the theorems show to be enough. -/
def splitByPairsLoop (pred : α → α → Bool) : Nat → List α → Nat → List (List α) → List (List α)
  | 0, slice, _, chunks => if slice.isEmpty then chunks else chunks ++ [slice]
  | fuel + 1, slice, ri, chunks =>
    if h : ri < slice.length ∧ 1 ≤ ri then
      let left := slice[ri - 1]'(by omega)
      let right := slice[ri]
      let ri := ri + 1
      if pred left right then splitByPairsLoop pred fuel slice ri chunks
      else splitByPairsLoop pred fuel (slice.drop (ri - 1)) 1 (chunks ++ [slice.take (ri - 1)])
    else if slice.isEmpty then chunks else chunks ++ [slice]

/-- `split_by_pairs`, utils.rs:486-524. -/
def splitByPairs (slice : List α) (pred : α → α → Bool) : List (List α) :=
  if slice.isEmpty then []
  else if slice.length = 1 then [slice]
  else splitByPairsLoop pred slice.length slice 1 []

/-- The loop of `split_lines_keep_sep`, error.rs:756-792.  `cur` is the slice
`input[start..index]` (the code keeps byte offsets into the input instead of the
slice), `lines` the result so far. -/
def splitLinesLoop : List Char → List Char → List (List Char × List Char) → List (List Char × List Char)
  | [], cur, lines => if cur.isEmpty then lines else lines ++ [(cur, [])]
  | '\n' :: rest, cur, lines => splitLinesLoop rest [] (lines ++ [(cur, ['\n'])])
  | '\r' :: '\n' :: rest, cur, lines => splitLinesLoop rest [] (lines ++ [(cur, ['\r', '\n'])])
  | '\r' :: rest, cur, lines => splitLinesLoop rest [] (lines ++ [(cur, ['\r'])])
  | c :: rest, cur, lines => splitLinesLoop rest (cur ++ [c]) lines

/-- `split_lines_keep_sep`, error.rs:740-795. -/
def splitLines (input : List Char) : List (List Char × List Char) :=
  if input.isEmpty then [([], [])] else splitLinesLoop input [] []

/-- `LineColumn`, source.rs:459-465. Simplification: natural numbers. -/
structure LineColumn where
  line : Nat
  column : Nat
deriving DecidableEq, Repr

/-- `LineColumnSpan`, source.rs:468-472. -/
structure LineColumnSpan where
  start : LineColumn
  stop : LineColumn
deriving DecidableEq, Repr

/-- `LineColumnSpan::contains`, source.rs:848-882. -/
def LineColumnSpan.contains (s : LineColumnSpan) (cursor : LineColumn) : Bool :=
  if !(s.start.line ≤ cursor.line && cursor.line ≤ s.stop.line) then false
  else if cursor.line == s.start.line && s.start.line == s.stop.line then
    s.start.column ≤ cursor.column && cursor.column ≤ s.stop.column
  else if cursor.line == s.start.line then s.start.column ≤ cursor.column
  else if cursor.line == s.stop.line then cursor.column ≤ s.stop.column
  else true

/-- `LineColumnSpan::overlaps`, source.rs:899-903. -/
def LineColumnSpan.overlaps (s cursor : LineColumnSpan) : Bool :=
  s.contains cursor.start || s.contains cursor.stop

/-- `CharacterSpan`, source.rs:439-440. -/
structure CharacterSpan where
  start : Nat
  stop : Nat
deriving DecidableEq, Repr

/-- `utils::is_interval_member`, utils.rs:717-722, = `CharacterSpan::contains_span`,
source.rs:683-685. -/
def CharacterSpan.containsSpan (a b : CharacterSpan) : Bool :=
  b.start ≥ a.start && b.stop ≤ a.stop

/-- `utils::intersection`, utils.rs:725-746.  The outer `Option` is `none` when one of
the two assertions `start <= end` (733-734) fails. -/
def CharacterSpan.intersection (a b : CharacterSpan) : Option (Option CharacterSpan) :=
  let (a, b) := if a.start < b.start then (a, b) else (b, a)
  if ¬ a.start ≤ a.stop then none
  else if ¬ b.start ≤ b.stop then none
  else
    let highestStart := max a.start b.start
    let lowestEnd := min a.stop b.stop
    if highestStart > lowestEnd then some none
    else some (some ⟨highestStart, lowestEnd⟩)

/-- `CharacterSpan::intersects`, source.rs:687-689; `none` is the panic. -/
def CharacterSpan.intersects (a b : CharacterSpan) : Option Bool :=
  (a.intersection b).map (·.isSome)

/-- `Span`, source.rs:403-407. -/
structure Span where
  start : Loc
  stop : Loc
deriving DecidableEq, Repr

/-- `PartialOrd for Location`, source.rs:1151-1168, as `<=`. -/
def Loc.le : Loc → Loc → Bool
  | .lineCol l c, .lineCol l' c' => l < l' || (l == l' && c ≤ c')
  | .index i, .index j => i ≤ j
  | _, _ => false

/-- `Span::new`, source.rs:728-732; `none` is the failed assertion. -/
def Span.new (start stop : Loc) : Option Span :=
  if start.le stop then some ⟨start, stop⟩ else none

/-- `Span::overlaps`, source.rs:778-797, with `Span::kind`, source.rs:799-816; `none` is a
panic (mixed conventions, or a span ending before it starts). -/
def Span.overlaps (a b : Span) : Option Bool :=
  match a.start, a.stop, b.start, b.stop with
  | .lineCol l1 c1, .lineCol l2 c2, .lineCol l3 c3, .lineCol l4 c4 =>
    some (LineColumnSpan.overlaps ⟨⟨l1, c1⟩, ⟨l2, c2⟩⟩ ⟨⟨l3, c3⟩, ⟨l4, c4⟩⟩)
  | .index i1, .index i2, .index i3, .index i4 =>
    CharacterSpan.intersects ⟨i1, i2⟩ ⟨i3, i4⟩
  | _, _, _, _ => none

end CodeParser
