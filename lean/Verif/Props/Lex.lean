import Verif.Proofs.Lex4
import Verif.Proofs.Chars1
/-!
Properties C45 and C46: operators are recognised by the longest match, and names are one token.
-/
namespace CodeParser.Props
open CodeParser Spec

/-- From a contract of `nextToken` that excludes failure to what looking at the next token gives. -/
theorem peek_of_wp {cfg : Cfg} {pol : Pol} {g : Bool} {s : St} {Q : Tok → St → Prop}
    (h : wp (fun _ => False) (nextToken cfg { pol with toplevel := pol.toplevel && !g }) s Q) :
    ∃ k t u, peekTokenWith cfg pol g s = .ok (k, t) ∧ Q k u := by
  have h' : wp (fun _ => False) (peekTokenWith cfg pol g) s fun k _ => ∃ u, Q k u := by
    unfold peekTokenWith
    exact wp_mark1 (wp_call h (fun _ h => h) fun k t hk => wp_bind (wp_seek (wp_pure ⟨t, hk⟩)))
  unfold wp at h'
  cases hp : peekTokenWith cfg pol g s with
  | error e => rw [hp] at h'; exact absurd h' id
  | ok p =>
    rw [hp] at h'
    obtain ⟨u, hu⟩ := h'
    exact ⟨p.1, p.2, u, rfl, hu⟩

/-! ### C45: operators -/

/-- C45: where a character that starts an operator is followed by `r`, the next token is the
longest operator of the list that is written there, whatever the policy and wherever in the input.
Excluded are the begin of a comment, a number that starts with a dot, and texts where an ASCII
character that may belong to the operator is written as an escape or behind a line continuation. -/
theorem C45_operator (cfg : Cfg) (pol : Pol) (insideGroup : Bool) (s : St) (c : Char) (r : List UInt8)
    (h0 : s.eof = false) (hs : s.rest = byte c :: r) (hc : operators c ≠ [])
    (hesc : Clear r) (hesc' : ∀ x q, r = byte x :: q → x ∈ opInner → Clear q)
    (hcomment : ¬ (c = '(' ∧ ∃ q, r = byte '*' :: q)) (hnumber : ¬ (c = '.' ∧ startsWithDigit r)) :
    ∃ k t tail, peekTokenWith cfg pol insideGroup s = .ok (k, t) ∧
      Longest c r tail k.kind ∧ k.text = byte c :: bytes tail ∧ k.text ++ k.after = s.rest ∧ k.start = s.loc := by
  have hwf : WF s := by intro h; rw [h0] at h; cases h
  have hn : NoEsc cfg r := ⟨sees_clear hesc, fun x q h1 h2 => sees_clear (hesc' x q h1 h2)⟩
  obtain ⟨k, t, u, h1, tail, kind, after, h2, h3, h4⟩ := peek_of_wp (g := insideGroup) <|
    lex_operator (E := fun _ => False) (cfg := cfg) (pol := { pol with toplevel := pol.toplevel && !insideGroup }) hwf hs hc hn
      (fun ⟨h1, h2⟩ => hcomment ⟨h1, head_some h2⟩) hnumber
  refine ⟨k, t, tail, h1, by rw [h4.kind]; exact h2, h4.text_eq, ?_, h4.start⟩
  rw [h4.text_eq, h4.after, hs, h3]; rfl

/-- The longest operator is the only one with its text: texts determine kinds. -/
theorem C45_unique (c : Char) (r : List UInt8) (tail tail' : List Char) (k k' : TK)
    (h : Longest c r tail k) (h' : Longest c r tail' k') : tail = tail' ∧ k = k' := by
  have hlen : tail.length = tail'.length :=
    Nat.le_antisymm (h'.longest _ _ h.known h.written) (h.longest _ _ h'.known h'.written)
  obtain ⟨q, hq, -⟩ := h.written
  obtain ⟨q', hq', -⟩ := h'.written
  have hb : bytes tail = bytes tail' := (List.append_inj (hq.symm.trans hq') (by simp [bytes, hlen])).1
  have key : ∀ e ∈ operators c, ∀ e' ∈ operators c, bytes e.1 = bytes e'.1 → e = e' := by
    unfold operators
    split <;> decide
  have := key _ h.known _ h'.known hb
  simpa using this

example : Longest '/' (bytes ['/', '=', 'x']) ['/', '='] .SlashSlashEqual ∧
    Longest '/' (bytes ['.', '5']) [] .Slash ∧ Longest '=' (bytes ['!', 'x']) [] .Equal := by
  refine ⟨⟨by decide, ⟨bytes ['x'], by decide, fun h => absurd h.2.1 (by decide)⟩, ?_⟩,
    ⟨by decide, ⟨_, rfl, fun h => absurd h.2.1 (by decide)⟩, ?_⟩,
    ⟨by decide, ⟨_, rfl, fun h => absurd h.2.1 (by decide)⟩, ?_⟩⟩
  · intro t k h _
    simp only [operators, List.mem_cons, List.not_mem_nil, or_false, Prod.mk.injEq] at h
    rcases h with h | h | h | h | h | h | h | h | h | h | h <;> obtain ⟨rfl, rfl⟩ := h <;> decide
  · intro t k h hw
    simp only [operators, List.mem_cons, List.not_mem_nil, or_false, Prod.mk.injEq] at h
    rcases h with h | h | h | h | h | h | h | h | h | h | h <;> obtain ⟨rfl, rfl⟩ := h <;>
      obtain ⟨q, hq, hd⟩ := hw <;> simp [bytes, byte] at hq ⊢
    subst hq
    exact hd ⟨rfl, rfl, 53, [], rfl, rfl⟩
  · intro t k h hw
    simp only [operators, List.mem_cons, List.not_mem_nil, or_false, Prod.mk.injEq] at h
    rcases h with h | h | h | h <;> obtain ⟨rfl, rfl⟩ := h <;>
      obtain ⟨q, hq, hd⟩ := hw <;> simp [bytes, byte] at hq ⊢

/-- C45, for percent signs: all that follow each other are one token. -/
theorem C45_percent (cfg : Cfg) (pol : Pol) (insideGroup : Bool) (s : St) (n : Nat) (r : List UInt8)
    (h0 : s.eof = false) (hs : s.rest = List.replicate (n + 1) (byte '%') ++ r)
    (h1 : r.head? ≠ some (byte '%')) (h2 : Clear r) :
    ∃ k t, peekTokenWith cfg pol insideGroup s = .ok (k, t) ∧
      k.kind = (if n = 0 then .Percent else .PercentPercent) ∧ k.text = List.replicate (n + 1) (byte '%') ∧ k.after = r := by
  have hwf : WF s := by intro h; rw [h0] at h; cases h
  obtain ⟨k, t, u, h3, h4⟩ := peek_of_wp (g := insideGroup) <| lex_percent (E := fun _ => False) (cfg := cfg)
    (pol := { pol with toplevel := pol.toplevel && !insideGroup }) hwf n hs h1 (sees_clear h2)
  exact ⟨k, t, h3, h4.kind, h4.text_eq, h4.after⟩

/-! ### C46: names -/

/-- C46: a name, with or without contexts, that is followed by something that can not continue it
is exactly one token (a symbol; behind `#` it is called a string). -/
theorem C46_name (cfg : Cfg) (pol : Pol) (insideGroup : Bool) (s : St) (name : List Char) (r : List UInt8)
    (h0 : s.eof = false) (hn : Name name) (hs : s.rest = bytes name ++ r) (hr : endsName r) :
    ∃ k t, peekTokenWith cfg pol insideGroup s = .ok (k, t) ∧
      k.kind = (if pol.insideSlot then .String else .Symbol) ∧ k.text = bytes name ∧ k.after = r ∧ k.start = s.loc := by
  have hwf : WF s := by intro h; rw [h0] at h; cases h
  obtain ⟨k, t, u, h3, h4⟩ := peek_of_wp (g := insideGroup) <| lex_name (E := fun _ => False) (cfg := cfg)
    (pol := { pol with toplevel := pol.toplevel && !insideGroup }) hwf hn hs hr
  exact ⟨k, t, h3, h4.kind, h4.text_eq, h4.after, h4.start⟩

example : Name "Sys`a1`$b".toList ∧ Name "`x".toList ∧ endsName (bytes "[1]".toList) ∧ endsName [] := by
  refine ⟨.plain (seg := "Sys".toList) (segs := ["a1".toList, "$b".toList]) ⟨'S', ['y', 's'], rfl, by decide, by decide⟩ ?_,
    .relative (segs := ["x".toList]) (by decide) ?_, ?_, ?_⟩
  · intro x hx
    simp only [List.mem_cons, List.not_mem_nil, or_false] at hx
    rcases hx with rfl | rfl
    · exact ⟨'a', ['1'], rfl, by decide, by decide⟩
    · exact ⟨'$', ['b'], rfl, by decide, by decide⟩
  · intro x hx
    simp only [List.mem_cons, List.not_mem_nil, or_false] at hx
    subst hx
    exact ⟨'x', [], rfl, by decide, by decide⟩
  · intro b q h
    cases h
    decide
  · intro b q h
    cases h

end CodeParser.Props
