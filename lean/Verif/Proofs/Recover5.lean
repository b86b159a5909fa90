import Verif.Proofs.Recover4
/-!
Recovery: the trees after rewriting unterminated tokens, and what parsing gives (helper
lemmas).
-/
namespace CodeParser
open Spec Props Cst

/-! ### Errors of recovery, with any locations -/

section
variable {cfg : Cfg} {isNew : List Char → Except Err Bool}

/-- The errors of recovery that come from positions, or from a question about a line. -/
def AskErr (isNew : List Char → Except Err Bool) (input : List Char) (e : Err) : Prop :=
  e = .panic .recovery ∨ ∃ l ∈ Line.split input, isNew l.content = .error e

theorem askLines_err {e : Err} : ∀ {ls : List Line}, askLines isNew ls = .error e → ∃ l ∈ ls, isNew l.content = .error e
  | [], h => by cases h
  | l :: ls, h => by
    unfold askLines at h
    split at h
    · next he => cases h; exact ⟨l, List.mem_cons_self, he⟩
    · split at h
      · next he =>
        cases h
        obtain ⟨l', h1, h2⟩ := askLines_err he
        exact ⟨l', List.mem_cons_of_mem _ h1, h2⟩
      · cases h

theorem firstChunk_err {e : Err} {ls : List Line} (h : firstChunk isNew ls = .error e) :
    e = .panic .recovery ∨ ∃ l ∈ ls, isNew l.content = .error e := by
  unfold firstChunk at h
  split at h
  · cases h; exact Or.inl rfl
  · split at h
    · next he =>
      cases h
      obtain ⟨l', h1, h2⟩ := askLines_err he
      exact Or.inr ⟨l', List.mem_cons_of_mem _ h1, h2⟩
    · split at h
      · cases h; exact Or.inl rfl
      · cases h

theorem keepLines_cases {src : CharacterSpan} : ∀ {ls : List (Line × CharacterSpan)},
    keepLines src ls = .error (.panic .recovery) ∨ ∃ r, keepLines src ls = .ok r ∧ ∀ x ∈ r, x ∈ ls
  | [] => Or.inr ⟨[], rfl, by simp⟩
  | (l, pos) :: ls => by
    unfold keepLines
    split
    · exact Or.inl rfl
    · next b _ =>
      rcases keepLines_cases (src := src) (ls := ls) with h | ⟨r, h, h2⟩
      · rw [h]; exact Or.inl rfl
      · rw [h]
        refine Or.inr ⟨_, rfl, fun x hx => ?_⟩
        cases b with
        | true =>
          rcases List.mem_cons.mp hx with rfl | hx
          · exact List.mem_cons_self
          · exact List.mem_cons_of_mem _ (h2 x hx)
        | false => exact List.mem_cons_of_mem _ (h2 x hx)

theorem lineRanges_mem {x : Line × CharacterSpan} : ∀ {i : Nat} {ls : List Line}, x ∈ lineRanges i ls → x.1 ∈ ls
  | _, [], h => by cases h
  | i, l :: ls, h => by
    unfold lineRanges at h
    rcases List.mem_cons.mp h with rfl | h
    · exact List.mem_cons_self
    · exact List.mem_cons_of_mem _ (lineRanges_mem h)

theorem linesOf_cases {input : List Char} {src : Span} :
    linesOf input src = .error (.panic .recovery) ∨
    ∃ ls rs, linesOf input src = .ok (ls, rs) ∧ ∀ l ∈ ls, l ∈ Line.split input := by
  unfold linesOf
  split
  · unfold retainRange
    split
    · next h =>
      simp only at h
      split at h <;> cases h; exact Or.inl rfl
    · next ls h =>
      simp only at h
      split at h <;> cases h
      exact Or.inr ⟨_, _, rfl, fun l hl => List.mem_of_mem_take (List.mem_of_mem_drop hl)⟩
  · next i j _ _ =>
    rcases keepLines_cases (src := ⟨i, j⟩) (ls := lineRanges 0 (Line.split input)) with h | ⟨r, h, h2⟩
    · rw [h]; exact Or.inl rfl
    · rw [h]
      refine Or.inr ⟨_, _, rfl, fun l hl => ?_⟩
      obtain ⟨x, hx, rfl⟩ := List.mem_map.mp hl
      exact lineRanges_mem (h2 x hx)
  · exact Or.inl rfl

theorem goodLines_err {input : List Char} {src : Span} {e : Err} (h : goodLines cfg isNew input src = .error e) :
    AskErr isNew input e := by
  unfold goodLines at h
  rcases linesOf_cases (input := input) (src := src) with h1 | ⟨ls, rs, h1, h2⟩
  · rw [h1] at h; cases h; exact Or.inl rfl
  · rw [h1] at h
    simp only at h
    split at h
    · next he =>
      cases h
      rcases firstChunk_err he with rfl | ⟨l, h3, h4⟩
      · exact Or.inl rfl
      · exact Or.inr ⟨l, h2 l h3, h4⟩
    · split at h
      · cases h; exact Or.inl rfl
      · split at h <;> cases h

theorem betterText_err {input : List Char} {chunk : List Line} {i : Nat} {b : Span} {e : Err}
    (h : betterText cfg input chunk i b = .error e) : e = .panic .recovery := by
  unfold betterText at h
  split at h
  · split at h
    · cases h; rfl
    · split at h
      · cases h; rfl
      · split at h <;> cases h; rfl
  · split at h <;> cases h; rfl
  · cases h; rfl

theorem fixTok_err {input : List Char} {t : Tok} {e : Err} (h : fixTok cfg isNew input t = .error e) :
    AskErr isNew input e := by
  unfold fixTok at h
  split at h
  · next he => cases h; exact goodLines_err he
  · split at h
    · next he => cases h; exact Or.inl (betterText_err he)
    · cases h

theorem fixTok_ok {input : List Char} {t t' : Tok} (h : fixTok cfg isNew input t = .ok t') :
    t'.kind = t.kind ∧ t'.start = t.start := by
  unfold fixTok at h
  split at h
  · cases h
  · next hg =>
    split at h <;> cases h
    exact ⟨rfl, goodLines_start hg⟩

theorem keepLeaves_err {b : Span} {e : Err} : ∀ {ts : List Tok}, keepLeaves b ts = .error e → e = .panic .recovery
  | [], h => by cases h
  | t :: ts, h => by
    unfold keepLeaves at h
    split at h
    · cases h; rfl
    · split at h
      · next he => cases h; exact keepLeaves_err he
      · cases h

theorem recoverGroup_site {bs : List UInt8} {op : GroupOp} {cs : List Cst} {e : Err}
    (h : recoverGroup cfg bs op cs = .error e) :
    e = .panic .utf8 ∨ e = .panic .span ∨ e = .panic .recovery ∨ ∃ input, bs = encode input ∧ LineErr input e := by
  unfold recoverGroup at h
  cases hu : fromUtf8 bs with
  | none => rw [hu] at h; cases h; exact Or.inl rfl
  | some input =>
    have hbs := fromUtf8_some hu
    subst hbs
    rw [hu] at h
    simp only at h
    split at h
    · next he =>
      cases h
      unfold sourceOf at he
      split at he
      · cases he; exact Or.inr (Or.inr (Or.inl rfl))
      · split at he
        · split at he <;> cases he; exact Or.inr (Or.inl rfl)
        · cases he; exact Or.inr (Or.inr (Or.inl rfl))
    · split at h
      · next he =>
        cases h
        rcases goodLines_err he with rfl | ⟨l, h1, h2⟩
        · exact Or.inr (Or.inr (Or.inl rfl))
        · exact Or.inr (Or.inr (Or.inr ⟨input, rfl, isStatement_split h1 h2⟩))
      · exact Or.inr (Or.inr (Or.inl (keepLeaves_err h)))

end

/-! ### Changing the tokens of a tree -/

mutual
/-- The tree with every token changed by `f`. -/
def mapTok (f : Tok → Tok) : Cst → Cst
  | .tok t => .tok (f t)
  | .node k cs => .node k (mapToks f cs)
  | .call h m op b => .call (mapToks f h) m op (mapToks f b)
  | .callAgg h m op b => .callAgg (mapTok f h) m op (mapToks f b)
  | .box k cs => .box k (mapToks f cs)
  | .code n => .code n
/-- The trees with every token changed by `f`. -/
def mapToks (f : Tok → Tok) : List Cst → List Cst
  | [] => []
  | c :: cs => mapTok f c :: mapToks f cs
end

section
variable {f : Tok → Tok}

theorem mapToks_eq (cs : List Cst) : mapToks f cs = cs.map (mapTok f) := by
  induction cs with
  | nil => rfl
  | cons c cs ih => simp [mapToks, ih]

mutual
theorem leaves_map : ∀ c : Cst, leaves (mapTok f c) = (leaves c).map f
  | .tok t => by simp [mapTok, leaves]
  | .node k cs => by simp [mapTok, leaves, leavesL_map cs]
  | .call h m op b => by simp [mapTok, leaves, leavesL_map h, leavesL_map b]
  | .callAgg h m op b => by simp [mapTok, leaves, leaves_map h, leavesL_map b]
  | .box k cs => by simp [mapTok, leaves, leavesL_map cs]
  | .code n => by simp [mapTok, leaves]
theorem leavesL_map : ∀ cs : List Cst, leavesL (mapToks f cs) = (leavesL cs).map f
  | [] => rfl
  | c :: cs => by simp [mapToks, leavesL, leaves_map c, leavesL_map cs]
end

mutual
theorem mapTok_id : ∀ c : Cst, mapTok id c = c
  | .tok t => by simp [mapTok]
  | .node k cs => by simp [mapTok, mapToks_id cs]
  | .call h m op b => by simp [mapTok, mapToks_id h, mapToks_id b]
  | .callAgg h m op b => by simp [mapTok, mapTok_id h, mapToks_id b]
  | .box k cs => by simp [mapTok, mapToks_id cs]
  | .code n => by simp [mapTok]
theorem mapToks_id : ∀ cs : List Cst, mapToks id cs = cs
  | [] => rfl
  | c :: cs => by simp [mapToks, mapTok_id c, mapToks_id cs]
end

mutual
theorem brackets_map : ∀ c : Cst, brackets (mapTok f c) = (brackets c).map (List.map f)
  | .tok t => by simp [mapTok, brackets]
  | .node k cs => by cases k <;> simp [mapTok, brackets, bracketsL_map cs, leavesL_map cs]
  | .call h m op b => by simp [mapTok, brackets, bracketsL_map h, bracketsL_map b, leavesL_map b]
  | .callAgg h m op b => by simp [mapTok, brackets, brackets_map h, bracketsL_map b, leavesL_map b]
  | .box k cs => by simp [mapTok, brackets, bracketsL_map cs]
  | .code n => by simp [mapTok, brackets]
theorem bracketsL_map : ∀ cs : List Cst, bracketsL (mapToks f cs) = (bracketsL cs).map (List.map f)
  | [] => rfl
  | c :: cs => by simp [mapToks, bracketsL, brackets_map c, bracketsL_map cs]
end

mutual
theorem outside_map : ∀ c : Cst, outside (mapTok f c) = (outside c).map f
  | .tok t => by simp [mapTok, outside]
  | .node k cs => by cases k <;> simp [mapTok, outside, outsideL_map cs]
  | .call h m op b => by simp [mapTok, outside, outsideL_map h]
  | .callAgg h m op b => by simp [mapTok, outside, outside_map h]
  | .box k cs => by simp [mapTok, outside, outsideL_map cs]
  | .code n => by simp [mapTok, outside]
theorem outsideL_map : ∀ cs : List Cst, outsideL (mapToks f cs) = (outsideL cs).map f
  | [] => rfl
  | c :: cs => by simp [mapToks, outsideL, outside_map c, outsideL_map cs]
end

mutual
theorem complete_map : ∀ c : Cst, complete (mapTok f c) = complete c
  | .tok t => by simp [mapTok, complete]
  | .node k cs => by cases k <;> simp [mapTok, complete, completeL_map cs]
  | .call h m op b => by simp [mapTok, complete, completeL_map h, completeL_map b]
  | .callAgg h m op b => by simp [mapTok, complete, complete_map h, completeL_map b]
  | .box k cs => by simp [mapTok, complete, completeL_map cs]
  | .code n => by simp [mapTok, complete]
theorem completeL_map : ∀ cs : List Cst, completeL (mapToks f cs) = completeL cs
  | [] => rfl
  | c :: cs => by simp [mapToks, completeL, complete_map c, completeL_map cs]
end

variable (hf : ∀ t, (f t).kind = t.kind)
include hf

theorem isTrivia_map (c : Cst) : (mapTok f c).isTrivia = c.isTrivia := by
  cases c <;> simp [mapTok, isTrivia, hf]

theorem opAfter_map (cs : List Cst) : (opAfter (mapToks f cs)).map Tok.kind = (opAfter cs).map Tok.kind := by
  unfold opAfter
  induction cs with
  | nil => rfl
  | cons c cs ih =>
    simp only [mapToks, List.find?_cons, isTrivia_map hf]
    cases c.isTrivia with
    | true => simpa using ih
    | false => cases c <;> simp [mapTok, hf]

theorem opAfter_map' (cs : List Cst) : ((opAfter (mapToks f cs)).bind fun o => opPrec o.kind) =
    (opAfter cs).bind fun o => opPrec o.kind := by
  have := opAfter_map hf cs
  revert this
  generalize opAfter (mapToks f cs) = a
  generalize opAfter cs = b
  cases a <;> cases b <;> simp
  intro h; rw [h]

theorem isImplicitOne_map (c : Cst) : isImplicitOne (mapTok f c) = isImplicitOne c := by
  cases c <;> simp [mapTok, isImplicitOne, hf]

theorem heads_map : ∀ c : Cst, heads (mapTok f c) = heads c
  | .tok t => by simp [mapTok, heads]
  | .node k [] => by simp [mapTok, mapToks, heads]
  | .node k (l :: rest) => by
    simp only [mapTok, mapToks, heads, isImplicitOne_map hf, opAfter_map' hf, heads_map l]
  | .call [] m op b => by simp [mapTok, mapToks, heads]
  | .call (l :: h) m op b => by simp only [mapTok, mapToks, heads, heads_map l]
  | .callAgg h m op b => by simp [mapTok, heads]
  | .box k cs => by simp [mapTok, heads]
  | .code n => by simp [mapTok, heads]

theorem lastPrec_map (k : NodeKind) (cs : List Cst) : lastPrec k (mapToks f cs) = lastPrec k cs := by
  cases k with
  | «prefix» op =>
    cases cs with
    | nil => rfl
    | cons c cs => cases c <;> simp [mapToks, mapTok, lastPrec, hf]
  | «infix» op => cases cs <;> simp [mapToks, lastPrec, opAfter_map' hf]
  | «postfix» op => simp [lastPrec]
  | binary op => cases cs <;> simp [mapToks, lastPrec, opAfter_map' hf]
  | ternary op => simp [lastPrec]
  | prefixBinary op => simp [lastPrec]
  | compound op => simp [lastPrec]
  | group op => simp [lastPrec]
  | groupMissingCloser op => simp [lastPrec]
  | groupMissingOpener op => simp [lastPrec]
  | syntaxError op => simp [lastPrec]

mutual
theorem tails_map : ∀ c : Cst, tails (mapTok f c) = tails c
  | .tok t => by simp [mapTok, tails]
  | .node k cs => by simp only [mapTok, tails, lastPrec_map hf, tailsL_map cs]
  | .call h m op b => by simp [mapTok, tails]
  | .callAgg h m op b => by simp [mapTok, tails]
  | .box k cs => by simp [mapTok, tails]
  | .code n => by simp [mapTok, tails]
theorem tailsL_map : ∀ cs : List Cst, tailsL (mapToks f cs) = tailsL cs
  | [] => rfl
  | [c] => by simp only [mapToks, tailsL, tails_map c]
  | c :: d :: cs => by
    have := tailsL_map (d :: cs)
    simp only [mapToks, tailsL] at this ⊢
    exact this
end

mutual
theorem ends_map : ∀ c : Cst, ends (mapTok f c) = ends c
  | .tok t => by simp [mapTok, ends, hf]
  | .node k cs => by simp only [mapTok, ends, endsL_map cs]
  | .call h m op b => by simp [mapTok, ends]
  | .callAgg h m op b => by simp [mapTok, ends]
  | .box k cs => by simp [mapTok, ends]
  | .code n => by simp [mapTok, ends]
theorem endsL_map : ∀ cs : List Cst, endsL (mapToks f cs) = endsL cs
  | [] => rfl
  | [c] => by simp only [mapToks, endsL, ends_map c]
  | c :: d :: cs => by
    have := endsL_map (d :: cs)
    simp only [mapToks, endsL] at this ⊢
    exact this
end

theorem first_map : ∀ c : Cst, (first (mapTok f c)).map Tok.kind = (first c).map Tok.kind
  | .tok t => by simp [mapTok, first, hf]
  | .node k [] => by simp [mapTok, mapToks, first]
  | .node k (l :: rest) => by simp only [mapTok, mapToks, first, first_map l]
  | .call [] m op b => by simp [mapTok, mapToks, first]
  | .call (l :: h) m op b => by simp only [mapTok, mapToks, first, first_map l]
  | .callAgg h m op b => by simp only [mapTok, first, first_map h]
  | .box k cs => by simp [mapTok, first]
  | .code n => by simp [mapTok, first]

theorem leftPrec_map (o : Tok) (r : Cst) : leftPrec (f o) (mapTok f r) = leftPrec o r := by
  unfold leftPrec
  rw [hf]
  have := first_map hf r
  revert this
  generalize first (mapTok f r) = a
  generalize first r = b
  cases a <;> cases b <;> simp
  intro h; rw [h]

theorem Operand_map {c : Cst} : Operand c → Operand (mapTok f c) := by
  cases c <;> simp [mapTok, Operand, hf]

theorem Holds_map {q : Nat} {c : Cst} : Holds q c → Holds q (mapTok f c) := by
  unfold Holds; rw [heads_map hf]; exact id

theorem Tr_map {ts : List Tok} : Tr ts → Tr (ts.map f) := by
  intro h t ht
  obtain ⟨u, hu, rfl⟩ := List.mem_map.mp ht
  rw [hf]; exact h u hu

theorem Yields_map {l : Cst} {ts : List Tok} {p : Option Nat} : Yields l ts p → Yields (mapTok f l) (ts.map f) p := by
  unfold Yields
  rw [ends_map hf, tails_map hf]
  rintro (⟨t, h1, h2⟩ | h)
  · exact Or.inl ⟨f t, List.mem_map_of_mem h1, by rw [hf]; exact h2⟩
  · exact Or.inr h

omit hf in
theorem tt_map {ts : List Tok} : mapToks f (tt ts) = tt (ts.map f) := by
  rw [mapToks_eq]; simp [tt, mapTok]

omit hf in
theorem mapToks_append (a b : List Cst) : mapToks f (a ++ b) = mapToks f a ++ mapToks f b := by
  simp [mapToks_eq]

omit hf in
theorem mapToks_cons (a : Cst) (b : List Cst) : mapToks f (a :: b) = mapTok f a :: mapToks f b := rfl

omit hf in
theorem mapToks_nil : mapToks f [] = [] := rfl

theorem NoCloser_map {cs : List Cst} (h : NoCloser cs) : NoCloser (mapToks f cs) := by
  intro t ht
  rw [mapToks_eq] at ht
  obtain ⟨c, hc, he⟩ := List.mem_map.mp ht
  cases c with
  | tok u =>
    simp only [mapTok, Cst.tok.injEq] at he
    rw [← he, hf]; exact h u hc
  | _ => simp [mapTok] at he

theorem Flawed_map {c : Cst} : Flawed c → Flawed (mapTok f c) := by
  unfold Flawed
  rw [leaves_map, complete_map]
  exact Or.imp (fun ⟨t, ht, ht'⟩ => ⟨f t, List.mem_map_of_mem ht, by rw [hf]; exact ht'⟩) id

theorem proper_map (cs : List Cst) : proper (mapToks f cs) = (proper cs).map (mapTok f) := by
  rw [mapToks_eq]
  unfold proper
  rw [List.filter_map]
  simp only [Function.comp_def, isTrivia_map hf]

theorem GroupShape_map {op : GroupOp} {cs : List Cst} : GroupShape op cs → GroupShape op (mapToks f cs) := by
  rintro ⟨o, mid, c, rfl, h1, h2, h3, h4, h5⟩
  refine ⟨f o, mapToks f mid, f c, ?_, by rw [hf]; exact h1, NoCloser_map hf h2, by rw [hf]; exact h3, by rw [hf, hf]; exact h4,
    h5.imp (fun ⟨x, hx, hx'⟩ => ⟨mapTok f x, by rw [mapToks_eq]; exact List.mem_map_of_mem hx, Flawed_map hf hx'⟩)
      (by rw [proper_map hf, List.length_map]; exact id)⟩
  simp [mapToks_cons, mapToks_append, mapToks_nil, mapTok]

theorem Recovered_map {op : GroupOp} {cs : List Cst} : Recovered op cs → Recovered op (mapToks f cs) := by
  rintro (⟨o, mid, rfl, h1, h2⟩ | ⟨o, ts, rfl, h1⟩)
  · exact Or.inl ⟨f o, mapToks f mid, rfl, by rw [hf]; exact h1, NoCloser_map hf h2⟩
  · exact Or.inr ⟨f o, ts.map f, by rw [tt_map]; rfl, by rw [hf]; exact h1⟩

theorem Chain_map {op : InfixOp} {p : Nat} {cs : List Cst} {x : Cst} (h : Chain op p cs x) :
    Chain op p (mapToks f cs) (mapTok f x) := by
  induction h with
  | one h => exact .one (Operand_map hf h)
  | @more cs x ts o us r _ h1 h2 h3 h4 h5 h6 ih =>
    simp only [mapToks_append, mapToks_cons, mapToks_nil, tt_map, mapTok]
    exact .more ih (by rw [hf]; exact h1) (Tr_map hf h2) (Tr_map hf h3) (Operand_map hf h4)
      (by rw [leftPrec_map hf]; exact Yields_map hf h5) (Holds_map hf h6)

theorem CompoundShape_map {op : CompoundOp} {cs : List Cst} (h : CompoundShape op cs) : CompoundShape op (mapToks f cs) := by
  cases h with
  | blank h1 h2 => exact .blank (by rw [hf]; exact h1) (by rw [hf]; exact h2)
  | pattern h1 h2 => exact .pattern (by rw [hf]; exact h1) (by rw [hf]; exact h2)
  | patternHead h1 h2 h3 => exact .patternHead (by rw [hf]; exact h1) (by rw [hf]; exact h2) (by rw [hf]; exact h3)
  | default h1 h2 => exact .default (by rw [hf]; exact h1) (by rw [hf]; exact h2)
  | slot h1 h2 => exact .slot (by rw [hf]; exact h1) (by rw [hf]; exact h2)
  | slotSequence h1 h2 => exact .slotSequence (by rw [hf]; exact h1) (by rw [hf]; exact h2)
  | out h1 h2 => exact .out (by rw [hf]; exact h1) (by rw [hf]; exact h2)

theorem FirstOp_map {p : Nat} {cs : List Cst} : FirstOp p cs → FirstOp p (mapToks f cs) := by
  rintro ⟨l, rest, o, rfl, h1, h2⟩
  have := opAfter_map hf rest
  rw [h1] at this
  cases ho : opAfter (mapToks f rest) with
  | none => rw [ho] at this; cases this
  | some o' =>
    rw [ho] at this
    simp only [Option.map_some, Option.some.injEq] at this
    exact ⟨mapTok f l, mapToks f rest, o', rfl, ho, by rw [this]; exact h2⟩

theorem NodeOK_map {k : NodeKind} {cs : List Cst} (h : NodeOK Recovered k cs) : NodeOK Recovered k (mapToks f cs) := by
  cases h with
  | prefixOp h1 h2 h3 h4 =>
    simp only [mapToks_append, mapToks_cons, mapToks_nil, tt_map, mapTok]
    exact .prefixOp (by rw [hf]; exact h1) (Tr_map hf h2) (Operand_map hf h3) (Holds_map hf h4)
  | get h1 h2 h3 =>
    simp only [mapToks_append, mapToks_cons, mapToks_nil, tt_map, mapTok]
    exact .get (by rw [hf]; exact h1) (Tr_map hf h2) (by rw [hf]; exact h3)
  | integral h1 h2 h3 h4 =>
    simp only [mapToks_append, mapToks_cons, mapToks_nil, tt_map, mapTok]
    exact .integral (by rw [hf]; exact h1) (Tr_map hf h2) (Operand_map hf h3) (Holds_map hf h4)
  | integrate h1 h2 h3 h4 h5 h6 h7 =>
    simp only [mapToks_append, mapToks_cons, mapToks_nil, tt_map, mapTok]
    exact .integrate (by rw [hf]; exact h1) (Tr_map hf h2) (Operand_map hf h3) (Holds_map hf h4) (Tr_map hf h5)
      (Operand_map hf h6) (Holds_map hf h7)
  | «postfix» h1 h2 h3 h4 =>
    simp only [mapToks_append, mapToks_cons, mapToks_nil, tt_map, mapTok]
    exact .postfix (by rw [hf]; exact h1) (Operand_map hf h2) (Tr_map hf h3) (Yields_map hf h4)
  | binary h1 h2 h3 h4 h5 h6 h7 =>
    simp only [mapToks_append, mapToks_cons, mapToks_nil, tt_map, mapTok]
    exact .binary (by rw [hf]; exact h1) (Operand_map hf h2) (Tr_map hf h3) (Tr_map hf h4) (Operand_map hf h5)
      (by rw [hf]; exact Yields_map hf h6) (Holds_map hf h7)
  | unset h1 h2 h3 h4 h5 h6 =>
    simp only [mapToks_append, mapToks_cons, mapToks_nil, tt_map, mapTok]
    exact .unset (by rw [hf]; exact h1) (Operand_map hf h2) (Tr_map hf h3) (Tr_map hf h4) (by rw [hf]; exact h5)
      (by rw [hf]; exact Yields_map hf h6)
  | put h1 h2 h3 h4 h5 h6 =>
    simp only [mapToks_append, mapToks_cons, mapToks_nil, tt_map, mapTok]
    exact .put (by rw [hf]; exact h1) (Operand_map hf h2) (Tr_map hf h3) (Tr_map hf h4) (by rw [hf]; exact h5)
      (by rw [hf]; exact Yields_map hf h6)
  | ternary h1 h2 h3 h4 h5 h6 h7 h8 h9 h10 h11 h12 =>
    simp only [mapToks_append, mapToks_cons, mapToks_nil, tt_map, mapTok]
    exact .ternary (by rw [hf, hf]; exact h1) (Operand_map hf h2) (Tr_map hf h3) (Tr_map hf h4) (Operand_map hf h5)
      (Tr_map hf h6) (Tr_map hf h7) (Operand_map hf h8)
      (by rw [hf]; exact Yields_map hf h9) (Holds_map hf h10) (by rw [hf]; exact Yields_map hf h11) (Holds_map hf h12)
  | tagUnset h1 h2 h3 h4 h5 h6 h7 h8 h9 h10 h11 h12 =>
    simp only [mapToks_append, mapToks_cons, mapToks_nil, tt_map, mapTok]
    exact .tagUnset (by rw [hf]; exact h1) (by rw [hf]; exact h2) (Operand_map hf h3) (Tr_map hf h4) (Tr_map hf h5)
      (Operand_map hf h6) (Tr_map hf h7) (Tr_map hf h8) (by rw [hf]; exact h9)
      (by rw [hf]; exact Yields_map hf h10) (Holds_map hf h11) (by rw [hf]; exact Yields_map hf h12)
  | «infix» h1 h2 => exact .infix (Chain_map hf h1) (FirstOp_map hf h2)
  | compound h => exact .compound (CompoundShape_map hf h)
  | group h => exact .group (GroupShape_map hf h)
  | missing h => exact .missing (Recovered_map hf h)
  | error h1 h2 h3 h4 h5 h6 h7 =>
    simp only [mapToks_append, mapToks_cons, mapToks_nil, tt_map, mapTok]
    exact .error (by rw [hf]; exact h1) (Operand_map hf h2) (Tr_map hf h3) (Tr_map hf h4) (Operand_map hf h5)
      (by rw [hf]; exact Yields_map hf h6) (Holds_map hf h7)

theorem CallOK_map {h b : List Cst} {m : Bool} {op : CallOp} (hc : CallOK Recovered h m op b) :
    CallOK Recovered (mapToks f h) m op (mapToks f b) := by
  cases hc with
  | group h1 h2 h3 h4 h5 =>
    rw [mapToks_cons, tt_map]
    exact .group (Operand_map hf h1) (Tr_map hf h2) (Yields_map hf h3) h4 (GroupShape_map hf h5)
  | missing h1 h2 h3 h4 h5 =>
    rw [mapToks_cons, tt_map]
    exact .missing (Operand_map hf h1) (Tr_map hf h2) (Yields_map hf h3) h4 (Recovered_map hf h5)

end

/-! ### Rewriting unterminated tokens in trees -/

section
variable {cfg : Cfg} {isNew : List Char → Except Err Bool} {input : List Char}

/-- The token that takes the place of `t`. -/
def rewrite (cfg : Cfg) (isNew : List Char → Except Err Bool) (input : List Char) (t : Tok) : Tok :=
  if t.unterminated then
    match fixTok cfg isNew input t with
    | .ok t' => t'
    | .error _ => t
  else t

theorem rewrite_kind (t : Tok) : (rewrite cfg isNew input t).kind = t.kind ∧ (rewrite cfg isNew input t).start = t.start := by
  unfold rewrite
  split
  · split
    · next h => exact fixTok_ok h
    · exact ⟨rfl, rfl⟩
  · exact ⟨rfl, rfl⟩

theorem rewrite_cases (t : Tok) : rewrite cfg isNew input t = t ∨ fixTok cfg isNew input t = .ok (rewrite cfg isNew input t) := by
  unfold rewrite
  split
  · split
    · next h => exact Or.inr h
    · exact Or.inl rfl
  · exact Or.inl rfl

theorem rewrite_same {t : Tok} (h : t.unterminated = false) : rewrite cfg isNew input t = t := by
  unfold rewrite; simp [h]

mutual
theorem fixCst_cases : ∀ c : Cst, (∃ e t, fixCst cfg isNew input c = .error e ∧ t ∈ leaves c ∧ t.unterminated = true ∧
      fixTok cfg isNew input t = .error e) ∨ fixCst cfg isNew input c = .ok (mapTok (rewrite cfg isNew input) c)
  | .tok t => by
    unfold fixCst mapTok rewrite
    by_cases hu : t.unterminated = true
    · simp only [hu, if_true]
      cases h : fixTok cfg isNew input t with
      | error e => exact Or.inl ⟨e, t, rfl, by simp [leaves], hu, h⟩
      | ok t' => exact Or.inr rfl
    · rw [if_neg hu, if_neg hu]; exact Or.inr rfl
  | .node k cs => by
    unfold fixCst mapTok
    rcases fixCsts_cases cs with ⟨e, t, h1, h2, h3⟩ | h
    · rw [h1]; exact Or.inl ⟨e, t, rfl, h2, h3⟩
    · rw [h]; exact Or.inr rfl
  | .call h m op b => by
    unfold fixCst mapTok
    rcases fixCsts_cases h with ⟨e, t, h1, h2, h3⟩ | h1
    · rw [h1]; exact Or.inl ⟨e, t, rfl, by simp [leaves, h2], h3⟩
    · rw [h1]
      rcases fixCsts_cases b with ⟨e, t, h4, h2, h3⟩ | h4
      · rw [h4]; exact Or.inl ⟨e, t, rfl, by simp [leaves, h2], h3⟩
      · rw [h4]; exact Or.inr rfl
  | .callAgg h m op b => by
    unfold fixCst mapTok
    rcases fixCst_cases h with ⟨e, t, h1, h2, h3⟩ | h1
    · rw [h1]; exact Or.inl ⟨e, t, rfl, by simp [leaves, h2], h3⟩
    · rw [h1]
      rcases fixCsts_cases b with ⟨e, t, h4, h2, h3⟩ | h4
      · rw [h4]; exact Or.inl ⟨e, t, rfl, by simp [leaves, h2], h3⟩
      · rw [h4]; exact Or.inr rfl
  | .box k cs => by
    unfold fixCst mapTok
    rcases fixCsts_cases cs with ⟨e, t, h1, h2, h3⟩ | h
    · rw [h1]; exact Or.inl ⟨e, t, rfl, h2, h3⟩
    · rw [h]; exact Or.inr rfl
  | .code n => Or.inr (by unfold fixCst mapTok; rfl)
theorem fixCsts_cases : ∀ cs : List Cst, (∃ e t, fixCsts cfg isNew input cs = .error e ∧ t ∈ leavesL cs ∧ t.unterminated = true ∧
      fixTok cfg isNew input t = .error e) ∨ fixCsts cfg isNew input cs = .ok (mapToks (rewrite cfg isNew input) cs)
  | [] => Or.inr (by unfold fixCsts mapToks; rfl)
  | c :: cs => by
    unfold fixCsts mapToks
    rcases fixCst_cases c with ⟨e, t, h1, h2, h3⟩ | h1
    · rw [h1]; exact Or.inl ⟨e, t, rfl, by simp [leavesL, h2], h3⟩
    · rw [h1]
      rcases fixCsts_cases cs with ⟨e, t, h4, h2, h3⟩ | h4
      · rw [h4]; exact Or.inl ⟨e, t, rfl, by simp [leavesL, h2], h3⟩
      · rw [h4]; exact Or.inr rfl
end

end

/-! ### Subtrees -/

section
variable {c n : Cst}

theorem TreeOK.sub {ρ : GroupOp → List Cst → Prop} (hs : Sub n c) : TreeOK ρ c → TreeOK ρ n := by
  induction hs with
  | refl => exact id
  | node hc _ ih => intro h; cases h with | node _ h => exact ih (h _ hc)
  | head hc _ ih => intro h; cases h with | call _ h _ => exact ih (h _ hc)
  | body hc _ ih => intro h; cases h with | call _ _ h => exact ih (h _ hc)

theorem TreeOK.looks {ρ : GroupOp → List Cst → Prop} (h : TreeOK ρ c) : Looks ρ c := by
  cases h with
  | tok => trivial
  | node h => exact h
  | call h => exact h

theorem looks_map {f : Tok → Tok} (hf : ∀ t, (f t).kind = t.kind) (h : Looks Recovered c) : Looks Recovered (mapTok f c) := by
  cases c with
  | tok => trivial
  | node => exact NodeOK_map hf h
  | call => exact CallOK_map hf h
  | _ => exact h

theorem sub_map {f : Tok → Tok} {d : Cst} (h : Sub n d) : ∀ {c}, d = mapTok f c → ∃ m, Sub m c ∧ n = mapTok f m := by
  induction h with
  | refl => intro c hc; exact ⟨c, .refl, hc⟩
  | node hc _ ih =>
    intro c he
    cases c <;> simp only [mapTok, reduceCtorEq, Cst.node.injEq] at he
    obtain ⟨-, rfl⟩ := he
    rw [mapToks_eq] at hc
    obtain ⟨x, hx, rfl⟩ := List.mem_map.mp hc
    obtain ⟨m, h1, h2⟩ := ih rfl
    exact ⟨m, .node hx h1, h2⟩
  | head hc _ ih =>
    intro c he
    cases c <;> simp only [mapTok, reduceCtorEq, Cst.call.injEq] at he
    obtain ⟨rfl, -⟩ := he
    rw [mapToks_eq] at hc
    obtain ⟨x, hx, rfl⟩ := List.mem_map.mp hc
    obtain ⟨m, h1, h2⟩ := ih rfl
    exact ⟨m, .head hx h1, h2⟩
  | body hc _ ih =>
    intro c he
    cases c <;> simp only [mapTok, reduceCtorEq, Cst.call.injEq] at he
    obtain ⟨-, -, -, rfl⟩ := he
    rw [mapToks_eq] at hc
    obtain ⟨x, hx, rfl⟩ := List.mem_map.mp hc
    obtain ⟨m, h1, h2⟩ := ih rfl
    exact ⟨m, .body hx h1, h2⟩

end

/-! ### Parsing -/

/-- Parsing with the recovery of the program. -/
def realSetup (cfg : Cfg) (conv : Conv) (bs : List UInt8) : Setup where
  env := ⟨cfg, recoverGroup cfg bs⟩
  s0 := St.init conv bs
  wf0 := WF_init conv bs
  ρ := Recovered
  raw := fun _ _ h => Or.inl h
  ne := recovered_ne
  fix := by
    rintro op cs cs' ⟨o, mid, rfl, h1, h2⟩ ht hsrc h
    obtain ⟨us, rfl, h3⟩ := recoverGroup_ok h1 ht hsrc h
    refine ⟨Or.inr ⟨o, us, rfl, h1⟩, ?_, ?_, ?_, ?_⟩
    · intro c hc
      obtain ⟨t, htm, rfl⟩ := List.mem_map.mp hc
      refine .tok (TreeOKL.toks ht t ?_)
      show t ∈ o :: leavesL mid
      rcases List.mem_cons.mp htm with rfl | htm
      · exact List.mem_cons_self
      · exact List.mem_cons_of_mem _ (h3.subset htm)
    · rw [leavesL_tt]; exact (List.prefix_cons_inj o).mpr h3
    · rw [leavesL_tt]; rfl
    · intro ks hk; rw [bracketsL_tt] at hk; cases hk

/-- Parsing without recovery. -/
def plainSetup (cfg : Cfg) (conv : Conv) (bs : List UInt8) : Setup where
  env := ⟨cfg, fun _ cs => .ok cs⟩
  s0 := St.init conv bs
  wf0 := WF_init conv bs
  ρ := OpenGroupShape
  raw := fun _ _ h => h
  ne := fun op cs h => recovered_ne op cs (Or.inl h)
  fix := by
    rintro op cs cs' h ht - he
    cases he
    exact ⟨h, ht, List.prefix_rfl, rfl, fun _ h => h⟩

theorem plain_lossless (cfg : Cfg) (conv : Conv) (bs : List UInt8) : (plainSetup cfg conv bs).Lossless := by
  rintro op cs cs' h
  cases h; rfl

end CodeParser
