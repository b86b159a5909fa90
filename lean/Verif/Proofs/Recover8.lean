import Verif.Proofs.Recover7
import Verif.Spec.Recovery
/-!
Where recovery cuts off what is left open (helper lemmas).
-/
namespace CodeParser
open Spec Props

section
variable {cfg : Cfg} {isNew : List Char → Except Err Bool}

/-! ### Lines that begin a statement -/

theorem splitLinesLoop_oneLine : ∀ (cs cur : List Char), OneLine cs → (splitLinesLoop cs cur []).length ≤ 1
  | [], cur, _ => by unfold splitLinesLoop; split <;> simp
  | c :: cs, cur, h => by
    have h1 : c ≠ '\n' := fun e => h.1 (by simp [e])
    have h2 : c ≠ '\r' := fun e => h.2 (by simp [e])
    rw [splitLinesLoop]
    · exact splitLinesLoop_oneLine cs _ ⟨fun e => h.1 (by simp [e]), fun e => h.2 (by simp [e])⟩
    · exact h1
    · intro r hr; exact absurd hr h2
    · exact h2

theorem split_oneLine {input : List Char} (h : OneLine input) : (Line.split input).length ≤ 1 := by
  unfold Line.split splitLines
  rw [List.length_map]
  split
  · simp
  · exact splitLinesLoop_oneLine _ _ h

theorem firstChunk_short {isNew' : List Char → Except Err Bool} {ls : List Line} (h : ls.length ≤ 1) :
    firstChunk isNew ls = firstChunk isNew' ls := by
  match ls, h with
  | [], _ => rfl
  | [l], _ => rfl
  | _ :: _ :: _, h => simp at h

theorem goodLines_oneLine {isNew' : List Char → Except Err Bool} {input : List Char} (h : OneLine input) {a b c d : Nat} :
    goodLines cfg isNew input ⟨.lineCol a b, .lineCol c d⟩ = goodLines cfg isNew' input ⟨.lineCol a b, .lineCol c d⟩ := by
  unfold goodLines linesOf
  simp only
  cases hr : retainRange (Line.split input) (a - 1) (c - 1 + 1) with
  | error e => rfl
  | ok ls =>
    have : ls.length ≤ 1 := by
      unfold retainRange at hr
      simp only at hr
      split at hr
      · cases hr
        have := split_oneLine h
        simp; omega
      · cases hr
    simp only [firstChunk_short (isNew := isNew) (isNew' := isNew') this]

theorem fixToks_indep {isNew' : List Char → Except Err Bool} {input : List Char} (h : OneLine input) : ∀ {ts : List Tok},
    (∀ k ∈ ts, ∃ a b c d, k.start = .lineCol a b ∧ k.stop = .lineCol c d) →
    fixToks cfg isNew input ts = fixToks cfg isNew' input ts
  | [], _ => rfl
  | t :: ts, hk => by
    unfold fixToks
    rw [fixToks_indep h (fun k h' => hk k (List.mem_cons_of_mem _ h'))]
    obtain ⟨a, b, c, d, h1, h2⟩ := hk t List.mem_cons_self
    have : fixTok cfg isNew input t = fixTok cfg isNew' input t := by
      unfold fixTok
      rw [h1, h2, goodLines_oneLine h]
    rw [this]

/-- The tokens of a text have line/column positions. -/
theorem tokens_lineCol {first : FirstLine} {input : List Char} {ts : List Tok} {s : St}
    (h : tokens cfg .lineColumn first (encode input) = .ok (ts, s)) :
    ∀ k ∈ ts, Placed cfg input (.lineCol 1 1) k ∧ TokOK k := by
  have ht := tokens_wp (cfg := cfg) .lineColumn first (encode input)
  have hok := tokens_tokOK h
  rw [h] at ht
  simp only at ht
  obtain ⟨u, hR, hL⟩ := ht
  obtain ⟨xs, hp, -⟩ := hR.path
  obtain ⟨ds, h1, h2⟩ := hp.steps (WF_init _ _) rfl
  exact fun k hk => ⟨hL.laid.lies.placed h1 h2 k hk, hok k hk⟩

theorem Placed.lineCols {input : List Char} {k : Tok} (h : Placed cfg input (.lineCol 1 1) k) :
    ∃ a b c d, k.start = .lineCol a b ∧ k.stop = .lineCol c d := by
  obtain ⟨ds, es, -, -, h1, h2⟩ := h
  obtain ⟨a, b, e⟩ := h1.lineCol
  obtain ⟨c, d, e'⟩ := h2.lineCol_of ⟨a, b, e⟩
  exact ⟨a, b, c, d, e, e'⟩

theorem fixToks_start {input : List Char} : ∀ {ts ts' : List Tok}, fixToks cfg isNew input ts = .ok ts' →
    List.Forall₂ (fun k k' => k'.start = k.start) ts ts'
  | [], ts', h => by cases h; exact .nil
  | t :: ts, ts', h => by
    unfold fixToks at h
    split at h
    · cases h
    · next t' ht =>
      split at h
      · cases h
      · next r hr =>
        cases h
        refine .cons ?_ (fixToks_start hr)
        split at ht
        · unfold fixTok at ht
          split at ht
          · cases ht
          · next hg =>
            split at ht
            · cases ht
            · cases ht; exact goodLines_start hg
        · cases ht; rfl

/-- What is asked about further lines does not matter for one line. -/
theorem tokenizeWith_indep {isNew' : List Char → Except Err Bool} {line : List Char} (h : OneLine line) :
    tokenizeWith isNew cfg .lineColumn .notScript line = tokenizeWith isNew' cfg .lineColumn .notScript line := by
  unfold tokenizeWith tokenizeBytesWith
  cases hT : tokens cfg .lineColumn .notScript (line.flatMap String.utf8EncodeChar) with
  | error e => rfl
  | ok p =>
    obtain ⟨ts, s⟩ := p
    have hp := tokens_lineCol (input := line) hT
    have hf : fromUtf8 (line.flatMap String.utf8EncodeChar) = some line := fromUtf8_encode line
    simp only [hf]
    rw [fixToks_indep (isNew' := isNew') h (fun k hk => (hp k hk).1.lineCols)]

theorem tokenizeWith_lineCol {line : List Char} {ts : List Tok} (h : tokenizeWith isNew cfg .lineColumn .notScript line = .ok ts) :
    ∀ k ∈ ts, ∃ a b, k.start = .lineCol a b := by
  unfold tokenizeWith tokenizeBytesWith at h
  cases hT : tokens cfg .lineColumn .notScript (line.flatMap String.utf8EncodeChar) with
  | error e => rw [hT] at h; cases h
  | ok p =>
    obtain ⟨ts0, s⟩ := p
    have hp := tokens_lineCol (input := line) hT
    have hf : fromUtf8 (line.flatMap String.utf8EncodeChar) = some line := fromUtf8_encode line
    rw [hT] at h
    simp only [hf] at h
    cases hfl : s.flag with
    | some f => rw [hfl] at h; cases h
    | none =>
      rw [hfl] at h
      cases hx : fixToks cfg isNew line ts0 with
      | error e => rw [hx] at h; cases h
      | ok ts' =>
        rw [hx] at h
        cases h
        have h2 := fixToks_start hx
        clear hx hT
        induction h2 with
        | nil => simp
        | @cons a b l1 l2 e _ ih =>
          intro k hk
          rcases List.mem_cons.mp hk with rfl | hk
          · obtain ⟨x, y, -, -, e1, -⟩ := (hp a List.mem_cons_self).1.lineCols
            exact ⟨x, y, e.trans e1⟩
          · exact ih (fun k hk => hp k (List.mem_cons_of_mem _ hk)) k hk

theorem trimOpeners_replicate (n : Nat) {cs : List Char} (h : ∀ r, cs ≠ '(' :: '*' :: r) :
    trimOpeners ((List.replicate n ['(', '*']).flatten ++ cs) = cs := by
  induction n with
  | zero =>
    simp only [List.replicate_zero, List.flatten_nil, List.nil_append]
    rw [trimOpeners]
    exact h
  | succ n ih =>
    simp only [List.replicate_succ, List.flatten_cons, List.cons_append, List.nil_append, List.append_assoc]
    rw [trimOpeners, ih]

theorem trimOpeners_eq : ∀ (m : Nat) (cs : List Char), cs.length ≤ m → ∃ n, cs = (List.replicate n ['(', '*']).flatten ++ trimOpeners cs
  | 0, cs, h => ⟨0, by
      have : cs = [] := by simpa using h
      subst this; rfl⟩
  | m + 1, cs, h => by
    by_cases hc : ∃ r, cs = '(' :: '*' :: r
    · obtain ⟨r, rfl⟩ := hc
      obtain ⟨n, hn⟩ := trimOpeners_eq m r (by simp at h; omega)
      refine ⟨n + 1, ?_⟩
      rw [trimOpeners]
      simp only [List.replicate_succ, List.flatten_cons, List.cons_append, List.nil_append, List.append_assoc]
      rw [← hn]
    · refine ⟨0, ?_⟩
      rw [trimOpeners]
      · rfl
      · exact fun r hr => hc ⟨r, hr⟩

theorem annotation_iff (text : List Char) :
    (((trimOpeners text).dropWhile isWhite).head? == some ':') = true ↔ Annotation text := by
  rw [beq_iff_eq]
  constructor
  · intro h
    obtain ⟨n, hn⟩ := trimOpeners_eq _ text (Nat.le_refl _)
    cases hd : (trimOpeners text).dropWhile isWhite with
    | nil => rw [hd] at h; cases h
    | cons c r =>
      rw [hd] at h
      cases h
      refine ⟨n, (trimOpeners text).takeWhile isWhite, r, ?_, fun c hc => (List.all_eq_true.mp (List.all_takeWhile (p := isWhite) (l := trimOpeners text)) c hc)⟩
      rw [← hd, List.append_assoc, List.takeWhile_append_dropWhile, ← hn]
  · rintro ⟨n, blanks, rest, rfl, hb⟩
    rw [List.append_assoc, trimOpeners_replicate]
    · rw [List.dropWhile_append_of_pos hb]
      rfl
    · intro r hr
      cases blanks with
      | nil => cases hr
      | cons b bs =>
        have : b = '(' := (List.cons.inj hr).1
        subst this
        exact absurd (hb '(' List.mem_cons_self) (by decide)

theorem directives_iff (name : List Char) : directives.contains name = true ↔ ∃ s ∈ directiveNames, name = s.toList := by
  have : directives = directiveNames.map String.toList := rfl
  rw [this, List.contains_iff_mem, List.mem_map]
  constructor
  · rintro ⟨s, h1, rfl⟩; exact ⟨s, h1, rfl⟩
  · rintro ⟨s, h1, rfl⟩; exact ⟨s, h1, rfl⟩

theorem isAssign_iff (k : Tok) : isAssign k = true ↔ Assigns k := by
  unfold isAssign Assigns
  simp

theorem str_ok {t : Tok} {cs : List Char} (h : t.str = .ok cs) : t.text = encode cs := by
  unfold Tok.str at h
  split at h
  · next hh => cases h; exact fromUtf8_some hh
  · cases h

theorem statementToks_iff {ts : List Tok} {b : Bool} (h : statementToks ts = .ok b) : b = true ↔ Begins ts := by
  cases ts with
  | nil => cases h; constructor <;> (intro h; cases h)
  | cons t ts =>
    unfold statementToks at h
    simp only at h
    split at h
    · next t' rest hk =>
      split at h
      · next ho =>
        split at h
        · cases h
        · next name hn =>
          cases h
          have ht := str_ok hn
          rw [Bool.or_eq_true, directives_iff, List.any_eq_true]
          constructor
          · rintro (⟨s, h1, rfl⟩ | ⟨a, h1, h2⟩)
            · exact .directive hk ho h1 ht
            · exact .definition hk ho h1 ((isAssign_iff a).mp h2)
          · intro hb
            cases hb with
            | directive _ _ hd he => exact Or.inl ⟨_, hd, encode_injective _ _ (ht.symm.trans he)⟩
            | definition _ _ ha h => exact Or.inr ⟨_, ha, (isAssign_iff _).mpr h⟩
            | assignment _ h => rcases h with h | h <;> (rw [ho] at h; cases h)
            | closing h => rw [hk] at h; cases h
            | annotation h => rw [hk] at h; cases h
      · next ho =>
        cases h
        rw [isAssign_iff]
        constructor
        · exact fun h => .assignment hk h
        · intro hb
          cases hb with
          | directive _ h => exact absurd h ho
          | definition _ h => exact absurd h ho
          | assignment _ h => exact h
          | closing _ h => exact h
          | annotation h => rw [hk] at h; cases h
    · next hk =>
      cases h
      rw [isAssign_iff]
      constructor
      · exact fun h => .closing hk h
      · intro hb
        cases hb with
        | directive h => rw [hk] at h; cases h
        | definition h => rw [hk] at h; cases h
        | assignment h => rw [hk] at h; cases h
        | closing _ h => exact h
        | annotation h => rw [hk] at h; cases h
    · next hk =>
      split at h
      · cases h
      · next text hn =>
        cases h
        have ht := str_ok hn
        rw [annotation_iff]
        constructor
        · exact fun h => .annotation hk ht h
        · intro hb
          cases hb with
          | directive h => rw [hk] at h; cases h
          | definition h => rw [hk] at h; cases h
          | assignment h => rw [hk] at h; cases h
          | closing h => rw [hk] at h; cases h
          | annotation _ he h => rw [encode_injective _ _ (ht.symm.trans he)]; exact h
    · next h3 h1 h2 =>
      cases h
      constructor
      · intro h; cases h
      · intro hb
        cases hb with
        | directive h => exact absurd rfl (h1 _ _ h)
        | definition h => exact absurd rfl (h1 _ _ h)
        | assignment h => exact absurd rfl (h1 _ _ h)
        | closing h => exact absurd rfl (h2 _ _ h)
        | annotation h => exact absurd h h3

theorem isStatement_iff {line : List Char} (ho : OneLine line) {b : Bool} (h : isStatement cfg line = .ok b) :
    b = true ↔ NewStatement cfg line := by
  unfold isStatement isStatementWith at h
  unfold NewStatement tokenize
  have e : tokenizeWith (isStatement (lineOptions cfg)) (lineOptions cfg) .lineColumn .notScript line =
      tokenizeWith (fun _ => .error .fuel) cfg.nested .lineColumn .notScript line := tokenizeWith_indep ho
  rw [e]
  split at h
  · cases h
  · next ts ht =>
    have hl := tokenizeWith_lineCol ht
    have hf : ts.filter keepsTok = ts.filter fun k => !inner k := by
      refine List.filter_congr fun k hk => ?_
      obtain ⟨a, c, hc⟩ := hl k hk
      unfold keepsTok inner
      rw [hc]
      by_cases h1 : k.kind = .Comment
      · simp [h1]
      · cases h2 : k.kind.isTrivia <;> simp [h1, col, bne]
    rw [hf] at h
    rw [statementToks_iff h]
    constructor
    · exact fun h => ⟨ts, ht, h⟩
    · rintro ⟨ts', h1, h2⟩
      rw [ht] at h1; cases h1; exact h2

/-! ### Where something is cut off -/

theorem askLines_ok : ∀ {ls : List Line} {r : List (Line × Bool)}, askLines isNew ls = .ok r →
    r.map Prod.fst = ls ∧ ∀ p ∈ r, isNew p.1.content = .ok p.2
  | [], r, h => by cases h; simp
  | l :: ls, r, h => by
    unfold askLines at h
    split at h
    · cases h
    · next b hb =>
      split at h
      · cases h
      · next r' hr =>
        cases h
        obtain ⟨h1, h2⟩ := askLines_ok hr
        refine ⟨by simp [h1], fun p hp => ?_⟩
        rcases List.mem_cons.mp hp with rfl | hp
        · exact hb
        · exact h2 p hp

theorem chain_all {α : Type} {Q : α → Prop} : ∀ {x : α} {xs : List α}, (x :: xs).IsChain (fun _ b => Q b) → ∀ y ∈ xs, Q y
  | _, [], _ => by simp
  | x, z :: xs, h => by
    obtain ⟨h1, h2⟩ := List.isChain_cons_cons.mp h
    intro y hy
    rcases List.mem_cons.mp hy with rfl | hy
    · exact h1
    · exact chain_all h2 y hy

theorem firstChunk_ok {ls chunk : List Line} (h : firstChunk isNew ls = .ok chunk) :
    ∃ l more rest, chunk = l :: more ∧ ls = l :: more ++ rest ∧ (∀ x ∈ more, isNew x.content = .ok false) ∧
      ∀ x, rest.head? = some x → isNew x.content = .ok true := by
  unfold firstChunk at h
  split at h
  · cases h
  · next l ls =>
    split at h
    · cases h
    · next r hr =>
      obtain ⟨a1, a2⟩ := askLines_ok hr
      have hc := C41_split_by_pairs ((l, false) :: r) (fun _ right => !right.2)
      revert hc h
      generalize splitByPairs ((l, false) :: r) (fun _ right => !right.2) = chunks
      intro h hc
      obtain ⟨hc1, hc2, hc3⟩ := hc
      split at h
      · cases h
      · next c cs =>
        cases h
        have hch := hc2 c List.mem_cons_self
        cases c with
        | nil => exact absurd rfl hch.1
        | cons x c =>
          simp only [List.flatten_cons, List.cons_append, List.cons.injEq] at hc1
          obtain ⟨rfl, hc1⟩ := hc1
          refine ⟨l, c.map Prod.fst, cs.flatten.map Prod.fst, rfl, ?_, ?_, ?_⟩
          · rw [← a1, ← hc1]; simp
          · intro y hy
            obtain ⟨p, hp, rfl⟩ := List.mem_map.mp hy
            have hm : p ∈ r := by rw [← hc1]; exact List.mem_append_left _ hp
            have hpf : p.2 = false := by
              simpa using chain_all (Q := fun p => (!p.2) = true) hch.2 p hp
            rw [a2 p hm, hpf]
          · intro y hy
            cases cs with
            | nil => cases hy
            | cons d ds =>
              obtain ⟨u, v, -, hv, hf⟩ := (List.isChain_cons_cons.mp hc3).1
              cases d with
              | nil => cases hv
              | cons v' d =>
                cases hv
                simp only [List.flatten_cons, List.cons_append, List.map_cons, List.head?_cons, Option.some.injEq] at hy
                subst hy
                have : v ∈ r := by rw [← hc1]; simp
                rw [a2 v this]
                simpa using hf

theorem split_getElem (input : List Char) (n : Nat) :
    (Line.split input)[n]? = ((splitLines input)[n]?).map fun l => ⟨l.1, l.2⟩ := by
  unfold Line.split
  rw [List.getElem?_map]

theorem lineAt_oneLine {input : List Char} {n : Nat} {x : List Char × List Char} (h : lineAt input n = some x) : OneLine x.1 := by
  obtain ⟨-, c2, -⟩ := C40_split_lines input
  have := c2 x (List.mem_of_getElem? h)
  exact ⟨this.1, this.2.1⟩

theorem lastGood_ok {ls : List Line} : ∀ {n i : Nat}, lastGood ls n = some i →
    i ≤ n ∧ (ls.getD i default).content ≠ [] ∧ ∀ j, i < j → j ≤ n → (ls.getD j default).content = []
  | 0, i, h => by
    unfold lastGood at h
    split at h
    · cases h
    · next hc => cases h; exact ⟨Nat.le_refl _, hc, by omega⟩
  | n + 1, i, h => by
    unfold lastGood at h
    split at h
    · next hc =>
      obtain ⟨h1, h2, h3⟩ := lastGood_ok h
      refine ⟨by omega, h2, fun j hj hn => ?_⟩
      by_cases hj' : j = n + 1
      · subst hj'; exact hc
      · exact h3 j hj (by omega)
    · next hc => cases h; exact ⟨Nat.le_refl _, hc, by omega⟩

theorem columnOf_eq (cs : List Char) : columnOf cfg.tabWidth cs = colOf cfg cs := by
  unfold columnOf colOf
  have : ∀ (cs : List Char) (col : Nat), 1 ≤ col →
      cs.foldl (fun col c => if c = '\t' then col + (cfg.tabWidth - (col - 1) % cfg.tabWidth) else col + 1) col =
        cs.foldl (nextColumn cfg) col := by
    intro cs
    induction cs with
    | nil => intro _ _; rfl
    | cons c cs ih =>
      intro col hcol
      have e : (if c = '\t' then col + (cfg.tabWidth - (col - 1) % cfg.tabWidth) else col + 1) = nextColumn cfg col c := by
        unfold nextColumn
        split
        · have h1 := Nat.div_add_mod (col - 1) cfg.tabWidth
          have h2 := Nat.mod_lt (col - 1) cfg.pos
          omega
        · rfl
      rw [List.foldl_cons, List.foldl_cons, e]
      exact ih _ (by have := nextColumn_gt (cfg := cfg) hcol c; omega)
  exact this cs 1 (Nat.le_refl _)

/-- The lines that recovery finds. -/
theorem goodLines_cut {input : List Char} {l c l' c' : Nat} {chunk : List Line} {i : Nat} {better : Span} (hl : 1 ≤ l) (hl' : 1 ≤ l')
    (h : goodLines cfg (isStatement cfg) input ⟨.lineCol l c, .lineCol l' c'⟩ = .ok (chunk, i, better)) :
    (∀ j, j < chunk.length → ∃ x, lineAt input (l + j) = some x ∧ chunk.getD j default = ⟨x.1, x.2⟩) ∧ i < chunk.length ∧
    CutAt cfg input l l' (l + i) (l + (chunk.length - 1)) ∧
    ∃ x, lineAt input (l + i) = some x ∧ better = ⟨.lineCol l c, .lineCol (l + i) (columnOf cfg.tabWidth x.1)⟩ := by
  unfold goodLines linesOf at h
  simp only at h
  cases hr : retainRange (Line.split input) (l - 1) (l' - 1 + 1) with
  | error e => rw [hr] at h; cases h
  | ok ls =>
    rw [hr] at h
    simp only at h
    cases hf : firstChunk (isStatement cfg) ls with
    | error e => rw [hf] at h; cases h
    | ok chunk' =>
      rw [hf] at h
      simp only at h
      cases hg : lastGood chunk' (chunk'.length - 1) with
      | none => rw [hg] at h; cases h
      | some i' =>
        rw [hg] at h
        simp only at h
        cases h
        obtain ⟨g1, g2, g3⟩ := lastGood_ok hg
        obtain ⟨x0, more, rest, rfl, f2, f3, f4⟩ := firstChunk_ok hf
        have hls : ls = ((Line.split input).take l').drop (l - 1) := by
          unfold retainRange at hr
          simp only at hr
          split at hr
          · cases hr; rw [show l' - 1 + 1 = l' by omega]
          · cases hr
        have hat : ∀ j (y : Line), ls[j]? = some y → ∃ x, lineAt input (l + j) = some x ∧ y = ⟨x.1, x.2⟩ ∧ l + j ≤ l' := by
          intro j y hy
          rw [hls, List.getElem?_drop, List.getElem?_take] at hy
          split at hy
          · next hlt =>
            rw [split_getElem] at hy
            unfold lineAt
            rw [show l + j - 1 = l - 1 + j by omega]
            cases hx : (splitLines input)[l - 1 + j]? with
            | none => rw [hx] at hy; cases hy
            | some x => rw [hx] at hy; cases hy; exact ⟨x, rfl, rfl, by omega⟩
          · cases hy
        have hchunk : ∀ j, j < (x0 :: more).length → ∃ x, lineAt input (l + j) = some x ∧ (x0 :: more).getD j default = ⟨x.1, x.2⟩ ∧ l + j ≤ l' := by
          intro j hj
          have e : ls[j]? = some ((x0 :: more).getD j default) := by
            rw [f2, List.getElem?_append_left hj, List.getD_eq_getElem?_getD, List.getElem?_eq_getElem hj]
            rfl
          exact hat j _ e
        have hlen : 0 < (x0 :: more).length := by simp
        have hil : i < (x0 :: more).length := by omega
        obtain ⟨xi, i1, i2, -⟩ := hchunk i hil
        refine ⟨fun j hj => ?_, hil, ?_, xi, i1, ?_⟩
        · obtain ⟨x, a, b, -⟩ := hchunk j hj
          exact ⟨x, a, b⟩
        · refine ⟨by omega, by omega, ?_, ?_, ?_, ?_, ?_, ?_⟩
          · exact (hchunk ((x0 :: more).length - 1) (by omega)).choose_spec.2.2
          · obtain ⟨x, a, -⟩ := hchunk ((x0 :: more).length - 1) (by omega)
            exact ⟨x, a⟩
          · intro m x h1 h2 hx hn
            obtain ⟨j, rfl⟩ : ∃ j, m = l + (j + 1) := ⟨m - l - 1, by omega⟩
            obtain ⟨x', a, b, -⟩ := hchunk (j + 1) (by omega)
            rw [a] at hx; cases hx
            have hj : j < more.length := by simp at h2; omega
            have e : (x0 :: more).getD (j + 1) default = more[j] := by simp [List.getD_eq_getElem?_getD, hj]
            have hm := f3 _ (List.getElem_mem hj)
            rw [← e, b] at hm
            exact absurd ((isStatement_iff (lineAt_oneLine a) hm).mpr hn) (by simp)
          · by_cases hc : l + ((x0 :: more).length - 1) = l'
            · exact Or.inl hc
            · right
              have hle : l + ((x0 :: more).length - 1) ≤ l' := (hchunk ((x0 :: more).length - 1) (by omega)).choose_spec.2.2
              cases hx : lineAt input (l + ((x0 :: more).length - 1) + 1) with
              | none => exact Or.inl rfl
              | some x =>
                right
                refine ⟨x, rfl, ?_⟩
                have e : ls[(x0 :: more).length]? = some ⟨x.1, x.2⟩ := by
                  rw [hls, List.getElem?_drop, List.getElem?_take, if_pos (by omega), split_getElem]
                  unfold lineAt at hx
                  rw [show l + ((x0 :: more).length - 1) + 1 - 1 = l - 1 + (x0 :: more).length by omega] at hx
                  rw [hx]; rfl
                rw [f2, List.getElem?_append_right (Nat.le_refl _), Nat.sub_self] at e
                have hm := f4 ⟨x.1, x.2⟩ (by rw [List.head?_eq_getElem?]; exact e)
                exact (isStatement_iff (lineAt_oneLine hx) hm).mp rfl
          · intro m x h1 h2 hx
            obtain ⟨j, rfl⟩ : ∃ j, m = l + j := ⟨m - l, by omega⟩
            obtain ⟨x', a, b, -⟩ := hchunk j (by omega)
            rw [a] at hx; cases hx
            have := g3 j (by omega) (by omega)
            rw [b] at this
            exact this
          · refine ⟨xi, i1, ?_⟩
            rw [i2] at g2
            exact g2
        · rw [width_succ, columnOf_eq, i2]

theorem joinLines_flat : ∀ (x : Line) (xs : List Line), ∃ y, (x :: xs).getLast? = some y ∧
    (x :: xs).flatMap (fun z => z.content ++ z.newline) = joinLines (x :: xs) ++ y.newline
  | x, [] => ⟨x, rfl, by simp [joinLines]⟩
  | x, z :: xs => by
    obtain ⟨y, h1, h2⟩ := joinLines_flat z xs
    refine ⟨y, by rw [List.getLast?_cons_cons, h1], ?_⟩
    have e : joinLines (x :: z :: xs) = x.content ++ x.newline ++ joinLines (z :: xs) := by
      rw [joinLines]; simp
    rw [List.flatMap_cons, h2, e]
    simp

/-- What recovery makes of an unterminated token. -/
theorem fixTok_cut {input : List Char} {k k' : Tok} (hp : Placed cfg input (.lineCol 1 1) k) (hne : k.text ≠ [])
    (hn : ¬ onNewline k.text) (h : fixTok cfg (isStatement cfg) input k = .ok k') : CutOff cfg input k k' := by
  obtain ⟨ds, es, h1, h2, h3, h4⟩ := hp
  obtain ⟨lines, cur, h5, -⟩ := InLine.start.steps h3
  obtain ⟨lines', cur', h6, h7⟩ := h5.steps h4
  obtain ⟨c, c1, c2, c3⟩ := head_ne h1 hne hn
  have s1 := h5.loc
  have s2 := h6.loc
  unfold fixTok at h
  rcases goodLines_lineCol (isNew := isStatement cfg) h5 h6 h7 c1 c2 c3 with ⟨e, l, g1, g2, g3, g4⟩ | ⟨chunk, i, d, nl, more, hg, g1⟩
  · rw [g4] at h; cases h
  · have g0 := g1
    rw [s1, s2] at g0
    obtain ⟨q1, q2, q3, x, q4, q5⟩ := goodLines_cut (by omega) (by omega) g0
    rw [g1, s1] at h
    simp only at h
    rw [betterText_lineCol (stop := (lines.length + 1 + i, colOf cfg (chunk.getD i default).content)) hg rfl] at h
    by_cases hc : 1 < chunk.length ∧ i < 1
    · rw [if_pos hc] at h; cases h
    · rw [if_neg hc] at h
      simp only at h
      cases h
      have hce := hg.eq
      obtain ⟨x0, x1, x2⟩ := q1 0 (by omega)
      have e0 : chunk.getD 0 default = ⟨cur ++ d, nl⟩ := by rw [hce]; rfl
      rw [e0] at x2
      have x3 : x0 = (cur ++ d, nl) := by cases x0; simp only [Line.mk.injEq] at x2; rw [← x2.1, ← x2.2]
      subst x3
      obtain ⟨xi, i1, i2⟩ := q1 i q2
      rw [q4] at i1; cases i1
      -- the lines in between
      have hmid : (((splitLines input).drop (lines.length + 1)).take (i - 1)).map (fun z => (⟨z.1, z.2⟩ : Line)) = more.take (i - 1) := by
        apply List.ext_getElem?
        intro j
        rw [List.getElem?_map, List.getElem?_take, List.getElem?_take]
        by_cases hj : j < i - 1
        · rw [if_pos hj, if_pos hj, List.getElem?_drop]
          have hl : more.length + 1 = chunk.length := by rw [hce]; rfl
          obtain ⟨y, y1, y2⟩ := q1 (j + 1) (by omega)
          have e : chunk.getD (j + 1) default = more.getD j default := by rw [hce]; simp [List.getD_eq_getElem?_getD]
          rw [e, List.getD_eq_getElem?_getD] at y2
          have hjm : j < more.length := by omega
          rw [List.getElem?_eq_getElem hjm] at y2 ⊢
          unfold lineAt at y1
          rw [show lines.length + 1 + (j + 1) - 1 = lines.length + 1 + j by omega] at y1
          rw [y1]
          simpa using y2.symm
        · rw [if_neg hj, if_neg hj]; rfl
      obtain ⟨y, y1, y2⟩ := joinLines_flat ⟨d, nl⟩ (more.take (i - 1))
      have hmore : (more.take (i - 1)).length = i - 1 := by
        have hl : more.length + 1 = chunk.length := by rw [hce]; rfl
        simp; omega
      have hy : ∃ z, lineAt input (max (lines.length + 1) (lines.length + 1 + i - 1)) = some z ∧ z.2 = y.newline := by
        by_cases hi : i ≤ 1
        · have e : more.take (i - 1) = [] := List.length_eq_zero_iff.mp (hmore.trans (by omega))
          rw [e] at y1
          cases y1
          rw [Nat.max_eq_left (by omega)]
          exact ⟨_, x1, rfl⟩
        · rw [Nat.max_eq_right (by omega)]
          obtain ⟨z, z1, z2⟩ := q1 (i - 1) (by omega)
          rw [show lines.length + 1 + i - 1 = lines.length + 1 + (i - 1) by omega]
          refine ⟨z, z1, ?_⟩
          have e : chunk.getD (i - 1) default = more.getD (i - 2) default := by
            rw [hce, show i - 1 = (i - 2) + 1 by omega]; simp [List.getD_eq_getElem?_getD]
          rw [e, List.getD_eq_getElem?_getD] at z2
          rw [List.getLast?_eq_getElem?, List.length_cons, hmore, show i - 1 + 1 - 1 = (i - 2) + 1 by omega, List.getElem?_cons_succ,
            List.getElem?_take, if_pos (by omega)] at y1
          rw [y1] at z2
          simp only [Option.getD_some] at z2
          rw [z2]
      obtain ⟨z, z1, z2⟩ := hy
      refine ⟨_, _, _, _, lines.length + 1 + i, _, x, s1, s2, rfl, s1.symm, q3, q4, ?_, cur, d, nl, z, x1, ?_, z1, ?_⟩
      · rw [i2, columnOf_eq]
      · rw [columnOf_eq]
      · show encode _ = encode _ ++ encode _
        rw [← encode_append, z2]
        congr 1
        rw [← y2, show lines.length + 1 + i - 1 - (lines.length + 1) = i - 1 by omega, List.flatMap_cons, ← hmid]
        simp only [List.flatMap_map]

end
end CodeParser
