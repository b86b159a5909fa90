import Verif.Proofs.Link6
import Verif.Props.Abstract
import Verif.Proofs.Recover8
/-!
What parsing gives can be sent and read back.
-/
namespace CodeParser.LinkP
open CodeParser Wll Spec.Link Spec Props Cst

/-- A tree of which every node has children. -/
inductive Whole : Cst → Prop
  | tok {t} : Whole (.tok t)
  | node {k cs} : cs ≠ [] → (∀ c ∈ cs, Whole c) → Whole (.node k cs)
  | call {h m op b} : h ≠ [] → b ≠ [] → (∀ c ∈ h, Whole c) → (∀ c ∈ b, Whole c) → Whole (.call h m op b)
  | callAgg {h m op b} : b ≠ [] → Whole h → (∀ c ∈ b, Whole c) → Whole (.callAgg h m op b)

theorem _root_.CodeParser.Form.whole {c : Cst} (h : CodeParser.Form c) : Whole c := by
  induction h with
  | tok => exact .tok
  | node h1 _ ih => exact .node (NodeOK.ne recovered_ne h1) ih
  | call h1 _ _ ih1 ih2 =>
    refine .call ?_ ?_ ih1 ih2
    · cases h1 <;> simp
    · cases h1 with
      | group _ _ _ _ h => exact GroupShape.ne h
      | missing _ _ _ _ h => exact recovered_ne _ _ h

/-! ### Positions -/

/-- A position with coordinates from 1 to `n`. -/
def Small (conv : Conv) (n : Nat) : Loc → Prop
  | .lineCol l c => conv = .lineColumn ∧ 1 ≤ l ∧ 1 ≤ c ∧ l ≤ n ∧ c ≤ n
  | .index i => conv = .characterIndex ∧ 1 ≤ i ∧ i ≤ n

theorem small_start (conv : Conv) : Small conv 1 conv.start := by
  cases conv <;> simp [Small, Conv.start]

theorem small_mono {conv : Conv} {n m : Nat} {l : Loc} (h : Small conv n l) (hn : n ≤ m) : Small conv m l := by
  cases l <;> simp only [Small] at h ⊢ <;> refine ⟨h.1, ?_⟩ <;> omega

theorem small_upd {cfg : Cfg} {conv : Conv} {n : Nat} {l : Loc} (c : CP) (h : Small conv n l) :
    Small conv (n + (cfg.tabWidth + 4)) (locUpd cfg c l) := by
  have ht : ∀ x, cfg.tabWidth * (x / cfg.tabWidth) ≤ x := fun x => Nat.mul_div_le _ _
  unfold locUpd
  split <;> cases l <;>
    simp only [Loc.tab, Loc.newline, Loc.windowsNewline, Loc.increment, Small] at h ⊢ <;>
    refine ⟨h.1, ?_⟩
  case h_1.lineCol l k => have := ht (k - 1); omega
  all_goals omega

theorem small_step {cfg : Cfg} {conv : Conv} {n : Nat} {cs ds : List Char} {l m : Loc}
    (hs : stepC cfg cs l = some (ds, m)) (h : Small conv n l) :
    ds.length < cs.length ∧ Small conv (n + (cfg.tabWidth + 4)) m := by
  unfold stepC at hs
  split at hs
  · cases hs
  · cases hs
    exact ⟨by simp only [List.length_cons]; omega, small_upd .crlf h⟩
  · cases hs
    exact ⟨by simp, small_upd _ h⟩

theorem small_steps {cfg : Cfg} {conv : Conv} {cs ds : List Char} {l m : Loc} (hs : CodeParser.Steps cfg cs l ds m) :
    ∀ {n : Nat}, Small conv n l →
    ds.length ≤ cs.length ∧ Small conv (n + (cfg.tabWidth + 4) * (cs.length - ds.length)) m := by
  induction hs with
  | refl => intro n h; exact ⟨Nat.le_refl _, small_mono h (by omega)⟩
  | step h1 _ ih =>
    intro n h
    obtain ⟨h2, h3⟩ := small_step h1 h
    obtain ⟨h4, h5⟩ := ih h3
    refine ⟨by omega, small_mono h5 ?_⟩
    rw [Nat.add_assoc, Nat.add_comm (cfg.tabWidth + 4), ← Nat.mul_succ]
    exact Nat.add_le_add_left (Nat.mul_le_mul_left _ (by omega)) _

/-- The largest coordinate of a position in a text of `n` characters. -/
def limit (cfg : Cfg) (n : Nat) : Nat := 1 + (cfg.tabWidth + 4) * n

theorem steps_limit {cfg : Cfg} {conv : Conv} {input ds : List Char} {m : Loc}
    (hs : CodeParser.Steps cfg input conv.start ds m) : Small conv (limit cfg input.length) m :=
  small_mono (small_steps hs (small_start conv)).2
    (Nat.add_le_add_left (Nat.mul_le_mul_left _ (by omega)) _)

/-! ### Rewritten tokens -/

section
variable {cfg : Cfg} {isNew : List Char → Except Err Bool} {input : List Char}

theorem lines_total (input : List Char) : ((Line.split input).map fun l => l.content.length + l.newline.length).sum = input.length := by
  have h := (C40_split_lines input).1
  have : ((Line.split input).map fun l => l.content.length + l.newline.length) =
      ((splitLines input).map (fun l => l.1 ++ l.2)).map List.length := by
    rw [Line.split, List.map_map, List.map_map]
    exact List.map_congr_left fun l _ => by simp
  rw [this, ← List.length_flatten, h]

theorem lines_count (input : List Char) : (Line.split input).length ≤ input.length + 1 := by
  by_cases hi : input = []
  · subst hi; decide
  · have h1 := lines_total input
    have h2 : ∀ l ∈ Line.split input, 1 ≤ l.content.length + l.newline.length := by
      intro l hl
      unfold Line.split at hl
      obtain ⟨p, hp, rfl⟩ := List.mem_map.mp hl
      have := (C40_split_lines input).2.2.2.2 hi p hp
      have := List.length_pos_iff.mpr this
      rw [List.length_append] at this
      simp only
      omega
    revert h1 h2
    generalize Line.split input = ls
    generalize input.length = n
    intro h1 h2
    suffices ls.length ≤ (ls.map fun l => l.content.length + l.newline.length).sum by omega
    clear h1
    induction ls with
    | nil => simp
    | cons l ls ih =>
      have := h2 l (by simp)
      have := ih fun l hl => h2 l (by simp [hl])
      simp only [List.length_cons, List.map_cons, List.sum_cons]
      omega

theorem line_length {l : Line} (h : l ∈ Line.split input) : l.content.length ≤ input.length := by
  rw [← lines_total input]
  generalize Line.split input = ls at h
  induction ls with
  | nil => cases h
  | cons x ls ih =>
    simp only [List.map_cons, List.sum_cons]
    rcases List.mem_cons.mp h with rfl | h
    · omega
    · have := ih h; omega

theorem nextColumn_lt (column : Nat) (c : Char) : nextColumn cfg column c ≤ column + (cfg.tabWidth + 1) ∧
    (1 ≤ column → column < nextColumn cfg column c) := by
  unfold nextColumn
  split
  · have h1 := Nat.mul_div_le (column - 1) cfg.tabWidth
    have h2 := Nat.lt_mul_div_succ (column - 1) cfg.pos
    rw [Nat.mul_succ] at h2
    omega
  · omega

theorem columns_le : ∀ (cs : List Char) (column : Nat),
    cs.foldl (nextColumn cfg) column ≤ column + (cfg.tabWidth + 1) * cs.length
  | [], _ => by simp
  | c :: cs, column => by
    have h1 := columns_le cs (nextColumn cfg column c)
    have h2 := (nextColumn_lt (cfg := cfg) column c).1
    rw [List.foldl_cons, List.length_cons, Nat.mul_succ]
    omega

theorem columns_ge : ∀ (cs : List Char) (column : Nat), 1 ≤ column → column ≤ cs.foldl (nextColumn cfg) column
  | [], _, _ => Nat.le_refl _
  | c :: cs, column, h => by
    have h1 := (nextColumn_lt (cfg := cfg) column c).2 h
    have h2 := columns_ge cs (nextColumn cfg column c) (by omega)
    rw [List.foldl_cons]
    omega

theorem indexColumns_lt {target : Nat} : ∀ {cs text : List Char} {column : Nat}, 1 ≤ column →
    indexColumns cfg target column cs = some text → target < cs.foldl (nextColumn cfg) column
  | [], _, _, _, h => by cases h
  | c :: cs, text, column, hc, h => by
    have h1 := (nextColumn_lt (cfg := cfg) column c).2 hc
    unfold indexColumns at h
    simp only at h
    split at h
    · next hh =>
      simp only [Bool.and_eq_true, decide_eq_true_eq] at hh
      have := columns_ge (cfg := cfg) cs (nextColumn cfg column c) (by omega)
      rw [List.foldl_cons]
      omega
    · exact indexColumns_lt (cs := cs) (column := nextColumn cfg column c) (by omega) h

theorem encodeChar_le (c : Char) : (String.utf8EncodeChar c).length ≤ 4 := by
  rw [String.length_utf8EncodeChar]
  have := Char.utf8Size_le_four c
  omega

theorem byteLength_le (cs : List Char) : byteLength cs ≤ 4 * cs.length := by
  unfold byteLength
  induction cs with
  | nil => simp
  | cons c cs ih =>
    have := encodeChar_le c
    rw [List.flatMap_cons, List.length_append, List.length_cons]
    omega

theorem lineRanges_le {x : Line × CharacterSpan} : ∀ {i : Nat} {ls : List Line}, x ∈ lineRanges i ls →
    x.2.stop ≤ i + 4 * (ls.map fun l => l.content.length + l.newline.length).sum
  | _, [], h => by cases h
  | i, l :: ls, h => by
    have h1 := byteLength_le l.content
    have h2 := byteLength_le l.newline
    rw [lineRanges] at h
    simp only [List.map_cons, List.sum_cons]
    rcases List.mem_cons.mp h with rfl | h
    · simp only; omega
    · have := lineRanges_le h
      omega

theorem Line.width_le {l : Line} (h : l ∈ Line.split input) : l.width cfg + 1 ≤ limit cfg input.length := by
  have h1 := columns_le (cfg := cfg) l.content 1
  have h2 := columns_ge (cfg := cfg) l.content 1 (Nat.le_refl _)
  have h3 := Nat.mul_le_mul (Nat.add_le_add_left (by omega : 1 ≤ 4) cfg.tabWidth) (line_length h)
  unfold Line.width limit
  omega

theorem four_le (n : Nat) : 1 + 4 * n ≤ limit cfg n :=
  Nat.add_le_add_left (Nat.mul_le_mul_right n (Nat.le_add_left 4 cfg.tabWidth)) 1

theorem retainRange_ok {α} {l r : List α} {a b : Nat} (h : retainRange l a b = .ok r) : r = (l.take b).drop a := by
  unfold retainRange at h
  simp only at h
  split at h <;> cases h
  rfl

/-- A rewritten token has a text, starts where it started and ends at or behind its start. -/
theorem fixTok_small {conv : Conv} {t t' : Tok} (h : fixTok cfg isNew input t = .ok t')
    (hs : Small conv (limit cfg input.length) t.start) :
    (fromUtf8 t'.text).isSome = true ∧ t'.start.le t'.stop = true ∧ Small conv (limit cfg input.length) t'.stop := by
  unfold fixTok at h
  split at h
  · cases h
  · next chunk last better hg =>
    split at h
    · cases h
    · next text ht =>
      cases h
      refine ⟨?_, ?_⟩
      · have := fromUtf8_encode text
        unfold encode at this
        simp only [this, Option.isSome_some]
      · simp only
        unfold goodLines at hg
        split at hg
        · cases hg
        · next ls ranges hl =>
          split at hg
          · cases hg
          · next chunk' hc =>
            split at hg
            · cases hg
            · next i hi =>
              obtain ⟨l0, more, rest, e1, e2, -, -⟩ := firstChunk_ok hc
              have hi1 := (lastGood_ok hi).1
              unfold linesOf at hl
              simp only at hg hl
              cases hts : t.start with
              | lineCol l c =>
                rw [hts] at hg hl hs
                simp only at hg hl
                cases hg
                cases htp : t.stop with
                | index j => rw [htp] at hl; cases hl
                | lineCol l' c' =>
                  rw [htp] at hl
                  simp only at hl
                  split at hl
                  · cases hl
                  · next ls' hr =>
                    cases hl
                    have hr := retainRange_ok hr
                    simp only [Small] at hs
                    subst e1
                    have hlen : last < (l0 :: more).length := by simp only [List.length_cons] at hi1 ⊢; omega
                    have hmem : (l0 :: more).getD last default ∈ Line.split input := by
                      rw [List.getD_eq_getElem?_getD, List.getElem?_eq_getElem hlen, Option.getD_some]
                      have : (l0 :: more)[last] ∈ ls := by rw [e2]; exact List.mem_append_left _ (List.getElem_mem _)
                      rw [hr] at this
                      exact List.mem_of_mem_take (List.mem_of_mem_drop this)
                    have hw := Line.width_le (cfg := cfg) hmem
                    have hn := lines_count input
                    have h4 := four_le (cfg := cfg) input.length
                    have hll : (l0 :: more).length ≤ (Line.split input).length - (l - 1) := by
                      have : (l0 :: more).length ≤ ls.length := by rw [e2, List.length_append]; omega
                      rw [hr, List.length_drop, List.length_take] at this
                      omega
                    refine ⟨?_, ?_⟩
                    · simp only [Loc.le, Bool.or_eq_true, Bool.and_eq_true, decide_eq_true_eq, beq_iff_eq]
                      cases last with
                      | succ m => exact Or.inl (by omega)
                      | zero =>
                        refine Or.inr ⟨rfl, ?_⟩
                        unfold betterText at ht
                        simp only at ht
                        split at ht
                        · cases ht
                        · next hx =>
                          have := indexColumns_lt (Nat.le_refl 1) hx
                          simp only [List.getD_cons_zero, Line.width]
                          omega
                    · simp only [Small]
                      refine ⟨hs.1, ?_⟩
                      omega
              | index k =>
                rw [hts] at hg hl hs
                simp only at hg hl
                cases hg
                cases htp : t.stop with
                | lineCol l' c' => rw [htp] at hl; cases hl
                | index j =>
                  rw [htp] at hl
                  simp only at hl
                  split at hl
                  · cases hl
                  · next ks hk =>
                    cases hl
                    simp only [Small] at hs
                    have hb : ((ks.map (fun x : Line × CharacterSpan => x.snd)).getD last ⟨0, 0⟩).stop ≤ 4 * input.length := by
                      rcases Nat.lt_or_ge last (ks.map (fun x : Line × CharacterSpan => x.snd)).length with hlt | hge
                      · rw [List.getD_eq_getElem?_getD, List.getElem?_eq_getElem hlt, Option.getD_some]
                        obtain ⟨x, hx, e⟩ := List.mem_map.mp (List.getElem_mem hlt)
                        rw [← e]
                        rcases keepLines_cases (src := ⟨k, j⟩) (ls := lineRanges 0 (Line.split input)) with h | ⟨r, h, h2⟩
                        · rw [h] at hk; cases hk
                        · rw [h] at hk; cases hk
                          have := lineRanges_le (h2 x hx)
                          rw [lines_total] at this
                          omega
                      · rw [List.getD_eq_getElem?_getD, List.getElem?_eq_none hge, Option.getD_none]; exact Nat.zero_le _
                    have h4 := four_le (cfg := cfg) input.length
                    refine ⟨?_, ?_⟩
                    · unfold betterText at ht
                      simp only at ht
                      split at ht
                      · cases ht
                      · next hx =>
                        unfold byteSlice at hx
                        simp only at hx
                        split at hx
                        · simp only [Loc.le, decide_eq_true_eq]; omega
                        · cases hx
                    · simp only [Small]
                      exact ⟨hs.1, by omega⟩

end

/-- Tokens that can be sent: in order, with texts. -/
def Sendable (conv : Conv) (n : Nat) (ts : List Tok) : Prop :=
  ts.Pairwise (fun a b => a.start.le b.start = true) ∧ ∀ t ∈ ts, t.start.le t.stop = true ∧
    Small conv n t.start ∧ Small conv n t.stop ∧ (fromUtf8 t.text).isSome = true

theorem Sendable.sub {conv : Conv} {n : Nat} {ts us : List Tok} (h : Sendable conv n ts) (hs : us.Sublist ts) :
    Sendable conv n us := ⟨h.1.sublist hs, fun t ht => h.2 t (hs.subset ht)⟩

theorem result_small {cfg : Cfg} {conv : Conv} {first : FirstLine} {input : List Char} {r : ParseResult}
    (h : parseBytesCst cfg conv first (encode input) = .ok r) :
    Sendable conv (limit cfg input.length) (leavesL r.syntax') := by
  obtain ⟨cs, f, ks, u, s, o⟩ := parse_ok h
  have ho := (o.lies.ordered).1.sub o.sub
  obtain ⟨xs, hp, -⟩ := o.reach.path
  obtain ⟨ds, e1, e2⟩ := hp.steps (WF_init _ _) rfl
  rw [o.eq, leavesL_map]
  refine ⟨List.pairwise_map.mpr (ho.1.imp_of_mem ?_), ?_⟩
  · intro a b ha _ hab
    rw [o.start, o.start]
    exact Loc.le_trans (ho.2 a ha) hab
  · intro t' ht'
    obtain ⟨t, ht, rfl⟩ := List.mem_map.mp ht'
    obtain ⟨xs, ys, hv, -, h1, h2⟩ := o.lies.placed e1 e2 t (o.sub.subset ht)
    have hs : Small conv (limit cfg input.length) t.start := steps_limit h1
    rcases o.rewritten t with e | ⟨input', e, hf⟩
    · rw [e]
      refine ⟨ho.2 t ht, hs, steps_limit (h1.trans h2), ?_⟩
      obtain ⟨p, hp⟩ := (o.lies.placed e1 e2 t (o.sub.subset ht)).valid
      rw [hp, fromUtf8_encode]
      rfl
    · have : input' = input := by
        have h1 := fromUtf8_encode input
        rw [e, fromUtf8_encode] at h1
        cases h1; rfl
      subst this
      obtain ⟨g1, g2, g3⟩ := fixTok_small hf hs
      exact ⟨g2, by rw [o.start]; exact hs, g3, g1⟩

/-! ### Sources -/

/-- The source `s` goes from the first to the last of the tokens `ts`. -/
def Hull (ts : List Tok) (s : Option Wll.Source) : Prop :=
  ∃ a b, ts.head? = some a ∧ ts.getLast? = some b ∧ s = some (.span a.start b.stop)

theorem between_hull {conv : Conv} {n : Nat} {ts : List Tok} (ho : Sendable conv n ts) {a b x y : Tok}
    (ha : ts.head? = some a) (hb : ts.getLast? = some b) (hx : x ∈ ts) :
    Wll.Source.between (.span a.start y.stop) (.span x.start b.stop) = some (.span a.start b.stop) := by
  have key : ∀ z ∈ ts, a.start.le z.start = true := by
    intro z hz
    cases ts with
    | nil => cases hz
    | cons w ts =>
      cases ha
      rcases List.mem_cons.mp hz with rfl | hz
      · exact Loc.le_refl _
      · exact (List.pairwise_cons.mp ho.1).1 z hz
  have hbm := List.mem_of_getLast? hb
  rw [Wll.Source.between, if_pos]
  simp only [Bool.and_eq_true]
  exact ⟨key x hx, Loc.le_trans (key b hbm) (ho.2 b hbm).1⟩

mutual
theorem source_ok {conv : Conv} {n : Nat} : ∀ {c : Cst}, Whole c → Sendable conv n (leaves c) → Hull (leaves c) (ofCst c).source
  | .tok t, _, _ => ⟨t, t, rfl, rfl, by rw [ofCst, ofTok, Tree.source]⟩
  | .node k cs, h, ho => by
    cases h with
    | node h1 h2 =>
      rw [ofCst, Tree.source]
      exact seqSource_ok h1 h2 ho
  | .call h m op b, hc, ho => by
    cases hc with
    | call h1 h2 h3 h4 =>
      obtain ⟨a, x, f1, f2, f3⟩ := firstSource_ok h1 h3 (ho.sub (List.sublist_append_left _ _))
      obtain ⟨y, z, g1, g2, g3⟩ := seqSource_ok h2 h4 (ho.sub (List.sublist_append_right _ _))
      have e1 : (leavesL h ++ leavesL b).head? = some a := by rw [List.head?_append, f1]; rfl
      have e2 : (leavesL h ++ leavesL b).getLast? = some z := by rw [List.getLast?_append, g2]; rfl
      refine ⟨a, z, e1, e2, ?_⟩
      rw [ofCst, Tree.source, f3, g3]
      exact between_hull ho e1 e2 (List.mem_append_right _ (List.mem_of_head? g1))
  | .callAgg h m op b, hc, ho => by
    cases hc with
    | callAgg h1 h2 h3 =>
      obtain ⟨a, x, f1, f2, f3⟩ := source_ok h2 (ho.sub (List.sublist_append_left _ _))
      obtain ⟨y, z, g1, g2, g3⟩ := seqSource_ok h1 h3 (ho.sub (List.sublist_append_right _ _))
      have e1 : (leaves h ++ leavesL b).head? = some a := by rw [List.head?_append, f1]; rfl
      have e2 : (leaves h ++ leavesL b).getLast? = some z := by rw [List.getLast?_append, g2]; rfl
      refine ⟨a, z, e1, e2, ?_⟩
      rw [ofCst, Tree.source, f3, g3]
      exact between_hull ho e1 e2 (List.mem_append_right _ (List.mem_of_head? g1))
  | .box .., h, _ => by cases h
  | .code .., h, _ => by cases h
theorem firstSource_ok {conv : Conv} {n : Nat} : ∀ {cs : List Cst}, cs ≠ [] → (∀ c ∈ cs, Whole c) → Sendable conv n (leavesL cs) →
    ∃ a x : Tok, (leavesL cs).head? = some a ∧ x ∈ leavesL cs ∧
      firstSource (ofCsts cs) = some (.span a.start x.stop)
  | [], h, _, _ => absurd rfl h
  | c :: cs, _, h, ho => by
    obtain ⟨a, b, h1, h2, h3⟩ := source_ok (h c (by simp)) (ho.sub (leaves_sublist (by simp)))
    refine ⟨a, b, ?_, ?_, ?_⟩
    · simp only [leavesL, List.head?_append, h1]; rfl
    · exact mem_leavesL List.mem_cons_self _ (List.mem_of_getLast? h2)
    · rw [ofCsts, firstSource, h3]
theorem lastSource_ok {conv : Conv} {n : Nat} : ∀ {cs : List Cst} (s : Option Wll.Source), cs ≠ [] → (∀ c ∈ cs, Whole c) → Sendable conv n (leavesL cs) →
    ∃ x b : Tok, x ∈ leavesL cs ∧ (leavesL cs).getLast? = some b ∧
      lastSource s (ofCsts cs) = some (.span x.start b.stop)
  | [], _, h, _, _ => absurd rfl h
  | [c], _, _, h, ho => by
    obtain ⟨a, b, h1, h2, h3⟩ := source_ok (h c (by simp)) (ho.sub (leaves_sublist (by simp)))
    refine ⟨a, b, ?_, ?_, ?_⟩
    · exact mem_leavesL List.mem_cons_self _ (List.mem_of_head? h1)
    · simp only [leavesL, List.append_nil, h2]
    · rw [ofCsts, ofCsts, lastSource, lastSource, h3]
  | c :: d :: cs, _, _, h, ho => by
    obtain ⟨x, b, h1, h2, h3⟩ := lastSource_ok (cs := d :: cs) (ofCst c).source (by simp) (fun c hc => h c (by simp [hc]))
      (ho.sub (by simp only [leavesL]; exact List.sublist_append_right _ _))
    refine ⟨x, b, ?_, ?_, ?_⟩
    · rw [leavesL]; exact List.mem_append_right _ h1
    · rw [leavesL, List.getLast?_append, h2]; rfl
    · rw [ofCsts, lastSource, h3]
theorem seqSource_ok {conv : Conv} {n : Nat} : ∀ {cs : List Cst}, cs ≠ [] → (∀ c ∈ cs, Whole c) → Sendable conv n (leavesL cs) →
    Hull (leavesL cs) (seqSource (ofCsts cs))
  | [], h, _, _ => absurd rfl h
  | [c], _, h, ho => by
    have hoc : Sendable conv n (leaves c) := ho.sub (leaves_sublist (by simp))
    obtain ⟨a, b, h1, h2, h3⟩ := source_ok (h c (by simp)) hoc
    have e : leavesL [c] = leaves c := by simp [leavesL]
    refine ⟨a, b, by rw [e, h1], by rw [e, h2], ?_⟩
    rw [ofCsts, ofCsts, seqSource, lastSource, h3]
    exact between_hull hoc h1 h2 (List.mem_of_head? h1)
  | c :: d :: cs, _, h, ho => by
    obtain ⟨a, y, h1, h2, h3⟩ := source_ok (h c (by simp)) (ho.sub (leaves_sublist (by simp)))
    obtain ⟨x, b, g1, g2, g3⟩ := lastSource_ok (cs := d :: cs) (ofCst c).source (by simp) (fun c hc => h c (by simp [hc]))
      (ho.sub (by simp only [leavesL]; exact List.sublist_append_right _ _))
    have e1 : (leavesL (c :: d :: cs)).head? = some a := by rw [leavesL, List.head?_append, h1]; rfl
    have e2 : (leavesL (c :: d :: cs)).getLast? = some b := by rw [leavesL, List.getLast?_append, g2]; rfl
    refine ⟨a, b, e1, e2, ?_⟩
    rw [ofCsts, seqSource, g3, h3]
    exact between_hull ho e1 e2 (by rw [leavesL]; exact List.mem_append_right _ g1)
end

/-! ### Expressions -/

theorem span_ok {conv : Conv} {n : Nat} {a b : Loc} (ha : Small conv n a) (hb : Small conv n b) :
    ∃ e, spanExpr a b = some e := by
  cases a with
  | lineCol l c =>
    cases b with
    | lineCol l' c' => exact ⟨_, rfl⟩
    | index j => have := ha.1.symm.trans hb.1; cases this
  | index i =>
    cases b with
    | lineCol l' c' => have := ha.1.symm.trans hb.1; cases this
    | index j =>
      obtain ⟨-, h1, -⟩ := hb
      obtain ⟨j, rfl⟩ : ∃ m, j = m + 1 := ⟨j - 1, by omega⟩
      exact ⟨_, rfl⟩

theorem data_ok {conv : Conv} {n : Nat} {a b : Loc} (compat : Bool) (ha : Small conv n a) (hb : Small conv n b) :
    ∃ e, dataExpr compat (.span a b) = some e := by
  obtain ⟨e, h⟩ := span_ok ha hb
  exact ⟨_, by rw [dataExpr, sourceRule, if_neg (by simp [omitted]), sourceExpr, h]; rfl⟩

theorem hull_data {conv : Conv} {n : Nat} {ts : List Tok} {s : Option Wll.Source} (compat : Bool) (h : Sendable conv n ts)
    (hs : Hull ts s) : ∃ x e, s = some x ∧ dataExpr compat x = some e := by
  obtain ⟨a, b, h1, h2, rfl⟩ := hs
  obtain ⟨e, he⟩ := data_ok compat (h.2 a (List.mem_of_head? h1)).2.1 (h.2 b (List.mem_of_getLast? h2)).2.2.1
  exact ⟨_, e, rfl, he⟩

mutual
theorem tree_sendable (compat : Bool) {conv : Conv} {n : Nat} : ∀ {c : Cst}, Whole c → Sendable conv n (leaves c) →
    ∃ e, treeExpr compat (ofCst c) = some e
  | .tok t, _, h => by
    obtain ⟨-, h1, h2, h3⟩ := h.2 t (by simp [leaves])
    obtain ⟨e, he⟩ := data_ok compat h1 h2
    exact ⟨_, by rw [ofCst, ofTok, treeExpr, tokenExpr, textExpr, if_pos h3, he]; rfl⟩
  | .node k cs, hw, h => by
    cases hw with
    | node h1 h2 =>
      obtain ⟨es, he⟩ := trees_sendable compat h2 h
      obtain ⟨x, d, hx, hd⟩ := hull_data compat h (seqSource_ok h1 h2 h)
      exact ⟨_, by rw [ofCst, treeExpr, he, hx]; simp only [Option.bind_eq_bind, Option.bind_some, hd]; rfl⟩
  | .call f m op b, hw, h => by
    have hs := source_ok hw h
    cases hw with
    | call h1 h2 h3 h4 =>
      have hb : Sendable conv n (leavesL b) := h.sub (List.sublist_append_right _ _)
      obtain ⟨es, he⟩ := trees_sendable compat h3 (h.sub (List.sublist_append_left _ _))
      obtain ⟨es', he'⟩ := trees_sendable compat h4 hb
      obtain ⟨x, d, hx, hd⟩ := hull_data compat hb (seqSource_ok h2 h4 hb)
      obtain ⟨x', d', hx', hd'⟩ := hull_data compat h hs
      rw [ofCst] at hx'
      exact ⟨_, by rw [ofCst, treeExpr, he, he', hx, hx']; simp only [Option.bind_eq_bind, Option.bind_some, hd, hd']; rfl⟩
  | .callAgg f m op b, hw, h => by
    have hs := source_ok hw h
    cases hw with
    | callAgg h2 h3 h4 =>
      have hb : Sendable conv n (leavesL b) := h.sub (List.sublist_append_right _ _)
      obtain ⟨es, he⟩ := tree_sendable compat h3 (h.sub (List.sublist_append_left _ _))
      obtain ⟨es', he'⟩ := trees_sendable compat h4 hb
      obtain ⟨x, d, hx, hd⟩ := hull_data compat hb (seqSource_ok h2 h4 hb)
      obtain ⟨x', d', hx', hd'⟩ := hull_data compat h hs
      rw [ofCst] at hx'
      exact ⟨_, by rw [ofCst, treeExpr, he, he', hx, hx']; simp only [Option.bind_eq_bind, Option.bind_some, hd, hd']; rfl⟩
  | .box .., h, _ => by cases h
  | .code .., h, _ => by cases h
theorem trees_sendable (compat : Bool) {conv : Conv} {n : Nat} : ∀ {cs : List Cst}, (∀ c ∈ cs, Whole c) →
    Sendable conv n (leavesL cs) → ∃ es, treesExpr compat (ofCsts cs) = some es
  | [], _, _ => ⟨[], rfl⟩
  | c :: cs, hw, h => by
    obtain ⟨e, he⟩ := tree_sendable compat (hw c (by simp)) (h.sub (leaves_sublist (by simp)))
    obtain ⟨es, hes⟩ := trees_sendable compat (cs := cs) (fun d hd => hw d (by simp [hd]))
      (h.sub (by simp only [leavesL]; exact List.sublist_append_right _ _))
    exact ⟨_, by rw [ofCsts, treesExpr, he, hes]; rfl⟩
end

mutual
theorem named_ofCst : ∀ c : Cst, Named (ofCst c)
  | .tok t => by rw [ofCst, ofTok, Named]; trivial
  | .node _ cs => by rw [ofCst, Named]; exact named_ofCsts cs
  | .call h _ _ b => by rw [ofCst, Named]; exact ⟨named_ofCsts h, named_ofCsts b⟩
  | .callAgg h _ _ b => by rw [ofCst, Named]; exact ⟨named_ofCst h, named_ofCsts b⟩
  | .box _ cs => by rw [ofCst, Named]; exact named_ofCsts cs
  | .code _ => by rw [ofCst, Named]; exact ⟨trivial, trivial⟩
theorem named_ofCsts : ∀ cs : List Cst, Nameds (ofCsts cs)
  | [] => trivial
  | c :: cs => ⟨named_ofCst c, named_ofCsts cs⟩
end

theorem fits_tok {conv : Conv} {n : Nat} {kind : ContainerKind} {t : Tok} (compat : Bool) (hk : isText kind = true)
    (hn : n < 2 ^ 32) (h1 : Small conv n t.start) (h2 : Small conv n t.stop) (h3 : t.start.le t.stop = true) :
    Fits compat kind (.span t.start t.stop) := by
  generalize t.start = a at h1 h3
  generalize t.stop = b at h2 h3
  cases a <;> cases b <;> try (cases h3)
  · simp only [Small] at h1 h2
    simp only [Loc.le, Bool.or_eq_true, Bool.and_eq_true, decide_eq_true_eq, beq_iff_eq] at h3
    simp only [Fits]
    exact ⟨hk, by omega, by omega, by omega, by omega, by omega, by omega, by omega, by omega, h3⟩
  · simp only [Small] at h1 h2
    simp only [Fits]
    exact ⟨hk, by omega, by omega⟩

mutual
theorem proper_ofCst (compat : Bool) {conv : Conv} {n : Nat} {kind : ContainerKind} (hk : isText kind = true)
    (hn : n < 2 ^ 32) : ∀ {c : Cst}, Whole c → Sendable conv n (leaves c) → Proper compat kind (ofCst c)
  | .tok t, _, h => by
    obtain ⟨h0, h1, h2, -⟩ := h.2 t (by simp [leaves])
    rw [ofCst, ofTok, Proper]
    exact fits_tok compat hk hn h1 h2 h0
  | .node k cs, hw, h => by
    cases hw with
    | node h1 h2 => rw [ofCst, Proper]; exact propers_ofCsts compat hk hn h2 h
  | .call f m op b, hw, h => by
    cases hw with
    | call h1 h2 h3 h4 =>
      rw [ofCst, Proper]
      exact ⟨propers_ofCsts compat hk hn h3 (h.sub (List.sublist_append_left _ _)),
        propers_ofCsts compat hk hn h4 (h.sub (List.sublist_append_right _ _))⟩
  | .callAgg f m op b, hw, h => by
    cases hw with
    | callAgg h2 h3 h4 =>
      rw [ofCst, Proper]
      exact ⟨proper_ofCst compat hk hn h3 (h.sub (List.sublist_append_left _ _)),
        propers_ofCsts compat hk hn h4 (h.sub (List.sublist_append_right _ _))⟩
  | .box .., h, _ => by cases h
  | .code .., h, _ => by cases h
theorem propers_ofCsts (compat : Bool) {conv : Conv} {n : Nat} {kind : ContainerKind} (hk : isText kind = true)
    (hn : n < 2 ^ 32) : ∀ {cs : List Cst}, (∀ c ∈ cs, Whole c) → Sendable conv n (leavesL cs) →
    Propers compat kind (ofCsts cs)
  | [], _, _ => trivial
  | c :: cs, hw, h => by
    rw [ofCsts, Propers]
    exact ⟨proper_ofCst compat hk hn (hw c (by simp)) (h.sub (leaves_sublist (by simp))),
      propers_ofCsts compat hk hn (fun d hd => hw d (by simp [hd]))
        (h.sub (by simp only [leavesL]; exact List.sublist_append_right _ _))⟩
end

theorem result_sendable {cfg : Cfg} {conv : Conv} {first : FirstLine} {input : List Char} {r : ParseResult}
    (h : parseBytesCst cfg conv first (encode input) = .ok r) :
    (∀ c ∈ r.syntax', Whole c) ∧ Sendable conv (limit cfg input.length) (leavesL r.syntax') :=
  ⟨fun c hc => (Props.form h c hc).whole, result_small h⟩

end CodeParser.LinkP
