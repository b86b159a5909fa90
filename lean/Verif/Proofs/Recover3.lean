import Verif.Proofs.Recover2
/-!
Recovery: rewriting unterminated tokens, with line/column locations, and telling whether a
line starts a new statement (helper lemmas).
-/
namespace CodeParser
open Spec Props

section
variable {cfg : Cfg} {isNew : List Char → Except Err Bool}

/-! ### Tokens in a text -/

/-- The token is a piece of the text `input`, at its place. -/
def Placed (cfg : Cfg) (input : List Char) (l : Loc) (k : Tok) : Prop :=
  ∃ ds es, k.text ++ k.after = encode ds ∧ k.after = encode es ∧ Steps cfg input l ds k.start ∧
    Steps cfg ds k.start es k.stop

theorem Lies.placed {r r' : List UInt8} {l m l0 : Loc} {ks : List Tok} {input : List Char}
    (h : Lies cfg r l ks r' m) : ∀ {cs : List Char}, r = encode cs → Steps cfg input l0 cs l →
    ∀ k ∈ ks, Placed cfg input l0 k := by
  induction h with
  | nil => intro _ _ _ k hk; cases hk
  | @cons k ks r' l' hm hl ih =>
    intro cs hr hs k' hk'
    obtain ⟨ds, h1, h2⟩ := moves_steps hm hr
    rcases List.mem_cons.mp hk' with rfl | hk'
    · exact ⟨cs, ds, hr, h1, hs, h2⟩
    · exact ih h1 (hs.trans h2) k' hk'

theorem Laid.lies {r r' : List UInt8} {l m : Loc} {ks : List Tok} (h : Laid cfg r l ks r' m) : Lies cfg r l ks r' m := by
  induction h with
  | nil => exact .nil
  | cons _ hm _ ih => exact .cons hm ih

theorem stepC_suffix {cs ds : List Char} {l m : Loc} (h : stepC cfg cs l = some (ds, m)) : ∃ pre, cs = pre ++ ds := by
  unfold stepC at h
  split at h
  · cases h
  · cases h; exact ⟨['\r', '\n'], rfl⟩
  · cases h; exact ⟨[_], rfl⟩

theorem Steps.suffix {cs ds : List Char} {l m : Loc} (h : Steps cfg cs l ds m) : ∃ pre, cs = pre ++ ds := by
  induction h with
  | refl => exact ⟨[], rfl⟩
  | step a _ ih =>
    obtain ⟨p, hp⟩ := ih
    obtain ⟨q, hq⟩ := stepC_suffix a
    exact ⟨q ++ p, by rw [hq, hp]; simp⟩

theorem encode_append (a b : List Char) : encode (a ++ b) = encode a ++ encode b := by simp [encode]

theorem Placed.valid {input : List Char} {l : Loc} {k : Tok} (h : Placed cfg input l k) :
    ∃ pre, k.text = encode pre := by
  obtain ⟨ds, es, h1, h2, -, h4⟩ := h
  obtain ⟨p, rfl⟩ := h4.suffix
  rw [encode_append, h2] at h1
  exact ⟨p, List.append_cancel_right h1⟩

theorem onNewline_head {c : Char} {cs : List Char} (h : c = '\n' ∨ c = '\r') : onNewline (encode (c :: cs)) := by
  rw [encode_cons]
  rcases h with rfl | rfl
  · rw [enc_lf]; exact Or.inl rfl
  · rw [enc_cr]; exact Or.inr rfl

/-- The first character of a token that is not a line end. -/
theorem head_ne {k : Tok} {ds : List Char} (h : k.text ++ k.after = encode ds) (hne : k.text ≠ [])
    (hn : ¬ onNewline k.text) : ∃ c, ds.head? = some c ∧ c ≠ '\n' ∧ c ≠ '\r' := by
  cases ds with
  | nil => exact absurd (List.append_eq_nil_iff.mp h).1 hne
  | cons c ds =>
    refine ⟨c, rfl, ?_⟩
    have : ¬ (c = '\n' ∨ c = '\r') := by
      intro hc
      have h1 := onNewline_head (cs := ds) hc
      rw [← h] at h1
      cases ht : k.text with
      | nil => exact hne ht
      | cons b r =>
        rw [ht] at h1 hn
        exact hn h1
    exact ⟨fun h => this (Or.inl h), fun h => this (Or.inr h)⟩

/-! ### Unterminated tokens -/

/-- The text a token is given that was found on the lines `chunk`. -/
theorem betterText_lineCol {input ds : List Char} {lines lines' : List (List Char × List Char)} {cur : List Char}
    {chunk : List Line} {i : Nat} {d nl : List Char} {more : List Line} {a b : Nat} {stop : Nat × Nat}
    (h : Good cfg input ds lines lines' cur chunk i d nl more) (ha : b = colOf cfg cur) :
    betterText cfg input chunk i ⟨.lineCol a b, .lineCol stop.1 stop.2⟩ =
      if 1 < chunk.length ∧ i < 1 then .error (.panic .recovery)
      else .ok (joinLines (⟨d, nl⟩ :: more.take (i - 1))) := by
  have hi : indexColumns cfg b 1 (cur ++ d) = some d := by
    rw [ha]; exact indexColumns_at h.ne cur 1 (Nat.le_refl _)
  unfold betterText
  simp only [h.eq, hi]

/-- Some line of the text is empty. -/
def HasBlank (input : List Char) : Prop := ∃ l ∈ splitLines input, l.1 = []

theorem split_blank {input : List Char} {l : Line} (h : l ∈ Line.split input) (hl : l.content = []) : HasBlank input := by
  unfold Line.split at h
  obtain ⟨p, hp, rfl⟩ := List.mem_map.mp h
  exact ⟨p, hp, hl⟩

/-- Rewriting a token: the errors, and the result. -/
theorem fixTok_cases {input : List Char} {k : Tok} (hp : Placed cfg input (.lineCol 1 1) k) (hne : k.text ≠ [])
    (hn : ¬ onNewline k.text) :
    (∃ e l, fixTok cfg isNew input k = .error e ∧ l ∈ Line.split input ∧ isNew l.content = .error e ∧ line k.start ≠ line k.stop) ∨
    (fixTok cfg isNew input k = .error (.panic .recovery) ∧ HasBlank input ∧ line k.start ≠ line k.stop) ∨
    ∃ t, fixTok cfg isNew input k = .ok t ∧ t.kind = k.kind ∧ t.start = k.start ∧ ∃ cs, t.text = encode cs := by
  obtain ⟨ds, es, h1, h2, h3, h4⟩ := hp
  obtain ⟨lines, cur, h5, -⟩ := InLine.start.steps h3
  obtain ⟨lines', cur', h6, h7⟩ := h5.steps h4
  obtain ⟨c, c1, c2, c3⟩ := head_ne h1 hne hn
  have hll : lines.length ≤ lines'.length := h7.length_le
  have hlne : lines ≠ lines' → line k.start ≠ line k.stop := by
    intro h hl
    rw [h5.loc, h6.loc] at hl
    simp [line] at hl
    exact h (h7.eq_of_length hl)
  unfold fixTok
  rcases goodLines_lineCol (isNew := isNew) h5 h6 h7 c1 c2 c3 with ⟨e, l, g1, g2, g3, g4⟩ | ⟨chunk, i, d, nl, more, hg, g1⟩
  · exact Or.inl ⟨e, l, by rw [g4], g1, g2, hlne g3⟩
  · right
    rw [g1, h5.loc]
    simp only
    rw [betterText_lineCol (stop := (lines.length + 1 + i, colOf cfg (chunk.getD i default).content)) hg rfl]
    by_cases hc : 1 < chunk.length ∧ i < 1
    · left
      rw [if_pos hc]
      obtain ⟨j1, j2⟩ := hc
      have hb := hg.blank 1 (by omega) j1
      refine ⟨rfl, split_blank (hg.real (chunk.getD 1 default) ?_) hb, ?_⟩
      · rw [List.getD_eq_getElem?_getD, List.getElem?_eq_getElem j1]
        exact List.getElem_mem _
      · rw [h6.loc]
        have := hg.count
        simp [line]; omega
    · right
      rw [if_neg hc]
      exact ⟨_, rfl, rfl, rfl, _, rfl⟩

/-! ### Lines without line ends -/

/-- No line end in the text. -/
def OneLine (cs : List Char) : Prop := '\n' ∉ cs ∧ '\r' ∉ cs

theorem OneLine.steps {cs ds : List Char} {l m : Loc} (h : Steps cfg cs l ds m) (hc : OneLine cs) :
    OneLine ds ∧ ∀ a b, l = .lineCol a b → line m = a := by
  induction h with
  | refl => exact ⟨hc, by rintro a b rfl; rfl⟩
  | @step cs l ds m es n a _ ih =>
    have hs : OneLine ds := by
      obtain ⟨p, rfl⟩ := stepC_suffix a
      exact ⟨fun h => hc.1 (by simp [h]), fun h => hc.2 (by simp [h])⟩
    obtain ⟨i1, i2⟩ := ih hs
    refine ⟨i1, ?_⟩
    rintro x y rfl
    unfold stepC at a
    split at a
    · cases a
    · exact absurd (by simp) hc.1
    · next c _ _ =>
      cases a
      have h1 : c ≠ '\n' := fun h => hc.1 (by simp [h])
      have h2 : c ≠ '\r' := fun h => hc.2 (by simp [h])
      exact i2 x _ (locUpd_lineCol h1 h2)

theorem fixTok_oneLine {input : List Char} {k : Tok} (hp : Placed cfg input (.lineCol 1 1) k) (hne : k.text ≠ [])
    (ho : OneLine input) : ∃ t, fixTok cfg isNew input k = .ok t ∧ t.kind = k.kind ∧ t.start = k.start ∧ ∃ cs, t.text = encode cs := by
  have hp' := hp
  obtain ⟨ds, es, h1, h2, h3, h4⟩ := hp'
  have o1 := OneLine.steps h3 ho
  have o2 := (OneLine.steps (h3.trans h4) ho).2 1 1 rfl
  have o3 := o1.2 1 1 rfl
  have hn : ¬ onNewline k.text := by
    intro hn
    have h5 := onNewline_append (b := k.after) hn
    rw [h1] at h5
    cases ds with
    | nil => rcases h5 with h | h <;> cases h
    | cons c ds =>
      have hl : ∀ b, (encode (c :: ds)).head? = some b → b.toNat < 0x80 → c.toNat = b.toNat := by
        intro b hb hlt
        have hv := char_valid c
        rw [encode_cons] at hb
        unfold String.utf8EncodeChar at hb
        simp only [enc_val] at hb
        split at hb
        · simp at hb; subst hb; simp; omega
        all_goals
          exfalso
          try split at hb
          all_goals
            try split at hb
            all_goals
              simp at hb; subst hb; simp at hlt; omega
      rcases h5 with h | h
      · have := hl _ h (by decide)
        exact o1.1.1 (by rw [show c = '\n' from Char.toNat_inj.mp this]; simp)
      · have := hl _ h (by decide)
        exact o1.1.2 (by rw [show c = '\r' from Char.toNat_inj.mp this]; simp)
  rcases fixTok_cases (isNew := isNew) hp hne hn with ⟨_, _, _, _, _, h⟩ | ⟨_, _, h⟩ | h
  · exact absurd (o3.trans o2.symm) h
  · exact absurd (o3.trans o2.symm) h
  · exact h

theorem fixToks_oneLine {input : List Char} (ho : OneLine input) : ∀ ts : List Tok,
    (∀ k ∈ ts, Placed cfg input (.lineCol 1 1) k ∧ k.text ≠ []) →
    ∃ ts', fixToks cfg isNew input ts = .ok ts' ∧ ∀ k ∈ ts', ∃ cs, k.text = encode cs
  | [], _ => ⟨[], rfl, by simp⟩
  | t :: ts, h => by
    obtain ⟨ts', h1, h2⟩ := fixToks_oneLine ho ts (fun k hk => h k (List.mem_cons_of_mem _ hk))
    obtain ⟨hp, hne⟩ := h t List.mem_cons_self
    have : ∃ t', (if t.unterminated then fixTok cfg isNew input t else .ok t) = .ok t' ∧ ∃ cs, t'.text = encode cs := by
      split
      · obtain ⟨t', e1, -, -, e2⟩ := fixTok_oneLine (isNew := isNew) hp hne ho
        exact ⟨t', e1, e2⟩
      · exact ⟨t, rfl, hp.valid⟩
    obtain ⟨t', e1, e2⟩ := this
    refine ⟨t' :: ts', ?_, ?_⟩
    · unfold fixToks
      simp only [e1, h1]
    · intro k hk
      rcases List.mem_cons.mp hk with rfl | hk
      · exact e2
      · exact h2 k hk

theorem statementToks_ok {ts : List Tok} (h : ∀ k ∈ ts, ∃ cs, k.text = encode cs) : ∃ b, statementToks ts = .ok b := by
  cases ts with
  | nil => exact ⟨_, rfl⟩
  | cons t ts =>
    obtain ⟨cs, hc⟩ := h t List.mem_cons_self
    have hs : t.str = .ok cs := by unfold Tok.str; rw [hc, fromUtf8_encode]
    unfold statementToks
    simp only [hs]
    split
    · split <;> exact ⟨_, rfl⟩
    all_goals exact ⟨_, rfl⟩

/-- The errors of tokenizing one line. -/
theorem tokenizeWith_oneLine {line : List Char} (ho : OneLine line) :
    (∃ e, tokenizeWith isNew cfg .lineColumn .notScript line = .error e ∧
      (EE (encode line) e ∨ (e = .panic .encoding ∧ BOM ∈ line))) ∨
    ∃ ts, tokenizeWith isNew cfg .lineColumn .notScript line = .ok ts ∧ ∀ k ∈ ts, ∃ cs, k.text = encode cs := by
  have ht := tokens_notScript (cfg := cfg) .lineColumn (encode line)
  unfold tokenizeWith tokenizeBytesWith
  show (∃ e, (match (match tokens cfg .lineColumn .notScript (encode line) with
    | .error e => .error e
    | .ok (ts, s) => match s.flag with
      | some f => .ok (.error f)
      | none => match fromUtf8 (encode line) with
        | none => .ok (.ok ts)
        | some input => match fixToks cfg isNew input ts with
          | .error e => .error e
          | .ok ts => .ok (.ok ts) : Except Err (Except Unsafe (List Tok))) with
    | .error e => .error e | .ok (.error _) => .error (.panic .encoding) | .ok (.ok ts) => .ok ts : Except Err (List Tok)) = .error e ∧ _) ∨ ∃ ts, (match (match tokens cfg .lineColumn .notScript (encode line) with
    | .error e => .error e
    | .ok (ts, s) => match s.flag with
      | some f => .ok (.error f)
      | none => match fromUtf8 (encode line) with
        | none => .ok (.ok ts)
        | some input => match fixToks cfg isNew input ts with
          | .error e => .error e
          | .ok ts => .ok (.ok ts) : Except Err (Except Unsafe (List Tok))) with
    | .error e => .error e | .ok (.error _) => .error (.panic .encoding) | .ok (.ok ts) => .ok ts : Except Err (List Tok)) = .ok ts ∧ _
  cases hT : tokens cfg .lineColumn .notScript (encode line) with
  | error e =>
    rw [hT] at ht
    exact Or.inl ⟨e, rfl, Or.inl ht⟩
  | ok p =>
    obtain ⟨ts, s⟩ := p
    rw [hT] at ht
    cases hf : s.flag with
    | some f =>
      left
      refine ⟨_, by simp only [hf], Or.inr ⟨rfl, ?_⟩⟩
      obtain ⟨v, v1, v2, v3⟩ := ht.done
      rcases (v1.flag_iff v2).mp (by rw [v3, hf]; simp) with h | ⟨cs, h1, h2⟩
      · exact absurd ⟨line, rfl⟩ h
      · rw [encode_injective _ _ h1]; exact h2
    | none =>
      right
      obtain ⟨ts', h1, h2⟩ := fixToks_oneLine (cfg := cfg) (isNew := isNew) ho ts (fun k hk =>
        ⟨ht.laid.lies.placed rfl .refl k hk, ht.laid.nonempty k hk⟩)
      exact ⟨ts', by simp only [hf, fromUtf8_encode, h1], h2⟩

/-- The errors of asking whether a line starts a new statement. -/
theorem isStatement_err {line : List Char} (ho : OneLine line) {e : Err} (h : isStatement cfg line = .error e) :
    EE (encode line) e ∨ (e = .panic .encoding ∧ BOM ∈ line) := by
  unfold isStatement isStatementWith at h
  rcases tokenizeWith_oneLine (cfg := cfg.nested) (isNew := fun _ => .error .fuel) ho with ⟨e', h1, h2⟩ | ⟨ts, h1, h2⟩
  · rw [h1] at h; cases h; exact h2
  · rw [h1] at h
    obtain ⟨b, hb⟩ := statementToks_ok (ts := ts.filter keepsTok) (fun k hk => h2 k (List.mem_filter.mp hk).1)
    simp only [hb] at h
    cases h

/-- What can go wrong with the lines of a text. -/
def LineErr (input : List Char) (e : Err) : Prop :=
  EE (encode input) e ∨ (e = .panic .encoding ∧ BOM ∈ input)

theorem surrogate_append {a b : List UInt8} (h : SurrogateEscape a) : SurrogateEscape (a ++ b) := by
  cases h with
  | hex4 h1 h2 h3 => rw [List.cons_append, List.append_assoc]; exact .hex4 h1 h2 h3
  | hex6 h1 h2 h3 => rw [List.cons_append, List.append_assoc]; exact .hex6 h1 h2 h3

theorem EE.infix {a b c : List UInt8} {e : Err} (h : EE b e) : EE (a ++ b ++ c) e := by
  obtain ⟨h1, p, q, rfl, h2⟩ := h
  exact ⟨h1, a ++ p, q ++ c, by simp, surrogate_append h2⟩

theorem isStatement_split {input : List Char} {l : Line} (hl : l ∈ Line.split input) {e : Err}
    (h : isStatement cfg l.content = .error e) : LineErr input e := by
  unfold Line.split at hl
  obtain ⟨p, hp, rfl⟩ := List.mem_map.mp hl
  obtain ⟨c1, c2, -⟩ := C40_split_lines input
  have hg := c2 p hp
  obtain ⟨a, b, hab⟩ := List.append_of_mem hp
  have hin : ∃ x y, input = x ++ p.1 ++ y := by
    rw [← c1, hab]
    exact ⟨(a.map (fun l => l.1 ++ l.2)).flatten, p.2 ++ (b.map (fun l => l.1 ++ l.2)).flatten, by simp⟩
  obtain ⟨x, y, rfl⟩ := hin
  rcases isStatement_err (cfg := cfg) ⟨hg.1, hg.2.1⟩ h with h | ⟨h1, h2⟩
  · left
    rw [encode_append, encode_append]
    exact h.infix
  · exact Or.inr ⟨h1, by simp [h2]⟩

end
end CodeParser
