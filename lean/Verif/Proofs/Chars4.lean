import Verif.Proofs.Chars3
/-!
Names, tags, strings and linear syntax, however written (helper lemmas).
-/
namespace CodeParser
open Spec Props

section
variable {cfg : Cfg} {start s t m : St} {bs r r' q q' text : List UInt8} {c d : WLC} {E : Err → Prop} {pol : Pol} {k : TK} {g : Bool} {n : Nat}

/-! ### Words -/

theorem Spec.WordEnd.first (h : WordEnd bs d r) : ∃ c q, NextChar bs c q := by
  cases h with
  | stop h => exact ⟨_, _, h⟩
  | char h => exact ⟨_, _, h⟩

theorem Spec.WordEnd.last (h : WordEnd bs d r) : ∃ q, NextChar r d q ∧ ¬ Letter d.point ∧ ¬ Digit d.point := by
  induction h with
  | stop h h1 h2 => exact ⟨_, h, h1, h2⟩
  | char _ _ _ ih => exact ih

theorem Spec.WordEnd.suffix (h : WordEnd bs d r) : ∃ pre, bs = pre ++ r := by
  induction h with
  | stop => exact ⟨[], rfl⟩
  | char h _ _ ih => exact suffix_trans h.suffix ih

/-- What is left behind a word. -/
structure WordPost (cfg : Cfg) (start s : St) (d : WLC) (r : List UInt8) (d' : WLC) (t : St) : Prop where
  eq : d' = d
  len : t.rest.length ≤ s.rest.length
  tick : d.point = ch '`' → ∀ r', NextChar r d r' → Lex cfg start r' t
  other : d.point ≠ ch '`' → Lex cfg start r t

theorem segment_word (h : Lex cfg start bs s) (hc : Letter c.point) (hw : WordEnd bs d r) :
    wp E (symbolSegment cfg c) s (WordPost cfg start s d r) := by
  unfold symbolSegment
  refine lex_assert (letter_iff.mpr hc) ?_
  obtain ⟨c1, q, hq⟩ := hw.first
  refine lex_curChar h hq fun t ht => ?_
  refine wp_loop (fun c1 t => ∃ b q, Lex cfg start b t ∧ NextChar b c1 q ∧ WordEnd b d r ∧ b.length ≤ s.rest.length)
    (fun _ t => t.rest.length) ⟨bs, q, ht, hq, hw, by rw [h.rest]⟩ (by omega) ?_
  clear hq ht t q c1 hw h
  rintro c1 t ⟨b, q, h1, h2, h3, hl⟩
  have step : Letter c1.point ∨ Digit c1.point → wp E (do
      let _ ← nextC cfg
      let c ← curC cfg
      pure (.inl c) : M (WLC ⊕ WLC)) t (fun r' u => match r' with
        | .inl b' => (∃ b q, Lex cfg start b u ∧ NextChar b b' q ∧ WordEnd b d r ∧ b.length ≤ s.rest.length) ∧ u.rest.length < t.rest.length
        | .inr a => WordPost cfg start s d r a u) := by
    intro hl1
    refine lex_nextChar h1 h2 fun u hu => ?_
    have hw : WordEnd q d r := by
      cases h3 with
      | stop h5 h6 h7 =>
        obtain ⟨rfl, rfl⟩ := h5.det h2
        exact absurd hl1 (by rintro (h | h); exacts [h6 h, h7 h])
      | char h5 h6 h7 =>
        obtain ⟨rfl, rfl⟩ := h5.det h2
        exact h7
    obtain ⟨c2, q2, hq2⟩ := hw.first
    have hlt := h2.len (by rcases hl1 with h | h; exacts [Letter.ne_eof h, Digit.ne_eof h])
    refine lex_curChar hu hq2 fun v hv => wp_pure ⟨⟨q, q2, hv, hq2, hw, by omega⟩, ?_⟩
    rw [hv.rest, h1.rest]; exact hlt
  refine wp_ite (fun hd => wp_mono (step (.inr (digit_iff.mp hd))) (fun _ h => h) (by rintro (x | x) u h <;> exact h)) (fun hd => ?_)
  refine wp_ite (fun hlet => wp_mono (step (.inl (letter_iff.mp hlet))) (fun _ h => h) (by rintro (x | x) u h <;> exact h)) (fun hlet => ?_)
  have hstop : c1 = d ∧ b = r := by
    cases h3 with
    | stop h5 h6 h7 =>
      obtain ⟨rfl, rfl⟩ := h5.det h2
      exact ⟨rfl, rfl⟩
    | char h5 h6 h7 =>
      obtain ⟨rfl, rfl⟩ := h5.det h2
      rcases h6 with h | h
      · exact absurd (letter_iff.mpr h) hlet
      · exact absurd (digit_iff.mpr h) hd
  obtain ⟨rfl, rfl⟩ := hstop
  refine wp_ite (fun ht => ?_) (fun ht => ?_)
  · refine lex_nextChar h1 h2 fun u hu => wp_pure ⟨rfl, ?_, ?_, fun h => absurd ht h⟩
    · have := suffix_len h2.suffix
      rw [hu.rest]; omega
    · intro _ r' hr'
      obtain ⟨-, rfl⟩ := h2.det hr'
      exact hu
  · refine wp_pure ⟨rfl, ?_, fun h => absurd h ht, fun _ => h1⟩
    rw [h1.rest]; exact hl

/-! ### Names -/

theorem Spec.NameEnd.suffix (h : NameEnd bs k r) : ∃ pre, bs = pre ++ r := by
  induction h with
  | stop h => exact h.suffix
  | context h _ h1 h2 _ _ ih => exact suffix_trans h.suffix (suffix_trans h1.suffix (suffix_trans h2.suffix ih))
  | bad h _ h1 => exact suffix_trans h.suffix h1.suffix

theorem Spec.NameAt.suffix (h : NameAt bs k r) : ∃ pre, bs = pre ++ r := by
  cases h with
  | letter h _ h1 => exact suffix_trans h.suffix h1.suffix
  | context h _ h1 _ h2 => exact suffix_trans h.suffix (suffix_trans h1.suffix h2.suffix)
  | bad h => exact h.suffix

/-- The state between the segments of a name. -/
def SymSt (cfg : Cfg) (start : St) (k : TK) (r : List UInt8) (c : WLC) (t : St) : Prop :=
  (c.point ≠ ch '`' ∧ k = .Symbol ∧ Lex cfg start r t) ∨
  (c.point = ch '`' ∧ ∃ q d q', Lex cfg start q t ∧ NextChar q d q' ∧
    ((Letter d.point ∧ NameEnd q' k r) ∨ (¬ Letter d.point ∧ k = .Error_ExpectedLetterlike ∧ q = r)))

theorem segment_name (h : Lex cfg start bs s) (hc : Letter c.point) (hn : NameEnd bs k r) :
    wp E (symbolSegment cfg c) s (fun d t => SymSt cfg start k r d t ∧ t.rest.length ≤ s.rest.length) := by
  cases hn with
  | stop h1 h2 =>
    refine wp_mono (segment_word h hc h1) (fun _ h => h) ?_
    rintro d t ⟨rfl, hl, -, h3⟩
    exact ⟨.inl ⟨h2, rfl, h3 h2⟩, hl⟩
  | context h1 h2 h3 h4 h5 h6 =>
    refine wp_mono (segment_word h hc h1) (fun _ h => h) ?_
    rintro d t ⟨rfl, hl, h7, -⟩
    exact ⟨.inr ⟨h2, _, _, _, h7 h2 _ h3, h4, .inl ⟨h5, h6⟩⟩, hl⟩
  | bad h1 h2 h3 h4 h5 =>
    refine wp_mono (segment_word h hc h1) (fun _ h => h) ?_
    rintro d t ⟨rfl, hl, h7, -⟩
    exact ⟨.inr ⟨h2, _, _, _, h7 h2 _ h3, h4, .inr ⟨h5, rfl, rfl⟩⟩, hl⟩

theorem name_loop (h : SymSt cfg start k r c s) : wp E (M.loop (fun c : WLC =>
    if c.point ≠ ch '`' then pure (.inr true)
    else do
      let c ← curC cfg
      if c.isLetter then do
        let _ ← nextC cfg
        let c ← symbolSegment cfg c
        pure (.inl c)
      else pure (.inr false)) c) s
    (fun ok t => Lex cfg start r t ∧ ((ok = true ∧ k = .Symbol) ∨ (ok = false ∧ k = .Error_ExpectedLetterlike))) := by
  refine wp_loop (fun c t => SymSt cfg start k r c t) (fun _ t => t.rest.length) h (by omega) ?_
  clear h
  rintro c s h
  refine wp_ite (fun hc => ?_) (fun hc => ?_)
  · rcases h with ⟨-, h1, h2⟩ | ⟨h1, -⟩
    · exact wp_pure ⟨h2, .inl ⟨rfl, h1⟩⟩
    · exact absurd h1 hc
  · rcases h with ⟨h1, -⟩ | ⟨-, q, d, q', h1, h2, h3⟩
    · exact absurd h1 hc
    · refine lex_curChar h1 h2 fun t ht => ?_
      refine wp_ite (fun hl => ?_) (fun hl => ?_)
      · rcases h3 with ⟨h3, h4⟩ | ⟨h3, -⟩
        · refine lex_nextChar ht h2 fun u hu => ?_
          refine wp_bind (wp_mono (segment_name hu h3 h4) (fun _ h => h) ?_)
          rintro e v ⟨hv, hlv⟩
          refine wp_pure ⟨hv, ?_⟩
          have := h2.len (Letter.ne_eof h3)
          rw [hu.rest] at hlv
          rw [h1.rest]
          omega
        · exact absurd (letter_iff.mp hl) h3
      · rcases h3 with ⟨h3, -⟩ | ⟨-, h4, rfl⟩
        · exact absurd (letter_iff.mpr h3) hl
        · exact wp_pure ⟨ht, .inr ⟨rfl, h4⟩⟩

theorem tick_not_letter (h2 : c.point = ch '`') : ¬ c.isLetter = true :=
  fun h => Letter.ne_ch (x := '`') (letter_iff.mp h) (by decide) (by decide) (by decide) h2

theorem name_token (hs : WF s) (h : NameAt s.rest k r) (ht : s.rest = text ++ r) :
    wp E (nextToken cfg (polIn pol g)) s (Gives s (kindWith pol g k) text r) := by
  have fin : ∀ (c : WLC) t, SymSt cfg s k r c t → wp E (do
      let ok ← M.loop (fun c : WLC =>
        if c.point ≠ ch '`' then pure (.inr true)
        else do
          let c ← curC cfg
          if c.isLetter then do
            let _ ← nextC cfg
            let c ← symbolSegment cfg c
            pure (.inl c)
          else pure (.inr false)) c
      if ok then tok (if (polIn pol g).insideSlot then .String else .Symbol) s
      else tok .Error_ExpectedLetterlike s : M Tok) t (Gives s (kindWith pol g k) text r) := by
    intro c t hst
    refine wp_bind (wp_mono (name_loop hst) (fun _ h => h) ?_)
    rintro ok u ⟨hu, ⟨rfl, rfl⟩ | ⟨rfl, rfl⟩⟩
    · have : kindWith pol g .Symbol = if (polIn pol g).insideSlot then .String else .Symbol := by
        unfold kindWith
        rw [if_neg (by decide)]
        change (if _ ∧ pol.insideSlot = true then _ else _) = if pol.insideSlot = true then _ else _
        simp
      rw [this]
      exact lex_tok hu ht
    · rw [kindWith_other (by decide) (by decide)]
      exact lex_tok hu ht
  cases h with
  | letter h1 h2 h3 =>
    refine nextToken_char hs h1 fun t hlt => ?_
    rw [letter_dispatch (.inl h2)]
    unfold handleSymbol
    have hlet := letter_iff.mpr h2
    refine lex_assert (by rw [hlet]; simp) ?_
    unfold symbolFirst
    rw [if_pos hlet]
    refine wp_bind (wp_mono (segment_name hlt h2 h3) (fun _ h => h) ?_)
    rintro d u ⟨hu, -⟩
    exact fin d u hu
  | context h1 h2 h3 h4 h5 =>
    refine nextToken_char hs h1 fun t hlt => ?_
    rw [letter_dispatch (.inr h2)]
    unfold handleSymbol
    have hlet := tick_not_letter h2
    refine lex_assert (by rw [h2]; rfl) ?_
    unfold symbolFirst
    rw [if_neg hlet]
    refine wp_bind (wp_pure (fin _ t (.inr ⟨h2, _, _, _, hlt, h3, .inl ⟨h4, h5⟩⟩)))
  | bad h1 h2 h3 h4 =>
    refine nextToken_char hs h1 fun t hlt => ?_
    rw [letter_dispatch (.inr h2)]
    unfold handleSymbol
    have hlet := tick_not_letter h2
    refine lex_assert (by rw [h2]; rfl) ?_
    unfold symbolFirst
    rw [if_neg hlet]
    refine wp_bind (wp_pure (fin _ t (.inr ⟨h2, _, _, _, hlt, h3, .inr ⟨h4, rfl, rfl⟩⟩)))

/-! ### Strings -/

theorem Spec.QuoteEnd.suffix (h : QuoteEnd bs k r) : ∃ pre, bs = pre ++ r := by
  induction h with
  | close h => exact h.suffix
  | eof h => exact h.suffix
  | other h _ _ _ ih => exact suffix_trans h.suffix ih

theorem quote_token (h : Lex cfg start bs s) (hc : c.point = ch '"') (hq : QuoteEnd bs k r) (ht : start.rest = text ++ r) :
    wp E (handleString cfg start c) s (Gives start k text r) := by
  unfold handleString
  refine lex_assert (by rw [hc]; rfl) ?_
  refine wp_bind (wp_mono (Q := fun closed t => Lex cfg start r t ∧ k = if closed then .String else .Error_UnterminatedString) ?_ (fun _ h => h) ?_)
  · refine wp_loop (fun _ t => ∃ b, Lex cfg start b t ∧ QuoteEnd b k r) (fun _ t => t.rest.length) ⟨bs, h, hq⟩ (by omega) ?_
    clear h hc hq ht
    rintro - t ⟨b, h1, h2⟩
    cases h2 with
    | close h3 h4 =>
      refine lex_nextChar h1 h3 fun u hu => ?_
      rw [if_pos h4]
      exact wp_pure ⟨hu, rfl⟩
    | eof h3 h4 =>
      refine lex_nextChar h1 h3 fun u hu => ?_
      rw [if_neg (by rw [h4]; decide), if_pos h4]
      exact wp_pure ⟨hu, rfl⟩
    | other h3 h4 h5 h6 =>
      refine lex_nextChar h1 h3 fun u hu => ?_
      rw [if_neg h4, if_neg h5]
      refine wp_pure ⟨⟨_, hu, h6⟩, ?_⟩
      rw [hu.rest, h1.rest]
      exact h3.len h5
  · rintro closed t ⟨h1, rfl⟩
    exact lex_tok h1 ht

theorem wp_step {E : Err → Prop} {m : M α} {f : α → M β} {Q} (h : m s = .ok (a, t)) (k : wp E (f a) t Q) : wp E (m >>= f) s Q := by
  unfold wp at k ⊢
  rw [bind_ok h]
  exact k

theorem plain_body {body r q : List UInt8} {p : CP} (h : Plain (body ++ byte '"' :: r) p q) (hne : body ≠ []) (h1 : byte '"' ∉ body) :
    ∃ body', q = body' ++ byte '"' :: r ∧ (∀ b ∈ body', b ∈ body) ∧ body'.length < body.length ∧ p ≠ ch '"' ∧ p ≠ .eof := by
  generalize hw : body ++ byte '"' :: r = w at h
  cases h with
  | eof => simp at hw
  | @ascii b q h2 h3 =>
    cases body with
    | nil => exact absurd rfl hne
    | cons a body =>
      simp only [List.cons_append, List.cons.injEq] at hw
      obtain ⟨rfl, rfl⟩ := hw
      refine ⟨body, rfl, fun b hb => by simp [hb], by simp, fun h => h1 ?_, by simp⟩
      have : a = byte '"' := UInt8.toNat_inj.mp (CP.char.inj h)
      simp [this]
  | @crlf q =>
    cases body with
    | nil => exact absurd rfl hne
    | cons a body =>
      cases body with
      | nil =>
        simp only [List.cons_append, List.nil_append, List.cons.injEq] at hw
        exact absurd hw.2.1 (by decide)
      | cons a' body =>
        simp only [List.cons_append, List.cons.injEq] at hw
        obtain ⟨rfl, rfl, rfl⟩ := hw
        exact ⟨body, rfl, fun b hb => by simp [hb], by simp; omega, by simp [ch], by simp⟩
  | @high pre q p h2 h3 h4 =>
    have hp : p ≠ ch '"' ∧ p ≠ .eof := by
      rcases h4 with h4 | ⟨n, rfl, hn⟩
      · constructor <;> rintro rfl <;> cases h4
      · refine ⟨fun h => ?_, by simp⟩
        have := CP.char.inj h
        have : n = 34 := this
        omega
    rcases List.append_eq_append_iff.mp hw with ⟨z, hz, hz'⟩ | ⟨z, hz, hz'⟩
    · subst hz
      cases z with
      | nil => exact ⟨[], by simpa using hz'.symm, by simp, by simpa using List.length_pos_iff.mpr hne, hp.1, hp.2⟩
      | cons a z =>
        simp only [List.cons_append, List.cons.injEq] at hz'
        have := h3 a (by simp)
        rw [← hz'.1] at this
        exact absurd this (by decide)
    · subst hz
      refine ⟨z, hz', fun b hb => by simp [hb], ?_, hp.1, hp.2⟩
      have := List.length_pos_iff.mpr h2
      simp; omega

/-- A string without escapes, whatever its bytes. -/
theorem plain_quote_token {body : List UInt8} (h : Lex cfg start (body ++ byte '"' :: r) s) (hc : c.point = ch '"') (h1 : byte '"' ∉ body)
    (h2 : byte '\\' ∉ body) (ht : start.rest = text ++ r) :
    wp E (handleString cfg start c) s (Gives start .String text r) := by
  unfold handleString
  refine lex_assert (by rw [hc]; rfl) ?_
  refine wp_bind (wp_mono (Q := fun closed t => Lex cfg start r t ∧ closed = true) ?_ (fun _ h => h) ?_)
  · refine wp_loop (fun _ t => ∃ b, Lex cfg start (b ++ byte '"' :: r) t ∧ byte '"' ∉ b ∧ byte '\\' ∉ b) (fun _ t => t.rest.length)
      ⟨body, h, h1, h2⟩ (by omega) ?_
    clear h hc h1 h2 ht body
    rintro - t ⟨body, h, h1, h2⟩
    by_cases hb : body = []
    · subst hb
      refine lex_next h (by decide) (by decide) (by decide) fun u hu => ?_
      have : (⟨.char (byte '"').toNat, .none⟩ : WLC).point = ch '"' := rfl
      rw [if_pos this]
      exact wp_pure ⟨hu, rfl⟩
    · have h92 : t.rest.head? ≠ some (byte '\\') := by
        rw [h.rest]
        cases body with
        | nil => exact absurd rfl hb
        | cons a body =>
          intro e
          exact h2 (by simp [Option.some.inj e])
      have hn := nextC_plain (cfg := cfg) h.wf h92
      have hp := plain_nextSource (cfg := cfg) h.wf
      rw [h.rest] at hp
      obtain ⟨body', e1, e2, e3, e4, e5⟩ := plain_body hp hb h1
      have hl := h.source (by simp)
      refine wp_step hn ?_
      rw [if_neg e4, if_neg e5]
      refine wp_pure ⟨⟨body', e1 ▸ hl, fun h => h1 (e2 _ h), fun h => h2 (e2 _ h)⟩, ?_⟩
      rw [e1, h.rest]
      simp; omega
  · rintro closed t ⟨h1, rfl⟩
    exact lex_tok h1 ht

/-! ### Linear syntax -/

theorem Spec.BlobEnd.suffix (h : BlobEnd n bs k r) : ∃ pre, bs = pre ++ r := by
  induction h with
  | close h => exact h.suffix
  | eof h => exact h.suffix
  | up h _ _ ih => exact suffix_trans h.suffix ih
  | down h _ _ ih => exact suffix_trans h.suffix ih
  | other h _ _ _ _ ih => exact suffix_trans h.suffix ih

theorem Spec.BlobEnd.first (h : BlobEnd n bs k r) : ∃ c q, NextChar bs c q := by
  cases h <;> exact ⟨_, _, by assumption⟩

theorem blob_token (h : Lex cfg start bs s) (hc : c.point = .char 0xf7c9) (hb : BlobEnd 0 bs k r) (ht : start.rest = text ++ r) :
    wp E (handleBlob cfg start c) s (Gives start k text r) := by
  unfold handleBlob
  refine lex_assert (by rw [hc]; rfl) ?_
  obtain ⟨c1, q, hq⟩ := hb.first
  refine lex_nextChar h hq fun t hlt => ?_
  refine wp_bind (wp_mono (Q := fun closed t => Lex cfg start r t ∧
    k = if closed then .LinearSyntaxBlob else .Error_UnterminatedLinearSyntaxBlob) ?_ (fun _ h => h) ?_)
  · refine wp_loop (fun d t => ∃ n b q, d.1 = n + 1 ∧ Lex cfg start q t ∧ NextChar b d.2 q ∧ BlobEnd n b k r)
      (fun d t => if d.2.point = .eof then 0 else t.rest.length + 1) ⟨0, bs, q, rfl, hlt, hq, hb⟩ (by split <;> omega) ?_
    clear h hc hb ht hlt hq
    rintro ⟨d, c1⟩ t ⟨n, b, q, hd, h1, h2, h3⟩
    simp only at hd h2 ⊢
    subst hd
    have step : ∀ n', c1.point ≠ .eof → BlobEnd n' q k r → wp E (do
        let c ← nextC cfg
        pure (.inl (n' + 1, c)) : M ((Nat × WLC) ⊕ Bool)) t (fun r' u => match r' with
          | .inl b' => (∃ n b q, b'.1 = n + 1 ∧ Lex cfg start q u ∧ NextChar b b'.2 q ∧ BlobEnd n b k r) ∧
            (if b'.2.point = .eof then 0 else u.rest.length + 1) < if c1.point = .eof then 0 else t.rest.length + 1
          | .inr closed => Lex cfg start r u ∧ k = if closed then .LinearSyntaxBlob else .Error_UnterminatedLinearSyntaxBlob) := by
      intro n' hne hb
      obtain ⟨c2, q2, hq2⟩ := hb.first
      refine lex_nextChar h1 hq2 fun u hu => wp_pure ⟨⟨n', q, q2, rfl, hu, hq2, hb⟩, ?_⟩
      rw [if_neg hne, hu.rest, h1.rest]
      split
      · omega
      · have := hq2.len (by assumption)
        omega
    have e1 : CP.char 0xf7c0 ≠ CP.char 0xf7c9 := by decide
    cases h3 with
    | close h5 h6 =>
      obtain ⟨rfl, rfl⟩ := h5.det h2
      rw [if_neg (by rw [h6]; exact e1), if_pos h6, if_pos rfl]
      exact wp_pure ⟨h1, rfl⟩
    | eof h5 h6 =>
      obtain ⟨rfl, rfl⟩ := h5.det h2
      rw [if_neg (by rw [h6]; decide), if_neg (by rw [h6]; decide), if_pos h6]
      exact wp_pure ⟨h1, rfl⟩
    | up h5 h6 h7 =>
      obtain ⟨rfl, rfl⟩ := h5.det h2
      rw [if_pos h6]
      exact wp_mono (step _ (by rw [h6]; decide) h7) (fun _ h => h) (by rintro (x | x) u h <;> exact h)
    | @down m _ _ _ _ _ h5 h6 h7 =>
      obtain ⟨rfl, rfl⟩ := h5.det h2
      rw [if_neg (by rw [h6]; exact e1), if_pos h6, if_neg (by omega)]
      exact wp_mono (step m (by rw [h6]; decide) h7) (fun _ h => h) (by rintro (x | x) u h <;> exact h)
    | other h5 h6 h7 h8 h9 =>
      obtain ⟨rfl, rfl⟩ := h5.det h2
      rw [if_neg h6, if_neg h7, if_neg h8]
      exact wp_mono (step _ h8 h9) (fun _ h => h) (by rintro (x | x) u h <;> exact h)
  · rintro closed t ⟨h1, rfl⟩
    exact lex_tok h1 ht

/-! ### Tags -/

theorem Spec.TagAt.suffix (h : TagAt bs k r) : ∃ pre, bs = pre ++ r := by
  cases h with
  | word h _ h1 => exact suffix_trans h.suffix h1.suffix
  | backquote h _ h1 _ h2 => exact suffix_trans h.suffix (suffix_trans h1.suffix h2.suffix)
  | string h _ h1 => exact suffix_trans h.suffix h1.suffix
  | none => exact ⟨[], rfl⟩

theorem tag_token (hs : WF s) (h : TagAt s.rest k r) (ht : s.rest = text ++ r) :
    wp E (nextTokenTag cfg) s (fun x _ => x.kind = k ∧ x.text = text ∧ x.after = r) := by
  have gives : ∀ {x t}, Gives s k text r x t → x.kind = k ∧ x.text = text ∧ x.after = r :=
    fun h => ⟨h.kind, h.text_eq, h.after⟩
  unfold nextTokenTag
  have word : ∀ (c : WLC) (t : St), Letter c.point → wp E (stringifyAsTagRest cfg s c) t (fun x _ => x.kind = k ∧ x.text = text ∧ x.after = r) →
      wp E (if c.point = .eof then errorTokAt .Error_ExpectedTag s
        else if c.point = ch '\n' ∨ c.point = ch '\r' ∨ c.point = .crlf then errorTokAt .Error_ExpectedTag s
        else if c.point = ch '"' then handleString cfg s c
        else stringifyAsTagRest cfg s c) t (fun x _ => x.kind = k ∧ x.text = text ∧ x.after = r) := by
    intro c t hc h
    rw [if_neg (Letter.ne_eof hc), if_neg, if_neg (Letter.ne_ch hc (by decide) (by decide) (by decide))]
    · exact h
    · rintro (h | h | h)
      · exact Letter.ne_ch hc (by decide) (by decide) (by decide) h
      · exact Letter.ne_ch hc (by decide) (by decide) (by decide) h
      · rw [h] at hc; exact hc
  cases h with
  | word h1 h2 h3 h4 =>
    refine lex_mark (lex_nextChar (Lex.refl hs rfl) h1 fun t hlt => word _ t h2 ?_)
    unfold stringifyAsTagRest
    rw [if_pos (letter_iff.mpr h2)]
    refine wp_bind (wp_mono (segment_word hlt h2 h3) (fun _ h => h) ?_)
    rintro d u ⟨rfl, -, -, h5⟩
    exact wp_mono (lex_tok (h5 h4) ht) (fun _ h => h) (fun _ _ h => gives h)
  | backquote h1 h2 h3 h4 h5 =>
    refine lex_mark (lex_nextChar (Lex.refl hs rfl) h1 fun t hlt => word _ t h2 ?_)
    unfold stringifyAsTagRest
    rw [if_pos (letter_iff.mpr h2)]
    refine wp_bind (wp_mono (segment_word hlt h2 h3) (fun _ h => h) ?_)
    rintro d u ⟨rfl, -, h6, -⟩
    exact wp_mono (lex_tok (h6 h4 _ h5) ht) (fun _ h => h) (fun _ _ h => gives h)
  | string h1 h2 h3 =>
    refine lex_mark (lex_nextChar (Lex.refl hs rfl) h1 fun t hlt => ?_)
    rw [if_neg (by rw [h2]; decide), if_neg (by rw [h2]; decide), if_pos h2]
    exact wp_mono (quote_token hlt h2 h3 ht) (fun _ h => h) (fun _ _ h => gives h)
  | none h1 h2 h3 =>
    refine lex_mark (lex_nextChar (Lex.refl hs rfl) h1 fun t hlt => ?_)
    have htx : text = [] := by
      have := congrArg List.length ht
      simp at this; exact this
    have hend : wp E (errorTokAt .Error_ExpectedTag s) t (fun x _ => x.kind = .Error_ExpectedTag ∧ x.text = text ∧ x.after = s.rest) := by
      exact ⟨rfl, htx.symm, rfl⟩
    refine wp_ite (fun _ => hend) fun _ => wp_ite (fun _ => hend) fun _ => ?_
    rw [if_neg h3]
    unfold stringifyAsTagRest
    rw [if_neg (fun h => h2 (letter_iff.mp h))]
    exact hend

end
end CodeParser
