import Verif.Proofs.Chars5
/-!
Names of files and malformed escapes: the tokens (helper lemmas).
-/
namespace CodeParser
open Spec Props

section
variable {cfg : Cfg} {start s t m : St} {bs r r' q q' text : List UInt8} {p p' : CP} {c d : WLC} {E : Err → Prop} {pol : Pol} {k : TK} {g : Bool}
  {n : Nat} {ok : Bool}

/-! ### Brackets in the names of files -/

theorem Spec.BracketsEnd.suffix (h : BracketsEnd n bs ok r) : ∃ pre, bs = pre ++ r := by
  induction h with
  | close h => exact h.suffix
  | broken => exact ⟨[], rfl⟩
  | up h _ ih => exact suffix_trans h.suffix ih
  | down h _ ih => exact suffix_trans h.suffix ih
  | other h _ _ _ _ ih => exact suffix_trans h.suffix ih

theorem Spec.BracketsEnd.first (h : BracketsEnd n bs ok r) : ∃ p q, SourceAt bs p q := by
  cases h <;> exact ⟨_, _, by assumption⟩

theorem Spec.FileEnd.first (h : FileEnd bs ok r) : ∃ p q, SourceAt bs p q := by
  cases h <;> exact ⟨_, _, by assumption⟩

theorem Spec.FileEnd.suffix (h : FileEnd bs ok r) : ∃ pre, bs = pre ++ r := by
  induction h with
  | stop => exact ⟨[], rfl⟩
  | char h _ _ ih => exact suffix_trans h.suffix ih
  | brackets h h1 _ ih => exact suffix_trans h.suffix (suffix_trans h1.suffix ih)
  | broken h h1 => exact suffix_trans h.suffix h1.suffix

theorem Spec.FileAt.suffix (h : FileAt bs k r) : ∃ pre, bs = pre ++ r := by
  cases h with
  | name h _ h1 => exact suffix_trans h.suffix h1.suffix
  | brackets h h1 h2 => exact suffix_trans h.suffix (suffix_trans h1.suffix h2.suffix)
  | broken h h1 => exact suffix_trans h.suffix h1.suffix
  | string h h1 => exact suffix_trans h.suffix h1.suffix
  | newline h => exact h.suffix
  | white h => exact h.suffix
  | none => exact ⟨[], rfl⟩

theorem break_ne_open : ¬ FileBreak (ch '[') := by
  rw [fileBreak_iff]
  rintro (h | h | h)
  · exact absurd h (by decide)
  · cases h
  · exact absurd h (by decide +kernel)

theorem break_ne_close : ¬ FileBreak (ch ']') := by
  rw [fileBreak_iff]
  rintro (h | h | h)
  · exact absurd h (by decide)
  · cases h
  · exact absurd h (by decide +kernel)

/-- What is left behind the brackets; `r'` is behind the character that follows. -/
structure BrPost (cfg : Cfg) (start s : St) (ok : Bool) (r : List UInt8) (x : Option CP) (t : St) : Prop where
  lex : Lex cfg start r t
  len : t.rest.length ≤ s.rest.length
  bad : ok = false → x = none
  good : ok = true → ∀ p q, SourceAt r p q → x = some p

theorem brackets_end (h : Lex cfg start bs s) (hp : p = ch '[') (hb : BracketsEnd 0 bs ok r)
    (hr : ok = true → ∃ p q, SourceAt r p q) : wp E (fileBrackets cfg p) s (BrPost cfg start s ok r) := by
  unfold fileBrackets
  refine lex_assert (by rw [hp]; rfl) ?_
  obtain ⟨p1, q, hq⟩ := hb.first
  refine lex_peekSrcAt h hq fun t ht => ?_
  refine wp_loop (fun d t => ∃ n b q, d.1 = n + 1 ∧ Lex cfg start b t ∧ SourceAt b d.2 q ∧ BracketsEnd n b ok r ∧ b.length ≤ s.rest.length)
    (fun _ t => t.rest.length) ⟨0, bs, q, rfl, ht, hq, hb, by rw [h.rest]⟩ (by omega) ?_
  clear h hb ht hq hp
  rintro ⟨d, p1⟩ t ⟨n, b, q, hd, h1, h2, h3, hl⟩
  simp only at hd h2 ⊢
  subst hd
  have none' : ∀ {u}, b = r → ok = false → Lex cfg start b u → BrPost cfg start s ok r none u := by
    rintro u rfl h h'
    exact ⟨h', by rw [h'.rest]; exact hl, fun _ => rfl, fun h2 => by rw [h] at h2; cases h2⟩
  have step : ∀ n', p1 ≠ .eof → BracketsEnd n' q ok r → wp E (do
      let _ ← src cfg
      let c ← peekSrc cfg
      pure (.inl (n' + 1, c)) : M ((Nat × CP) ⊕ Option CP)) t (fun r' u => match r' with
        | .inl b' => (∃ n b q, b'.1 = n + 1 ∧ Lex cfg start b u ∧ SourceAt b b'.2 q ∧ BracketsEnd n b ok r ∧ b.length ≤ s.rest.length) ∧
          u.rest.length < t.rest.length
        | .inr x => BrPost cfg start s ok r x u) := by
    intro n' hne hb
    have hlt := h2.len hne
    obtain ⟨p2, q2, hq2⟩ := hb.first
    refine lex_srcAt h1 h2 fun u hu => lex_peekSrcAt hu hq2 fun v hv => wp_pure ⟨⟨n', q, q2, rfl, hv, hq2, hb, by omega⟩, ?_⟩
    rw [hv.rest, h1.rest]; exact hlt
  have e1 : ch ']' ≠ ch '[' := by decide
  have nb : ∀ p, ¬ FileBreak p → p.isFileBreak = false ∧ p ≠ .eof ∧ (p.isMBWhitespace || p.isMBNewline) = false := by
    intro p h
    rw [fileBreak_iff] at h
    refine ⟨?_, fun h' => h (.inr (.inl h')), ?_⟩
    · cases h' : p.isFileBreak
      · rfl
      · exact absurd (.inl h') h
    · cases h' : (p.isMBWhitespace || p.isMBNewline)
      · rfl
      · exact absurd (.inr (.inr h')) h
  cases h3 with
  | close h5 =>
    obtain ⟨rfl, rfl⟩ := h5.det h2
    obtain ⟨f1, f2, -⟩ := nb _ break_ne_close
    rw [if_neg (by rw [f1]; decide), if_neg f2, if_neg e1, if_pos rfl]
    have hlt := h2.len (by decide)
    obtain ⟨p2, q2, hq2⟩ := hr rfl
    refine lex_srcAt h1 h2 fun u hu => lex_peekSrcAt hu hq2 fun v hv => ?_
    rw [if_pos rfl]
    refine wp_pure ⟨hv, ?_, fun h => (by cases h), ?_⟩
    · rw [hv.rest]; omega
    · intro _ p q h
      rw [(h.det hq2).1]
  | broken h5 h6 =>
    obtain ⟨rfl, rfl⟩ := h5.det h2
    refine wp_ite (fun _ => wp_pure (none' rfl rfl h1)) fun g1 => wp_ite (fun _ => wp_pure (none' rfl rfl h1)) fun g2 => ?_
    rw [if_neg (by rintro rfl; exact break_ne_open h6), if_neg (by rintro rfl; exact break_ne_close h6), if_pos]
    · exact wp_pure (none' rfl rfl h1)
    · rcases fileBreak_iff.mp h6 with h | h | h
      · exact absurd h g1
      · exact absurd h g2
      · exact h
  | up h5 h6 =>
    obtain ⟨rfl, rfl⟩ := h5.det h2
    obtain ⟨f1, f2, -⟩ := nb _ break_ne_open
    rw [if_neg (by rw [f1]; decide), if_neg f2, if_pos rfl]
    exact wp_mono (step _ (by decide) h6) (fun _ h => h) (by rintro (x | x) u h <;> exact h)
  | @down m _ _ _ _ h5 h6 =>
    obtain ⟨rfl, rfl⟩ := h5.det h2
    obtain ⟨f1, f2, -⟩ := nb _ break_ne_close
    rw [if_neg (by rw [f1]; decide), if_neg f2, if_neg e1, if_pos rfl]
    have hlt := h2.len (by decide)
    obtain ⟨p2, q2, hq2⟩ := h6.first
    refine lex_srcAt h1 h2 fun u hu => lex_peekSrcAt hu hq2 fun v hv => ?_
    rw [if_neg (by omega)]
    refine wp_pure ⟨⟨m, _, q2, rfl, hv, hq2, h6, by omega⟩, ?_⟩
    rw [hv.rest, h1.rest]; exact hlt
  | other h5 h6 h7 h8 h9 =>
    obtain ⟨rfl, rfl⟩ := h5.det h2
    obtain ⟨f1, f2, f3⟩ := nb _ h8
    rw [if_neg (by rw [f1]; decide), if_neg f2, if_neg h6, if_neg h7, if_neg (by rw [f3]; decide)]
    exact wp_mono (step _ f2 h9) (fun _ h => h) (by rintro (x | x) u h <;> exact h)

/-! ### Names of files -/

theorem FileChar.ne_open : ¬ FileChar (ch '[') := by
  rw [← fileChar_iff]; decide

theorem FileChar.ne_eof (h : FileChar p) : p ≠ .eof := by
  rintro rfl
  obtain ⟨c, h, -⟩ := h
  cases h

theorem file_loop (h : Lex cfg start bs s) (hp : SourceAt bs p q) (hf : FileEnd bs ok r) :
    wp E (fileLoop cfg p) s (fun ok' t => ok' = ok ∧ Lex cfg start r t) := by
  unfold fileLoop
  refine wp_loop (fun p t => ∃ b q, Lex cfg start b t ∧ SourceAt b p q ∧ FileEnd b ok r)
    (fun _ t => t.rest.length) ⟨bs, q, h, hp, hf⟩ (by omega) ?_
  clear h hp hf
  rintro p t ⟨b, q, h1, h2, h3⟩
  cases h3 with
  | stop h5 h6 h7 =>
    obtain ⟨rfl, rfl⟩ := h5.det h2
    rw [if_neg (fun h => h6 (fileChar_iff.mp h)), if_neg h7]
    exact wp_pure ⟨rfl, h1⟩
  | char h5 h6 h7 =>
    obtain ⟨rfl, rfl⟩ := h5.det h2
    rw [if_pos (fileChar_iff.mpr h6)]
    obtain ⟨p2, q2, hq2⟩ := h7.first
    have hlt := h2.len (FileChar.ne_eof h6)
    refine lex_srcAt h1 h2 fun u hu => lex_peekSrcAt hu hq2 fun v hv => wp_pure ⟨⟨_, q2, hv, hq2, h7⟩, ?_⟩
    rw [hv.rest, h1.rest]; exact hlt
  | brackets h5 h6 h7 =>
    obtain ⟨rfl, rfl⟩ := h5.det h2
    rw [if_neg (fun h => FileChar.ne_open (fileChar_iff.mp h)), if_pos rfl]
    have hlt := h2.len (by decide)
    refine lex_srcAt h1 h2 fun u hu => ?_
    refine wp_bind (wp_mono (brackets_end hu rfl h6 (fun _ => h7.first)) (fun _ h => h) ?_)
    rintro x v ⟨hv, hl, -, hx⟩
    obtain ⟨p2, q2, hq2⟩ := h7.first
    rw [hx rfl _ _ hq2]
    refine wp_pure ⟨⟨_, q2, hv, hq2, h7⟩, ?_⟩
    rw [hu.rest] at hl
    rw [h1.rest]; omega
  | broken h5 h6 =>
    obtain ⟨rfl, rfl⟩ := h5.det h2
    rw [if_neg (fun h => FileChar.ne_open (fileChar_iff.mp h)), if_pos rfl]
    refine lex_srcAt h1 h2 fun u hu => ?_
    refine wp_bind (wp_mono (brackets_end hu rfl h6 (fun h => by cases h)) (fun _ h => h) ?_)
    rintro x v ⟨hv, hl, hx, -⟩
    rw [hx rfl]
    exact wp_pure ⟨rfl, hv⟩

theorem file_token (hs : WF s) (h : FileAt s.rest k r) (ht : s.rest = text ++ r) :
    wp E (nextTokenFile cfg) s (fun x _ => x.kind = k ∧ x.text = text ∧ x.after = r) := by
  have gives : ∀ {k : TK} {t}, Lex cfg s r t → wp E (tok k s) t (fun x _ => x.kind = k ∧ x.text = text ∧ x.after = r) :=
    fun h => wp_mono (lex_tok h ht) (fun _ h => h) (fun _ _ h => ⟨h.kind, h.text_eq, h.after⟩)
  have loop : ∀ {bs p q ok t}, Lex cfg s bs t → SourceAt bs p q → FileEnd bs ok r → wp E (do
      let ok ← fileLoop cfg p
      tok (if ok then .String else .Error_UnterminatedFileString) s : M Tok) t
        (fun x _ => x.kind = fileKind ok ∧ x.text = text ∧ x.after = r) := by
    intro bs p q ok t h1 h2 h3
    refine wp_bind (wp_mono (file_loop h1 h2 h3) (fun _ h => h) ?_)
    rintro ok' u ⟨rfl, hu⟩
    exact gives hu
  unfold nextTokenFile
  cases h with
  | name h1 h2 h3 =>
    rename_i p _ _
    refine lex_mark (lex_srcAt (Lex.refl hs rfl) h1 fun t hlt => ?_)
    have h4 : p.isFileStart = true := by
      unfold CP.isFileStart
      rcases h2 with h2 | h2
      · rw [fileChar_iff.mpr h2]; rfl
      · rw [h2]; rfl
    have ne : ∀ x : CP, x.isFileStart = false → p ≠ x := by
      rintro x hx rfl
      rw [hx] at h4; cases h4
    rw [if_neg (ne _ rfl), if_neg, if_neg, if_neg (ne _ rfl)]
    · unfold stringifyAsFileRest
      rw [if_pos h4]
      obtain ⟨p2, q2, hq2⟩ := h3.first
      exact lex_peekSrcAt hlt hq2 fun u hu => loop hu hq2 h3
    · rintro (h | h) <;> exact ne _ rfl h
    · rintro (h | h | h) <;> exact ne _ rfl h
  | brackets h1 h2 h3 =>
    refine lex_mark (lex_srcAt (Lex.refl hs rfl) h1 fun t hlt => ?_)
    rw [if_neg (by decide), if_neg (by decide), if_neg (by decide), if_neg (by decide)]
    unfold stringifyAsFileRest
    rw [if_neg (by decide), if_pos rfl]
    refine wp_bind (wp_mono (brackets_end hlt rfl h2 (fun _ => h3.first)) (fun _ h => h) ?_)
    rintro x v ⟨hv, hl, -, hx⟩
    obtain ⟨p2, q2, hq2⟩ := h3.first
    rw [hx rfl _ _ hq2]
    exact loop hv hq2 h3
  | broken h1 h2 =>
    refine lex_mark (lex_srcAt (Lex.refl hs rfl) h1 fun t hlt => ?_)
    rw [if_neg (by decide), if_neg (by decide), if_neg (by decide), if_neg (by decide)]
    unfold stringifyAsFileRest
    rw [if_neg (by decide), if_pos rfl]
    refine wp_bind (wp_mono (brackets_end hlt rfl h2 (fun h => by cases h)) (fun _ h => h) ?_)
    rintro x v ⟨hv, hl, hx, -⟩
    rw [hx rfl]
    exact gives hv
  | string h1 h2 =>
    refine lex_mark (lex_srcAt (Lex.refl hs rfl) h1 fun t hlt => ?_)
    rw [if_neg (by decide), if_neg (by decide), if_neg (by decide), if_pos rfl]
    exact wp_mono (quote_token hlt rfl h2 ht) (fun _ h => h) (fun _ _ h => ⟨h.kind, h.text_eq, h.after⟩)
  | newline h1 h2 =>
    refine lex_mark (lex_srcAt (Lex.refl hs rfl) h1 fun t hlt => ?_)
    rw [if_neg (by rcases h2 with rfl | rfl | rfl <;> decide)]
    unfold LineBreak at h2
    rw [if_pos h2]
    exact gives hlt
  | white h1 h2 =>
    refine lex_mark (lex_srcAt (Lex.refl hs rfl) h1 fun t hlt => ?_)
    rw [if_neg (by rcases h2 with rfl | rfl <;> decide), if_neg (by rcases h2 with rfl | rfl <;> decide), if_pos h2]
    exact gives hlt
  | none h1 h2 h3 h4 h5 h6 h7 h8 =>
    rename_i p _
    refine lex_mark (lex_srcAt (Lex.refl hs rfl) h1 fun t hlt => ?_)
    have htx : text = [] := by
      have := congrArg List.length ht
      simp at this; exact this
    have hend : wp E (errorTokAt .Error_ExpectedFile s) t (fun x _ => x.kind = .Error_ExpectedFile ∧ x.text = text ∧ x.after = s.rest) := by
      exact ⟨rfl, htx.symm, rfl⟩
    refine wp_ite (fun _ => hend) fun _ => ?_
    unfold LineBreak at h6
    rw [if_neg h6, if_neg (by rintro (h | h); exacts [h7 h, h8 h]), if_neg h5]
    unfold stringifyAsFileRest
    have h9 : ¬ p.isFileStart = true := by
      unfold CP.isFileStart
      rw [Bool.or_eq_true, fileChar_iff, beq_iff_eq]
      rintro (h | h); exacts [h2 h, h3 h]
    rw [if_neg h9, if_neg h4]
    exact hend

/-! ### Malformed escapes -/

theorem Spec.DigitsEnd.suffix {dig : CP → Prop} (h : DigitsEnd dig n bs r) : ∃ pre, bs = pre ++ r := by
  induction h with
  | all h => exact h.suffix
  | stop => exact ⟨[], rfl⟩
  | digit h _ _ ih => exact suffix_trans h.suffix ih

theorem Spec.BracketedEnd.suffix (h : BracketedEnd bs r) : ∃ pre, bs = pre ++ r := by
  induction h with
  | close h => exact h.suffix
  | stop => exact ⟨[], rfl⟩
  | char h _ _ ih => exact suffix_trans h.suffix ih

theorem Spec.BracketedEnd.first (h : BracketedEnd bs r) : ∃ c q, NextChar bs c q := by
  cases h <;> exact ⟨_, _, by assumption⟩

theorem Spec.DigitsEnd.first {dig : CP → Prop} (h : DigitsEnd dig n bs r) : ∃ c q, NextChar bs c q := by
  cases h <;> exact ⟨_, _, by assumption⟩

theorem Spec.MalformedEnd.suffix (h : MalformedEnd bs r) : ∃ pre, bs = pre ++ r := by
  cases h with
  | name h _ h1 _ h2 => exact suffix_trans h.suffix (suffix_trans h1.suffix h2.suffix)
  | bracket h _ h1 => exact suffix_trans h.suffix h1.suffix
  | hex4 h _ h1 => exact suffix_trans h.suffix h1.suffix
  | hex2 h _ h1 => exact suffix_trans h.suffix h1.suffix
  | hex6 h _ h1 => exact suffix_trans h.suffix h1.suffix
  | octal h _ h1 => exact suffix_trans h.suffix h1.suffix
  | other h => exact h.suffix

theorem digits_end {isDig : CP → Bool} {dig : CP → Prop} (hd : ∀ {p}, isDig p = true ↔ dig p) (n : Nat) :
    ∀ {bs q : List UInt8} {c : WLC} {s m : St}, Lex cfg start bs m → Lex cfg start q s → NextChar bs c q → DigitsEnd dig n bs r →
    wp E (backslashDigits cfg isDig n m c) s (fun _ t => Lex cfg start r t) := by
  induction n with
  | zero =>
    intro bs q c s m h1 h2 h3 h4
    unfold backslashDigits
    cases h4 with
    | all h5 =>
      obtain ⟨rfl, rfl⟩ := h5.det h3
      exact wp_pure h2
  | succ n ih =>
    intro bs q c s m h1 h2 h3 h4
    unfold backslashDigits
    cases h4 with
    | stop h5 h6 =>
      obtain ⟨rfl, rfl⟩ := h5.det h3
      rw [if_neg (fun h => h6 (hd.mp h))]
      exact wp_seek h1.seek
    | digit h5 h6 h7 =>
      obtain ⟨rfl, rfl⟩ := h5.det h3
      rw [if_pos (hd.mpr h6)]
      obtain ⟨c2, q2, hq2⟩ := h7.first
      exact lex_mark (lex_nextChar h2 hq2 fun t ht => ih h2 ht hq2 h7)

theorem alnumChar_ne_eof (h : Alnum p) : p ≠ .eof := by
  rintro rfl
  obtain ⟨c, h, -⟩ := h
  cases h

theorem bracketed_end (h1 : Lex cfg start bs m) (h2 : Lex cfg start q s) (h3 : NextChar bs c q) (h4 : BracketedEnd bs r) :
    wp E (backslashName cfg m c) s (fun _ t => Lex cfg start r t) := by
  unfold backslashName
  refine wp_loop (fun d t => ∃ b q, Lex cfg start b d.1 ∧ Lex cfg start q t ∧ NextChar b d.2 q ∧ BracketedEnd b r)
    (fun d t => if d.2.point = .eof then 0 else t.rest.length + 1) ⟨bs, q, h1, h2, h3, h4⟩ (by split <;> omega) ?_
  clear h1 h2 h3 h4
  rintro ⟨m, c⟩ t ⟨b, q, h1, h2, h3, h4⟩
  simp only at h1 h3 ⊢
  cases h4 with
  | close h5 h6 =>
    obtain ⟨rfl, rfl⟩ := h5.det h3
    rw [if_neg (by rw [h6]; decide), if_pos h6]
    exact wp_pure h2
  | stop h5 h6 h7 =>
    obtain ⟨rfl, rfl⟩ := h5.det h3
    rw [if_neg (fun h => h6 (alnum_iff.mp h)), if_neg h7]
    exact lex_seek h1 fun u hu => wp_pure hu
  | char h5 h6 h7 =>
    obtain ⟨rfl, rfl⟩ := h5.det h3
    rw [if_pos (alnum_iff.mpr h6)]
    obtain ⟨c2, q2, hq2⟩ := h7.first
    refine lex_mark (lex_nextChar h2 hq2 fun u hu => wp_pure ⟨⟨_, q2, h2, hu, hq2, h7⟩, ?_⟩)
    have hne := alnumChar_ne_eof h6
    simp only [hne, if_false, hu.rest, h2.rest]
    split
    · omega
    · have := hq2.len (by assumption)
      omega

theorem malformed_scan (h : Lex cfg start bs s) (hm : MalformedEnd bs r) :
    wp E (backslashScan cfg) s (fun _ t => Lex cfg start r t) := by
  unfold backslashScan
  have ok : ∀ {p : CP}, Octal p → p ≠ ch '[' ∧ p ≠ ch ':' ∧ p ≠ ch '.' := by
    intro p h
    rw [← octal_iff] at h
    refine ⟨?_, ?_, ?_⟩ <;> rintro rfl <;> exact absurd h (by decide)
  cases hm with
  | name h1 h2 h3 h4 h5 =>
    refine lex_nextChar h h1 fun t ht => ?_
    rw [if_pos h2]
    refine lex_mark (lex_nextChar ht h3 fun u hu => ?_)
    rw [if_pos (upper_iff.mpr h4)]
    obtain ⟨c2, q2, hq2⟩ := h5.first
    exact lex_mark (lex_nextChar hu hq2 fun v hv => bracketed_end hu hv hq2 h5)
  | bracket h1 h2 h3 h4 =>
    refine lex_nextChar h h1 fun t ht => ?_
    rw [if_pos h2]
    refine lex_mark (lex_nextChar ht h3 fun u hu => ?_)
    rw [if_neg (fun h => h4 (upper_iff.mp h))]
    exact wp_pure hu
  | hex4 h1 h2 h3 =>
    refine lex_nextChar h h1 fun t ht => ?_
    rw [if_neg (by rw [h2]; decide), if_pos h2]
    obtain ⟨c2, q2, hq2⟩ := h3.first
    exact lex_mark (lex_nextChar ht hq2 fun v hv => digits_end hex_iff _ ht hv hq2 h3)
  | hex2 h1 h2 h3 =>
    refine lex_nextChar h h1 fun t ht => ?_
    rw [if_neg (by rw [h2]; decide), if_neg (by rw [h2]; decide), if_pos h2]
    obtain ⟨c2, q2, hq2⟩ := h3.first
    exact lex_mark (lex_nextChar ht hq2 fun v hv => digits_end hex_iff _ ht hv hq2 h3)
  | hex6 h1 h2 h3 =>
    refine lex_nextChar h h1 fun t ht => ?_
    rw [if_neg (by rw [h2]; decide), if_neg (by rw [h2]; decide), if_neg (by rw [h2]; decide), if_neg (by rw [h2]; decide), if_pos h2]
    obtain ⟨c2, q2, hq2⟩ := h3.first
    exact lex_mark (lex_nextChar ht hq2 fun v hv => digits_end hex_iff _ ht hv hq2 h3)
  | octal h1 h2 h3 =>
    refine lex_nextChar h h1 fun t ht => ?_
    obtain ⟨e1, e2, e3⟩ := ok h2
    rw [if_neg e1, if_neg e2, if_neg e3, if_pos (octal_iff.mpr h2)]
    obtain ⟨c2, q2, hq2⟩ := h3.first
    exact lex_mark (lex_nextChar ht hq2 fun v hv => digits_end octal_iff _ ht hv hq2 h3)
  | other h1 h2 h3 h4 h5 h6 =>
    refine lex_nextChar h h1 fun t ht => ?_
    rw [if_neg h2, if_neg h3, if_neg h4, if_neg (fun h => h6 (octal_iff.mp h)), if_neg h5]
    exact wp_pure ht

theorem malformed_token (h : Lex cfg start bs s) (hc : c.point = ch '\\') (hm : MalformedEnd bs r) (ht : start.rest = text ++ r) :
    wp E (handleBackslash cfg start c) s (Gives start .Error_UnhandledCharacter text r) := by
  unfold handleBackslash
  refine lex_assert (by rw [hc]; rfl) ?_
  refine wp_bind (wp_mono (malformed_scan h hm) (fun _ h => h) ?_)
  rintro - t h1
  exact lex_tok h1 ht

end
end CodeParser
