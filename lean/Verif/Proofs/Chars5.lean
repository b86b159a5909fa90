import Verif.Proofs.Chars4
/-!
Names of files and malformed escapes (helper lemmas).
-/
namespace CodeParser
open Spec Props

section
variable {cfg : Cfg} {start s t m : St} {bs r r' q q' text : List UInt8} {p p' : CP} {c d : WLC} {E : Err → Prop} {pol : Pol} {k : TK} {g : Bool}
  {n : Nat} {ok : Bool}

/-! ### Source characters -/

theorem nextSource_at (hs : WF s) (h : SourceAt bs p r) (hr : s.rest = bs) :
    (nextSource cfg s).1 = p ∧ (nextSource cfg s).2.rest = r := by
  cases h with
  | eof =>
    rw [nextSource_nil (cfg := cfg) hr]
    exact ⟨rfl, hr⟩
  | @plain x _ h2 h3 =>
    obtain ⟨rest, loc, eof, flag⟩ := s
    simp only at hr
    subst hr
    have he : eof = false := by
      cases eof
      · rfl
      · have h4 : String.utf8EncodeChar x ++ r = [] := hs rfl
        have h5 : (String.utf8EncodeChar x).length = 0 := by
          rw [(List.append_eq_nil_iff.mp h4).1]; rfl
        rw [String.length_utf8EncodeChar] at h5
        have := Char.utf8Size_pos x; omega
    subst he
    have hn := nextSource_enc (cfg := cfg) (ch := x) (t := r) (loc := loc) (flag := flag) h2 h3
    rw [hn]
    exact ⟨rfl, rfl⟩
  | crlf =>
    obtain ⟨t, h1, h2, -⟩ := nextWL_char (cfg := cfg) hs CharAt.crlf hr
    have hw : nextWL cfg s = (if (nextSource cfg s).1 ≠ ch '\\' then pure ⟨(nextSource cfg s).1, .none⟩
        else (do let escaped ← M.mark; nextEscape cfg escaped) : M WLC) (nextSource cfg s).2 := rfl
    rw [hw] at h1
    by_cases hne : (nextSource cfg s).1 ≠ ch '\\'
    · rw [if_pos hne] at h1
      have e := Except.ok.inj h1
      exact ⟨congrArg (fun x : WLC × St => x.1.point) e, (congrArg (fun x : WLC × St => x.2.rest) e).trans h2⟩
    · exfalso
      have hp := plain_nextSource (cfg := cfg) hs
      rw [not_not] at hne
      rw [hne, hr] at hp
      generalize hl : (13 :: 10 :: r : List UInt8) = l at hp
      generalize hq : ch '\\' = p at hp
      generalize (nextSource cfg s).2.rest = x at hp
      cases hp with
      | eof => cases hl
      | ascii h6 h7 =>
        simp only [List.cons.injEq] at hl
        rw [← hl.1] at hq
        exact absurd hq (by decide)
      | crlf => cases hq
      | @high pre _ _ h6 h7 h8 =>
        cases pre with
        | nil => exact h6 rfl
        | cons a pre =>
          simp only [List.cons_append, List.cons.injEq] at hl
          have := h7 a (by simp)
          rw [← hl.1] at this
          exact absurd this (by decide)

theorem lex_srcAt {β} {f : CP → M β} {Q : β → St → Prop} (h : Lex cfg start r s) (hc : SourceAt r p r')
    (hf : ∀ t, Lex cfg start r' t → wp E (f p) t Q) : wp E (src cfg >>= f) s Q := by
  obtain ⟨h1, h2⟩ := nextSource_at (cfg := cfg) h.wf hc h.rest
  by_cases hne : r = []
  · subst hne
    have h3 := nextSource_nil (cfg := cfg) h.rest
    change wp E (f (nextSource cfg s).1) (nextSource cfg s).2 Q
    rw [h1]
    refine hf _ ?_
    obtain ⟨h0, h4, ⟨cs, h5⟩, h6⟩ := h
    refine ⟨h0, WF_nextSource h4, ⟨cs, ?_⟩, h2⟩
    rw [h3]
    exact h5.congr_right rfl rfl
  · change wp E (f (nextSource cfg s).1) (nextSource cfg s).2 Q
    rw [h1]
    refine hf _ ?_
    have := h.source hne
    rw [h2] at this
    exact this

theorem lex_peekSrcAt {β} {f : CP → M β} {Q : β → St → Prop} (h : Lex cfg start r s) (hc : SourceAt r p r')
    (hf : ∀ t, Lex cfg start r t → wp E (f p) t Q) : wp E (peekSrc cfg >>= f) s Q := by
  obtain ⟨h1, h2⟩ := nextSource_at (cfg := cfg) h.wf hc h.rest
  have := hf _ (h.seek (t := (nextSource cfg s).2))
  rw [← h1] at this
  exact wp_bind (wp_peekSrc this)

theorem Spec.SourceAt.det (h : SourceAt bs p r) (h' : SourceAt bs p' q) : p = p' ∧ r = q := by
  let s : St := ⟨bs, default, false, none⟩
  have hs : WF s := by intro h; cases h
  obtain ⟨h1, h2⟩ := nextSource_at (cfg := Cfg.default) hs h rfl
  obtain ⟨h3, h4⟩ := nextSource_at (cfg := Cfg.default) hs h' rfl
  exact ⟨h1 ▸ h3, h2 ▸ h4⟩

theorem Spec.SourceAt.suffix (h : SourceAt bs p r) : ∃ pre, bs = pre ++ r := by
  cases h with
  | eof => exact ⟨[], rfl⟩
  | plain => exact ⟨_, rfl⟩
  | crlf => exact ⟨[13, 10], rfl⟩

theorem Spec.SourceAt.len (h : SourceAt bs p r) (hp : p ≠ .eof) : r.length < bs.length := by
  cases h with
  | eof => exact absurd rfl hp
  | @plain x _ _ _ =>
    simp only [List.length_append, String.length_utf8EncodeChar]
    have := Char.utf8Size_pos x; omega
  | crlf => simp; omega

/-! ### Classes -/

theorem le_char {a b : Char} : a ≤ b ↔ a.toNat ≤ b.toNat := Iff.rfl

theorem char_of_nat {n : Nat} (h : n < 0x80) : ∃ c : Char, c.toNat = n := by
  obtain ⟨c, h, -⟩ := enc_ascii n (by omega)
  exact ⟨c, h⟩

theorem fileChars_list : "`/.\\!-_:*~?".toList = ['`', '/', '.', '\\', '!', '-', '_', ':', '*', '~', '?'] := by decide +kernel

theorem char_eq {a b : Char} : a = b ↔ a.toNat = b.toNat := Char.toNat_inj.symm

/-- A class of ASCII characters. -/
theorem class_iff {f : Char → Prop} {P : Nat → Prop} (h1 : ∀ c, f c ↔ P c.toNat) (h2 : ∀ n, P n → n < 0x80) (n : Nat) :
    (∃ c : Char, CP.char n = ch c ∧ f c) ↔ P n := by
  constructor
  · rintro ⟨c, h3, h4⟩
    simp only [ch, CP.char.injEq] at h3
    subst h3
    exact (h1 c).mp h4
  · intro h
    obtain ⟨c, rfl⟩ := char_of_nat (h2 n h)
    exact ⟨c, rfl, (h1 c).mpr h⟩

theorem fileChar_iff : p.isFileChar = true ↔ FileChar p := by
  cases p with
  | char n =>
    unfold FileChar
    rw [class_iff (P := fun n => 97 ≤ n ∧ n ≤ 122 ∨ 65 ≤ n ∧ n ≤ 90 ∨ 48 ≤ n ∧ n ≤ 57 ∨ n = 0x60 ∨ n = 0x2f ∨ n = 0x2e ∨ n = 0x5c ∨
      n = 0x21 ∨ n = 0x2d ∨ n = 0x5f ∨ n = 0x3a ∨ n = 0x2a ∨ n = 0x7e ∨ n = 0x3f)]
    · simp only [CP.isFileChar, inR, Bool.or_eq_true, Bool.and_eq_true, decide_eq_true_eq, beq_iff_eq]
      omega
    · intro c
      rw [fileChars_list]
      simp only [List.mem_cons, List.not_mem_nil, or_false, char_eq, le_char]
      simp only [show 'a'.toNat = 97 from rfl, show 'z'.toNat = 122 from rfl, show 'A'.toNat = 65 from rfl, show 'Z'.toNat = 90 from rfl,
        show '0'.toNat = 48 from rfl, show '9'.toNat = 57 from rfl, show '`'.toNat = 0x60 from rfl, show '/'.toNat = 0x2f from rfl,
        show '.'.toNat = 0x2e from rfl, show '\\'.toNat = 0x5c from rfl, show '!'.toNat = 0x21 from rfl, show '-'.toNat = 0x2d from rfl,
        show '_'.toNat = 0x5f from rfl, show ':'.toNat = 0x3a from rfl, show '*'.toNat = 0x2a from rfl, show '~'.toNat = 0x7e from rfl,
        show '?'.toNat = 0x3f from rfl]
    · intro n; omega
  | _ =>
    refine ⟨fun h => (by cases h), ?_⟩
    rintro ⟨c, h, -⟩
    cases h

theorem hex_iff : p.isHex = true ↔ Hex p := by
  cases p with
  | char n =>
    unfold Hex
    rw [class_iff (P := fun n => 48 ≤ n ∧ n ≤ 57 ∨ 97 ≤ n ∧ n ≤ 102 ∨ 65 ≤ n ∧ n ≤ 70)]
    · simp only [CP.isHex, inR, Bool.or_eq_true, Bool.and_eq_true, decide_eq_true_eq]
      omega
    · intro c
      exact Iff.rfl
    · intro n; omega
  | _ =>
    refine ⟨fun h => (by cases h), ?_⟩
    rintro ⟨c, h, -⟩
    cases h

theorem octal_iff : p.isOctal = true ↔ Octal p := by
  cases p with
  | char n =>
    unfold Octal
    rw [class_iff (P := fun n => 48 ≤ n ∧ n ≤ 55)]
    · simp only [CP.isOctal, inR, Bool.and_eq_true, decide_eq_true_eq]
    · intro c
      exact Iff.rfl
    · intro n; omega
  | _ =>
    refine ⟨fun h => (by cases h), ?_⟩
    rintro ⟨c, h, -⟩
    cases h

theorem upper_iff : p.isUpper = true ↔ Upper p := by
  cases p with
  | char n =>
    unfold Upper
    rw [class_iff (P := fun n => 65 ≤ n ∧ n ≤ 90)]
    · simp only [CP.isUpper, inR, Bool.and_eq_true, decide_eq_true_eq]
    · intro c
      exact Iff.rfl
    · intro n; omega
  | _ =>
    refine ⟨fun h => (by cases h), ?_⟩
    rintro ⟨c, h, -⟩
    cases h

theorem alnum_iff : p.isAlphaOrDigit = true ↔ Alnum p := by
  cases p with
  | char n =>
    unfold Alnum
    rw [class_iff (P := fun n => 48 ≤ n ∧ n ≤ 57 ∨ 97 ≤ n ∧ n ≤ 122 ∨ 65 ≤ n ∧ n ≤ 90)]
    · simp only [CP.isAlphaOrDigit, inR, Bool.or_eq_true, Bool.and_eq_true, decide_eq_true_eq]
      omega
    · intro c
      exact Iff.rfl
    · intro n; omega
  | _ =>
    refine ⟨fun h => (by cases h), ?_⟩
    rintro ⟨c, h, -⟩
    cases h

theorem fileBreak_iff : FileBreak p ↔ p.isFileBreak = true ∨ p = .eof ∨ (p.isMBWhitespace || p.isMBNewline) = true := by
  have h1 : p.isFileBreak = true ↔ White p ∨ LineBreak p := by
    unfold White LineBreak
    cases p <;> simp [CP.isFileBreak, ch, or_assoc]
  rw [h1, Bool.or_eq_true, (C14_chars p).2.1, C14_newline]
  unfold FileBreak
  generalize (p ∈ mbNewlineTable) = a
  generalize (∃ n ∈ mbWhitespaceTable, p = CP.char n) = b
  constructor
  · rintro (h | h | h | h | h | h)
    · exact .inl (.inl h)
    · exact .inl (.inr h)
    · exact .inr (.inl h)
    · exact .inr (.inr (.inl (.inl h)))
    · exact .inr (.inr (.inr h))
    · exact .inr (.inr (.inl (.inr h)))
  · rintro ((h | h) | h | (h | h) | h)
    · exact .inl h
    · exact .inr (.inl h)
    · exact .inr (.inr (.inl h))
    · exact .inr (.inr (.inr (.inl h)))
    · exact .inr (.inr (.inr (.inr (.inr h))))
    · exact .inr (.inr (.inr (.inr (.inl h))))

end
end CodeParser
