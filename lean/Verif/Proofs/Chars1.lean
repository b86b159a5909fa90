import Verif.Props.Char
import Verif.Proofs.Lex3
import Verif.Spec.Chars
/-!
Reading characters however they are written (helper lemmas).
-/
namespace CodeParser
open Spec Props

section
variable {cfg : Cfg} {start s t m : St} {r r' : List UInt8} {c : WLC} {E : Err → Prop}

theorem cont_iff {p : CP} : p.isLineContinuation = true ↔ IsContinuation p := by
  unfold IsContinuation
  cases p <;> simp [CP.isLineContinuation]

theorem white_iff {p : CP} : p.isWhitespace = true ↔ White p := by
  unfold White
  cases p <;> simp [CP.isWhitespace, or_assoc]

theorem Spec.CharAt.len {bs : List UInt8} (h : CharAt bs c r) (hc : c.point ≠ .eof) : r.length < bs.length := by
  cases h with
  | eof => exact absurd rfl hc
  | @plain x _ _ _ =>
    simp only [List.length_append, String.length_utf8EncodeChar]
    have := Char.utf8Size_pos x; omega
  | crlf => simp; omega
  | escape h =>
    obtain ⟨pre, rfl, hne⟩ := Escapes.suffix h
    simp; omega
  | malformed => simp

theorem nextWL_char {bs : List UInt8} (hs : WF s) (h : CharAt bs c r) (hr : s.rest = bs) :
    ∃ t, nextWL cfg s = .ok (c, t) ∧ t.rest = r ∧ R cfg s t := by
  have key : ∀ {t}, nextWL cfg s = .ok (c, t) → t.rest = r → ∃ t, nextWL cfg s = .ok (c, t) ∧ t.rest = r ∧ R cfg s t :=
    fun {t} h1 h2 => ⟨t, h1, h2, (nextWL_ok hs h1).reach⟩
  have plain : (nextSource cfg s).1 ≠ ch '\\' → nextWL cfg s = .ok (⟨(nextSource cfg s).1, .none⟩, (nextSource cfg s).2) := by
    intro hne
    have : nextWL cfg s = (if (nextSource cfg s).1 ≠ ch '\\' then pure ⟨(nextSource cfg s).1, .none⟩
        else (do let escaped ← M.mark; nextEscape cfg escaped) : M WLC) (nextSource cfg s).2 := rfl
    rw [this, if_pos hne]; rfl
  cases h with
  | eof =>
    have hn := nextSource_nil (cfg := cfg) hr
    have := plain (by rw [hn]; simp [ch])
    rw [hn] at this
    exact key this hr
  | @plain x _ h1 h2 h3 =>
    obtain ⟨rest, loc, eof, flag⟩ := s
    simp only at hr
    subst hr
    have he : eof = false := by
      cases eof
      · rfl
      · have h4 : String.utf8EncodeChar x ++ r = [] := hs rfl
        have h5 : (String.utf8EncodeChar x).length = 0 := by
          rw [(List.append_eq_nil_iff.mp h4).1]; rfl
        rw [String.length_utf8EncodeChar] at h5
        have := Char.utf8Size_pos x; omega
    subst he
    have hn := nextSource_enc (cfg := cfg) (ch := x) (t := r) (loc := loc) (flag := flag) h2 h3
    have := plain (by
      rw [hn]
      simp only [ch, ne_eq, CP.char.injEq]
      intro hx
      exact h1 (Char.toNat_inj.mp hx))
    rw [hn] at this
    exact key this rfl
  | crlf =>
    have hd := nextSource_Dec (cfg := cfg) hs (by rw [hr]; simp)
    have hns : (nextSource cfg s).1 = .crlf ∧ (nextSource cfg s).2.rest = r := by
      generalize nextSource cfg s = q at hd
      cases hd with
      | valid x rest h1 h2 h3 =>
        rw [hr] at h1
        by_cases hx : x.toNat ≤ 0x7f
        · obtain ⟨d, hd, he⟩ := enc_ascii x.toNat hx
          have : d = x := Char.toNat_inj.mp hd
          subst this
          rw [he] at h1
          simp only [List.cons_append, List.nil_append, List.cons.injEq] at h1
          have hd13 : d.toNat = 13 := by
            have := congrArg UInt8.toNat h1.1
            simp at this; omega
          exact absurd (by rw [← h1.2]; rfl) (h3 (Char.toNat_inj.mp hd13))
        · have := enc_high (c := x) (by omega)
          cases hu : String.utf8EncodeChar x with
          | nil =>
            have h5 := String.length_utf8EncodeChar x
            rw [hu] at h5
            have := Char.utf8Size_pos x
            simp at h5; omega
          | cons a l =>
            rw [hu] at h1 this
            simp only [List.cons_append, List.cons.injEq] at h1
            have := this a (by simp)
            rw [← h1.1] at this
            exact absurd this (by decide)
      | crlf rest h1 =>
        rw [hr] at h1
        simp only [List.cons.injEq, true_and] at h1
        exact ⟨rfl, h1.symm⟩
      | invalid _ pre rest _ _ hu hne hl h3 =>
        rw [hr] at h3
        cases pre with
        | nil => exact absurd rfl hne
        | cons a pre =>
          simp only [List.cons_append, List.cons.injEq] at h3
          have := hl.2 a (by simp)
          rw [← h3.1] at this
          exact absurd this (by decide)
    have := plain (by rw [hns.1]; decide)
    rw [hns.1] at this
    exact key this hns.2
  | escape h =>
    obtain ⟨t, h1, h2⟩ := nextWL_escape (cfg := cfg) hs hr h
    exact key h1 h2
  | malformed h1 h2 =>
    have hw := nextWL_spec (cfg := cfg) hs
    unfold wp at hw
    cases hm : nextWL cfg s with
    | error e =>
      rw [hm] at hw
      obtain ⟨-, q, hq, hsu⟩ := hw
      rw [hr] at hq
      simp only [List.cons.injEq, true_and] at hq
      exact absurd (hq ▸ hsu) h2
    | ok p =>
      obtain ⟨c', t⟩ := p
      rw [hm] at hw
      rcases hw.esc r hr with h | ⟨h, h', -⟩
      · exact absurd h (h1 _ _ _)
      · subst h; exact ⟨t, rfl, h', hw.reach⟩

theorem peekWL_char {bs : List UInt8} (hs : WF s) (h : CharAt bs c r) (hr : s.rest = bs) :
    ∃ t, peekWL cfg s = .ok (c, t) ∧ t.rest = bs ∧ R cfg s t := by
  obtain ⟨t, h1, h2, h3⟩ := nextWL_char (cfg := cfg) hs h hr
  refine ⟨t.seek s, ?_, hr, R.seek hs (R.refl hs) h3⟩
  unfold peekWL
  rw [bind_ok (rfl : M.mark s = .ok (s, s)), bind_ok h1]
  rfl

theorem wp_nextWL_char {bs : List UInt8} {β} {f : WLC → M β} {Q : β → St → Prop} (hs : WF s) (h : CharAt bs c r) (hr : s.rest = bs)
    (hf : ∀ t, t.rest = r → R cfg s t → wp E (f c) t Q) : wp E (nextWL cfg >>= f) s Q := by
  obtain ⟨t, h1, h2, h3⟩ := nextWL_char (cfg := cfg) hs h hr
  have := hf t h2 h3
  unfold wp at this ⊢
  rw [bind_ok h1]; exact this

theorem wp_peekWL_char {bs : List UInt8} {β} {f : WLC → M β} {Q : β → St → Prop} (hs : WF s) (h : CharAt bs c r) (hr : s.rest = bs)
    (hf : ∀ t, t.rest = bs → R cfg s t → wp E (f c) t Q) : wp E (peekWL cfg >>= f) s Q := by
  obtain ⟨t, h1, h2, h3⟩ := peekWL_char (cfg := cfg) hs h hr
  have := hf t h2 h3
  unfold wp at this ⊢
  rw [bind_ok h1]; exact this

/-- The next character behind a line continuation is `c`, and what it is. -/
def Step (c : WLC) (r1 : List UInt8) (c0 : WLC) (r0 : List UInt8) : Prop :=
  (White c.point ∧ Behind r1 c0 r0) ∨ (¬ White c.point ∧ ¬ IsContinuation c.point ∧ c = c0 ∧ r1 = r0) ∨
    (IsContinuation c.point ∧ Behind r1 c0 r0)

theorem Spec.Behind.step {bs : List UInt8} (h : Behind bs c r) : ∃ c1 r1, CharAt bs c1 r1 ∧ Step c1 r1 c r := by
  cases h with
  | here h1 h2 h3 => exact ⟨_, _, h1, .inr (.inl ⟨h2, h3, rfl, rfl⟩)⟩
  | white h1 h2 h3 => exact ⟨_, _, h1, .inl ⟨h2, h3⟩⟩
  | again h1 h2 h3 => exact ⟨_, _, h1, .inr (.inr ⟨h2, h3⟩)⟩

theorem white_not_cont {p : CP} (h : White p) : ¬ IsContinuation p := by
  rcases h with rfl | rfl | rfl | rfl <;> rintro (h | h | h) <;> cases h

theorem skipWhite_char {c1 : WLC} {r1 : List UInt8} (hs : WF s) (h1 : CharAt s.rest c1 r1) (h2 : Step c1 r1 c r) :
    wp E (skipWhite cfg c1) s (fun c2 t => R cfg s t ∧ ∃ r2, CharAt t.rest c2 r2 ∧
      ((c2 = c ∧ r2 = r ∧ ¬ IsContinuation c.point) ∨ (IsContinuation c2.point ∧ Behind r2 c r))) := by
  unfold skipWhite
  refine wp_loop (fun c1 t => R cfg s t ∧ ∃ r1, CharAt t.rest c1 r1 ∧ Step c1 r1 c r)
    (fun _ t => t.rest.length) ⟨R.refl hs, r1, h1, h2⟩ (by omega) ?_
  clear h1 h2 r1 c1
  rintro c1 t ⟨hR, r1, h1, h2⟩
  refine wp_ite (fun hw => ?_) (fun hw => wp_pure ⟨hR, r1, h1, ?_⟩)
  · have hw' := white_iff.mp hw
    have hb : Behind r1 c r := by
      rcases h2 with h2 | h2 | h2
      · exact h2.2
      · exact absurd hw' h2.1
      · exact h2.2
    have hl := h1.len (by intro he; rw [he] at hw; cases hw)
    refine wp_nextWL_char hR.wf h1 rfl fun u hu hRu => ?_
    obtain ⟨c2, r2, h3, h4⟩ := hb.step
    refine wp_peekWL_char hRu.wf h3 hu fun v hv hRv => ?_
    refine wp_pure ⟨⟨R.trans hs (R.trans hs hR hRu) hRv, r2, by rw [hv]; exact h3, h4⟩, by rw [hv]; exact hl⟩
  · have hw' := fun h => hw (white_iff.mpr h)
    rcases h2 with h2 | ⟨-, h3, rfl, rfl⟩ | h2
    · exact absurd h2.1 hw'
    · exact .inl ⟨rfl, rfl, h3⟩
    · exact .inr h2

theorem nextC_char {bs : List UInt8} (hs : WF s) (h : NextChar bs c r) (hr : s.rest = bs) :
    ∃ t, nextC cfg s = .ok (c, t) ∧ t.rest = r ∧ R cfg s t := by
  suffices hw : wp (fun _ => False) (nextC cfg) s (fun c' t => c' = c ∧ t.rest = r ∧ R cfg s t) by
    unfold wp at hw
    cases hm : nextC cfg s with
    | error e => rw [hm] at hw; exact hw.elim
    | ok p =>
      obtain ⟨c', t⟩ := p
      rw [hm] at hw
      obtain ⟨rfl, h2, h3⟩ := hw
      exact ⟨t, rfl, h2, h3⟩
  have fin : ∀ {c1 : WLC} {t : St}, R cfg s t → ((c1 = c ∧ t.rest = r ∧ ¬ IsContinuation c.point) ∨ (IsContinuation c1.point ∧ Behind t.rest c r)) →
      wp (fun _ => False) (M.loop (fun c : WLC =>
        if c.point.isLineContinuation then do
          let c ← peekWL cfg
          let c ← skipWhite cfg c
          let _ ← nextWL cfg
          pure (.inl c)
        else pure (.inr c)) c1) t (fun c' t => c' = c ∧ t.rest = r ∧ R cfg s t) := by
    intro c1 t hR h
    refine wp_loop (fun c1 t => R cfg s t ∧ ((c1 = c ∧ t.rest = r ∧ ¬ IsContinuation c.point) ∨ (IsContinuation c1.point ∧ Behind t.rest c r)))
      (fun c t => if c.point.isLineContinuation then t.rest.length + 1 else 0) ⟨hR, h⟩ (by split <;> omega) ?_
    clear h hR t c1
    rintro c1 t ⟨hR, h⟩
    refine wp_ite (fun hl => ?_) (fun hl => wp_pure ?_)
    · have hl' := cont_iff.mp hl
      have hb : Behind t.rest c r := by
        rcases h with ⟨rfl, -, h⟩ | h
        · exact absurd hl' h
        · exact h.2
      obtain ⟨c2, r2, h3, h4⟩ := hb.step
      refine wp_peekWL_char hR.wf h3 rfl fun u hu hRu => ?_
      rw [← hu] at h3
      refine wp_call (skipWhite_char hRu.wf h3 h4) (fun _ h => h) ?_
      rintro c3 v ⟨hRv, r3, h5, h6⟩
      have hRv' := R.trans hs (R.trans hs hR hRu) hRv
      refine wp_nextWL_char hRv.wf h5 rfl fun w hw hRw => ?_
      refine wp_pure ⟨⟨R.trans hs hRv' hRw, ?_⟩, ?_⟩
      · rw [hw]
        rcases h6 with ⟨rfl, rfl, h6⟩ | h6
        · exact .inl ⟨rfl, rfl, h6⟩
        · exact .inr h6
      · rw [if_pos hl]
        have l1 := R.len hRu.wf hRv
        rw [hu] at l1
        split
        · rename_i h7
          have := h5.len (by intro he; rw [he] at h7; cases h7)
          rw [← hw] at this
          omega
        · omega
    · rcases h with ⟨rfl, h1, -⟩ | h
      · exact ⟨rfl, h1, hR⟩
      · exact absurd (cont_iff.mpr h.1) hl
  unfold nextC
  cases h with
  | here h1 h2 => exact wp_nextWL_char hs h1 hr fun t ht hR => fin hR (.inl ⟨rfl, ht, h2⟩)
  | behind h1 h2 h3 => exact wp_nextWL_char hs h1 hr fun t ht hR => fin hR (.inr ⟨h2, ht.symm ▸ h3⟩)

theorem curC_char {bs : List UInt8} (hs : WF s) (h : NextChar bs c r) (hr : s.rest = bs) :
    ∃ t : St, curC cfg s = .ok (c, t.seek s) ∧ R cfg s (t.seek s) := by
  obtain ⟨t, h1, h2, h3⟩ := nextC_char (cfg := cfg) hs h hr
  refine ⟨t, ?_, R.seek hs (R.refl hs) h3⟩
  unfold curC
  rw [bind_ok (rfl : M.mark s = .ok (s, s)), bind_ok h1]
  rfl

theorem Lex.of_R (h : Lex cfg start r s) (hR : R cfg s t) (ht : t.rest = r') : Lex cfg start r' t := by
  obtain ⟨h0, h1, ⟨cs, h2⟩, h3⟩ := h
  obtain ⟨ds, h4, -⟩ := hR.path
  exact ⟨h0, hR.wf, ⟨_, h2.trans h4 h0 h1⟩, ht⟩

theorem lex_nextChar {β} {f : WLC → M β} {Q : β → St → Prop} (h : Lex cfg start r s) (hc : NextChar r c r')
    (hf : ∀ t, Lex cfg start r' t → wp E (f c) t Q) : wp E (nextC cfg >>= f) s Q := by
  obtain ⟨t, h1, h2, h3⟩ := nextC_char (cfg := cfg) h.wf hc h.rest
  have := hf t (h.of_R h3 h2)
  unfold wp at this ⊢
  rw [bind_ok h1]; exact this

theorem lex_curChar {β} {f : WLC → M β} {Q : β → St → Prop} (h : Lex cfg start r s) (hc : NextChar r c r')
    (hf : ∀ t, Lex cfg start r t → wp E (f c) t Q) : wp E (curC cfg >>= f) s Q := by
  obtain ⟨t, h1, h2⟩ := curC_char (cfg := cfg) h.wf hc h.rest
  have := hf (t.seek s) h.seek
  unfold wp at this ⊢
  rw [bind_ok h1]; exact this

theorem sees_clear (h : Clear r) : Sees cfg r := by
  rcases h with h | ⟨c, q, h1, h2⟩
  · exact sees_plain h
  · by_cases h92 : r.head? = some (byte '\\')
    · intro s hs hr
      obtain ⟨t, h3, -⟩ := nextC_char (cfg := cfg) hs h1 hr
      exact ⟨c, t, h3, .beyond h92 h2⟩
    · exact sees_plain h92

end
end CodeParser
