import Verif.Proofs.Chars6
/-!
Every text has a next character, unless its encoding is broken (helper lemmas).
-/
namespace CodeParser
open Spec Props

section
variable {cfg : Cfg} {start s t m : St} {bs r r' q q' text : List UInt8} {p p' : CP} {c d : WLC} {E : Err → Prop}

theorem isMBUnsafe_iff : p.isUnsafe = true ↔ p.isMBUnsafe = true := by
  cases p <;> simp [CP.isUnsafe, CP.isMBUnsafe]

/-- What is read is a character, unless the encoding is broken. -/
theorem charAt_of_run (hs : WF s) (h : WLPost cfg s c t) (hc : c.point.isMBUnsafe = false) : CharAt s.rest c t.rest := by
  by_cases hb : ∃ r, s.rest = byte '\\' :: r
  · obtain ⟨r, hr⟩ := hb
    rw [hr]
    rcases h.esc r hr with h | ⟨rfl, h1, h2, h3⟩
    · obtain ⟨p, e⟩ := c
      exact .escape h
    · rw [h1]; exact .malformed h2 h3
  · have hne : (nextSource cfg s).1 ≠ ch '\\' := by
      intro he
      obtain ⟨b, r, h1, h2, -⟩ := ns_char hs he (by decide)
      exact hb ⟨r, by rw [h1, show b = byte '\\' from UInt8.toNat_inj.mp h2]⟩
    obtain ⟨rfl, rfl⟩ := h.plain hne
    by_cases hnil : s.rest = []
    · rw [nextSource_nil hnil, hnil]; exact .eof
    · have hd := nextSource_Dec (cfg := cfg) hs hnil
      generalize nextSource cfg s = x at hd hc hne
      cases hd with
      | valid x rest h1 h2 h3 =>
        rw [h1]
        exact .plain (fun h => by rw [h] at hne; exact hne rfl) h2 h3
      | crlf rest h1 => rw [h1]; exact .crlf
      | invalid p pre rest e u hu => rw [isMBUnsafe_iff] at hu; rw [hu] at hc; cases hc

theorem peekWL_any {β} {f : WLC → M β} {Q : β → St → Prop} (hs : WF s)
    (hf : ∀ c t, t.rest = s.rest → R cfg s t → (c.point.isMBUnsafe = false → ∃ r, CharAt s.rest c r) →
      wp (fun _ => True) (f c) t Q) : wp (fun _ => True) (peekWL cfg >>= f) s Q := by
  unfold peekWL
  refine wp_bind (wp_bind (wp_mark (wp_bind (wp_mono (nextWL_spec hs) (fun _ _ => trivial) ?_))))
  intro c t ht
  refine wp_bind (wp_seek (wp_pure (hf c _ rfl (R.seek hs (R.refl hs) ht.reach) fun hc => ⟨_, charAt_of_run hs ht hc⟩)))

theorem nextWL_any {β} {f : WLC → M β} {Q : β → St → Prop} (hs : WF s)
    (hf : ∀ c t, R cfg s t → (c.point.isMBUnsafe = false → CharAt s.rest c t.rest) →
      wp (fun _ => True) (f c) t Q) : wp (fun _ => True) (nextWL cfg >>= f) s Q := by
  refine wp_bind (wp_mono (nextWL_spec hs) (fun _ _ => trivial) ?_)
  intro c t ht
  exact hf c t ht.reach fun hc => charAt_of_run hs ht hc

theorem white_safe (h : p.isWhitespace = true) : p.isMBUnsafe = false := by
  cases p <;> simp [CP.isWhitespace, CP.isMBUnsafe] at *

theorem cont_safe (h : p.isLineContinuation = true) : p.isMBUnsafe = false := by
  cases p <;> simp [CP.isLineContinuation, CP.isMBUnsafe] at *

theorem skipWhite_any (hs : WF s) (h1 : c.point.isMBUnsafe = false → ∃ r, CharAt s.rest c r) :
    wp (fun _ => True) (skipWhite cfg c) s (fun c2 t => R cfg s t ∧ ¬ White c2.point ∧
      (c2.point.isMBUnsafe = false → ∃ r, CharAt t.rest c2 r) ∧ ∀ c r, Behind t.rest c r → Behind s.rest c r) := by
  unfold skipWhite
  refine wp_loop (fun c1 t => R cfg s t ∧ (c1.point.isMBUnsafe = false → ∃ r, CharAt t.rest c1 r) ∧ ∀ c r, Behind t.rest c r → Behind s.rest c r)
    (fun _ t => t.rest.length) ⟨R.refl hs, h1, fun _ _ h => h⟩ (by omega) ?_
  clear h1
  rintro c1 t ⟨hR, h1, h2⟩
  refine wp_ite (fun hw => ?_) (fun hw => wp_pure ⟨hR, fun h => hw (white_iff.mpr h), h1, h2⟩)
  obtain ⟨r1, h3⟩ := h1 (white_safe hw)
  have hl := h3.len (by intro he; rw [he] at hw; cases hw)
  refine wp_nextWL_char hR.wf h3 rfl fun u hu hRu => ?_
  refine peekWL_any hRu.wf fun c v hv hRv hc => ?_
  refine wp_pure ⟨⟨R.trans hs (R.trans hs hR hRu) hRv, by rw [hv]; exact hc, ?_⟩, by rw [hv, hu]; exact hl⟩
  intro c r hb
  rw [hv, hu] at hb
  exact h2 c r (.white h3 (white_iff.mp hw) hb)

/-- What `nextC` reads is the next character, unless the encoding is broken. -/
theorem nextC_any (hs : WF s) : wp (fun _ => True) (nextC cfg) s (fun c t => c.point.isMBUnsafe = false → NextChar s.rest c t.rest) := by
  unfold nextC
  refine nextWL_any hs fun c t hR hc => ?_
  refine wp_loop (fun c t => R cfg s t ∧ (c.point.isMBUnsafe = false → ¬ IsContinuation c.point → NextChar s.rest c t.rest) ∧
      (IsContinuation c.point → ∀ c r, Behind t.rest c r → NextChar s.rest c r))
    (fun c t => if c.point.isLineContinuation then t.rest.length + 1 else 0) ⟨hR, fun h1 h2 => .here (hc h1) h2, ?_⟩ (by split <;> omega) ?_
  · intro h c r hb
    exact .behind (hc (cont_safe (cont_iff.mpr h))) h hb
  clear hR hc
  rintro c t ⟨hR, h1, h2⟩
  refine wp_ite (fun hl => ?_) (fun hl => wp_pure fun hu => h1 hu (fun h => hl (cont_iff.mpr h)))
  have h2 := h2 (cont_iff.mp hl)
  refine peekWL_any hR.wf fun c1 u hu hRu hc1 => ?_
  refine wp_bind (wp_mono (skipWhite_any hRu.wf (by rw [hu]; exact hc1)) (fun _ _ => trivial) ?_)
  rintro c2 v ⟨hRv, h3, h4, h5⟩
  have hRv' := R.trans hs (R.trans hs hR hRu) hRv
  have lv := R.len hRu.wf hRv
  rw [hu] at lv h5
  by_cases hsafe : c2.point.isMBUnsafe = false
  · obtain ⟨r2, hr2⟩ := h4 hsafe
    refine wp_nextWL_char hRv.wf hr2 rfl fun w hw hRw => wp_pure ⟨⟨R.trans hs hRv' hRw, ?_, ?_⟩, ?_⟩
    · intro _ hnc
      rw [hw]
      exact h2 _ _ (h5 _ _ (.here hr2 h3 hnc))
    · intro hc c r hb
      rw [hw] at hb
      exact h2 _ _ (h5 _ _ (.again hr2 hc hb))
    · rw [if_pos hl]
      split
      · rename_i h7
        have := hr2.len (by intro he; rw [he] at h7; cases h7)
        rw [← hw] at this
        omega
      · omega
  · refine nextWL_any hRv.wf fun _ w hRw _ => wp_pure ⟨⟨R.trans hs hRv' hRw, fun h => absurd h hsafe, ?_⟩, ?_⟩
    · intro h
      exact absurd (cont_safe (cont_iff.mpr h)) hsafe
    · rw [if_pos hl, if_neg (fun h => hsafe (cont_safe h))]
      omega

/-- The next character of a concrete text. -/
theorem nextChar_run (h : (nextC Cfg.default ⟨bs, default, false, none⟩).toOption.map (fun x => (x.1, x.2.rest)) = some (c, r))
    (hu : c.point.isMBUnsafe = false) : NextChar bs c r := by
  have hw := nextC_any (cfg := Cfg.default) (s := ⟨bs, default, false, none⟩) (by intro h; cases h)
  unfold wp at hw
  cases hn : nextC Cfg.default ⟨bs, default, false, none⟩ with
  | error e => rw [hn] at h; cases h
  | ok x =>
    obtain ⟨c', t⟩ := x
    rw [hn] at hw h
    simp only [Except.toOption, Option.map_some, Option.some.injEq, Prod.mk.injEq] at h
    obtain ⟨rfl, rfl⟩ := h
    exact hw hu

end
end CodeParser
