import Verif.Proofs.Char2
/-!
Specification of reading one Wolfram character (helper lemmas).
-/
namespace CodeParser
open Spec

/-! ### First bytes of escapes -/

theorem singleEscapes_simple : ∀ e ∈ singleEscapes, e.1.toNat < 128 ∧ e.1.toNat ≠ 13 ∧ e.1.toNat ≠ 10 ∧
    simpleEscape (.char e.1.toNat) = some e.2 := by decide +kernel

theorem simpleEscape_cases {c p : CP} (h : simpleEscape c = some p) :
    (∃ x, (x, p) ∈ singleEscapes ∧ c = .char x.toNat) ∨ (c = .char 10 ∧ p = .contLF) ∨
      (c = .char 13 ∧ p = .contCR) ∨ (c = .crlf ∧ p = .contCRLF) := by
  have aux : ∀ x, (∀ p, simpleEscape (.char (Char.toNat x)) = some p → (x, p) ∈ singleEscapes) →
      c = ch x → simpleEscape c = some p → (∃ x, (x, p) ∈ singleEscapes ∧ c = .char x.toNat) := by
    intro x hx hc h; subst hc; exact ⟨x, hx p h, rfl⟩
  have h0 := h
  unfold simpleEscape at h
  by_cases h1 : c = ch '"'; · exact Or.inl (aux '"' (by decide +kernel) h1 h0)
  rw [if_neg h1] at h; clear h1
  by_cases h1 : c = ch '<'; · exact Or.inl (aux '<' (by decide +kernel) h1 h0)
  rw [if_neg h1] at h; clear h1
  by_cases h1 : c = ch '>'; · exact Or.inl (aux '>' (by decide +kernel) h1 h0)
  rw [if_neg h1] at h; clear h1
  by_cases h1 : c = ch '\\'; · exact Or.inl (aux '\\' (by decide +kernel) h1 h0)
  rw [if_neg h1] at h; clear h1
  by_cases h1 : c = ch '\n'; · subst h1; simp at h; exact Or.inr (Or.inl ⟨rfl, h.symm⟩)
  rw [if_neg h1] at h; clear h1
  by_cases h1 : c = ch '\r'; · subst h1; simp at h; exact Or.inr (Or.inr (Or.inl ⟨rfl, h.symm⟩))
  rw [if_neg h1] at h; clear h1
  by_cases h1 : c = .crlf; · subst h1; simp at h; exact Or.inr (Or.inr (Or.inr ⟨rfl, h.symm⟩))
  rw [if_neg h1] at h; clear h1
  by_cases h1 : c = ch 'b'; · exact Or.inl (aux 'b' (by decide +kernel) h1 h0)
  rw [if_neg h1] at h; clear h1
  by_cases h1 : c = ch 'f'; · exact Or.inl (aux 'f' (by decide +kernel) h1 h0)
  rw [if_neg h1] at h; clear h1
  by_cases h1 : c = ch 'n'; · exact Or.inl (aux 'n' (by decide +kernel) h1 h0)
  rw [if_neg h1] at h; clear h1
  by_cases h1 : c = ch 'r'; · exact Or.inl (aux 'r' (by decide +kernel) h1 h0)
  rw [if_neg h1] at h; clear h1
  by_cases h1 : c = ch 't'; · exact Or.inl (aux 't' (by decide +kernel) h1 h0)
  rw [if_neg h1] at h; clear h1
  by_cases h1 : c = ch '!'; · exact Or.inl (aux '!' (by decide +kernel) h1 h0)
  rw [if_neg h1] at h; clear h1
  by_cases h1 : c = ch '%'; · exact Or.inl (aux '%' (by decide +kernel) h1 h0)
  rw [if_neg h1] at h; clear h1
  by_cases h1 : c = ch '&'; · exact Or.inl (aux '&' (by decide +kernel) h1 h0)
  rw [if_neg h1] at h; clear h1
  by_cases h1 : c = ch '('; · exact Or.inl (aux '(' (by decide +kernel) h1 h0)
  rw [if_neg h1] at h; clear h1
  by_cases h1 : c = ch ')'; · exact Or.inl (aux ')' (by decide +kernel) h1 h0)
  rw [if_neg h1] at h; clear h1
  by_cases h1 : c = ch '*'; · exact Or.inl (aux '*' (by decide +kernel) h1 h0)
  rw [if_neg h1] at h; clear h1
  by_cases h1 : c = ch '+'; · exact Or.inl (aux '+' (by decide +kernel) h1 h0)
  rw [if_neg h1] at h; clear h1
  by_cases h1 : c = ch '/'; · exact Or.inl (aux '/' (by decide +kernel) h1 h0)
  rw [if_neg h1] at h; clear h1
  by_cases h1 : c = ch '@'; · exact Or.inl (aux '@' (by decide +kernel) h1 h0)
  rw [if_neg h1] at h; clear h1
  by_cases h1 : c = ch '^'; · exact Or.inl (aux '^' (by decide +kernel) h1 h0)
  rw [if_neg h1] at h; clear h1
  by_cases h1 : c = ch '_'; · exact Or.inl (aux '_' (by decide +kernel) h1 h0)
  rw [if_neg h1] at h; clear h1
  by_cases h1 : c = ch '`'; · exact Or.inl (aux '`' (by decide +kernel) h1 h0)
  rw [if_neg h1] at h; clear h1
  by_cases h1 : c = ch ' '; · exact Or.inl (aux ' ' (by decide +kernel) h1 h0)
  rw [if_neg h1] at h
  cases h

theorem octal_not_simple {n : Nat} (h : (CP.char n).isOctal = true) : simpleEscape (.char n) = none ∧
    n ≠ 0x5b ∧ n ≠ 0x3a ∧ n ≠ 0x2e ∧ n ≠ 0x7c ∧ n < 128 ∧ n ≠ 13 := by
  simp only [CP.isOctal, inR_iff] at h
  have : n = 48 ∨ n = 49 ∨ n = 50 ∨ n = 51 ∨ n = 52 ∨ n = 53 ∨ n = 54 ∨ n = 55 := by omega
  rcases this with rfl | rfl | rfl | rfl | rfl | rfl | rfl | rfl <;> decide +kernel

/-- The result of reading the escape in front of which the reader stands. -/
def EscPost (r : List UInt8) (c : WLC) (rest : List UInt8) : Prop :=
  Escapes r c.point c.escape rest ∨
    (c = backslash ∧ rest = r ∧ (∀ p e rest, ¬ Escapes r p e rest) ∧ ¬ SurrogateEscape r)

theorem escapes_digits {n : Nat} {ds : List UInt8} {v : Nat} {r rest : List UInt8}
    (hl : ds.length = n) (hn : Numeral hexDigit 16 ds v) (hr : r = ds ++ rest) :
    DigitsAt hexDigit n r ds rest := ⟨hr, hl, Numeral.digits hn⟩

/-- The first byte and the source character in front of an escape. -/
theorem escapes_first {cfg : Cfg} {s : St} {p : CP} {e : Escape} {rest : List UInt8} (hs : WF s)
    (h : Escapes s.rest p e rest) : ∃ c, (nextSource cfg s).1 = c ∧
      (simpleEscape c = some p ∧ e = .single ∨
       (c = ch '.' ∧ e = .hex2) ∨ (c = ch ':' ∧ e = .hex4) ∨ (c = ch '|' ∧ e = .hex6) ∨
       (c.isOctal = true ∧ e = .octal) ∨ (c = ch '[' ∧ (e = .raw ∨ e = .longName))) := by
  generalize hr : s.rest = r at h
  cases h with
  | @single x p rest hx =>
    have := singleEscapes_simple _ hx
    simp only at this
    rw [ns_byte hs hr (by rw [byte_toNat this.1]; omega) (by rw [byte_toNat this.1]; omega)]
    exact ⟨_, rfl, Or.inl ⟨by simp only [byte_toNat this.1]; exact this.2.2.2, rfl⟩⟩
  | lineFeed =>
    rw [ns_byte hs hr (by decide) (fun h => absurd h (by decide))]
    exact ⟨_, rfl, Or.inl ⟨rfl, rfl⟩⟩
  | carriageReturn h =>
    rw [ns_byte hs hr (by decide) (fun _ => h)]
    exact ⟨_, rfl, Or.inl ⟨rfl, rfl⟩⟩
  | crlf =>
    have : s = ⟨13 :: 10 :: rest, s.loc, false, s.flag⟩ :=
      St.ext' hr rfl (hs.eof_false (by simp [hr])) rfl
    rw [this, nextSource_enc_crlf]
    exact ⟨_, rfl, Or.inl ⟨rfl, rfl⟩⟩
  | hex2 =>
    rw [ns_byte hs hr (by decide) (fun h => absurd h (by decide))]
    exact ⟨_, rfl, by simp [byte]⟩
  | hex4 =>
    rw [ns_byte hs hr (by decide) (fun h => absurd h (by decide))]
    exact ⟨_, rfl, by simp [byte]⟩
  | hex6 =>
    rw [ns_byte hs hr (by decide) (fun h => absurd h (by decide))]
    exact ⟨_, rfl, by simp [byte]⟩
  | @octal ds v rest hl hn =>
    cases ds with
    | nil => simp at hl
    | cons b ds =>
      have hb : (CP.char b.toNat).isOctal = true := by
        rw [← octDigit_isOctal]; exact Numeral.digits hn b (by simp)
      have := octal_not_simple hb
      rw [ns_byte hs hr (by omega) (by omega)]
      exact ⟨_, rfl, by simp [hb]⟩
  | raw =>
    rw [ns_byte hs hr (by decide) (fun h => absurd h (by decide))]
    exact ⟨_, rfl, by simp [byte]⟩
  | longName =>
    rw [ns_byte hs hr (by decide) (fun h => absurd h (by decide))]
    exact ⟨_, rfl, by simp [byte]⟩

theorem surrogate_first {cfg : Cfg} {s : St} (hs : WF s) (h : SurrogateEscape s.rest) :
    (nextSource cfg s).1 = ch ':' ∨ (nextSource cfg s).1 = ch '|' := by
  generalize hr : s.rest = r at h
  cases h with
  | hex4 =>
    rw [ns_byte hs hr (by decide) (fun h => absurd h (by decide))]
    exact Or.inl rfl
  | hex6 =>
    rw [ns_byte hs hr (by decide) (fun h => absurd h (by decide))]
    exact Or.inr rfl

theorem ascii_ne_octal : ∀ c, (c = ch '[' ∨ c = ch ':' ∨ c = ch '.' ∨ c = ch '|') →
    CP.isOctal c = false ∧ simpleEscape c = none := by
  rintro c (rfl | rfl | rfl | rfl) <;> decide +kernel

theorem nextEscape_spec {cfg : Cfg} {m : St} (hm : WF m) :
    wp (fun e => e = .panic .surrogate ∧ SurrogateEscape m.rest) (nextEscape cfg m) m (fun c t =>
      R cfg m t ∧ EscPost m.rest c t.rest) := by
  unfold nextEscape
  refine wp_bind (wp_peekSrc' hm fun c t hc htr htl hte hRt hn => ?_)
  have first : ∀ p e rest, Escapes m.rest p e rest → _ := fun p e rest h =>
    escapes_first (cfg := cfg) hm h
  have sfirst : SurrogateEscape m.rest → _ := fun h => surrogate_first (cfg := cfg) hm h
  rw [← hc] at sfirst
  simp only [← hc, exists_eq_left'] at first
  cases hsimp : simpleEscape c with
  | some p =>
    refine wp_bind (wp_src' hRt.wf fun c' u hc' hu hRu => wp_pure ⟨R.trans hm hRt hRu, Or.inl ?_⟩)
    rcases simpleEscape_cases hsimp with ⟨x, hx, hcx⟩ | ⟨hcx, rfl⟩ | ⟨hcx, rfl⟩ | ⟨hcx, rfl⟩
    · have hxl := singleEscapes_simple _ hx
      simp only at hxl
      rw [hcx] at hn
      obtain ⟨b, r, h1, h2, h3, h4⟩ := ns_char hRt.wf hn (by omega)
      have hb : b = byte x := UInt8.toNat_inj.mp (by rw [h2, byte_toNat hxl.1])
      rw [hu, h4, ← htr, h1, hb]
      exact .single hx
    · rw [hcx] at hn
      obtain ⟨b, r, h1, h2, h3, h4⟩ := ns_char hRt.wf hn (by omega)
      have hb : b = 10 := UInt8.toNat_inj.mp h2
      rw [hu, h4, ← htr, h1, hb]
      exact .lineFeed
    · rw [hcx] at hn
      obtain ⟨b, r, h1, h2, h3, h4⟩ := ns_char hRt.wf hn (by omega)
      have hb : b = 13 := UInt8.toNat_inj.mp h2
      rw [hu, h4, ← htr, h1, hb]
      exact .carriageReturn (h3 rfl)
    · rw [hcx] at hn
      obtain ⟨r, h1, h2⟩ := ns_crlf hRt.wf hn
      rw [hu, h2, ← htr, h1]
      exact .crlf
  | none =>
    refine wp_ite (fun hb => ?_) (fun hb1 => ?_)
    · refine wp_bind (wp_src' hRt.wf fun c' u hc' hu hRu => ?_)
      rw [hb] at hn
      obtain ⟨b, r, h1, h2, h3, h4⟩ := ns_char hRt.wf hn (by decide)
      have hbb : b = byte '[' := UInt8.toNat_inj.mp h2
      have hmr : m.rest = byte '[' :: r := by rw [← htr, h1, hbb]
      refine wp_mono (handleLongName_spec hm hmr (R.trans hm hRt hRu) (by rw [hu, h4]))
        (fun _ h => h) fun w v hv => ⟨hv.1, ?_⟩
      rcases hv.2 with ⟨name, p, hmem, hr, hw⟩ | ⟨hw, hrest, hno⟩
      · left
        subst hw
        rw [hmr, hr]
        by_cases hraw : name ∈ rawSet
        · simp only [if_pos hraw]; exact .raw hmem hraw
        · simp only [if_neg hraw]; exact .longName hmem hraw
      · right
        refine ⟨hw, hrest, fun p e rest h => ?_, fun h => ?_⟩
        · have hf := first p e rest h
          have hoct := (ascii_ne_octal c (by simp [hb])).1
          simp only [hsimp, hoct] at hf
          rw [hb] at hf
          simp [ch] at hf
          rw [hmr] at h
          generalize hq : byte '[' :: r = q at h
          rcases hf with rfl | rfl
          · cases h with
            | raw hmem _ => simp only [List.cons.injEq, true_and] at hq; exact hno _ _ _ hmem hq
          · cases h with
            | longName hmem _ => simp only [List.cons.injEq, true_and] at hq; exact hno _ _ _ hmem hq
        · have := sfirst h; rw [hb] at this; simp [ch] at this
    refine wp_ite (fun hb => ?_) (fun hb2 => ?_)
    · refine wp_bind (wp_src' hRt.wf fun c' u hc' hu hRu => ?_)
      rw [hb] at hn
      obtain ⟨b, r, h1, h2, h3, h4⟩ := ns_char hRt.wf hn (by decide)
      have hbb : b = byte ':' := UInt8.toNat_inj.mp h2
      have hmr : m.rest = byte ':' :: r := by rw [← htr, h1, hbb]
      refine wp_mono (handle4Hex_spec hm hmr (R.trans hm hRt hRu) (by rw [hu, h4]))
        (fun _ h => h) fun w v hv => ⟨hv.1, ?_⟩
      rcases hv.2 with ⟨ds, x, hds, hnum, hsc, hw⟩ | ⟨hw, hrest, hno⟩
      · left
        subst hw
        rw [hmr, hds.1]
        exact .hex4 hds.2.1 hnum hsc
      · right
        refine ⟨hw, hrest, fun p e rest h => ?_, fun h => ?_⟩
        · have hf := first p e rest h
          have hoct := (ascii_ne_octal c (by simp [hb])).1
          simp only [hsimp, hoct] at hf
          rw [hb] at hf
          simp [ch] at hf
          subst hf
          rw [hmr] at h
          generalize hq : byte ':' :: r = q at h
          cases h with
          | hex4 hl hnum _ =>
            simp only [List.cons.injEq, true_and] at hq
            exact hno _ _ (escapes_digits hl hnum hq)
        · rw [hmr] at h
          generalize hq : byte ':' :: r = q at h
          cases h with
          | hex4 hl hnum _ =>
            simp only [List.cons.injEq, true_and] at hq
            exact hno _ _ (escapes_digits hl hnum hq)
          | hex6 hl hnum _ => simp [byte] at hq
    refine wp_ite (fun hb => ?_) (fun hb3 => ?_)
    · refine wp_bind (wp_src' hRt.wf fun c' u hc' hu hRu => ?_)
      rw [hb] at hn
      obtain ⟨b, r, h1, h2, h3, h4⟩ := ns_char hRt.wf hn (by decide)
      have hbb : b = byte '.' := UInt8.toNat_inj.mp h2
      have hmr : m.rest = byte '.' :: r := by rw [← htr, h1, hbb]
      refine wp_mono (handle2Hex_spec hm hmr (R.trans hm hRt hRu) (by rw [hu, h4]))
        (fun _ h => h) fun w v hv => ⟨hv.1, ?_⟩
      rcases hv.2 with ⟨ds, x, hds, hnum, hw⟩ | ⟨hw, hrest, hno⟩
      · left
        subst hw
        rw [hmr, hds.1]
        exact .hex2 hds.2.1 hnum
      · right
        refine ⟨hw, hrest, fun p e rest h => ?_, fun h => ?_⟩
        · have hf := first p e rest h
          have hoct := (ascii_ne_octal c (by simp [hb])).1
          simp only [hsimp, hoct] at hf
          rw [hb] at hf
          simp [ch] at hf
          subst hf
          rw [hmr] at h
          generalize hq : byte '.' :: r = q at h
          cases h with
          | hex2 hl hnum =>
            simp only [List.cons.injEq, true_and] at hq
            exact hno _ _ (escapes_digits hl hnum hq)
        · have := sfirst h; rw [hb] at this; simp [ch] at this
    refine wp_ite (fun hb => ?_) (fun hb4 => ?_)
    · refine wp_bind (wp_src' hRt.wf fun c' u hc' hu hRu => ?_)
      rw [hb] at hn
      obtain ⟨b, r, h1, h2, h3, h4⟩ := ns_char hRt.wf hn (by decide)
      have hbb : b = byte '|' := UInt8.toNat_inj.mp h2
      have hmr : m.rest = byte '|' :: r := by rw [← htr, h1, hbb]
      refine wp_mono (handle6Hex_spec hm hmr (R.trans hm hRt hRu) (by rw [hu, h4]))
        (fun _ h => h) fun w v hv => ⟨hv.1, ?_⟩
      rcases hv.2 with ⟨ds, x, hds, hnum, hsc, hw⟩ | ⟨hw, hrest, hno⟩
      · left
        subst hw
        rw [hmr, hds.1]
        exact .hex6 hds.2.1 hnum hsc
      · right
        refine ⟨hw, hrest, fun p e rest h => ?_, fun h => ?_⟩
        · have hf := first p e rest h
          have hoct := (ascii_ne_octal c (by simp [hb])).1
          simp only [hsimp, hoct] at hf
          rw [hb] at hf
          simp [ch] at hf
          subst hf
          rw [hmr] at h
          generalize hq : byte '|' :: r = q at h
          cases h with
          | hex6 hl hnum hsc =>
            simp only [List.cons.injEq, true_and] at hq
            have := hno _ _ _ (escapes_digits hl hnum hq) hnum
            unfold IsScalar at hsc; omega
        · rw [hmr] at h
          generalize hq : byte '|' :: r = q at h
          cases h with
          | hex6 hl hnum hsu =>
            simp only [List.cons.injEq, true_and] at hq
            have := hno _ _ _ (escapes_digits hl hnum hq) hnum
            unfold IsSurrogate at hsu; omega
          | hex4 hl hnum _ => simp [byte] at hq
    refine wp_ite (fun hb => ?_) (fun hb5 => ?_)
    · refine wp_bind (wp_src' hRt.wf fun c' u hc' hu hRu => ?_)
      obtain ⟨k, hk, hlt, _⟩ := octTest.ascii c hb
      rw [hk] at hn
      obtain ⟨b, r, h1, h2, h3, h4⟩ := ns_char hRt.wf hn hlt
      have hbo : (octDigit b).isSome = true := by rw [octDigit_isOctal, h2, ← hk]; exact hb
      have hmr : m.rest = b :: r := by rw [← htr, h1]
      refine wp_mono (handleOctal_spec hm hmr hbo (R.trans hm hRt hRu) (by rw [hu, h4]))
        (fun _ h => h) fun w v hv => ⟨hv.1, ?_⟩
      rcases hv.2 with ⟨ds, x, hds, hnum, hw⟩ | ⟨hw, hrest, hno⟩
      · left
        subst hw
        rw [hds.1]
        exact .octal hds.2.1 hnum
      · right
        refine ⟨hw, hrest, fun p e rest h => ?_, fun h => ?_⟩
        · have hf := first p e rest h
          simp only [hsimp, hb1, hb2, hb3, hb4, hb] at hf
          simp at hf
          subst hf
          generalize hq : m.rest = q at h
          cases h with
          | octal hl hnum => exact hno _ _ ⟨hq, hl, Numeral.digits hnum⟩
        · have := sfirst h; simp [hb2, hb4] at this
    · refine wp_bind (wp_seek (wp_pure ⟨R.seek hm (R.refl hm) hRt, Or.inr ⟨rfl, rfl, fun p e rest h => ?_, fun h => ?_⟩⟩))
      · have hf := first p e rest h
        simp only [hsimp, hb1, hb2, hb3, hb4, hb5] at hf
        simp at hf
      · have := sfirst h; simp [hb2, hb4] at this

/-- What reading a Wolfram character does. -/
structure WLPost (cfg : Cfg) (s : St) (c : WLC) (t : St) : Prop where
  reach : R cfg s t
  plain : (nextSource cfg s).1 ≠ ch '\\' → c = ⟨(nextSource cfg s).1, .none⟩ ∧ t = (nextSource cfg s).2
  esc : ∀ r, s.rest = byte '\\' :: r → EscPost r c t.rest

theorem nextWL_spec {cfg : Cfg} {s : St} (hs : WF s) :
    wp (fun e => e = .panic .surrogate ∧ ∃ r, s.rest = byte '\\' :: r ∧ SurrogateEscape r)
      (nextWL cfg) s (WLPost cfg s) := by
  unfold nextWL
  refine wp_bind (wp_src' hs fun c t hc ht hR => ?_)
  refine wp_ite (fun hne => wp_pure ⟨hR, ?_, ?_⟩) (fun heq => ?_)
  · intro _; rw [hc, ht]; exact ⟨rfl, rfl⟩
  · intro r hr
    rw [ns_byte hs hr (by decide) (fun h => absurd h (by decide))] at hc
    exact absurd hc hne
  · have heq' : c = ch '\\' := by simpa using heq
    rw [hc] at heq'
    obtain ⟨b, r, h1, h2, h3, h4⟩ := ns_char hs heq' (by decide)
    have hb : b = byte '\\' := UInt8.toNat_inj.mp h2
    subst hb
    have htr : t.rest = r := by rw [ht, h4]
    refine wp_bind (wp_mark (wp_mono (nextEscape_spec hR.wf) ?_ ?_))
    · rintro e ⟨he, hsu⟩; exact ⟨he, r, h1, htr ▸ hsu⟩
    · intro w u hu
      refine ⟨R.trans hs hR hu.1, fun h => absurd heq' h, ?_⟩
      intro r' hr'
      rw [h1] at hr'
      simp only [List.cons.injEq, true_and] at hr'
      rw [← hr', ← htr]; exact hu.2

end CodeParser
