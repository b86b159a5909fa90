import Verif.Proofs.Char
/-!
Specifications of the escape handlers (helper lemmas).
-/
namespace CodeParser
open Spec

theorem wp_assertStart {E : Err → Prop} {m s : St} {p : Nat → Bool} {b : UInt8} {r : List UInt8}
    {Q : Unit → St → Prop} (hm : m.rest = b :: r) (hp : p b.toNat = true) (h : Q () s) :
    wp E (assertStart m p) s Q := by
  unfold assertStart
  rw [hm]
  simp only [hp, if_true]
  exact h

theorem canonPoint_eq (n : Nat) : canonPoint n = canon n := rfl

theorem wp_digitsValue {isDig digit} (T : DigitTest isDig digit) {E : Err → Prop} {base n v : Nat}
    {r ds rest : List UInt8} {s : St} {Q : Nat → St → Prop} (hd : DigitsAt digit n r ds rest)
    (hv : Numeral digit base ds v) (h : Q v s) : wp E (digitsValue base r n) s Q := by
  unfold wp
  rw [hd.1, ← hd.2.1, digitsValue_spec T hv rest]
  exact h

/-- Result of a numeric escape handler with `n` digits behind the position `s`. -/
theorem handle4Hex_spec {cfg : Cfg} {m s : St} {r : List UInt8} (hm : WF m)
    (hmr : m.rest = byte ':' :: r) (hR : R cfg m s) (hsr : s.rest = r) :
    wp (fun e => e = .panic .surrogate ∧ SurrogateEscape m.rest) (handle4Hex cfg m) s (fun c t =>
      R cfg m t ∧ ((∃ ds v, DigitsAt hexDigit 4 r ds t.rest ∧ Numeral hexDigit 16 ds v ∧ IsScalar v ∧
        c = ⟨canon v, .hex4⟩) ∨
      (c = backslash ∧ t.rest = m.rest ∧ ∀ ds rest, ¬ DigitsAt hexDigit 4 r ds rest))) := by
  unfold handle4Hex
  refine wp_bind (wp_assertStart hmr (by decide) ?_)
  refine wp_bind (wp_mark ?_)
  refine wp_call (digitRun_spec hexTest 4 s hR.wf) (fun _ h => h) fun ok t ht => ?_
  refine wp_ite (fun hok => ?_) (fun hok => ?_)
  · have h2 := ht.2
    rw [if_pos hok] at h2
    obtain ⟨ds, hds⟩ := h2
    obtain ⟨v, hv⟩ := numeral_of_digits (base := 16) hds.2.2
    have hlt := Numeral.lt hexDigit_lt hv
    rw [hds.2.1] at hlt
    refine wp_bind (wp_digitsValue hexTest hds hv ?_)
    refine wp_bind ?_
    unfold fromU32
    refine wp_ite (fun hsc => wp_pure ?_) (fun hsc => wp_panic ?_)
    · exact wp_pure ⟨R.trans hm hR ht.1, Or.inl ⟨ds, v, hsr ▸ hds, hv, hsc, by rw [canonPoint_eq]⟩⟩
    · refine ⟨rfl, ?_⟩
      rw [hmr, ← hsr, hds.1]
      exact .hex4 hds.2.1 hv ⟨by omega, by omega⟩
  · have h2 := ht.2
    rw [if_neg hok] at h2
    refine wp_bind (wp_seek (wp_pure ⟨R.seek hm (R.refl hm) (R.trans hm hR ht.1), Or.inr ⟨rfl, rfl, ?_⟩⟩))
    rw [← hsr]; exact h2

theorem handle2Hex_spec {cfg : Cfg} {m s : St} {r : List UInt8} (hm : WF m)
    (hmr : m.rest = byte '.' :: r) (hR : R cfg m s) (hsr : s.rest = r) :
    wp (fun e => e = .panic .surrogate ∧ SurrogateEscape m.rest) (handle2Hex cfg m) s (fun c t =>
      R cfg m t ∧ ((∃ ds v, DigitsAt hexDigit 2 r ds t.rest ∧ Numeral hexDigit 16 ds v ∧
        c = ⟨canon v, .hex2⟩) ∨
      (c = backslash ∧ t.rest = m.rest ∧ ∀ ds rest, ¬ DigitsAt hexDigit 2 r ds rest))) := by
  unfold handle2Hex
  refine wp_bind (wp_assertStart hmr (by decide) ?_)
  refine wp_bind (wp_mark ?_)
  refine wp_call (digitRun_spec hexTest 2 s hR.wf) (fun _ h => h) fun ok t ht => ?_
  refine wp_ite (fun hok => ?_) (fun hok => ?_)
  · have h2 := ht.2
    rw [if_pos hok] at h2
    obtain ⟨ds, hds⟩ := h2
    obtain ⟨v, hv⟩ := numeral_of_digits (base := 16) hds.2.2
    refine wp_bind (wp_digitsValue hexTest hds hv ?_)
    exact wp_pure ⟨R.trans hm hR ht.1, Or.inl ⟨ds, v, hsr ▸ hds, hv, by rw [canonPoint_eq]⟩⟩
  · have h2 := ht.2
    rw [if_neg hok] at h2
    refine wp_bind (wp_seek (wp_pure ⟨R.seek hm (R.refl hm) (R.trans hm hR ht.1), Or.inr ⟨rfl, rfl, ?_⟩⟩))
    rw [← hsr]; exact h2

theorem handle6Hex_spec {cfg : Cfg} {m s : St} {r : List UInt8} (hm : WF m)
    (hmr : m.rest = byte '|' :: r) (hR : R cfg m s) (hsr : s.rest = r) :
    wp (fun e => e = .panic .surrogate ∧ SurrogateEscape m.rest) (handle6Hex cfg m) s (fun c t =>
      R cfg m t ∧ ((∃ ds v, DigitsAt hexDigit 6 r ds t.rest ∧ Numeral hexDigit 16 ds v ∧ IsScalar v ∧
        c = ⟨canon v, .hex6⟩) ∨
      (c = backslash ∧ t.rest = m.rest ∧ ∀ ds rest v, DigitsAt hexDigit 6 r ds rest →
        Numeral hexDigit 16 ds v → 0x110000 ≤ v))) := by
  unfold handle6Hex
  refine wp_bind (wp_assertStart hmr (by decide) ?_)
  refine wp_bind (wp_mark ?_)
  refine wp_call (digitRun_spec hexTest 6 s hR.wf) (fun _ h => h) fun ok t ht => ?_
  refine wp_ite (fun hok => ?_) (fun hok => ?_)
  · have h2 := ht.2
    rw [if_pos hok] at h2
    obtain ⟨ds, hds⟩ := h2
    obtain ⟨v, hv⟩ := numeral_of_digits (base := 16) hds.2.2
    refine wp_bind (wp_digitsValue hexTest hds hv ?_)
    refine wp_ite (fun hbig => ?_) (fun hbig => ?_)
    · refine wp_bind (wp_seek (wp_pure ⟨R.seek hm (R.refl hm) (R.trans hm hR ht.1), Or.inr ⟨rfl, rfl, ?_⟩⟩))
      intro ds' rest' v' hd' hn'
      have : ds' = ds := by
        have e := hd'.1
        rw [← hsr, hds.1] at e
        exact (List.append_inj_left e (by rw [hds.2.1, hd'.2.1])).symm
      subst this
      have e1 := digitsValue_spec hexTest hv [] (s := m)
      have e2 := digitsValue_spec hexTest hn' [] (s := m)
      rw [e1] at e2
      cases e2
      omega
    · refine wp_bind ?_
      unfold fromU32
      refine wp_ite (fun hsc => wp_pure ?_) (fun hsc => wp_panic ?_)
      · exact wp_pure ⟨R.trans hm hR ht.1, Or.inl ⟨ds, v, hsr ▸ hds, hv, hsc, by rw [canonPoint_eq]⟩⟩
      · refine ⟨rfl, ?_⟩
        rw [hmr, ← hsr, hds.1]
        exact .hex6 hds.2.1 hv ⟨by omega, by omega⟩
  · have h2 := ht.2
    rw [if_neg hok] at h2
    refine wp_bind (wp_seek (wp_pure ⟨R.seek hm (R.refl hm) (R.trans hm hR ht.1), Or.inr ⟨rfl, rfl, ?_⟩⟩))
    intro ds rest v hd _
    rw [← hsr] at hd
    exact absurd hd (h2 ds rest)

theorem handleOctal_spec {cfg : Cfg} {m s : St} {b : UInt8} {r : List UInt8} (hm : WF m)
    (hmr : m.rest = b :: r) (hb : (octDigit b).isSome = true) (hR : R cfg m s) (hsr : s.rest = r) :
    wp (fun e => e = .panic .surrogate ∧ SurrogateEscape m.rest) (handleOctal cfg m) s (fun c t =>
      R cfg m t ∧ ((∃ ds v, DigitsAt octDigit 3 m.rest ds t.rest ∧ Numeral octDigit 8 ds v ∧
        c = ⟨canon v, .octal⟩) ∨
      (c = backslash ∧ t.rest = m.rest ∧ ∀ ds rest, ¬ DigitsAt octDigit 3 m.rest ds rest))) := by
  unfold handleOctal
  refine wp_bind (wp_assertStart hmr (by rw [octDigit_isOctal] at hb; exact hb) ?_)
  refine wp_call (digitRun_spec octTest 2 s hR.wf) (fun _ h => h) fun ok t ht => ?_
  refine wp_ite (fun hok => ?_) (fun hok => ?_)
  · have h2 := ht.2
    rw [if_pos hok] at h2
    obtain ⟨ds, hds⟩ := h2
    have hds' : DigitsAt octDigit 3 m.rest (b :: ds) t.rest := by
      refine ⟨?_, by simp [hds.2.1], ?_⟩
      · rw [hmr, ← hsr, hds.1]; rfl
      · intro x hx
        rcases List.mem_cons.mp hx with rfl | hx
        · exact hb
        · exact hds.2.2 x hx
    obtain ⟨v, hv⟩ := numeral_of_digits (base := 8) hds'.2.2
    have hlt := Numeral.lt octDigit_lt hv
    rw [hds'.2.1] at hlt
    refine wp_bind (wp_digitsValue octTest hds' hv ?_)
    refine wp_bind ?_
    unfold fromU32
    refine wp_ite (fun hsc => wp_pure ?_) (fun hsc => absurd (Or.inl (by omega)) hsc)
    exact wp_pure ⟨R.trans hm hR ht.1, Or.inl ⟨_, v, hds', hv, by rw [canonPoint_eq]⟩⟩
  · have h2 := ht.2
    rw [if_neg hok] at h2
    refine wp_bind (wp_seek (wp_pure ⟨R.seek hm (R.refl hm) (R.trans hm hR ht.1), Or.inr ⟨rfl, rfl, ?_⟩⟩))
    rintro ds rest ⟨h3, h4, h5⟩
    cases ds with
    | nil => simp at h4
    | cons d ds =>
      rw [hmr] at h3
      simp only [List.cons_append, List.cons.injEq] at h3
      refine h2 ds rest ⟨by rw [hsr]; exact h3.2, by simpa using h4, fun x hx => h5 x (by simp [hx])⟩

/-! ### Long names -/

/-- ASCII letters and digits. -/
def alnumByte (b : UInt8) : Bool := (CP.char b.toNat).isAlphaOrDigit

theorem alnumByte_lt {b : UInt8} (h : alnumByte b = true) : b.toNat < 0x80 ∧ b.toNat ≠ 13 ∧ b.toNat ≠ 0x5d := by
  simp [alnumByte, CP.isAlphaOrDigit, inR] at h
  omega

theorem longNameTail_spec {cfg : Cfg} {E : Err → Prop} {s : St} (hs : WF s) :
    wp E (longNameTail cfg) s (fun ok t => R cfg s t ∧
      (ok = true → ∃ r, t.rest = byte ']' :: r) ∧
      (∀ tl rest, s.rest = tl ++ byte ']' :: rest → (∀ b ∈ tl, alnumByte b = true) →
        ok = true ∧ t.rest = byte ']' :: rest)) := by
  unfold longNameTail
  refine wp_loop (fun _ t => R cfg s t ∧ ∀ tl rest, s.rest = tl ++ byte ']' :: rest →
      (∀ b ∈ tl, alnumByte b = true) → ∃ tl', t.rest = tl' ++ byte ']' :: rest ∧
        (∀ b ∈ tl', alnumByte b = true)) (fun _ t => t.rest.length)
    ⟨R.refl hs, fun tl rest h1 h2 => ⟨tl, h1, h2⟩⟩ (by omega) ?_
  rintro ⟨⟩ t ⟨hR, hI⟩
  refine wp_bind (wp_peekSrc' hR.wf fun c u hc hur hul hue hRu hn => ?_)
  refine wp_ite (fun ha => ?_) (fun ha => ?_)
  · refine wp_bind (wp_src' hRu.wf fun c' v hc' hv hRv => wp_pure ⟨⟨?_, ?_⟩, ?_⟩)
    · exact R.trans hs hR (R.trans hR.wf hRu hRv)
    · intro tl rest h1 h2
      obtain ⟨tl', h3, h4⟩ := hI tl rest h1 h2
      cases tl' with
      | nil =>
        have := ns_byte (cfg := cfg) hR.wf (b := byte ']') (r := rest) (by rw [h3]; rfl) (by decide) (fun h => absurd h (by decide))
        rw [this] at hc
        subst hc
        simp [CP.isAlphaOrDigitSrc, CP.isAlphaOrDigit, inR, byte] at ha
      | cons x tl' =>
        have hx := h4 x (by simp)
        have hxl := alnumByte_lt hx
        have := ns_byte (cfg := cfg) hRu.wf (b := x) (r := tl' ++ byte ']' :: rest)
          (by rw [hur, h3]; rfl) hxl.1 (by omega)
        rw [this] at hv
        refine ⟨tl', by rw [hv], fun b hb => h4 b (by simp [hb])⟩
    · have hne : u.rest ≠ [] := by
        intro h
        have := (ns_eof (cfg := cfg) hRu.wf).mpr h
        rw [hn] at this
        subst this
        simp [CP.isAlphaOrDigitSrc] at ha
      have := ns_len (cfg := cfg) hRu.wf hne
      rw [← hv, hur] at this
      exact this
  · refine wp_pure ⟨R.trans hs hR hRu, ?_, ?_⟩
    · intro hok
      simp only [beq_iff_eq] at hok
      rw [hok] at hn
      obtain ⟨b, r, h1, h2, _⟩ := ns_char hRu.wf hn (by decide)
      exact ⟨r, by rw [h1]; congr 1; exact UInt8.toNat_inj.mp h2⟩
    · intro tl rest h1 h2
      obtain ⟨tl', h3, h4⟩ := hI tl rest h1 h2
      cases tl' with
      | nil =>
        have := ns_byte (cfg := cfg) hR.wf (b := byte ']') (r := rest) (by rw [h3]; rfl) (by decide) (fun h => absurd h (by decide))
        rw [this] at hc
        refine ⟨?_, by rw [hur, h3]; rfl⟩
        rw [hc]; rfl
      | cons x tl' =>
        have hx := h4 x (by simp)
        have hxl := alnumByte_lt hx
        have := ns_byte (cfg := cfg) hR.wf (b := x) (r := tl' ++ byte ']' :: rest)
          (by rw [h3]; rfl) hxl.1 (by omega)
        rw [this] at hc
        subst hc
        simp only [CP.isAlphaOrDigitSrc] at ha
        rw [if_pos (by omega)] at ha
        exact absurd hx ha

set_option maxRecDepth 100000 in
/-- Every registered name is an upper case letter followed by letters and digits. -/
theorem longNameTable_shape : ∀ e ∈ longNameTable, ∃ c cs, e.1 = c :: cs ∧
    (CP.char c.toNat).isUpper = true ∧ (∀ x ∈ c :: cs, (CP.char x.toNat).isAlphaOrDigit = true) := by
  have : (longNameTable.all fun e => match e.1 with
      | [] => false
      | c :: cs => (CP.char c.toNat).isUpper &&
        (c :: cs).all fun x => (CP.char x.toNat).isAlphaOrDigit) = true := by decide +kernel
  intro e he
  have := List.all_eq_true.mp this e he
  cases h : e.1 with
  | nil => rw [h] at this; simp at this
  | cons c cs =>
    rw [h] at this
    simp only [Bool.and_eq_true] at this
    exact ⟨c, cs, rfl, this.1, fun x hx => List.all_eq_true.mp this.2 x hx⟩

theorem byte_toNat {c : Char} (h : c.toNat < 128) : (byte c).toNat = c.toNat := by
  simp [byte]; omega

theorem alnum_lt {x : Char} (h : (CP.char x.toNat).isAlphaOrDigit = true) : x.toNat < 128 := by
  simp [CP.isAlphaOrDigit, inR] at h; omega

theorem between_append {s t : St} {p : List UInt8} (h : s.rest = p ++ t.rest) : between s t = p := by
  simp [between, h]

theorem bytes_inj {a b : List Char} (ha : ∀ c ∈ a, c.toNat < 128) (hb : ∀ c ∈ b, c.toNat < 128)
    (h : bytes a = bytes b) : a = b := by
  have h1 := Props.bytes_toNat ha
  have h2 := Props.bytes_toNat hb
  rw [h] at h1
  rw [h1] at h2
  exact List.map_inj_right (fun _ _ h => Char.toNat_inj.mp h) |>.mp h2

theorem handleLongName_spec {cfg : Cfg} {m s : St} {r : List UInt8} (hm : WF m)
    (hmr : m.rest = byte '[' :: r) (hR : R cfg m s) (hsr : s.rest = r) :
    wp (fun e => e = .panic .surrogate ∧ SurrogateEscape m.rest) (handleLongName cfg m) s (fun c t =>
      R cfg m t ∧ ((∃ name p, (name, p) ∈ longNameTable ∧ r = bytes name ++ byte ']' :: t.rest ∧
        c = ⟨p, if name ∈ rawSet then .raw else .longName⟩) ∨
      (c = backslash ∧ t.rest = m.rest ∧ ∀ name p rest, (name, p) ∈ longNameTable →
        r ≠ bytes name ++ byte ']' :: rest))) := by
  unfold handleLongName
  refine wp_bind (wp_assertStart hmr (by decide) ?_)
  refine wp_bind (wp_mark ?_)
  refine wp_bind (wp_peekSrc' hR.wf fun c t hc htr _ _ hRt hn => ?_)
  -- the state behind the (candidate) name
  have hname : wp (fun e => e = .panic .surrogate ∧ SurrogateEscape m.rest)
      (longNameScan cfg c) t (fun ok u => R cfg s u ∧
          (ok = true → ∃ r', u.rest = byte ']' :: r') ∧
          (∀ name p rest, (name, p) ∈ longNameTable → r = bytes name ++ byte ']' :: rest →
            ok = true ∧ u.rest = byte ']' :: rest)) := by
    unfold longNameScan
    refine wp_ite (fun hu => ?_) (fun hu => ?_)
    · refine wp_bind (wp_src' hRt.wf fun c' v hc' hv hRv => ?_)
      refine wp_mono (longNameTail_spec hRv.wf) (fun _ h => False.elim h) fun ok w hw => ?_
      refine ⟨R.trans hR.wf hRt (R.trans hRt.wf hRv hw.1), hw.2.1, ?_⟩
      intro name p rest hmem hr
      obtain ⟨x, xs, hx, hxu, hxa⟩ := longNameTable_shape _ hmem
      simp only at hx
      subst hx
      have hxl := alnum_lt (hxa x (by simp))
      refine hw.2.2 (bytes xs) rest ?_ ?_
      · have := ns_byte (cfg := cfg) hRt.wf (b := byte x) (r := bytes xs ++ byte ']' :: rest)
          (by rw [htr, hsr, hr]; rfl) (by rw [byte_toNat hxl]; omega) (by
            rw [byte_toNat hxl]; intro h
            have := hxa x (by simp); rw [h] at this; simp [CP.isAlphaOrDigit, inR] at this)
        rw [hv, this]
      · intro b hb
        simp only [bytes, List.mem_map] at hb
        obtain ⟨y, hy, rfl⟩ := hb
        have hya := hxa y (by simp [hy])
        rw [alnumByte, byte_toNat (alnum_lt hya)]; exact hya
    · have hno : ∀ name p rest, (name, p) ∈ longNameTable → r ≠ bytes name ++ byte ']' :: rest := by
        intro name p rest hmem hr
        obtain ⟨x, xs, hx, hxu, hxa⟩ := longNameTable_shape _ hmem
        simp only at hx
        subst hx
        have hxl := alnum_lt (hxa x (by simp))
        have := ns_byte (cfg := cfg) hR.wf (b := byte x) (r := bytes xs ++ byte ']' :: rest)
          (by rw [hsr, hr]; rfl) (by rw [byte_toNat hxl]; omega) (by
            rw [byte_toNat hxl]; intro h
            have := hxa x (by simp); rw [h] at this; simp [CP.isAlphaOrDigit, inR] at this)
        rw [this] at hc
        rw [hc] at hu
        simp only [byte_toNat hxl] at hu
        exact hu hxu
      refine wp_ite (fun _ => ?_) (fun _ => ?_)
      · refine wp_bind (wp_src' hRt.wf fun c' v hc' hv hRv => ?_)
        refine wp_bind (wp_peekSrc' hRv.wf fun c'' w _ _ _ _ hRw _ => wp_pure ?_)
        exact ⟨R.trans hR.wf hRt (R.trans hRt.wf hRv hRw), by simp,
          fun name p rest h1 h2 => absurd h2 (hno name p rest h1)⟩
      · exact wp_pure ⟨hRt, by simp, fun name p rest h1 h2 => absurd h2 (hno name p rest h1)⟩
  refine wp_call hname (fun _ h => h) fun ok u hu => ?_
  have hRu := R.trans hm hR hu.1
  cases ok with
  | false =>
    simp only [Bool.not_false, if_true]
    refine wp_bind (wp_seek (wp_pure ⟨R.seek hm (R.refl hm) hRu, Or.inr ⟨rfl, rfl, ?_⟩⟩))
    intro name p rest h1 h2
    have := hu.2.2 name p rest h1 h2
    simp at this
  | true =>
    simp only [Bool.not_true, Bool.false_eq_true, if_false]
    obtain ⟨pre, hpre⟩ := hu.1.suffix hR.wf
    have hbt : between s u = pre := between_append hpre
    refine wp_bind (wp_mark ?_)
    simp only [hbt]
    cases hl : longnameToCodepoint pre with
    | none =>
      refine wp_bind (wp_seek (wp_pure ⟨R.seek hm (R.refl hm) hRu, Or.inr ⟨rfl, rfl, ?_⟩⟩))
      intro name p rest h1 h2
      have h3 := (hu.2.2 name p rest h1 h2).2
      have h4 : pre = bytes name := by
        rw [hsr, h2, h3] at hpre
        exact (List.append_cancel_right hpre).symm
      have := Props.C14_longname.mpr ⟨name, h1, h4⟩
      rw [hl] at this; cases this
    | some p =>
      obtain ⟨name, hmem, hnm⟩ := Props.C14_longname.mp hl
      obtain ⟨r', hr'⟩ := hu.2.1 rfl
      have hns := ns_byte (cfg := cfg) hu.1.wf hr' (by decide) (fun h => absurd h (by decide))
      refine wp_bind (wp_src' hu.1.wf fun c' v hc' hv hRv => wp_pure ⟨R.trans hm hRu hRv, Or.inl ?_⟩)
      refine ⟨name, p, hmem, ?_, ?_⟩
      · rw [← hsr, hpre, hnm, hr', hv, hns]
      · congr 1
        by_cases hraw : name ∈ rawSet
        · rw [if_pos hraw, if_pos (Props.C14_raw.mpr ⟨name, hraw, hnm⟩)]
        · rw [if_neg hraw, if_neg]
          intro h
          obtain ⟨n', hn', hb'⟩ := Props.C14_raw.mp h
          have : name = n' := bytes_inj (Props.longNameTable_ascii _ hmem) (Props.rawSet_ascii _ hn')
            (hnm ▸ hb')
          exact hraw (this ▸ hn')

end CodeParser
