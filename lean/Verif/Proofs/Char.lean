import Verif.Proofs.Wp
import Verif.Spec.Char
import Verif.Props.LongNames
import Mathlib.Data.List.Induction
/-!
Helper lemmas about the character decoder (not property statements).
-/
namespace CodeParser
open Spec

theorem St.ext' {s t : St} (h1 : s.rest = t.rest) (h2 : s.loc = t.loc) (h3 : s.eof = t.eof)
    (h4 : s.flag = t.flag) : s = t := by
  obtain ⟨_, _, _, _⟩ := s; obtain ⟨_, _, _, _⟩ := t; simp_all

theorem WF.eof_false {s : St} (h : WF s) (hne : s.rest ≠ []) : s.eof = false := by
  cases he : s.eof
  · rfl
  · exact absurd (h he) hne

/-- Reading in front of an ASCII byte. -/
theorem ns_byte {cfg : Cfg} {s : St} {b : UInt8} {r : List UInt8} (hs : WF s) (hr : s.rest = b :: r)
    (hb : b.toNat < 0x80) (h13 : b.toNat = 13 → r.head? ≠ some 10) :
    nextSource cfg s = (.char b.toNat, ⟨r, locUpd cfg (.char b.toNat) s.loc, false, s.flag⟩) := by
  obtain ⟨c, hc, he⟩ := enc_ascii b.toNat (by omega)
  have hs' : s = ⟨String.utf8EncodeChar c ++ r, s.loc, false, s.flag⟩ := by
    refine St.ext' ?_ rfl (hs.eof_false (by simp [hr])) rfl
    rw [he, hr]; simp
  rw [hs', nextSource_enc (by omega) (by rintro rfl; exact h13 (by rw [← hc]; rfl))]
  simp [hc]

/-- If reading gives an ASCII character, its byte was in front. -/
theorem ns_char {cfg : Cfg} {s : St} {n : Nat} (hs : WF s) (h : (nextSource cfg s).1 = .char n)
    (hn : n < 0x80) : ∃ b r, s.rest = b :: r ∧ b.toNat = n ∧ (n = 13 → r.head? ≠ some 10) ∧
      (nextSource cfg s).2 = ⟨r, locUpd cfg (.char n) s.loc, false, s.flag⟩ := by
  by_cases hne : s.rest = []
  · rw [nextSource_nil hne] at h; cases h
  · have hd := nextSource_Dec (cfg := cfg) hs hne
    generalize nextSource cfg s = p at h hd
    cases hd with
    | valid c rest h1 h2 h3 =>
      simp only [CP.char.injEq] at h; subst h
      have he : String.utf8EncodeChar c = [UInt8.ofNat c.toNat] := by
        unfold String.utf8EncodeChar
        simp only [enc_val]
        rw [if_pos (by omega)]
      refine ⟨UInt8.ofNat c.toNat, rest, by rw [h1, he]; rfl, by simp; omega, ?_, rfl⟩
      intro h; exact h3 (Char.toNat_inj.mp h)
    | crlf rest h1 => cases h
    | invalid c pre rest e u h1 h2 hl h3 h4 =>
      simp only at h; subst h; simp [CP.isUnsafe] at h1

/-- The end of file is reported only at the end. -/
theorem ns_eof {cfg : Cfg} {s : St} (hs : WF s) : (nextSource cfg s).1 = .eof ↔ s.rest = [] := by
  constructor
  · intro h
    by_cases hne : s.rest = []
    · exact hne
    · have hd := nextSource_Dec (cfg := cfg) hs hne
      generalize nextSource cfg s = p at h hd
      cases hd with
      | valid c rest h1 h2 h3 => cases h
      | crlf rest h1 => cases h
      | invalid c pre rest e u h1 h2 hl h3 h4 => simp only at h; subst h; simp [CP.isUnsafe] at h1
  · intro h; rw [nextSource_nil h]

theorem ns_crlf {cfg : Cfg} {s : St} (hs : WF s) (h : (nextSource cfg s).1 = .crlf) :
    ∃ r, s.rest = 13 :: 10 :: r ∧ (nextSource cfg s).2 = ⟨r, s.loc.windowsNewline, false, s.flag⟩ := by
  by_cases hne : s.rest = []
  · rw [nextSource_nil hne] at h; cases h
  · have hd := nextSource_Dec (cfg := cfg) hs hne
    generalize nextSource cfg s = p at h hd
    cases hd with
    | valid c rest h1 h2 h3 => cases h
    | crlf rest h1 => exact ⟨rest, h1, rfl⟩
    | invalid c pre rest e u h1 h2 hl h3 h4 => simp only at h; subst h; simp [CP.isUnsafe] at h1

theorem ns_len {cfg : Cfg} {s : St} (hs : WF s) (hne : s.rest ≠ []) :
    (nextSource cfg s).2.rest.length < s.rest.length := by
  obtain ⟨p, hp, hpn⟩ := nextSource_rest (cfg := cfg) hs
  rw [hp]
  have := List.length_pos_iff.mpr (hpn hne)
  simp; omega

/-- The possible source characters. -/
theorem ns_kinds {cfg : Cfg} {s : St} (hs : WF s) : (∃ n, (nextSource cfg s).1 = .char n) ∨
    (nextSource cfg s).1 = .crlf ∨ (nextSource cfg s).1 = .eof ∨ (nextSource cfg s).1.isUnsafe = true := by
  by_cases hne : s.rest = []
  · rw [nextSource_nil hne]; simp
  · have hd := nextSource_Dec (cfg := cfg) hs hne
    generalize nextSource cfg s = p at hd
    cases hd with
    | valid c rest h1 h2 h3 => exact Or.inl ⟨_, rfl⟩
    | crlf rest h1 => simp
    | invalid c pre rest e u h1 h2 hl h3 h4 => simp [h1]

/-- The state after a peek: the same position. -/
theorem R_peek {cfg : Cfg} {s : St} (hs : WF s) : R cfg s ((nextSource cfg s).2.seek s) :=
  R.seek hs (R.refl hs) (R_nextSource hs)

theorem wp_src' {E : Err → Prop} {cfg : Cfg} {s : St} {Q : CP → St → Prop} (hs : WF s)
    (h : ∀ c t, c = (nextSource cfg s).1 → t = (nextSource cfg s).2 → R cfg s t → Q c t) :
    wp E (src cfg) s Q := wp_src (h _ _ rfl rfl (R_nextSource hs))

theorem wp_peekSrc' {E : Err → Prop} {cfg : Cfg} {s : St} {Q : CP → St → Prop} (hs : WF s)
    (h : ∀ c t, c = (nextSource cfg s).1 → t.rest = s.rest → t.loc = s.loc → t.eof = s.eof →
      R cfg s t → (nextSource cfg t).1 = c → Q c t) :
    wp E (peekSrc cfg) s Q :=
  wp_peekSrc (h _ _ rfl rfl rfl rfl (R_peek hs)
    (nextSource_WF_congr (R_peek hs).wf hs rfl rfl).1)

/-! ### Digit runs -/

theorem hexDigit_isHex {b : UInt8} : (hexDigit b).isSome = (CP.char b.toNat).isHex := by
  simp only [hexDigit, CP.isHex, inR]
  split
  · simp; omega
  · split
    · simp; omega
    · split
      · simp; omega
      · simp; omega

theorem octDigit_isOctal {b : UInt8} : (octDigit b).isSome = (CP.char b.toNat).isOctal := by
  simp only [octDigit, CP.isOctal, inR]
  split
  · simp; omega
  · simp; omega

theorem inR_iff {lo hi n : Nat} : inR lo hi n = true ↔ lo ≤ n ∧ n ≤ hi := by simp [inR]

theorem hexDigit_toDigit {b : UInt8} {d : Nat} (h : hexDigit b = some d) : toDigit b = d := by
  simp only [hexDigit] at h
  simp only [toDigit, inR_iff]
  split at h
  · cases h; simp [*]
  · split at h
    · cases h
      rename_i h1 h2
      rw [if_neg (by omega), if_pos (by omega)]; omega
    · split at h
      · cases h
        rw [if_neg (by omega), if_neg (by omega), if_pos (by omega)]; omega
      · cases h

theorem octDigit_toDigit {b : UInt8} {d : Nat} (h : octDigit b = some d) : toDigit b = d := by
  simp only [octDigit] at h
  simp only [toDigit, inR_iff]
  split at h
  · cases h
    rw [if_pos (by omega)]
  · cases h

/-- A digit test on characters that agrees with a digit value on bytes. -/
structure DigitTest (isDig : CP → Bool) (digit : UInt8 → Option Nat) : Prop where
  ascii : ∀ c, isDig c = true → ∃ n, c = .char n ∧ n < 0x80 ∧ n ≠ 13
  iff : ∀ b : UInt8, (digit b).isSome = isDig (.char b.toNat)
  val : ∀ b d, digit b = some d → toDigit b = d

theorem hexTest : DigitTest CP.isHex hexDigit where
  ascii c h := by
    cases c <;> simp [CP.isHex, inR] at h
    rename_i n; exact ⟨n, rfl, by omega, by omega⟩
  iff _ := hexDigit_isHex
  val _ _ := hexDigit_toDigit

theorem octTest : DigitTest CP.isOctal octDigit where
  ascii c h := by
    cases c <;> simp [CP.isOctal, inR] at h
    rename_i n; exact ⟨n, rfl, by omega, by omega⟩
  iff _ := octDigit_isOctal
  val _ _ := octDigit_toDigit

/-- `ds` are `n` digits in front of `r`. -/
def DigitsAt (digit : UInt8 → Option Nat) (n : Nat) (r ds rest : List UInt8) : Prop :=
  r = ds ++ rest ∧ ds.length = n ∧ ∀ b ∈ ds, (digit b).isSome = true

theorem digitRun_spec {isDig digit} (T : DigitTest isDig digit) {cfg : Cfg} {E : Err → Prop} (n : Nat) :
    ∀ s, WF s → wp E (digitRun cfg isDig n) s (fun ok t => R cfg s t ∧
      if ok = true then ∃ ds, DigitsAt digit n s.rest ds t.rest
      else ∀ ds rest, ¬ DigitsAt digit n s.rest ds rest) := by
  induction n with
  | zero =>
    intro s hs
    exact wp_pure ⟨R.refl hs, by simp [DigitsAt]⟩
  | succ n ih =>
    intro s hs
    refine wp_bind (wp_peekSrc' hs fun c t hc hr hl he hR hn => ?_)
    refine wp_ite (fun hd => ?_) (fun hd => ?_)
    · refine wp_bind (wp_src' hR.wf fun c' u hc' hu hRu => ?_)
      obtain ⟨m, hm, hlt, h13⟩ := T.ascii c hd
      subst hm
      obtain ⟨b, r, hbr, hbn, _, hst⟩ := ns_char hR.wf hn hlt
      have hbd : (digit b).isSome = true := by rw [T.iff, hbn]; exact hd
      refine wp_mono (ih u hRu.wf) (fun _ h => h) fun ok v hv => ?_
      refine ⟨R.trans hs hR (R.trans hR.wf hRu hv.1), ?_⟩
      have hur : u.rest = r := by rw [hu, hst]
      have hsr : s.rest = b :: r := by rw [← hr, hbr]
      cases ok with
      | true =>
        have hv2 := hv.2
        simp only [if_true] at hv2 ⊢
        obtain ⟨ds, h1, h2, h3⟩ := hv2
        refine ⟨b :: ds, ?_, by simp [h2], ?_⟩
        · rw [hsr, ← hur, h1]; rfl
        · intro x hx
          rcases List.mem_cons.mp hx with rfl | hx
          · exact hbd
          · exact h3 x hx
      | false =>
        have hv2 := hv.2
        simp only [Bool.false_eq_true, if_false] at hv2 ⊢
        rintro ds rest ⟨h1, h2, h3⟩
        cases ds with
        | nil => simp at h2
        | cons d ds =>
          rw [hsr] at h1
          simp only [List.cons_append, List.cons.injEq] at h1
          refine hv2 ds rest ⟨by rw [hur]; exact h1.2, by simpa using h2, fun x hx => h3 x (by simp [hx])⟩
    · refine wp_pure ⟨hR, ?_⟩
      simp only [Bool.false_eq_true, if_false]
      rintro ds rest ⟨h1, h2, h3⟩
      cases ds with
      | nil => simp at h2
      | cons d ds =>
        have hdd := h3 d (by simp)
        rw [T.iff] at hdd
        obtain ⟨m, hm, hlt, h13⟩ := T.ascii _ hdd
        simp only [CP.char.injEq] at hm
        have := ns_byte (cfg := cfg) hs (b := d) (r := ds ++ rest) (by rw [h1]; rfl) (by omega) (by omega)
        rw [this] at hc
        simp only at hc
        rw [hc] at hd
        exact hd hdd

theorem numeral_of_digits {digit : UInt8 → Option Nat} {base : Nat} {ds : List UInt8}
    (h : ∀ b ∈ ds, (digit b).isSome = true) : ∃ v, Numeral digit base ds v := by
  induction ds using List.reverseRecOn with
  | nil => exact ⟨0, .nil⟩
  | append_singleton ds b ih =>
    obtain ⟨v, hv⟩ := ih fun x hx => h x (by simp [hx])
    obtain ⟨d, hd⟩ := Option.isSome_iff_exists.mp (h b (by simp))
    exact ⟨_, .snoc hv hd⟩

theorem Numeral.digits {digit : UInt8 → Option Nat} {base : Nat} {ds : List UInt8} {v : Nat}
    (h : Numeral digit base ds v) : ∀ b ∈ ds, (digit b).isSome = true := by
  induction h with
  | nil => simp
  | snoc _ hd ih =>
    intro b hb
    rcases List.mem_append.mp hb with hb | hb
    · exact ih b hb
    · simp at hb; subst hb; rw [hd]; rfl

theorem digitsValue_spec {isDig digit} (T : DigitTest isDig digit) {base : Nat} {ds : List UInt8} {v : Nat}
    (h : Numeral digit base ds v) (rest : List UInt8) {s : St} :
    digitsValue base (ds ++ rest) ds.length s = .ok (v, s) := by
  induction h generalizing rest with
  | nil => rfl
  | @snoc ds v b d hds hd ih =>
    have h1 : (ds ++ [b]).length = ds.length + 1 := by simp
    rw [h1]
    have h2 := ih (b :: rest)
    have h3 : ds ++ [b] ++ rest = ds ++ b :: rest := by simp
    rw [h3]
    show M.bind _ _ s = _
    unfold M.bind
    rw [h2]
    show M.bind (byteAt _ _) _ s = _
    have h4 : (ds ++ b :: rest)[ds.length]? = some b := by simp
    simp only [byteAt, h4]
    show Except.ok (v * base + toDigit b, s) = _
    rw [T.val b d hd]

theorem Numeral.lt {digit : UInt8 → Option Nat} {base : Nat} {ds : List UInt8} {v : Nat}
    (hb : ∀ b d, digit b = some d → d < base) (h : Numeral digit base ds v) : v < base ^ ds.length := by
  induction h with
  | nil => simp
  | @snoc ds v b d hds hd ih =>
    have := hb b d hd
    simp only [List.length_append, List.length_cons, List.length_nil, Nat.zero_add, Nat.pow_succ]
    have h2 : v * base + base ≤ base ^ ds.length * base := by
      have : v + 1 ≤ base ^ ds.length := ih
      calc v * base + base = (v + 1) * base := by rw [Nat.add_mul, Nat.one_mul]
        _ ≤ _ := Nat.mul_le_mul_right base this
    omega

theorem hexDigit_lt (b : UInt8) (d : Nat) (h : hexDigit b = some d) : d < 16 := by
  simp only [hexDigit] at h
  split at h
  · cases h; omega
  · split at h
    · cases h; omega
    · split at h
      · cases h; omega
      · cases h

theorem octDigit_lt (b : UInt8) (d : Nat) (h : octDigit b = some d) : d < 8 := by
  simp only [octDigit] at h
  split at h
  · cases h; omega
  · cases h

end CodeParser
