import Verif.Model.Reader
/-!
Helper lemmas about the byte decoder (not property statements).
-/
namespace CodeParser

/-- Invariant of the reader: the end-of-file latch is only set at the end. -/
def WF (s : St) : Prop := s.eof = true → s.rest = []

/-- How a decoded character moves the location. -/
def locUpd (cfg : Cfg) (c : CP) (l : Loc) : Loc :=
  match c with
  | .char 9 => l.tab cfg
  | .char 10 => l.newline
  | .char 13 => l.newline
  | .crlf => l.windowsNewline
  | .eof => l
  | _ => l.increment

/-- Decoding one character at the front of `bs`, in a normalised reader state:
the character, what remains, and the complaint raised, if any. -/
def dec (bs : List UInt8) : CP × List UInt8 × Option Unsafe :=
  let r := nextSource Cfg.default ⟨bs, .index 1, false, none⟩
  (r.1, r.2.rest, r.2.flag)

/-- The characters standing for undecodable bytes. -/
def CP.isUnsafe : CP → Bool
  | .unsafe1 | .unsafe2 | .unsafe3 => true
  | _ => false

theorem locUpd_char {cfg n l} (h : n ≠ 9) (h2 : n ≠ 10) (h3 : n ≠ 13) :
    locUpd cfg (.char n) l = l.increment := by
  unfold locUpd; split <;> simp_all

theorem locUpd_unsafe {cfg c l} (h : c.isUnsafe = true) : locUpd cfg c l = l.increment := by
  cases c <;> simp_all [CP.isUnsafe, locUpd]

theorem nextSource_nil {cfg s} (h : s.rest = []) :
    nextSource cfg s = (.eof, {s with eof := true}) := by
  simp [nextSource, currentByte, nextSourceUncommon, nextByte, h, inR]

/-- What one of the multi-byte decoders may do to the state `s` just behind the
first byte `b`. -/
inductive MB (b : UInt8) (s : St) : CP × St → Prop
  | valid (pre : List UInt8) (ch : Char) (rest : List UInt8) :
      s.rest = pre ++ rest → b :: pre = String.utf8EncodeChar ch → 0x7f < ch.toNat →
      ch.toNat ≠ 0xfeff →
      MB b s (.char ch.toNat, ⟨rest, s.loc.increment, false, s.flag⟩)
  | invalid (c : CP) (pre rest : List UInt8) (e : Bool) (u : Unsafe) :
      c.isUnsafe = true → (pre.length ≤ 2 ∧ ∀ x ∈ pre, 0x80 ≤ x.toNat) → s.rest = pre ++ rest →
      (e = true → rest = []) →
      MB b s (c, ⟨rest, s.loc.increment, e, some u⟩)

theorem MB.ite {b s} {c : Prop} [Decidable c] {x y} (h1 : c → MB b s x) (h2 : ¬ c → MB b s y) :
    MB b s (if c then x else y) := by
  by_cases h : c
  · rw [if_pos h]; exact h1 h
  · rw [if_neg h]; exact h2 h

theorem u8_eq {a b : UInt8} (h : a.toNat = b.toNat) : a = b := UInt8.toNat_inj.mp h

/-- The character with a given scalar value. -/
theorem exists_char {n : Nat} (h : n < 0xd800 ∨ (0xdfff < n ∧ n < 0x110000)) :
    ∃ ch : Char, ch.toNat = n := ⟨Char.ofNat n, by
      have : n.isValidChar := by unfold Nat.isValidChar; omega
      simp [Char.ofNat, this, Char.toNat, Char.ofNatAux, UInt32.toNat]⟩

theorem enc_val (ch : Char) : ch.val.toNat = ch.toNat := rfl

theorem char_valid (ch : Char) : ch.toNat < 0xd800 ∨ (0xdfff < ch.toNat ∧ ch.toNat < 0x110000) := ch.valid

/-- Closes the side condition on the bytes consumed by an undecodable sequence. -/
macro "pre_ok" : tactic => `(tactic| (simp_all [inRange, inR] <;> omega))

theorem decode2_MB {b : UInt8} {s : St} (hs : s.eof = false)
    (hb : 0xc2 ≤ b.toNat) (hb2 : b.toNat ≤ 0xdf) : MB b s (decode2 b s) := by
  obtain ⟨rest, loc, eof, flag⟩ := s
  simp only at hs; subst hs
  rcases rest with _ | ⟨x, xs⟩
  · exact MB.invalid .unsafe1 [] [] true _ rfl (by simp) rfl (fun _ => rfl)
  · simp +instances only [decode2, nextByte, St.seek, invalidChar, validChar, Bool.false_eq_true, reduceIte]
    refine MB.ite (fun h => ?_) (fun h => ?_)
    · exact MB.invalid .unsafe1 [] (x :: xs) false _ rfl (by simp) rfl (by simp)
    · simp [inRange, inR] at h
      have hx := x.toNat_lt
      have h1 := h.1
      have h2 := h.2
      clear h
      obtain ⟨ch, hch⟩ := exists_char (n := (b.toNat % 0x20) * 0x40 + x.toNat % 0x40) (by omega)
      rw [← hch]
      refine MB.valid [x] ch xs rfl ?_ (by omega) (by omega)
      unfold String.utf8EncodeChar
      simp +instances only [enc_val, hch]
      rw [if_neg (by omega), if_pos (by omega)]
      congr 1
      · apply u8_eq; simp; omega
      · congr 1; apply u8_eq; simp; omega

theorem decode3_MB {lo ck} {b : UInt8} {s : St} (hs : s.eof = false)
    (hb : (lo = 0xa0 ∧ b.toNat = 0xe0) ∨ (lo = 0x80 ∧ ck = true ∧ 0xe1 ≤ b.toNat ∧ b.toNat ≤ 0xef)) :
    MB b s (decode3 lo ck b s) := by
  obtain ⟨rest, loc, eof, flag⟩ := s
  simp only at hs; subst hs
  rcases rest with _ | ⟨x, xs⟩
  · exact MB.invalid .unsafe1 [] [] true _ rfl (by simp) rfl (fun _ => rfl)
  · simp +instances only [decode3, nextByte, St.seek, invalidChar, validChar, Bool.false_eq_true, reduceIte]
    refine MB.ite (fun h => ?_) (fun h => ?_)
    · exact MB.invalid .unsafe1 [] (x :: xs) false _ rfl (by simp) rfl (by simp)
    rcases xs with _ | ⟨y, ys⟩
    · simp +instances only [reduceIte]
      exact MB.invalid .unsafe2 [x] [] false _ rfl (by pre_ok) rfl (by simp)
    simp +instances only [Bool.false_eq_true, reduceIte]
    refine MB.ite (fun h => ?_) (fun h => ?_)
    · exact MB.invalid .unsafe2 [x] (y :: ys) false _ rfl (by pre_ok) rfl (by simp)
    refine MB.ite (fun h => ?_) (fun h => ?_)
    · exact MB.invalid .unsafe3 [x, y] ys false _ rfl (by pre_ok) rfl (by simp)
    refine MB.ite (fun h => ?_) (fun h => ?_)
    · exact MB.invalid .unsafe3 [x, y] ys false _ rfl (by pre_ok) rfl (by simp)
    · rename_i hx hy hs
      have hf := h
      simp [isStraySurrogate, inRange, inR] at hx hy hs hf
      have hx' := x.toNat_lt
      have hy' := y.toNat_lt
      have hn : b.toNat % 16 * 4096 + x.toNat % 64 * 64 + y.toNat % 64 ≠ 65279 := by
        rcases hb with ⟨h1, h2⟩ | ⟨h1, h2, h3, h4⟩
        · omega
        · exact hf h2
      obtain ⟨ch, hch⟩ := exists_char
        (n := (b.toNat % 0x10) * 0x1000 + (x.toNat % 0x40) * 0x40 + y.toNat % 0x40) (by
          rcases hb with ⟨h1, h2⟩ | ⟨h1, h2, h3, h4⟩
          · omega
          · have := hs h2; omega)
      rw [← hch]
      refine MB.valid [x, y] ch ys rfl ?_ (by omega) (by omega)
      unfold String.utf8EncodeChar
      simp +instances only [enc_val, hch]
      rw [if_neg (by omega), if_neg (by omega), if_pos (by omega)]
      congr 1
      · apply u8_eq; simp; omega
      · congr 1
        · apply u8_eq; simp; omega
        · congr 1; apply u8_eq; simp; omega

theorem decode4_MB {lo hi} {b : UInt8} {s : St} (hs : s.eof = false)
    (hb : (lo = 0x90 ∧ hi = 0xbf ∧ b.toNat = 0xf0) ∨
      (lo = 0x80 ∧ hi = 0xbf ∧ 0xf1 ≤ b.toNat ∧ b.toNat ≤ 0xf3) ∨
      (lo = 0x80 ∧ hi = 0x8f ∧ b.toNat = 0xf4)) :
    MB b s (decode4 lo hi b s) := by
  obtain ⟨rest, loc, eof, flag⟩ := s
  simp only at hs; subst hs
  rcases rest with _ | ⟨x, xs⟩
  · exact MB.invalid .unsafe1 [] [] true _ rfl (by simp) rfl (fun _ => rfl)
  · simp +instances only [decode4, nextByte, St.seek, invalidChar, validChar, Bool.false_eq_true, reduceIte]
    refine MB.ite (fun h => ?_) (fun h => ?_)
    · exact MB.invalid .unsafe1 [] (x :: xs) false _ rfl (by simp) rfl (by simp)
    rcases xs with _ | ⟨y, ys⟩
    · simp +instances only [reduceIte]
      exact MB.invalid .unsafe2 [x] [] false _ rfl (by pre_ok) rfl (by simp)
    simp +instances only [Bool.false_eq_true, reduceIte]
    refine MB.ite (fun h => ?_) (fun h => ?_)
    · exact MB.invalid .unsafe2 [x] (y :: ys) false _ rfl (by pre_ok) rfl (by simp)
    rcases ys with _ | ⟨z, zs⟩
    · simp +instances only [reduceIte]
      exact MB.invalid .unsafe3 [x, y] [] false _ rfl (by pre_ok) rfl (by simp)
    simp +instances only [Bool.false_eq_true, reduceIte]
    refine MB.ite (fun h => ?_) (fun h => ?_)
    · exact MB.invalid .unsafe3 [x, y] (z :: zs) false _ rfl (by pre_ok) rfl (by simp)
    · rename_i hx hy
      have hz := h
      simp [inRange, inR] at hx hy hz
      have hx' := x.toNat_lt
      have hy' := y.toNat_lt
      have hz' := z.toNat_lt
      obtain ⟨ch, hch⟩ := exists_char
        (n := (b.toNat % 0x8) * 0x40000 + (x.toNat % 0x40) * 0x1000
          + (y.toNat % 0x40) * 0x40 + z.toNat % 0x40) (by omega)
      rw [← hch]
      refine MB.valid [x, y, z] ch zs rfl ?_ (by omega) (by omega)
      unfold String.utf8EncodeChar
      simp +instances only [enc_val, hch]
      rw [if_neg (by omega), if_neg (by omega), if_neg (by omega)]
      congr 1
      · apply u8_eq; simp; omega
      · congr 1
        · apply u8_eq; simp; omega
        · congr 1
          · apply u8_eq; simp; omega
          · congr 1; apply u8_eq; simp; omega

/-- What reading one source character from a non-empty rest does. -/
inductive Dec (cfg : Cfg) (s : St) : CP × St → Prop
  | valid (ch : Char) (rest : List UInt8) :
      s.rest = String.utf8EncodeChar ch ++ rest → ch.toNat ≠ 0xfeff →
      (ch = '\r' → rest.head? ≠ some 10) →
      Dec cfg s (.char ch.toNat, ⟨rest, locUpd cfg (.char ch.toNat) s.loc, false, s.flag⟩)
  | crlf (rest : List UInt8) :
      s.rest = 13 :: 10 :: rest →
      Dec cfg s (.crlf, ⟨rest, s.loc.windowsNewline, false, s.flag⟩)
  | invalid (c : CP) (pre rest : List UInt8) (e : Bool) (u : Unsafe) :
      c.isUnsafe = true → pre ≠ [] → (pre.length ≤ 3 ∧ ∀ x ∈ pre, 0x80 ≤ x.toNat) → s.rest = pre ++ rest → (e = true → rest = []) →
      Dec cfg s (c, ⟨rest, s.loc.increment, e, some u⟩)

theorem Dec.ite {cfg s} {c : Prop} [Decidable c] {x y} (h1 : c → Dec cfg s x) (h2 : ¬ c → Dec cfg s y) :
    Dec cfg s (if c then x else y) := by
  by_cases h : c
  · rw [if_pos h]; exact h1 h
  · rw [if_neg h]; exact h2 h

theorem enc_ascii (n : Nat) (h : n ≤ 0x7f) : ∃ ch : Char, ch.toNat = n ∧
    String.utf8EncodeChar ch = [UInt8.ofNat n] := by
  obtain ⟨ch, hch⟩ := exists_char (n := n) (by omega)
  refine ⟨ch, hch, ?_⟩
  unfold String.utf8EncodeChar
  simp +instances only [enc_val, hch]
  rw [if_pos h]

theorem Dec.ascii {cfg s} {b : UInt8} {r : List UInt8} (hs : s.rest = b :: r)
    (hb : b.toNat ≤ 0x7f) (h13 : b.toNat = 13 → r.head? ≠ some 10) {p}
    (hp : p = (CP.char b.toNat, (⟨r, locUpd cfg (.char b.toNat) s.loc, false, s.flag⟩ : St))) :
    Dec cfg s p := by
  subst hp
  obtain ⟨ch, hch, he⟩ := enc_ascii b.toNat hb
  rw [← hch]
  refine Dec.valid ch r ?_ (by omega) ?_
  · rw [he, hs]; simp
  · rintro rfl; exact h13 (by rw [← hch]; rfl)

theorem Dec.ofMB {cfg s} {b : UInt8} {r : List UInt8} {p} (hs : s.rest = b :: r) (hb80 : 0x80 ≤ b.toNat)
    (h : MB b {s with rest := r} p) : Dec cfg s p := by
  cases h with
  | valid pre ch rest h1 h2 h3 h4 =>
    have := @Dec.valid cfg s ch rest (by rw [hs, ← h2]; simp [inR] at h1; simp [h1]) h4
      (by rintro rfl; simp [inR] at h3)
    rw [locUpd_char (by omega) (by omega) (by omega)] at this
    exact this
  | invalid c pre rest e u h1 hl h2 h3 =>
    exact Dec.invalid c (b :: pre) rest e u h1 (by simp)
      ⟨by have := hl.1; simp; omega, by simpa using ⟨hb80, hl.2⟩⟩ (by simp [inR] at h2; simp [hs, h2]) h3

theorem nextSource_Dec {cfg s} (hwf : WF s) (hne : s.rest ≠ []) : Dec cfg s (nextSource cfg s) := by
  obtain ⟨rest, loc, eof, flag⟩ := s
  rcases rest with _ | ⟨b, r⟩
  · exact absurd rfl hne
  have he : eof = false := by
    cases eof
    · rfl
    · simpa using hwf rfl
  subst he
  clear hwf hne
  have hb := b.toNat_lt
  unfold nextSource nextSourceUncommon
  simp +instances only [currentByte, nextByte]
  refine Dec.ite (fun h0 => ?_) (fun h0 => ?_)
  · simp [inR] at h0
    refine Dec.ascii rfl (by omega) (by omega) ?_
    rw [locUpd_char (by omega) (by omega) (by omega)]
  refine Dec.ite (fun h1 => ?_) (fun h1 => ?_)
  · simp [inR] at h1
    refine Dec.ascii rfl (by omega) (by omega) ?_
    simp [h1, locUpd]
  refine Dec.ite (fun h2 => ?_) (fun h2 => ?_)
  · simp [inR] at h2
    refine Dec.ascii rfl (by omega) (by omega) ?_
    simp [h2, locUpd]
  refine Dec.ite (fun h3 => ?_) (fun h3 => ?_)
  · simp [inR] at h3
    rcases r with _ | ⟨c, r⟩
    · simp
      refine Dec.ascii rfl (by omega) (by simp) ?_
      simp [h3, locUpd]
    · simp
      refine Dec.ite (fun hc => ?_) (fun hc => ?_)
      · have h1 : b = 13 := u8_eq h3
        have h2 : c = 10 := u8_eq hc
        exact Dec.crlf r (by simp [h1, h2])
      · refine Dec.ascii rfl (by omega) ?_ ?_
        · intro _ hcc
          simp at hcc; subst hcc; simp at hc
        · simp [h3, locUpd]
  simp [inR] at h0 h1 h2 h3
  refine Dec.ite (fun h4 => ?_) (fun h4 => ?_)
  · simp [inR] at h4
    refine Dec.ascii rfl (by omega) (by omega) ?_
    simp +instances only [validChar]
    rw [locUpd_char (by omega) (by omega) (by omega)]
  have hb80 : 0x80 ≤ b.toNat := by simp [inR] at h4; omega
  refine Dec.ite (fun h5 => ?_) (fun h5 => ?_)
  · simp [inR] at h5;
    exact Dec.ofMB rfl hb80 (decode2_MB rfl h5.1 h5.2)
  refine Dec.ite (fun h6 => ?_) (fun h6 => ?_)
  · simp [inR] at h6
    exact Dec.ofMB rfl hb80 (decode3_MB rfl (.inl ⟨rfl, h6⟩))
  refine Dec.ite (fun h7 => ?_) (fun h7 => ?_)
  · simp [inR] at h7
    exact Dec.ofMB rfl hb80 (decode3_MB rfl (.inr ⟨rfl, rfl, h7⟩))
  refine Dec.ite (fun h8 => ?_) (fun h8 => ?_)
  · simp [inR] at h8
    exact Dec.ofMB rfl hb80 (decode4_MB rfl (.inl ⟨rfl, rfl, h8⟩))
  refine Dec.ite (fun h9 => ?_) (fun h9 => ?_)
  · simp [inR] at h9
    exact Dec.ofMB rfl hb80 (decode4_MB rfl (.inr (.inl ⟨rfl, rfl, h9⟩)))
  refine Dec.ite (fun h10 => ?_) (fun h10 => ?_)
  · simp [inR] at h10
    exact Dec.ofMB rfl hb80 (decode4_MB rfl (.inr (.inr ⟨rfl, rfl, h10⟩)))
  refine Dec.ite (fun h11 => ?_) (fun h11 => ?_)
  · simp +instances only [Bool.false_eq_true, if_false]
    exact Dec.invalid .unsafe1 [b] r false _ rfl (by simp) ⟨by simp, by simpa using hb80⟩ rfl (by simp)
  · exact Dec.invalid .unsafe1 [b] r false _ rfl (by simp) ⟨by simp, by simpa using hb80⟩ rfl (by simp)


theorem nextSource_lead {cfg : Cfg} {b r loc flag} (hb : 0x80 ≤ UInt8.toNat b) :
   nextSource cfg ⟨b :: r, loc, false, flag⟩ =
  (if inR 0xc2 0xdf b.toNat then decode2 b ⟨r, loc, false, flag⟩
  else if b.toNat == 0xe0 then decode3 0xa0 false b ⟨r, loc, false, flag⟩
  else if inR 0xe1 0xef b.toNat then decode3 0x80 true b ⟨r, loc, false, flag⟩
  else if b.toNat == 0xf0 then decode4 0x90 0xbf b ⟨r, loc, false, flag⟩
  else if inR 0xf1 0xf3 b.toNat then decode4 0x80 0xbf b ⟨r, loc, false, flag⟩
  else if b.toNat == 0xf4 then decode4 0x80 0x8f b ⟨r, loc, false, flag⟩
  else invalidChar .unsafe1 .incompleteUTF8Sequence ⟨r, loc, false, flag⟩) := by
  have e1 : inR 0x20 0x7e b.toNat = false := by simp [inR]; omega
  have e2 : (b.toNat == 10) = false := by simp; omega
  have e3 : (b.toNat == 9) = false := by simp; omega
  have e4 : (b.toNat == 13) = false := by simp; omega
  have e5 : (b.toNat == 0x7f) = false := by simp; omega
  have e6 : inR 0 0x1f b.toNat = false := by simp [inR]; omega
  simp [nextSource, nextSourceUncommon, currentByte, nextByte, e1,e2,e3,e4,e5,e6]

theorem ns2 {cfg : Cfg} {b x t loc flag} (hb : 0xc2 ≤ UInt8.toNat b ∧ b.toNat ≤ 0xdf) (hx : 0x80 ≤ UInt8.toNat x ∧ x.toNat ≤ 0xbf) :
   nextSource cfg ⟨b :: x :: t, loc, false, flag⟩ = (.char ((b.toNat % 0x20) * 0x40 + x.toNat % 0x40), ⟨t, loc.increment, false, flag⟩) := by
  rw [nextSource_lead (by omega), if_pos (by simp [inR]; omega)]
  have e8 : inR 0x80 0xbf x.toNat = true := by simp [inR]; omega
  simp [nextByte, e8, decode2, inRange, validChar]

theorem ns3 {cfg : Cfg} {b x y t loc flag} (hb : 0xe0 ≤ UInt8.toNat b ∧ b.toNat ≤ 0xef)
   (hx : 0x80 ≤ UInt8.toNat x ∧ x.toNat ≤ 0xbf) (hy : 0x80 ≤ UInt8.toNat y ∧ y.toNat ≤ 0xbf)  (he : b.toNat = 0xe0 → 0xa0 ≤ x.toNat) 
   (hs : ¬ (b.toNat = 0xed ∧ 0xa0 ≤ x.toNat)) :
   nextSource cfg ⟨b :: x :: y :: t, loc, false, flag⟩ =
    let n := ((b.toNat % 0x10) * 0x1000 + (x.toNat % 0x40) * 0x40 + y.toNat % 0x40)
    if n = 0xfeff then (.unsafe3, ⟨t, loc.increment, false, some .bom⟩) else (.char n, ⟨t, loc.increment, false, flag⟩) := by
  have e9 : inR 0x80 0xbf y.toNat = true := by simp [inR]; omega
  have e8 : inR 0x80 0xbf x.toNat = true := by simp [inR]; omega
  rw [nextSource_lead (by omega), if_neg (by simp [inR]; omega)]
  have es : isStraySurrogate ((b.toNat % 0x10) * 0x1000 + (x.toNat % 0x40) * 0x40 + y.toNat % 0x40) = false := by simp [isStraySurrogate]; omega
  by_cases h : b.toNat = 0xe0
  · have e10 : inR 0xa0 0xbf x.toNat = true := by simp [inR]; omega
    rw [if_pos (by simp [h])]
    show _ = ite _ _ _
    rw [if_neg (by omega)]
    simp [nextByte, e10, e9, decode3, inRange, validChar]
  · rw [if_neg (by simp [h]), if_pos (by simp [inR]; omega)]
    simp [nextByte, e8, e9, decode3, inRange, validChar, es, invalidChar]

theorem ns4 {cfg : Cfg} {b x y z t loc flag} (hb : 0xf0 ≤ UInt8.toNat b ∧ b.toNat ≤ 0xf4)
   (hx : 0x80 ≤ UInt8.toNat x ∧ x.toNat ≤ 0xbf) (hy : 0x80 ≤ UInt8.toNat y ∧ y.toNat ≤ 0xbf) (hz : 0x80 ≤ UInt8.toNat z ∧ z.toNat ≤ 0xbf)
   (he : b.toNat = 0xf0 → 0x90 ≤ x.toNat) 
   (hs : b.toNat = 0xf4 → x.toNat ≤ 0x8f) :
   nextSource cfg ⟨b :: x :: y :: z :: t, loc, false, flag⟩ =
    (.char ((b.toNat % 0x8) * 0x40000 + (x.toNat % 0x40) * 0x1000
      + (y.toNat % 0x40) * 0x40 + z.toNat % 0x40), ⟨t, loc.increment, false, flag⟩) := by
  have e9 : inR 0x80 0xbf y.toNat = true := by simp [inR]; omega
  have e8 : inR 0x80 0xbf x.toNat = true := by simp [inR]; omega
  have e7 : inR 0x80 0xbf z.toNat = true := by simp [inR]; omega
  rw [nextSource_lead (by omega), if_neg (by simp [inR]; omega), if_neg (by simp; omega), if_neg (by simp [inR]; omega)]
  by_cases h : b.toNat = 0xf0
  · have e10 : inR 0x90 0xbf x.toNat = true := by simp [inR]; omega
    rw [if_pos (by simp [h])]
    simp [nextByte, e10, e9, e7, decode4, inRange, validChar]
  · rw [if_neg (by simp [h])]
    by_cases h4 : b.toNat = 0xf4
    · have e10 : inR 0x80 0x8f x.toNat = true := by simp [inR]; omega
      rw [if_neg (by simp [inR]; omega), if_pos (by simp [h4])]
      simp [nextByte, e10, e9, e7, decode4, inRange, validChar]
    · rw [if_pos (by simp [inR]; omega)]
      simp [nextByte, e8, e9, e7, decode4, inRange, validChar]

theorem nextSource_enc_mb {cfg : Cfg} {ch : Char} {t loc flag} (h : 0x7f < ch.toNat) :
    nextSource cfg ⟨String.utf8EncodeChar ch ++ t, loc, false, flag⟩ =
     if ch.toNat = 0xfeff then (.unsafe3, ⟨t, loc.increment, false, some .bom⟩)
     else (.char ch.toNat, ⟨t, loc.increment, false, flag⟩) := by
  have hv := char_valid ch
  unfold String.utf8EncodeChar
  simp only [enc_val]
  rw [if_neg (by omega)]
  split
  · rw [if_neg (by omega)]
    simp only [List.cons_append, List.nil_append]
    rw [ns2 (by simp; omega) (by simp; omega)]
    simp; omega
  split
  · simp only [List.cons_append, List.nil_append]
    rw [ns3 (by simp; omega) (by simp; omega) (by simp; omega) (by simp; omega) (by simp; omega)]
    have hn : (ch.toNat / 4096 + 224) % 16 * 4096 + (ch.toNat / 64 + 128) % 64 * 64 + (ch.toNat + 128) % 64 = ch.toNat := by omega
    simp [hn]
  · rw [if_neg (by omega)]
    simp only [List.cons_append, List.nil_append]
    rw [ns4 (by simp; omega) (by simp; omega) (by simp; omega) (by simp; omega) (by simp; omega) (by simp; omega)]
    simp; omega


theorem nextSource_enc {cfg : Cfg} {ch : Char} {t loc flag} (h : ch.toNat ≠ 0xfeff)
    (hcr : ch = '\r' → t.head? ≠ some 10) :
    nextSource cfg ⟨String.utf8EncodeChar ch ++ t, loc, false, flag⟩ =
      (.char ch.toNat, ⟨t, locUpd cfg (.char ch.toNat) loc, false, flag⟩) := by
  by_cases h7 : 0x7f < ch.toNat
  · rw [nextSource_enc_mb h7, if_neg h, locUpd_char (by omega) (by omega) (by omega)]
  · have he : String.utf8EncodeChar ch = [UInt8.ofNat ch.toNat] := by
      unfold String.utf8EncodeChar
      simp only [enc_val]
      rw [if_pos (by omega)]
    have hm : ch.toNat % 256 = ch.toNat := by omega
    rw [he]
    unfold nextSource nextSourceUncommon
    simp [currentByte, nextByte, hm]
    by_cases h0 : inR 32 126 ch.toNat = true
    · rw [if_pos h0]
      simp [inR] at h0
      rw [locUpd_char (by omega) (by omega) (by omega)]
    rw [if_neg h0]
    by_cases h1 : ch.toNat = 10
    · simp [h1, locUpd]
    by_cases h2 : ch.toNat = 9
    · simp [h2, locUpd]
    by_cases h3 : ch.toNat = 13
    · have hc : ch = '\r' := Char.toNat_inj.mp h3
      have := hcr hc
      simp only [h1, h2, h3, if_false, if_true]
      rcases t with _ | ⟨x, xs⟩
      · simp [locUpd]
      · simp at this
        have : x.toNat ≠ 10 := fun h => this (u8_eq h)
        simp [locUpd, this]
    simp [inR] at h0
    have h4 : (inR 0 31 ch.toNat = true ∨ ch.toNat = 127) := by simp [inR]; omega
    simp [h1, h2, h3, h4, validChar]
    rw [locUpd_char h2 h1 h3]

theorem nextSource_enc_crlf {cfg : Cfg} {t loc flag} :
    nextSource cfg ⟨13 :: 10 :: t, loc, false, flag⟩ = (.crlf, ⟨t, loc.windowsNewline, false, flag⟩) := by
  simp [nextSource, nextSourceUncommon, currentByte, nextByte, inR]

theorem WF_nextSource {cfg s} (h : WF s) : WF (nextSource cfg s).2 := by
  by_cases hne : s.rest = []
  · rw [nextSource_nil hne]; intro _; exact hne
  · have := nextSource_Dec (cfg := cfg) h hne
    generalize nextSource cfg s = p at this
    cases this with
    | valid ch rest h1 h2 h3 => intro h; simp at h
    | crlf rest h1 => intro h; simp at h
    | invalid c pre rest e u h1 h2 hl h3 h4 => exact h4

/-- Equal up to the encoding flag. -/
def Sim (p q : CP × St) : Prop :=
  p.1 = q.1 ∧ p.2.rest = q.2.rest ∧ p.2.loc = q.2.loc ∧ p.2.eof = q.2.eof

theorem Sim.ite {c : Prop} {d d' : Decidable c} {x y x' y'} (h1 : c → Sim x x') (h2 : ¬ c → Sim y y') :
    Sim (@_root_.ite _ c d x y) (@_root_.ite _ c d' x' y') := by
  by_cases h : c
  · rw [if_pos h, if_pos h]; exact h1 h
  · rw [if_neg h, if_neg h]; exact h2 h

theorem decode2_sim {b r l e f g} : Sim (decode2 b ⟨r, l, e, f⟩) (decode2 b ⟨r, l, e, g⟩) := by
  rcases r with _ | ⟨x, xs⟩
  all_goals
    simp only [decode2, nextByte, St.seek, invalidChar, validChar]
    repeat' (first | (apply Sim.ite <;> intro _) | exact ⟨rfl, rfl, rfl, rfl⟩)

theorem decode3_sim {lo ck b r l e f g} : Sim (decode3 lo ck b ⟨r, l, e, f⟩) (decode3 lo ck b ⟨r, l, e, g⟩) := by
  rcases r with _ | ⟨x, _ | ⟨y, ys⟩⟩
  all_goals
    simp only [decode3, nextByte, St.seek, invalidChar, validChar]
    repeat' (first | (apply Sim.ite <;> intro _) | exact ⟨rfl, rfl, rfl, rfl⟩)

theorem decode4_sim {lo hi b r l e f g} : Sim (decode4 lo hi b ⟨r, l, e, f⟩) (decode4 lo hi b ⟨r, l, e, g⟩) := by
  rcases r with _ | ⟨x, _ | ⟨y, _ | ⟨z, zs⟩⟩⟩
  all_goals
    simp only [decode4, nextByte, St.seek, invalidChar, validChar]
    repeat' (first | (apply Sim.ite <;> intro _) | exact ⟨rfl, rfl, rfl, rfl⟩)

theorem nextSource_sim {cfg r l e f g} :
    Sim (nextSource cfg ⟨r, l, e, f⟩) (nextSource cfg ⟨r, l, e, g⟩) := by
  rcases r with _ | ⟨x, t⟩
  · rw [nextSource_nil rfl, nextSource_nil rfl]; exact ⟨rfl, rfl, rfl, rfl⟩
  · unfold nextSource nextSourceUncommon
    simp only [nextByte, currentByte, invalidChar, validChar]
    refine Sim.ite (fun _ => ⟨rfl, rfl, rfl, rfl⟩) fun _ => ?_
    refine Sim.ite (fun _ => ⟨rfl, rfl, rfl, rfl⟩) fun _ => ?_
    refine Sim.ite (fun _ => ⟨rfl, rfl, rfl, rfl⟩) fun _ => ?_
    refine Sim.ite (fun _ => ?_) fun _ => ?_
    · rcases t with _ | ⟨y, ys⟩
      · exact ⟨rfl, rfl, rfl, rfl⟩
      · exact Sim.ite (fun _ => ⟨rfl, rfl, rfl, rfl⟩) fun _ => ⟨rfl, rfl, rfl, rfl⟩
    refine Sim.ite (fun _ => ⟨rfl, rfl, rfl, rfl⟩) fun _ => ?_
    refine Sim.ite (fun _ => decode2_sim) fun _ => ?_
    refine Sim.ite (fun _ => decode3_sim) fun _ => ?_
    refine Sim.ite (fun _ => decode3_sim) fun _ => ?_
    refine Sim.ite (fun _ => decode4_sim) fun _ => ?_
    refine Sim.ite (fun _ => decode4_sim) fun _ => ?_
    refine Sim.ite (fun _ => decode4_sim) fun _ => ?_
    refine Sim.ite (fun _ => ?_) fun _ => ⟨rfl, rfl, rfl, rfl⟩
    exact Sim.ite (fun _ => ⟨rfl, rfl, rfl, rfl⟩) fun _ => ⟨rfl, rfl, rfl, rfl⟩

theorem WF_init (conv bs) : WF (St.init conv bs) := by intro h; simp [St.init] at h

end CodeParser
