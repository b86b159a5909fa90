import Verif.Spec.FullForm
import Verif.Proofs.Meaning8
/-!
Full form: the lexemes of a text in full form, and the expression they write.
-/
namespace CodeParser.Full
open CodeParser Spec Mean

/-! ### Characters -/

theorem enc_ascii {c : Char} (h : c.toNat < 128) : String.utf8EncodeChar c = [byte c] := by
  unfold String.utf8EncodeChar
  simp only [show c.val.toNat = c.toNat from rfl]
  rw [if_pos (by omega)]
  rfl

theorem encode_ascii : ∀ {cs : List Char}, (∀ c ∈ cs, c.toNat < 128) → encode cs = bytes cs
  | [], _ => rfl
  | c :: cs, h => by
    have h1 := encode_ascii (cs := cs) fun x hx => h x (List.mem_cons_of_mem _ hx)
    show String.utf8EncodeChar c ++ encode cs = byte c :: bytes cs
    rw [enc_ascii (h c List.mem_cons_self), h1]
    rfl

theorem enc_byte {c : Char} {b : UInt8} (h : b ∈ String.utf8EncodeChar c) (hb : b.toNat < 128) : b = byte c ∧ c.toNat < 128 := by
  by_cases hc : c.toNat < 128
  · rw [enc_ascii hc, List.mem_singleton] at h
    exact ⟨h, hc⟩
  · exfalso
    have hv := char_valid c
    unfold String.utf8EncodeChar at h
    simp only [show c.val.toNat = c.toNat from rfl] at h
    rw [if_neg (by omega)] at h
    split at h
    · simp at h
      rcases h with rfl | rfl <;> simp at hb <;> omega
    split at h
    · simp at h
      rcases h with rfl | rfl | rfl <;> simp at hb <;> omega
    · simp at h
      rcases h with rfl | rfl | rfl | rfl <;> simp at hb <;> omega

theorem byte_inj {c d : Char} (hc : c.toNat < 128) (hd : d.toNat < 128) (h : byte c = byte d) : c = d := by
  have h1 := congrArg UInt8.toNat h
  simp only [byte, UInt8.toNat_ofNat'] at h1
  apply Char.ext
  apply UInt32.toNat_inj.mp
  have : c.toNat = d.toNat := by omega
  exact this

theorem encode_not {s : List Char} {c : Char} (hc : c.toNat < 128) (h : c ∉ s) : byte c ∉ encode s := by
  intro hm
  obtain ⟨d, hd, hb⟩ := List.mem_flatMap.mp hm
  have hlt : (byte c).toNat < 128 := by simp only [byte, UInt8.toNat_ofNat']; omega
  obtain ⟨h1, h2⟩ := enc_byte hb hlt
  exact h (byte_inj hc h2 h1 ▸ hd)

/-! ### The characters of numbers -/

/-- The characters of numbers. -/
def numChar (c : Char) : Bool := isAlnum c || c == '.' || c == '`' || c == '+' || c == '-' || c == '*' || c == '^'

theorem numChar_ascii {c : Char} (h : numChar c = true) : c.toNat < 128 ∧ c ≠ '\\' := by
  simp only [numChar, isAlnum, isDec, Bool.or_eq_true, Bool.and_eq_true, decide_eq_true_eq, beq_iff_eq] at h
  have hb : '\\'.toNat = 92 := rfl
  rcases h with (((((h | rfl) | rfl) | rfl) | rfl) | rfl) | rfl
  · refine ⟨by omega, ?_⟩
    rintro rfl
    omega
  all_goals exact ⟨by decide, by decide⟩

theorem dec_alnum {c : Char} (h : isDec c = true) : isAlnum c = true := by simp [isAlnum, h]
theorem alnum_num {c : Char} (h : isAlnum c = true) : numChar c = true := by simp [numChar, h]

theorem digits_num {p : Char → Bool} {d : Digits} (h : d.Ok p) (hp : ∀ c, p c = true → isAlnum c = true) : ∀ c ∈ d.text, numChar c = true := by
  intro c hc
  obtain ⟨i, f⟩ := d
  cases f with
  | none =>
    simp [Digits.text] at hc
    exact alnum_num (hp _ (h.2 c (by simp [Digits.all, hc])))
  | some f =>
    simp [Digits.text] at hc
    rcases hc with hc | rfl | hc
    · exact alnum_num (hp _ (h.2 c (by simp [Digits.all, hc])))
    · rfl
    · exact alnum_num (hp _ (h.2 c (by simp [Digits.all, hc])))

theorem sign_num (s : Option Sign) : ∀ c ∈ signText s, numChar c = true := by
  rcases s with _ | (_ | _) <;> simp [signText] <;> rfl

theorem mantissa_alnum {l : Literal} : ∀ c, (isDec c || (l.letters && isAlnum c)) = true → isAlnum c = true := by
  intro c h
  rw [Bool.or_eq_true, Bool.and_eq_true] at h
  rcases h with h | h
  · exact dec_alnum h
  · exact h.2

theorem text_num {l : Literal} (h : l.Valid) : ∀ c ∈ l.text, numChar c = true := by
  intro c hc
  simp only [Literal.text, List.mem_append] at hc
  rcases hc with hc | hc | hc | hc
  · cases hb : l.base with
    | none => rw [hb] at hc; cases hc
    | some b =>
      rw [hb] at hc
      simp [baseText] at hc
      rcases hc with hc | rfl
      · exact alnum_num (dec_alnum ((h.base b hb).2 c hc))
      · rfl
  · exact digits_num h.mantissa mantissa_alnum c hc
  · cases hp : l.precision with
    | none => rw [hp] at hc; cases hc
    | some p =>
      rw [hp] at hc
      rcases p with _ | ⟨a, s, v⟩
      · simp [precisionText] at hc; subst hc; rfl
      · have hv := digits_num (h.precision a s v hp) (fun c => dec_alnum)
        cases a <;> simp [precisionText] at hc
        · rcases hc with rfl | hc | hc
          · rfl
          · exact sign_num s c hc
          · exact hv c hc
        · rcases hc with rfl | hc | hc
          · rfl
          · exact sign_num s c hc
          · exact hv c hc
  · cases he : l.exponent with
    | none => rw [he] at hc; cases hc
    | some e =>
      rw [he] at hc
      simp [exponentText] at hc
      rcases hc with rfl | rfl | hc | hc
      · rfl
      · rfl
      · exact sign_num _ c hc
      · exact alnum_num (dec_alnum ((h.exponent e he).2 c hc))

/-- A number begins with a digit, a letter or a dot. -/
theorem text_head {l : Literal} (h : l.Valid) : ∃ c q, l.text = c :: q ∧ (isAlnum c = true ∨ c = '.') := by
  cases hb : l.base with
  | some b =>
    obtain ⟨h1, h2⟩ := h.base b hb
    cases b with
    | nil => exact absurd rfl h1
    | cons c q => exact ⟨c, _, by simp [Literal.text, hb, baseText]; rfl, .inl (dec_alnum (h2 c (by simp)))⟩
  | none =>
    obtain ⟨h1, h2⟩ := h.mantissa
    cases hi : l.mantissa.int with
    | cons c q =>
      exact ⟨c, _, by simp [Literal.text, hb, baseText, Digits.text, hi]; rfl,
        .inl (mantissa_alnum (l := l) c (h2 c (by simp [Digits.all, hi])))⟩
    | nil =>
      cases hf : l.mantissa.frac with
      | none => exact absurd (by simp [Digits.all, hi, hf]) h1
      | some f => exact ⟨'.', _, by simp [Literal.text, hb, baseText, Digits.text, hi, hf]; rfl, .inr rfl⟩

/-! ### The text -/

theorem name_ascii {n : List Char} (h : Name n) : ∀ c ∈ n, c.toNat < 128 := by
  have seg : ∀ s, Segment s → ∀ c ∈ s, c.toNat < 128 := by
    rintro s ⟨c, q, rfl, h1, h2⟩ x hx
    have key : ∀ y : Char, isNameChar y.toNat = true → y.toNat < 128 := by
      intro y hy
      simp only [isNameChar, isNameStart, Bool.or_eq_true, Bool.and_eq_true, decide_eq_true_eq, beq_iff_eq] at hy
      omega
    rcases List.mem_cons.mp hx with rfl | hx
    · exact key _ (by simp [isNameChar, h1])
    · exact key _ (h2 x hx)
  have ctx : ∀ segs : List (List Char), (∀ s ∈ segs, Segment s) → ∀ c ∈ contexts segs, c.toNat < 128 := by
    intro segs hs c hc
    obtain ⟨s, hm, hc⟩ := List.mem_flatMap.mp hc
    rcases List.mem_cons.mp hc with rfl | hc
    · decide
    · exact seg s (hs s hm) c hc
  intro c hc
  cases h with
  | plain h1 h2 =>
    rcases List.mem_append.mp hc with hc | hc
    · exact seg _ h1 c hc
    · exact ctx _ h2 c hc
  | relative h1 h2 => exact ctx _ h2 c hc

/-! ### Strings -/

theorem enc_first {c : Char} {r q : List UInt8} {b : UInt8} (h : String.utf8EncodeChar c ++ r = b :: q) (hb : b.toNat < 128) : b = byte c ∧ c.toNat < 128 := by
  refine enc_byte ?_ hb
  cases he : String.utf8EncodeChar c with
  | nil => exact absurd he (enc_ne_nil c)
  | cons x xs =>
    rw [he] at h
    cases h
    simp

theorem encode_app (a b : List Char) : encode (a ++ b) = encode a ++ encode b := by simp [encode]

/-- The text inside of a string, and behind it. -/
def inner (s : List Char) (r : List UInt8) : List UInt8 := encode (s.flatMap escaped) ++ byte '"' :: r

theorem inner_cons (c : Char) (s : List Char) (r : List UInt8) : inner (c :: s) r = encode (escaped c) ++ inner s r := by
  simp [inner, encode_app]

theorem inner_newline {s : List Char} {r q : List UInt8} (h : inner s r = 10 :: q) : ∃ s', s = '\n' :: s' := by
  cases s with
  | nil => exact absurd (List.cons.inj (show byte '"' :: r = 10 :: q from h)).1 (by decide)
  | cons c s =>
    rw [inner_cons] at h
    by_cases he : c = '"' ∨ c = '\\'
    · exfalso
      rw [escaped, if_pos he, show encode ['\\', c] = String.utf8EncodeChar '\\' ++ (String.utf8EncodeChar c ++ []) from rfl, List.append_assoc] at h
      exact absurd (enc_first h (by decide)).1 (by decide)
    · rw [escaped, if_neg he, show encode [c] = String.utf8EncodeChar c ++ [] from rfl, List.append_assoc] at h
      obtain ⟨h1, h2⟩ := enc_first h (by decide)
      have := byte_inj (c := '\n') (by decide) h2 h1
      exact ⟨s, by rw [this]⟩

theorem not_cont {n : Nat} : ¬ IsContinuation (.char n) := by
  unfold IsContinuation
  simp

theorem quote_end : ∀ (s : List Char) (r : List UInt8), BOM ∉ s → QuoteEnd (inner s r) .String r
  | [], r, _ => by
    refine .close (c := ⟨.char 34, .none⟩) (.here ?_ not_cont) rfl
    exact CharAt.plain (c := '"') (by decide) (by decide) (fun h => absurd h (by decide))
  | c :: s, r, h => by
    have hs : BOM ∉ s := fun hm => h (List.mem_cons_of_mem _ hm)
    have ih := quote_end s r hs
    rw [inner_cons]
    by_cases he : c = '"' ∨ c = '\\'
    · rw [escaped, if_pos he]
      rcases he with rfl | rfl
      · refine .other (c := ⟨.metaDoubleQuote, .single⟩) (.here ?_ (by unfold IsContinuation; simp)) (by decide) (by decide) ih
        exact CharAt.escape (.single (by decide))
      · refine .other (c := ⟨.metaBackslash, .single⟩) (.here ?_ (by unfold IsContinuation; simp)) (by decide) (by decide) ih
        exact CharAt.escape (.single (by decide))
    · rw [escaped, if_neg he]
      rw [not_or] at he
      have hq : (CP.char c.toNat) ≠ ch '"' := by
        intro hc
        apply he.1
        apply Char.ext
        apply UInt32.toNat_inj.mp
        exact CP.char.inj hc
      have hb : c.toNat ≠ 0xfeff := by
        intro hc
        apply h
        have : c = BOM := by
          apply Char.ext
          apply UInt32.toNat_inj.mp
          exact hc.trans (by decide)
        rw [this]; exact List.mem_cons_self
      by_cases hr : c = '\r' ∧ ∃ q, inner s r = 10 :: q
      · obtain ⟨rfl, q, hq'⟩ := hr
        obtain ⟨s', rfl⟩ := inner_newline hq'
        have hs' : BOM ∉ s' := fun hm => hs (List.mem_cons_of_mem _ hm)
        refine .other (c := ⟨.crlf, .none⟩) (.here ?_ (by unfold IsContinuation; simp)) (by decide) (by decide) (quote_end s' r hs')
        rw [inner_cons]
        exact CharAt.crlf
      · refine .other (c := ⟨.char c.toNat, .none⟩) (.here ?_ not_cont) hq (by simp) ih
        rw [show encode [c] = String.utf8EncodeChar c ++ [] from rfl, List.append_nil]
        refine CharAt.plain he.2 hb ?_
        intro hc hh
        refine hr ⟨hc, ?_⟩
        cases hi : inner s r with
        | nil => rw [hi] at hh; cases hh
        | cons b q => rw [hi] at hh; exact ⟨q, by rw [Option.some.inj hh]⟩

theorem quoted_text (s : List Char) (r : List UInt8) : encode (quoted s) ++ r = byte '"' :: inner s r := by
  rw [quoted, show '"' :: (s.flatMap escaped ++ ['"']) = ['"'] ++ (s.flatMap escaped ++ ['"']) from rfl, encode_app, encode_app, inner]
  simp [encode, enc_ascii (c := '"') (by decide)]

/-! ### The first characters -/

/-- The text does not begin with a backslash, and behind a first character that could begin an
operator there is none. -/
def Safe (t : List UInt8) : Prop := ∃ b q, t = b :: q ∧ b ≠ byte '\\' ∧ (b ∈ bytes opInner → ∃ b' q', q = b' :: q' ∧ b' ≠ byte '\\')

theorem Safe.append {t : List UInt8} (h : Safe t) (r : List UInt8) : Safe (t ++ r) := by
  obtain ⟨b, q, rfl, h1, h2⟩ := h
  refine ⟨b, q ++ r, rfl, h1, fun hb => ?_⟩
  obtain ⟨b', q', rfl, h3⟩ := h2 hb
  exact ⟨b', q' ++ r, rfl, h3⟩

theorem num_byte {c : Char} (h : numChar c = true) : byte c ≠ byte '\\' :=
  fun he => (numChar_ascii h).2 (byte_inj (numChar_ascii h).1 (by decide) he)

theorem alnum_inner {c : Char} (h : isAlnum c = true) : byte c ∉ bytes opInner := by
  intro hm
  obtain ⟨x, hx, he⟩ := List.mem_map.mp hm
  have h1 : ∀ x ∈ opInner, x.toNat < 128 ∧ isAlnum x = false := by decide
  have := byte_inj (h1 x hx).1 (numChar_ascii (alnum_num h)).1 he
  rw [← this, (h1 x hx).2] at h
  cases h

theorem number_safe {l : Literal} (h : l.Valid) : Safe (bytes l.text) := by
  obtain ⟨c, q, he, hc⟩ := text_head h
  have hn := text_num h
  rw [he] at hn
  refine ⟨byte c, bytes q, by rw [he]; rfl, num_byte (hn c List.mem_cons_self), fun hb => ?_⟩
  rcases hc with hc | rfl
  · exact absurd hb (alnum_inner hc)
  · cases q with
    | cons d q => exact ⟨byte d, bytes q, rfl, num_byte (hn d (by simp))⟩
    | nil =>
      exfalso
      obtain ⟨h1, -⟩ := h.mantissa
      have hl := congrArg List.length he
      cases hb : l.base with
      | some b => 
        rw [Literal.text, hb] at hl
        have : b ≠ [] := (h.base b hb).1
        have := List.length_pos_iff.mpr this
        simp [baseText] at hl
        omega
      | none =>
        rw [Literal.text, hb] at he
        cases hi : l.mantissa.int with
        | cons d ds =>
          have : isAlnum d = true := mantissa_alnum (l := l) d (h.mantissa.2 d (by simp [Digits.all, hi]))
          simp [baseText, Digits.text, hi] at he
          rw [he.1] at this
          revert this; decide
        | nil =>
          cases hf : l.mantissa.frac with
          | none => exact h1 (by simp [Digits.all, hi, hf])
          | some f =>
            simp [baseText, Digits.text, hi, hf] at he
            exact h1 (by simp [Digits.all, hi, hf, he.1])

/-! ### Names -/

theorem char_eq {c d : Char} (h : c.toNat = d.toNat) : c = d := by
  apply Char.ext
  apply UInt32.toNat_inj.mp
  exact h

/-- A letter or digit, or the backquote, is written as it is. -/
theorem char_next {c : Char} (h : (Letter (ch c) ∨ Digit (ch c)) ∨ c = '`') (hb : c ≠ BOM) (r : List UInt8) :
    NextChar (String.utf8EncodeChar c ++ r) ⟨ch c, .none⟩ r := by
  have key : ∀ n, n = 92 ∨ n = 13 → ¬ ((Letter (.char n) ∨ Digit (.char n))) := by
    rintro n (rfl | rfl) <;> simp [Letter, Digit, isNameStart]
  refine .here (.plain ?_ ?_ ?_) not_cont
  · rintro rfl
    rcases h with h | h
    · exact key 92 (.inl rfl) h
    · exact absurd h (by decide)
  · intro he
    exact hb (char_eq (he.trans (by decide)))
  · rintro rfl
    rcases h with h | h
    · exact absurd h (key 13 (.inr rfl))
    · exact absurd h (by decide)

theorem word_end {c : WLC} {r : List UInt8} (hr : WordEnd r c r) : ∀ {q : List Char}, (∀ x ∈ q, Letter (ch x) ∨ Digit (ch x)) → BOM ∉ q →
    WordEnd (encode q ++ r) c r
  | [], _, _ => hr
  | x :: q, h, hb => by
    show WordEnd (String.utf8EncodeChar x ++ encode q ++ r) c r
    rw [List.append_assoc]
    exact .char (char_next (.inl (h x List.mem_cons_self)) (fun he => hb (he ▸ List.mem_cons_self)) _) (h x List.mem_cons_self)
      (word_end hr (fun y hy => h y (List.mem_cons_of_mem _ hy)) fun hm => hb (List.mem_cons_of_mem _ hm))

/-- The text neither continues a name nor begins a context. -/
def Stops (r : List UInt8) : Prop := ∃ c r', NextChar r c r' ∧ ¬ Letter c.point ∧ ¬ Digit c.point ∧ c.point ≠ ch '`'

theorem contexts_text (d : Char) (q : List Char) (segs : List (List Char)) (r : List UInt8) :
    encode (contexts ((d :: q) :: segs)) ++ r =
      String.utf8EncodeChar '`' ++ (String.utf8EncodeChar d ++ (encode q ++ (encode (contexts segs) ++ r))) := by
  simp [contexts, encode]

theorem name_end {r : List UInt8} (hr : Stops r) : ∀ (segs : List (List Char)), (∀ s ∈ segs, Word s) → BOM ∉ contexts segs →
    ∀ {q : List Char}, (∀ x ∈ q, Letter (ch x) ∨ Digit (ch x)) → BOM ∉ q →
    NameEnd (encode q ++ (encode (contexts segs) ++ r)) .Symbol r
  | [], _, _, q, h, hb => by
    obtain ⟨c, r', h1, h2, h3, h4⟩ := hr
    exact .stop (word_end (.stop h1 h2 h3) h hb) h4
  | s :: segs, hs, hc, q, h, hb => by
    obtain ⟨d, q', rfl, hd, hq⟩ := hs s List.mem_cons_self
    have hdb : d ≠ BOM := fun he => hc (by simp [contexts, he])
    have hqb : BOM ∉ q' := fun hm => hc (by simp [contexts, hm])
    have hsb : BOM ∉ contexts segs := fun hm => hc (by
      show BOM ∈ ('`' :: d :: q') ++ contexts segs
      exact List.mem_append_right _ hm)
    rw [contexts_text]
    have h0 := fun r => char_next (c := '`') (.inr rfl) (by decide) r
    exact .context (word_end (.stop (h0 _) (by simp [Letter, isNameStart]) (by simp [Digit])) h hb) rfl (h0 _)
      (char_next (.inl (.inl hd)) hdb _) hd (name_end hr segs (fun s h => hs s (List.mem_cons_of_mem _ h)) hsb hq hqb)

theorem name_at {r : List UInt8} (hr : Stops r) {n : List Char} (h : WideName n) (hb : BOM ∉ n) : NameAt (encode n ++ r) .Symbol r := by
  cases h with
  | @plain seg segs h1 h2 =>
    obtain ⟨d, q, rfl, hd, hq⟩ := h1
    rw [List.mem_append, List.mem_cons, not_or, not_or] at hb
    have := NameAt.letter (char_next (.inl (.inl hd)) (fun he => hb.1.1 he.symm) _) hd (name_end hr segs h2 hb.2 hq hb.1.2)
    simpa [encode] using this
  | @relative segs h1 h2 =>
    cases segs with
    | nil => exact absurd rfl h1
    | cons s segs =>
      obtain ⟨d, q', rfl, hd, hq⟩ := h2 s List.mem_cons_self
      have hdb : d ≠ BOM := fun he => hb (by simp [contexts, he])
      have hqb : BOM ∉ q' := fun hm => hb (by simp [contexts, hm])
      have hsb : BOM ∉ contexts segs := fun hm => hb (by
        show BOM ∈ ('`' :: d :: q') ++ contexts segs
        exact List.mem_append_right _ hm)
      rw [contexts_text]
      exact .context (char_next (c := '`') (.inr rfl) (by decide) _) rfl (char_next (.inl (.inl hd)) hdb _) hd
        (name_end hr segs (fun s h => h2 s (List.mem_cons_of_mem _ h)) hsb hq hqb)

theorem wide_head {n : List Char} (h : WideName n) : ∃ c q, n = c :: q ∧ (Letter (ch c) ∨ c = '`') := by
  cases h with
  | plain h1 h2 =>
    obtain ⟨d, q, rfl, hd, hq⟩ := h1
    exact ⟨d, _, rfl, .inl hd⟩
  | @relative segs h1 h2 =>
    cases segs with
    | nil => exact absurd rfl h1
    | cons s segs => exact ⟨'`', _, rfl, .inr rfl⟩

theorem wide_first {c : Char} (h : Letter (ch c) ∨ c = '`') (r : List UInt8) :
    ∃ b q, String.utf8EncodeChar c ++ r = b :: q ∧ b ∉ byte '\\' :: byte '-' :: byte '*' :: bytes opInner := by
  cases he : String.utf8EncodeChar c ++ r with
  | nil =>
    rw [List.append_eq_nil_iff] at he
    exact absurd he.1 (enc_ne_nil c)
  | cons b q =>
    refine ⟨b, q, rfl, fun hm => ?_⟩
    have h1 : ∀ x ∈ '\\' :: '-' :: '*' :: opInner, x.toNat < 128 ∧ ¬ (isNameStart x.toNat = true ∨ x.toNat ≤ 6 ∨ x.toNat = 8 ∨ 0x0e ≤ x.toNat ∧ x.toNat ≤ 0x1f) ∧ x ≠ '`' := by
      decide
    obtain ⟨x, hx, rfl⟩ := List.mem_map.mp (show b ∈ bytes ('\\' :: '-' :: '*' :: opInner) from hm)
    obtain ⟨h2, h3, h4⟩ := h1 x hx
    obtain ⟨h5, h6⟩ := enc_first he (by simp only [byte, UInt8.toNat_ofNat']; omega)
    have := byte_inj h2 h6 h5
    subst this
    rcases h with h | h
    · simp only [Letter, ch, if_pos h2] at h
      exact h3 h
    · exact h4 h

/-- The text of an atom is UTF-8 and does not begin with a minus sign. -/
theorem atom_text {k : TK} {t : List UInt8} (h : PlainAtom k t) : (∃ s, encode s = t) ∧ Safe t ∧ t.head? ≠ some (byte '-') := by
  cases h with
  | @name n h =>
    refine ⟨⟨n, encode_ascii (name_ascii h)⟩, ?_⟩
    cases n with
    | nil =>
      exfalso
      generalize hn : ([] : List Char) = m at h
      cases h with
      | plain h1 h2 => obtain ⟨c, q, rfl, -⟩ := h1; cases hn
      | @relative segs h1 h2 =>
        cases segs with
        | nil => exact h1 rfl
        | cons s segs => cases hn
    | cons c n =>
      have hc := name_bytes h (byte c) List.mem_cons_self
      have key : ∀ b ∈ byte '\\' :: byte '-' :: bytes opInner, nameByte b = false := by decide
      have ne : ∀ b ∈ byte '\\' :: byte '-' :: bytes opInner, byte c ≠ b := by
        intro b hb he
        rw [he, key b hb] at hc; cases hc
      refine ⟨⟨byte c, bytes n, rfl, ne _ (by decide), fun hb => absurd rfl (ne _ (by simp [hb]))⟩, ?_⟩
      intro he
      exact ne (byte '-') (by decide) (Option.some.inj he)
  | @word n h hb hc =>
    obtain ⟨c, q, rfl, hw⟩ := wide_head h
    obtain ⟨b, r, he, h1⟩ := wide_first hw (encode q)
    have he : encode (c :: q) = b :: r := he
    refine ⟨⟨c :: q, rfl⟩, ⟨b, r, he, fun h => h1 (by simp [h]), fun h => absurd (by simp [h]) h1⟩, ?_⟩
    rw [he]
    intro h
    exact h1 (by simp [Option.some.inj h])
  | @number l h hd =>
    refine ⟨⟨l.text, encode_ascii fun c hc => (numChar_ascii (text_num h c hc)).1⟩, number_safe h, ?_⟩
    obtain ⟨c, q, he, hc⟩ := text_head h
    intro hm
    have h1 : c.toNat < 128 := (numChar_ascii (text_num h c (by simp [he]))).1
    rw [he] at hm
    have := byte_inj h1 (by decide) (Option.some.inj hm)
    subst this
    rcases hc with hc | hc <;> revert hc <;> decide
  | @string s h =>
    have := quoted_text s []
    rw [List.append_nil] at this
    rw [this]
    exact ⟨⟨quoted s, this⟩, ⟨_, _, rfl, by decide, fun hb => absurd hb (by decide)⟩, by simp; decide⟩

theorem negative_text {k : TK} {t : List UInt8} (h : Negative k t) : ∃ l : Literal, l.Valid ∧ k = l.kind ∧ t = byte '-' :: bytes l.text ∧
    (∃ s, encode s = t) ∧ Safe t := by
  cases h with
  | @mk l h hk hz =>
    refine ⟨l, h, rfl, rfl, ⟨'-' :: l.text, encode_ascii fun c hc => ?_⟩, ?_⟩
    · rcases List.mem_cons.mp hc with rfl | hc
      · decide
      · exact (numChar_ascii (text_num h c hc)).1
    · obtain ⟨b, q, he, hb, -⟩ := number_safe h
      exact ⟨_, _, rfl, by decide, fun _ => ⟨b, q, he, hb⟩⟩

end CodeParser.Full
