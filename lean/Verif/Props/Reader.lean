import Verif.Spec.Reader
import Verif.Model.SafeString
import Verif.Proofs.Reader
/-!
Properties C01-C08 (source-character level).
-/
namespace CodeParser.Props
open CodeParser Spec

/-- The reader states a client can bring about by reading source characters of
the input `bs`: "every position". -/
def Position (cfg : Cfg) (conv : Conv) (bs : List UInt8) (s : St) : Prop :=
  ∃ n, s = (readN cfg n (St.init conv bs)).2

theorem St_eta (s : St) (hf : s.eof = false) : s = ⟨s.rest, s.loc, false, s.flag⟩ := by
  cases s; simp_all

theorem WF_readN {cfg n s} (h : WF s) : WF (readN cfg n s).2 := by
  induction n generalizing s with
  | zero => exact h
  | succ n ih => exact ih (WF_nextSource h)

theorem Position.wf {cfg conv bs s} (h : Position cfg conv bs s) : WF s := by
  obtain ⟨n, rfl⟩ := h
  exact WF_readN (WF_init conv bs)

theorem eof_false {s : St} (h : WF s) (hne : s.rest ≠ []) : s.eof = false := by
  cases he : s.eof
  · rfl
  · exact absurd (h he) hne

/-! ### C03: progress, partition, termination -/

theorem step_aux (cfg : Cfg) (s : St) (h : WF s) :
    ((nextSource cfg s).1 = .eof ↔ s.rest = []) ∧
    ((nextSource cfg s).1 = .eof → (nextSource cfg s).2.rest = []) ∧
    ((nextSource cfg s).1 ≠ .eof →
      ∃ piece, 1 ≤ piece.length ∧ piece.length ≤ 4 ∧ s.rest = piece ++ (nextSource cfg s).2.rest) := by
  by_cases hne : s.rest = []
  · rw [nextSource_nil hne]; simp [hne]
  · have hd := nextSource_Dec (cfg := cfg) h hne
    generalize nextSource cfg s = p at hd
    cases hd with
    | valid ch rest h1 h2 h3 =>
      refine ⟨by simp [hne], by simp, fun _ => ⟨_, ?_, ?_, h1⟩⟩
      · simp; have := ch.utf8Size_pos; omega
      · simp; exact ch.utf8Size_le_four
    | crlf rest h1 =>
      exact ⟨by simp [hne], by simp, fun _ => ⟨[13, 10], by simp, by simp, h1⟩⟩
    | invalid c pre rest e u h1 h2 hl h3 h4 =>
      refine ⟨?_, ?_, fun _ => ⟨pre, ?_, by have := hl.1; omega, h3⟩⟩
      · simp only [hne, iff_false]; rintro rfl; simp [CP.isUnsafe] at h1
      · rintro rfl; simp [CP.isUnsafe] at h1
      · cases pre <;> simp_all

/-- C03, one read: it reports end of file exactly when no byte is left, and
otherwise consumes between one and four bytes from the front of what is left. -/
theorem C03_step (cfg : Cfg) (conv : Conv) (bs : List UInt8) (s : St)
    (h : Position cfg conv bs s) :
    ((nextSource cfg s).1 = .eof ↔ s.rest = []) ∧
    ((nextSource cfg s).1 ≠ .eof →
      ∃ piece, 1 ≤ piece.length ∧ piece.length ≤ 4 ∧ s.rest = piece ++ (nextSource cfg s).2.rest) :=
  ⟨(step_aux cfg s h.wf).1, (step_aux cfg s h.wf).2.2⟩

theorem readAll_aux (cfg : Cfg) : ∀ (n : Nat) (s : St), WF s → s.rest.length ≤ n →
    (((readAll cfg (n + 1) s).1.map Prod.snd).flatten = s.rest) ∧
    (readAll cfg (n + 1) s).2.rest = [] ∧
    (∀ p ∈ (readAll cfg (n + 1) s).1, p.1 ≠ .eof ∧ 1 ≤ p.2.length ∧ p.2.length ≤ 4) ∧
    (readAll cfg (n + 1) s).1.length ≤ s.rest.length := by
  intro n
  induction n with
  | zero =>
    intro s h hn
    have hnil : s.rest = [] := by simpa using hn
    simp [readAll, nextSource_nil hnil, hnil]
  | succ n ih =>
    intro s h hn
    have hst := step_aux cfg s h
    unfold readAll
    by_cases he : (nextSource cfg s).1 = .eof
    · simp [he, hst.1.mp he, hst.2.1 he]
    · obtain ⟨piece, h1, h2, h3⟩ := hst.2.2 he
      have hlen : s.rest.length = piece.length + (nextSource cfg s).2.rest.length := by
        conv => lhs; rw [h3]
        simp
      have htake : s.rest.take (s.rest.length - (nextSource cfg s).2.rest.length) = piece := by
        rw [hlen, Nat.add_sub_cancel]
        conv => lhs; rw [h3]
        simp
      obtain ⟨i1, i2, i3, i4⟩ := ih (nextSource cfg s).2 (WF_nextSource h) (by omega)
      simp only [he, if_false, htake]
      refine ⟨?_, i2, ?_, ?_⟩
      · simp only [List.map_cons, List.flatten_cons, i1]; exact h3.symm
      · intro p hp
        rcases List.mem_cons.mp hp with rfl | hp
        · exact ⟨he, h1, h2⟩
        · exact i3 p hp
      · simp only [List.length_cons]; omega

/-- C03, whole input: for every byte sequence, valid or not, reading until end of
file takes at most one read per byte, leaves nothing unread, and the pieces
consumed, concatenated in order, are the input. -/
theorem C03_all (cfg : Cfg) (conv : Conv) (bs : List UInt8) :
    let r := readAll cfg (bs.length + 1) (St.init conv bs)
    (r.1.map Prod.snd).flatten = bs ∧ r.2.rest = [] ∧ r.1.length ≤ bs.length ∧
    ∀ p ∈ r.1, p.1 ≠ .eof ∧ 1 ≤ p.2.length ∧ p.2.length ≤ 4 := by
  obtain ⟨h1, h2, h3, h4⟩ := readAll_aux cfg bs.length (St.init conv bs) (WF_init _ _) (by simp [St.init])
  exact ⟨h1, h2, h4, h3⟩

theorem drain_aux (cfg : Cfg) : ∀ (n : Nat) (s : St), WF s → s.rest.length ≤ n →
    drain cfg (n + 1) s = some (readAll cfg (n + 1) s).2 := by
  intro n
  induction n with
  | zero =>
    intro s h hn
    have hnil : s.rest = [] := by simpa using hn
    simp [readAll, drain, nextSource_nil hnil]
  | succ n ih =>
    intro s h hn
    have hst := step_aux cfg s h
    unfold readAll drain
    by_cases he : (nextSource cfg s).1 = .eof
    · simp [he]
    · obtain ⟨piece, h1, h2, h3⟩ := hst.2.2 he
      have hlen : s.rest.length = piece.length + (nextSource cfg s).2.rest.length := by
        conv => lhs; rw [h3]
        simp
      simp only [he, if_false]
      exact ih _ (WF_nextSource h) (by omega)

/-- C03: the reading loop of `safe_string` terminates on every input. -/
theorem C03_drain (cfg : Cfg) (conv : Conv) (bs : List UInt8) :
    drain cfg (bs.length + 1) (St.init conv bs) =
      some (readAll cfg (bs.length + 1) (St.init conv bs)).2 :=
  drain_aux cfg bs.length _ (WF_init _ _) (by simp [St.init])

example : (readAll Cfg.default 8 (St.init .lineColumn [0x61, 0x0d, 0x0a, 0xe2, 0x82, 0xac, 0xff])).1
    = [(.char 0x61, [0x61]), (.crlf, [0x0d, 0x0a]), (.char 0x20ac, [0xe2, 0x82, 0xac]),
       (.unsafe1, [0xff])] := by decide +kernel

/-- C03, undecodable bytes: what is replaced by a marker never includes an ASCII
byte, so no ASCII character disappears into an encoding error. -/
theorem C03_ascii_kept (cfg : Cfg) (conv : Conv) (bs : List UInt8) (s : St)
    (h : Position cfg conv bs s)
    (hu : (nextSource cfg s).1 = .unsafe1 ∨ (nextSource cfg s).1 = .unsafe2 ∨ (nextSource cfg s).1 = .unsafe3) :
    ∃ piece, s.rest = piece ++ (nextSource cfg s).2.rest ∧ piece.length ≤ 3 ∧
      ∀ b ∈ piece, 0x80 ≤ b.toNat := by
  by_cases hne : s.rest = []
  · rw [nextSource_nil hne] at hu; simp at hu
  · have hd := nextSource_Dec (cfg := cfg) h.wf hne
    generalize nextSource cfg s = p at hd hu
    cases hd with
    | valid ch rest h1 h2 h3 => simp at hu
    | crlf rest h1 => simp at hu
    | invalid c pre rest e u h1 h2 hl h3 h4 => exact ⟨pre, h3, hl⟩

example : (nextSource Cfg.default (St.init .lineColumn [0xe2, 0x82, 0x41])).1 = .unsafe2 ∧
    (nextSource Cfg.default (St.init .lineColumn [0xe2, 0x82, 0x41])).2.rest = [0x41] := by
  decide +kernel

/-- C01, supplement: whatever the bytes, a character that is read is a Unicode
scalar value, CR LF, or one of the three markers for undecodable bytes. -/
theorem C01_scalar (cfg : Cfg) (conv : Conv) (bs : List UInt8) (s : St)
    (h : Position cfg conv bs s) :
    (∃ ch : Char, (nextSource cfg s).1 = .char ch.toNat) ∨ (nextSource cfg s).1 = .crlf ∨
    (nextSource cfg s).1 = .eof ∨
    (nextSource cfg s).1 = .unsafe1 ∨ (nextSource cfg s).1 = .unsafe2 ∨ (nextSource cfg s).1 = .unsafe3 := by
  by_cases hne : s.rest = []
  · rw [nextSource_nil hne]; simp
  · have hd := nextSource_Dec (cfg := cfg) h.wf hne
    generalize nextSource cfg s = p at hd
    cases hd with
    | valid ch rest h1 h2 h3 => exact .inl ⟨ch, rfl⟩
    | crlf rest h1 => simp
    | invalid c pre rest e u h1 h2 hl h3 h4 => cases c <;> simp_all [CP.isUnsafe]

/-! ### C01 -/

theorem encode_cons (c : Char) (cs : List Char) :
    encode (c :: cs) = String.utf8EncodeChar c ++ encode cs := by simp [encode]

theorem head_encode {cs : List Char} (h : (encode cs).head? = some 10) : cs.head? = some '\n' := by
  rcases cs with _ | ⟨c, cs⟩
  · simp [encode] at h
  · rw [encode_cons] at h
    unfold String.utf8EncodeChar at h
    simp only [enc_val] at h
    have hv := char_valid c
    have hm : ∀ n, UInt8.ofNat n = 10 → n % 256 = 10 := by
      intro n hn; have := congrArg UInt8.toNat hn; simpa using this
    split at h
    · simp at h
      have := hm _ h
      have : c.toNat = 10 := by omega
      simp; exact Char.toNat_inj.mp this
    · split at h
      · simp only [List.cons_append, List.head?_cons, Option.some.injEq] at h
        have := hm _ h
        omega
      · split at h
        · simp only [List.cons_append, List.head?_cons, Option.some.injEq] at h
          have := hm _ h
          omega
        · simp only [List.cons_append, List.head?_cons, Option.some.injEq] at h
          have := hm _ h
          omega

theorem enc_cr : String.utf8EncodeChar '\r' = [13] := by decide
theorem enc_lf : String.utf8EncodeChar '\n' = [10] := by decide

theorem readAll_encode (cfg : Cfg) : ∀ (n : Nat) (cs : List Char) (loc : Loc) (flag : Option Unsafe),
    (∀ c ∈ cs, c ≠ BOM) → cs.length ≤ n →
    (readAll cfg (n + 1) ⟨encode cs, loc, false, flag⟩).1.map Prod.fst = chars cs ∧
    (readAll cfg (n + 1) ⟨encode cs, loc, false, flag⟩).2.flag = flag := by
  intro n
  induction n with
  | zero =>
    intro cs loc flag hb hn
    have hnil : cs = [] := by simpa using hn
    subst hnil
    simp [readAll, encode, nextSource_nil, chars]
  | succ n ih =>
    intro cs loc flag hb hn
    rcases cs with _ | ⟨c, cs⟩
    · simp [readAll, encode, nextSource_nil, chars]
    · have hfe : c.toNat ≠ 0xfeff := by
        intro h; apply hb c (by simp); exact Char.toNat_inj.mp (by rw [h]; decide)
      by_cases hcr : c = '\r' ∧ cs.head? = some '\n'
      · obtain ⟨rfl, hh⟩ := hcr
        rcases cs with _ | ⟨d, ds⟩
        · simp at hh
        · simp at hh; subst hh
          have := ih ds (loc.windowsNewline) flag (fun c hc => hb c (by simp [hc])) (by simp at hn; omega)
          rw [encode_cons, encode_cons, enc_cr, enc_lf]
          unfold readAll
          simp [nextSource_enc_crlf, chars, this]
      · have hn2 := nextSource_enc (cfg := cfg) (ch := c) (t := encode cs) (loc := loc) (flag := flag) hfe
          (fun h hh => hcr ⟨h, head_encode hh⟩)
        have := ih cs (locUpd cfg (.char c.toNat) loc) flag (fun c hc => hb c (by simp [hc])) (by simp at hn; omega)
        rw [encode_cons]
        unfold readAll
        rw [hn2]
        simp only [reduceCtorEq, if_false, List.map_cons, this, and_true]
        rcases cs with _ | ⟨d, ds⟩
        · simp [chars]
        · have : ¬ (c = '\r' ∧ d = '\n') := fun h => hcr ⟨h.1, by simp [h.2]⟩
          simp [chars, this]

theorem length_encode (cs : List Char) : cs.length ≤ (encode cs).length := by
  induction cs with
  | nil => simp
  | cons c cs ih =>
    rw [encode_cons]; simp
    have := c.utf8Size_pos; omega

/-- C01: reading the UTF-8 encoding of any BOM-free text yields exactly its
characters, CR LF counted as one, and raises no encoding error. -/
theorem C01_utf8_agreement (cfg : Cfg) (conv : Conv) (cs : List Char) (hb : BOM ∉ cs) :
    let r := readAll cfg ((encode cs).length + 1) (St.init conv (encode cs))
    r.1.map Prod.fst = chars cs ∧ r.2.flag = none :=
  readAll_encode cfg _ cs _ _ (fun c hc h => hb (h ▸ hc)) (length_encode cs)

example : BOM ∉ ("a\r\n€😀\r".toList) ∧
    chars "a\r\n€😀\r".toList = [.char 0x61, .crlf, .char 0x20ac, .char 0x1f600, .char 13] := by
  decide +kernel

/-! ### C02 -/

theorem readAll_flag_some (cfg : Cfg) : ∀ (n : Nat) (s : St), WF s → s.flag ≠ none →
    (readAll cfg n s).2.flag ≠ none := by
  intro n
  induction n with
  | zero => intro s _ h; exact h
  | succ n ih =>
    intro s hwf h
    have hnx : (nextSource cfg s).2.flag ≠ none := by
      by_cases hne : s.rest = []
      · rw [nextSource_nil hne]; exact h
      · have hd := nextSource_Dec (cfg := cfg) hwf hne
        generalize nextSource cfg s = p at hd
        cases hd <;> simp_all
    unfold readAll
    simp only
    split
    · exact hnx
    · exact ih _ (WF_nextSource hwf) hnx

theorem readAll_valid (cfg : Cfg) : ∀ (n : Nat) (s : St), WF s → s.rest.length ≤ n →
    (readAll cfg (n + 1) s).2.flag = none → ∃ cs, s.rest = encode cs ∧ BOM ∉ cs := by
  intro n
  induction n with
  | zero =>
    intro s h hn _
    exact ⟨[], by simpa [encode] using hn, by simp⟩
  | succ n ih =>
    intro s h hn hf
    by_cases hne : s.rest = []
    · exact ⟨[], by simpa [encode] using hne, by simp⟩
    have hst := step_aux cfg s h
    have hc : (nextSource cfg s).1 ≠ .eof := fun he => hne (hst.1.mp he)
    obtain ⟨piece, h1, h2, h3⟩ := hst.2.2 hc
    have hlen : s.rest.length = piece.length + (nextSource cfg s).2.rest.length := by
      conv => lhs; rw [h3]
      simp
    unfold readAll at hf
    simp only [hc, if_false] at hf
    have hwf' := WF_nextSource (cfg := cfg) h
    obtain ⟨cs, e1, e2⟩ := ih _ hwf' (by omega) hf
    have hflag : (nextSource cfg s).2.flag = none := by
      cases hfl : (nextSource cfg s).2.flag with
      | none => rfl
      | some u => exact absurd hf (readAll_flag_some cfg _ _ hwf' (by simp [hfl]))
    have hd := nextSource_Dec (cfg := cfg) h hne
    generalize nextSource cfg s = p at hd e1 hflag
    cases hd with
    | valid ch rest g1 g2 g3 =>
      refine ⟨ch :: cs, ?_, ?_⟩
      · rw [encode_cons, g1]; simp at e1; rw [e1]
      · simp only [List.mem_cons, not_or]
        refine ⟨?_, e2⟩
        rintro rfl; exact g2 (by decide)
    | crlf rest g1 =>
      refine ⟨'\r' :: '\n' :: cs, ?_, ?_⟩
      · rw [encode_cons, encode_cons, enc_cr, enc_lf, g1]; simp at e1; rw [e1]; rfl
      · simp only [List.mem_cons, not_or]
        exact ⟨by decide, by decide, e2⟩
    | invalid c pre rest e u g1 g2 g3 g4 g5 => simp at hflag

/-- UTF-8 encoding is injective on texts (so "the text of the input" is well
defined). -/
theorem encode_injective (as bs : List Char) (h : encode as = encode bs) : as = bs := by
  have hs : String.ofList as = String.ofList bs := by
    rw [← String.toByteArray_inj]
    simp only [String.toByteArray_ofList, List.utf8Encode]
    unfold encode at h
    rw [h]
  simpa using congrArg String.toList hs

/-- C02: after reading everything, an encoding error has been recorded if and
only if the input is not well-formed UTF-8 or contains U+FEFF. -/
theorem C02_error_iff (cfg : Cfg) (conv : Conv) (bs : List UInt8) :
    (readAll cfg (bs.length + 1) (St.init conv bs)).2.flag ≠ none ↔
      (¬ ValidUTF8 bs ∨ ∃ cs, bs = encode cs ∧ BOM ∈ cs) := by
  constructor
  · intro h
    by_cases hv : ValidUTF8 bs
    · obtain ⟨cs, rfl⟩ := hv
      by_cases hb : BOM ∈ cs
      · exact .inr ⟨cs, rfl, hb⟩
      · exact absurd (C01_utf8_agreement cfg conv cs hb).2 h
    · exact .inl hv
  · intro h hf
    obtain ⟨cs, e1, e2⟩ := readAll_valid cfg bs.length (St.init conv bs) (WF_init _ _) (by simp [St.init]) hf
    have e1 : bs = encode cs := e1
    rcases h with h | ⟨cs', e1', e2'⟩
    · exact h ⟨cs, e1⟩
    · exact e2 (encode_injective cs' cs (e1' ▸ e1) ▸ e2')

/-- C02: `safe_string` returns `Ok` exactly on well-formed BOM-free input, and
then returns the input; it always terminates. -/
theorem C02_safeString_ok (cfg : Cfg) (conv : Conv) (bs : List UInt8) :
    ((∃ t, safeString cfg conv bs = some (.ok t)) ↔ ∃ cs, bs = encode cs ∧ BOM ∉ cs) ∧
    (∀ t, safeString cfg conv bs = some (.ok t) → t = bs) ∧
    safeString cfg conv bs ≠ none := by
  have hd := C03_drain cfg conv bs
  unfold safeString
  rw [hd]
  refine ⟨⟨?_, ?_⟩, ?_, ?_⟩
  · rintro ⟨t, ht⟩
    apply readAll_valid cfg bs.length (St.init conv bs) (WF_init _ _) (by simp [St.init])
    cases hf : (readAll cfg (bs.length + 1) (St.init conv bs)).2.flag with
    | none => rfl
    | some f => simp [hf] at ht
  · rintro ⟨cs, rfl, hb⟩
    have := (C01_utf8_agreement cfg conv cs hb).2
    exact ⟨encode cs, by simp [this]⟩
  · intro t
    cases hf : (readAll cfg (bs.length + 1) (St.init conv bs)).2.flag <;> simp [hf]
    rintro rfl; rfl
  · cases hf : (readAll cfg (bs.length + 1) (St.init conv bs)).2.flag <;> simp [hf]

theorem readAll_encode_bom (cfg : Cfg) : ∀ (n : Nat) (cs : List Char) (loc : Loc) (flag : Option Unsafe),
    (flag = none ∨ flag = some .bom) → cs.length ≤ n →
    let f := (readAll cfg (n + 1) ⟨encode cs, loc, false, flag⟩).2.flag
    f = none ∨ f = some .bom := by
  intro n
  induction n with
  | zero =>
    intro cs loc flag hf hn
    have hnil : cs = [] := by simpa using hn
    subst hnil
    simpa [readAll, encode, nextSource_nil] using hf
  | succ n ih =>
    intro cs loc flag hf hn
    rcases cs with _ | ⟨c, cs⟩
    · simpa [readAll, encode, nextSource_nil] using hf
    · simp at hn
      by_cases hfe : c.toNat = 0xfeff
      · have hn2 := nextSource_enc_mb (cfg := cfg) (ch := c) (t := encode cs) (loc := loc) (flag := flag) (by omega)
        rw [if_pos hfe] at hn2
        have := ih cs loc.increment (some .bom) (.inr rfl) (by omega)
        rw [encode_cons]
        unfold readAll
        rw [hn2]
        simpa only [reduceCtorEq, if_false] using this
      by_cases hcr : c = '\r' ∧ cs.head? = some '\n'
      · obtain ⟨rfl, hh⟩ := hcr
        rcases cs with _ | ⟨d, ds⟩
        · simp at hh
        · simp at hh; subst hh
          have := ih ds (loc.windowsNewline) flag hf (by simp at hn; omega)
          rw [encode_cons, encode_cons, enc_cr, enc_lf]
          unfold readAll
          simp only [List.cons_append, List.nil_append, nextSource_enc_crlf, reduceCtorEq, if_false]
          exact this
      · have hn2 := nextSource_enc (cfg := cfg) (ch := c) (t := encode cs) (loc := loc) (flag := flag) hfe
          (fun h hh => hcr ⟨h, head_encode hh⟩)
        have := ih cs (locUpd cfg (.char c.toNat) loc) flag hf (by omega)
        rw [encode_cons]
        unfold readAll
        rw [hn2]
        simpa only [reduceCtorEq, if_false] using this

/-- C02: the assertion `safe_string` makes on failure holds: the input is not
well-formed UTF-8 or the reported error is the byte order mark. -/
theorem C02_safeString_err (cfg : Cfg) (conv : Conv) (bs : List UInt8) (f : Unsafe)
    (h : safeString cfg conv bs = some (.error f)) : ¬ ValidUTF8 bs ∨ f = .bom := by
  by_cases hv : ValidUTF8 bs
  · right
    obtain ⟨cs, rfl⟩ := hv
    have := readAll_encode_bom cfg _ cs conv.start none (.inl rfl) (length_encode cs)
    unfold safeString at h
    rw [C03_drain] at h
    have hs : St.init conv (encode cs) = ⟨encode cs, conv.start, false, none⟩ := rfl
    rw [hs] at h
    rcases this with hf | hf
    · simp [hf] at h
    · simp [hf] at h; exact h.symm
  · exact .inl hv

example : safeString Cfg.default .lineColumn [0xef, 0xbb, 0xbf, 0x61] = some (.error .bom) := by
  decide +kernel
example : safeString Cfg.default .lineColumn [0x61, 0xed, 0xa0, 0x80] = some (.error .straySurrogate) := by
  decide +kernel
example : safeString Cfg.default .lineColumn [0x61, 0xc3, 0xa9] = some (.ok [0x61, 0xc3, 0xa9]) := by
  decide +kernel

/-! ### C04-C07: locations -/

/-- How reading one character moves a location, in terms of the character. -/
theorem loc_step (cfg : Cfg) (s : St) (h : WF s) :
    (nextSource cfg s).2.loc = locUpd cfg (nextSource cfg s).1 s.loc := by
  by_cases hne : s.rest = []
  · rw [nextSource_nil hne]; rfl
  · have hd := nextSource_Dec (cfg := cfg) h hne
    generalize nextSource cfg s = p at hd
    cases hd with
    | valid => rfl
    | crlf => rfl
    | invalid c pre rest e u h1 => simp [locUpd_unsafe h1]

theorem locUpd_line (cfg : Cfg) (c : CP) (l k : Nat) :
    ∃ k', locUpd cfg c (.lineCol l k) = .lineCol (l + if isTerminator c then 1 else 0) k' ∧
      (isTerminator c = true → k' = 1) ∧ (0 < k → 0 < k') := by
  unfold locUpd
  split
  all_goals simp [isTerminator, Loc.tab, Loc.newline, Loc.windowsNewline, Loc.increment]
  · omega
  · rename_i h9 h10 h13 hcr he
    cases c <;> simp_all

theorem C04_aux (cfg : Cfg) : ∀ (n : Nat) (s : St) (l k : Nat), WF s → s.loc = .lineCol l k →
    ∃ k', (readN cfg n s).2.loc =
      .lineCol (l + ((readN cfg n s).1.map Prod.fst).countP isTerminator) k' ∧
      (∀ c, ((readN cfg n s).1.map Prod.fst).getLast? = some c → isTerminator c = true → k' = 1) := by
  intro n
  induction n with
  | zero => intro s l k _ h; exact ⟨k, by simp [readN, h]⟩
  | succ n ih =>
    intro s l k hwf h
    have hl := loc_step cfg s hwf
    rw [h] at hl
    obtain ⟨k1, e1, e2, _⟩ := locUpd_line cfg (nextSource cfg s).1 l k
    rw [e1] at hl
    obtain ⟨k', f1, f2⟩ := ih _ _ _ (WF_nextSource hwf) hl
    refine ⟨k', ?_, ?_⟩
    · simp only [readN, List.map_cons, List.countP_cons]
      rw [f1]; congr 1; omega
    · intro c hc ht
      simp only [readN, List.map_cons] at hc
      cases hr : (readN cfg n (nextSource cfg s).2).1.map Prod.fst with
      | nil =>
        rw [hr] at hc; simp at hc; subst hc
        have hn0 : n = 0 := by
          cases n with
          | zero => rfl
          | succ m => simp [readN] at hr
        subst hn0
        simp [readN] at f1
        rw [hl] at f1; simp at f1
        rw [← f1]; exact e2 ht
      | cons x xs =>
        rw [hr] at hc
        apply f2 c _ ht
        rw [hr]; simpa using hc

/-- C04: with line/column positions, after reading any number `n` of source
characters of any byte sequence, the line is one plus the number of line
terminators among them, and if the last one read is a terminator the column
is 1. -/
theorem C04_lines (cfg : Cfg) (bs : List UInt8) (n : Nat) :
    let r := readN cfg n (St.init .lineColumn bs)
    line r.2.loc = 1 + (r.1.map Prod.fst).countP isTerminator ∧
    (∀ c, (r.1.map Prod.fst).getLast? = some c → isTerminator c = true → col r.2.loc = 1) := by
  obtain ⟨k', h1, h2⟩ := C04_aux cfg n (St.init .lineColumn bs) 1 1 (WF_init _ _) rfl
  simp only [h1, line, col]
  exact ⟨trivial, h2⟩

example : line (readN Cfg.default 6 (St.init .lineColumn "a\r\nb\rc\nd".toUTF8.toList)).2.loc = 4 := by
  decide +kernel

/-- C05: a tab moves to the next tab stop: the new column is the least column
greater than the old one of the form `k * tab_width + 1`; the line is kept. -/
theorem C05_tab_stops (cfg : Cfg) (s : St) (l c : Nat) (hc : 1 ≤ c) (hl : s.loc = .lineCol l c)
    (rest : List UInt8) (hr : s.rest = 9 :: rest) :
    ∃ c', (nextSource cfg s).1 = .char 9 ∧ (nextSource cfg s).2.loc = .lineCol l c' ∧
      c < c' ∧ (∃ k, c' = k * cfg.tabWidth + 1) ∧
      ∀ d, c < d → (∃ k, d = k * cfg.tabWidth + 1) → c' ≤ d := by
  have hp := cfg.pos
  refine ⟨cfg.tabWidth * ((c - 1) / cfg.tabWidth) + 1 + cfg.tabWidth, ?_, ?_, ?_, ?_, ?_⟩
  · simp [nextSource, nextSourceUncommon, currentByte, nextByte, hr, inR]
  · simp [nextSource, nextSourceUncommon, currentByte, nextByte, hr, inR, hl, Loc.tab]
  · have := Nat.lt_div_mul_add (a := c - 1) hp
    rw [Nat.mul_comm] at this
    omega
  · exact ⟨(c - 1) / cfg.tabWidth + 1, by rw [Nat.add_mul, Nat.mul_comm]; omega⟩
  · rintro d hd ⟨k, rfl⟩
    have h1 : (c - 1) / cfg.tabWidth < k := by
      rw [Nat.div_lt_iff_lt_mul hp]; omega
    have h2 : ((c - 1) / cfg.tabWidth + 1) * cfg.tabWidth ≤ k * cfg.tabWidth :=
      Nat.mul_le_mul_right _ h1
    rw [Nat.add_mul, Nat.mul_comm] at h2
    omega

/-- Columns reported by the reader are at least 1, as C05 assumes. -/
theorem C05_column_pos (cfg : Cfg) (bs : List UInt8) (n : Nat) :
    ∃ l c, (readN cfg n (St.init .lineColumn bs)).2.loc = .lineCol l c ∧ 1 ≤ l ∧ 1 ≤ c := by
  suffices ∀ (s : St) (l k : Nat), WF s → s.loc = .lineCol l k → 1 ≤ l → 1 ≤ k →
      ∃ l' c', (readN cfg n s).2.loc = .lineCol l' c' ∧ 1 ≤ l' ∧ 1 ≤ c' from
    this _ 1 1 (WF_init _ _) rfl (by simp) (by simp)
  induction n with
  | zero => intro s l k _ h h1 h2; exact ⟨l, k, h, h1, h2⟩
  | succ n ih =>
    intro s l k hwf h h1 h2
    have hl := loc_step cfg s hwf
    rw [h] at hl
    obtain ⟨k1, e1, _, e3⟩ := locUpd_line cfg (nextSource cfg s).1 l k
    rw [e1] at hl
    exact ih _ _ _ (WF_nextSource hwf) hl (by omega) (e3 h2)

example : (nextSource Cfg.default (readN Cfg.default 2 (St.init .lineColumn [0x61, 0x62, 9, 0x63])).2).2.loc
    = .lineCol 1 5 := by decide +kernel

theorem before_locUpd (cfg : Cfg) (c : CP) (l : Loc) (h : c ≠ .eof) : before l (locUpd cfg c l) := by
  have hp := cfg.pos
  unfold locUpd
  cases l with
  | lineCol l k =>
    split <;> simp [before, Loc.tab, Loc.newline, Loc.windowsNewline, Loc.increment]
    · rcases Nat.eq_zero_or_pos k with rfl | hk
      · omega
      · have := Nat.lt_div_mul_add (a := k - 1) hp
        rw [Nat.mul_comm] at this
        omega
    · exact h rfl
  | index i =>
    split <;> simp [before, Loc.tab, Loc.newline, Loc.windowsNewline, Loc.increment]
    exact h rfl

/-- C06: at every position of every input, in both conventions and for every
positive tab width, reading a character moves the position strictly forward, and
end of file leaves it unchanged. -/
theorem C06_strictly_increasing (cfg : Cfg) (conv : Conv) (bs : List UInt8) (s : St)
    (h : Position cfg conv bs s) :
    ((nextSource cfg s).1 ≠ .eof → before s.loc (nextSource cfg s).2.loc) ∧
    ((nextSource cfg s).1 = .eof → (nextSource cfg s).2.loc = s.loc) := by
  rw [loc_step cfg s h.wf]
  exact ⟨before_locUpd cfg _ _, fun he => by rw [he]; rfl⟩

example : Position Cfg.default .lineColumn [0x61, 9, 0xff] (readN Cfg.default 2 (St.init .lineColumn [0x61, 9, 0xff])).2 ∧
    (nextSource Cfg.default (readN Cfg.default 2 (St.init .lineColumn [0x61, 9, 0xff])).2).1 = .unsafe1 :=
  ⟨⟨2, rfl⟩, by decide +kernel⟩

theorem C07_aux (cfg : Cfg) : ∀ (n : Nat) (s : St) (i : Nat), WF s → s.loc = .index i →
    (readN cfg n s).2.loc = .index (i + ((readN cfg n s).1.map Prod.fst).countP (· ≠ .eof) +
      ((readN cfg n s).1.map Prod.fst).countP (· = .crlf)) := by
  intro n
  induction n with
  | zero => intro s i _ h; simp [readN, h]
  | succ n ih =>
    intro s i hwf h
    have hl := loc_step cfg s hwf
    rw [h] at hl
    have hi : locUpd cfg (nextSource cfg s).1 (.index i) =
        .index (i + (if (nextSource cfg s).1 ≠ .eof then 1 else 0) +
          (if (nextSource cfg s).1 = .crlf then 1 else 0)) := by
      unfold locUpd
      generalize (nextSource cfg s).1 = c
      split <;> simp_all [Loc.tab, Loc.newline, Loc.windowsNewline, Loc.increment]
    rw [hi] at hl
    have := ih _ _ (WF_nextSource hwf) hl
    simp only [readN, List.map_cons, List.countP_cons]
    rw [this]
    congr 1
    simp only [decide_eq_true_eq]
    omega

/-- C07: with character-index positions, after any number of reads of any byte
sequence the position is one plus the number of characters read plus the number
of CR LF pairs among them (end-of-file results are not characters). -/
theorem C07_index (cfg : Cfg) (bs : List UInt8) (n : Nat) :
    let cs := (readN cfg n (St.init .characterIndex bs)).1.map Prod.fst
    (readN cfg n (St.init .characterIndex bs)).2.loc =
      .index (1 + cs.countP (· ≠ .eof) + cs.countP (· = .crlf)) :=
  C07_aux cfg n _ 1 (WF_init _ _) rfl

example : (readN Cfg.default 9 (St.init .characterIndex "a\r\n€b".toUTF8.toList)).2.loc = .index 6 := by
  decide +kernel

/-! ### C08: peeking at source characters -/

/-- C08 for source characters: peeking returns what reading would return and
leaves byte position, location and end-of-file state unchanged; peeking again
gives the same answer; and reading after a peek behaves as without the peek.
(Only the sticky encoding-error flag may become set by a peek.) -/
theorem C08_peek_source (cfg : Cfg) (s : St) :
    (peekSource cfg s).1 = (nextSource cfg s).1 ∧
    (peekSource cfg s).2.rest = s.rest ∧ (peekSource cfg s).2.loc = s.loc ∧
    (peekSource cfg s).2.eof = s.eof ∧
    (peekSource cfg (peekSource cfg s).2).1 = (peekSource cfg s).1 ∧
    Sim (nextSource cfg (peekSource cfg s).2) (nextSource cfg s) := by
  have h : Sim (nextSource cfg (peekSource cfg s).2) (nextSource cfg s) :=
    nextSource_sim (cfg := cfg) (r := s.rest) (l := s.loc) (e := s.eof)
      (f := (nextSource cfg s).2.flag) (g := s.flag)
  exact ⟨rfl, rfl, rfl, rfl, h.1, h⟩

example : (peekSource Cfg.default (St.init .lineColumn [0x0d, 0x0a])).1 = .crlf ∧
    (peekSource Cfg.default (St.init .lineColumn [])).2.eof = false := by decide +kernel

end CodeParser.Props
