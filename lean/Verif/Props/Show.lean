import Verif.Model.Show
import Verif.Spec.Show
import Verif.Proofs.Show
/-!
Property C56: displayed characters.
-/
namespace CodeParser.Props
open CodeParser Spec

/-! ### Digits -/

theorem fromDigit_hex {d : Nat} (h : d < 16) : hexDigit (byte (fromDigit d)) = some d := by
  have : ∀ d : Fin 16, hexDigit (byte (fromDigit d.val)) = some d.val := by decide +kernel
  exact this ⟨d, h⟩

theorem fromDigit_oct {d : Nat} (h : d < 8) : octDigit (byte (fromDigit d)) = some d := by
  have : ∀ d : Fin 8, octDigit (byte (fromDigit d.val)) = some d.val := by decide +kernel
  exact this ⟨d, h⟩

theorem fromDigit_printable (d : Nat) : 0x20 ≤ (fromDigit d).toNat ∧ (fromDigit d).toNat ≤ 0x7e := by
  by_cases h : d < 16
  · have : ∀ d : Fin 16, 0x20 ≤ (fromDigit d.val).toNat ∧ (fromDigit d.val).toNat ≤ 0x7e := by decide +kernel
    exact this ⟨d, h⟩
  · have : fromDigit d = '!' := by
      unfold fromDigit
      rw [List.getD_eq_getElem?_getD, List.getElem?_eq_none (by simp; omega)]; rfl
    rw [this]; decide

theorem lastDigits_length (base : Nat) : ∀ k i, (lastDigits base k i).length = k := by
  intro k
  induction k with
  | zero => intro i; rfl
  | succ k ih => intro i; simp [lastDigits, ih]

theorem lastDigits_numeral {digit : UInt8 → Option Nat} {base : Nat} (hb : 0 < base)
    (hd : ∀ d, d < base → digit (byte (fromDigit d)) = some d) :
    ∀ k i, i < base ^ k → Numeral digit base (bytes ((lastDigits base k i).map fromDigit)) i := by
  intro k
  induction k with
  | zero =>
    intro i hi
    have : i = 0 := by simpa using hi
    subst this; exact .nil
  | succ k ih =>
    intro i hi
    have h1 : i / base < base ^ k := by
      rw [Nat.div_lt_iff_lt_mul hb]; rwa [Nat.pow_succ] at hi
    have := Numeral.snoc (ih _ h1) (hd (i % base) (Nat.mod_lt _ hb))
    rw [show i / base * base + i % base = i by rw [Nat.mul_comm]; exact Nat.div_add_mod i base] at this
    simpa [lastDigits, bytes] using this

/-! ### ASCII -/

theorem enc_ascii_byte {c : Char} (h : c.toNat < 128) : String.utf8EncodeChar c = [byte c] := by
  obtain ⟨d, hd, he⟩ := enc_ascii c.toNat (by omega)
  have : d = c := Char.toNat_inj.mp hd
  rw [this] at he
  rw [he]; rfl

theorem ofNat_toNat (c : Char) : Char.ofNat c.toNat = c := Char.ofNat_toNat c

theorem encodeBytes_ascii {c : Char} (h : c.toNat < 128) : encodeBytes (ch c) = some [byte c] := by
  simp [encodeBytes, ch, ofNat_toNat, enc_ascii_byte h]

theorem showAll_ascii {src : CP → Option (List UInt8)} :
    ∀ {cs : List Char}, (∀ c ∈ cs, src (ch c) = some [byte c]) → showAll src cs = some (bytes cs)
  | [], _ => rfl
  | c :: cs, h => by
    simp [showAll, h c (by simp), showAll_ascii fun c hc => h c (List.mem_cons_of_mem _ hc), bytes]

/-- A printable ASCII character is formatted as itself. -/
theorem graphicalGo_ascii {f : Nat} {c : Char} (h : 0x20 ≤ c.toNat ∧ c.toNat ≤ 0x7e) :
    graphicalGo (f + 1) (ch c) = some [byte c] := by
  have hl : isLinearSyntax c.toNat = false := by
    unfold isLinearSyntax singleChar
    simp only
    repeat rw [if_neg (by omega)]
    rfl
  have hc : isControlHex c.toNat = false := by
    simp [isControlHex, inR]; omega
  simp only [graphicalGo, ch]
  rw [if_neg (by omega), if_neg (by omega), if_neg (by omega), if_neg (by omega), if_neg (by omega), hl, hc,
    if_neg (by simp), if_neg (by omega), if_neg (by simp), if_neg (by simp; omega), if_neg (by omega), if_neg (by omega),
    if_neg (by omega)]
  exact encodeBytes_ascii (by omega)

theorem printable_bytes {cs : List Char} (h : ∀ c ∈ cs, 0x20 ≤ c.toNat ∧ c.toNat ≤ 0x7e) : Printable (bytes cs) := by
  intro b hb
  obtain ⟨c, hc, rfl⟩ := List.mem_map.mp hb
  have := h c hc
  rw [byte_toNat (by omega)]; exact this

/-! ### Reading back -/

/-- The text is read as one character, whatever follows. -/
def ReadsAs (text : List UInt8) (c : WLC) : Prop :=
  ∀ (cfg : Cfg) (s : St) (rest : List UInt8), WF s → s.rest = text ++ rest → ∃ t, nextWL cfg s = .ok (c, t) ∧ t.rest = rest

theorem reads_escape {r : List UInt8} {p : CP} {e : Escape} (h : ∀ rest, Escapes (r ++ rest) p e rest) :
    ReadsAs (byte '\\' :: r) ⟨p, e⟩ :=
  fun _ _ _ hs hr => nextWL_escape hs (by rw [hr]; rfl) (h _)

theorem reads_single {x : Char} {p : CP} (h : (x, p) ∈ singleEscapes) : ReadsAs (bytes ['\\', x]) ⟨p, .single⟩ :=
  reads_escape fun _ => .single h

theorem reads_name {name : List Char} {p : CP} (h : (name, p) ∈ longNameTable) (hr : name ∉ rawSet) :
    ReadsAs (bytes ('\\' :: '[' :: (name ++ [']']))) ⟨p, .longName⟩ := by
  have : bytes ('\\' :: '[' :: (name ++ [']'])) = byte '\\' :: (byte '[' :: (bytes name ++ [byte ']'])) := by
    simp [bytes]
  rw [this]
  refine reads_escape (r := byte '[' :: (bytes name ++ [byte ']'])) fun rest => ?_
  simpa using Escapes.longName (rest := rest) h hr

theorem reads_raw {name : List Char} {p : CP} (h : (name, p) ∈ longNameTable) (hr : name ∈ rawSet) :
    ReadsAs (bytes ('\\' :: '[' :: (name ++ [']']))) ⟨p, .raw⟩ := by
  have : bytes ('\\' :: '[' :: (name ++ [']'])) = byte '\\' :: (byte '[' :: (bytes name ++ [byte ']'])) := by
    simp [bytes]
  rw [this]
  refine reads_escape (r := byte '[' :: (bytes name ++ [byte ']'])) fun rest => ?_
  simpa using Escapes.raw (rest := rest) h hr

/-- The text of a numeric escape. -/
def numberText (intro : List Char) (base k i : Nat) : List Char :=
  '\\' :: (intro ++ (lastDigits base k i).map fromDigit)

theorem digits_length (base k i : Nat) : (bytes ((lastDigits base k i).map fromDigit)).length = k := by
  simp [bytes, lastDigits_length]

theorem reads_hex2 {i : Nat} (h : i < 16 ^ 2) : ReadsAs (bytes (numberText ['.'] 16 2 i)) ⟨canon i, .hex2⟩ :=
  reads_escape (r := byte '.' :: bytes ((lastDigits 16 2 i).map fromDigit)) fun _ =>
    .hex2 (digits_length ..) (lastDigits_numeral (by decide) (fun _ => fromDigit_hex) _ _ h)

theorem reads_hex4 {i : Nat} (h : i < 16 ^ 4) (hs : IsScalar i) :
    ReadsAs (bytes (numberText [':'] 16 4 i)) ⟨canon i, .hex4⟩ :=
  reads_escape (r := byte ':' :: bytes ((lastDigits 16 4 i).map fromDigit)) fun _ =>
    .hex4 (digits_length ..) (lastDigits_numeral (by decide) (fun _ => fromDigit_hex) _ _ h) hs

theorem reads_hex6 {i : Nat} (h : i < 16 ^ 6) (hs : IsScalar i) :
    ReadsAs (bytes (numberText ['|'] 16 6 i)) ⟨canon i, .hex6⟩ :=
  reads_escape (r := byte '|' :: bytes ((lastDigits 16 6 i).map fromDigit)) fun _ =>
    .hex6 (digits_length ..) (lastDigits_numeral (by decide) (fun _ => fromDigit_hex) _ _ h) hs

theorem reads_octal {i : Nat} (h : i < 8 ^ 3) : ReadsAs (bytes (numberText [] 8 3 i)) ⟨canon i, .octal⟩ :=
  reads_escape (r := bytes ((lastDigits 8 3 i).map fromDigit)) fun _ =>
    .octal (digits_length ..) (lastDigits_numeral (by decide) (fun _ => fromDigit_oct) _ _ h)

theorem value_canon (n : Nat) : value (canon n) = some n := by
  unfold canon
  split
  · rename_i h; subst h; rfl
  · split
    · rename_i h; subst h; rfl
    · rfl

theorem numberOf_canon (n : Nat) : numberOfCP (canon n) = some n := by
  unfold canon
  split
  · rename_i h; subst h; rfl
  · split
    · rename_i h; subst h; rfl
    · rfl

/-- What the digits and introducing characters of numeric escapes have in common. -/
theorem number_printable {intro : List Char} {base k i : Nat} (h : ∀ c ∈ intro, 0x20 ≤ c.toNat ∧ c.toNat ≤ 0x7e) :
    ∀ c ∈ numberText intro base k i, 0x20 ≤ c.toNat ∧ c.toNat ≤ 0x7e := by
  intro c hc
  simp only [numberText, List.mem_cons, List.mem_append, List.mem_map] at hc
  rcases hc with rfl | hc | ⟨d, _, rfl⟩
  · decide
  · exact h c hc
  · exact fromDigit_printable d

theorem name_printable {name : List Char} {p : CP} (h : (name, p) ∈ longNameTable) :
    ∀ c ∈ '\\' :: '[' :: (name ++ [']']), 0x20 ≤ c.toNat ∧ c.toNat ≤ 0x7e := by
  intro c hc
  simp only [List.mem_cons, List.mem_append, List.not_mem_nil, or_false] at hc
  rcases hc with rfl | rfl | hc | rfl
  · decide
  · decide
  · obtain ⟨d, ds, hd, _, ha⟩ := longNameTable_shape _ h
    simp only at hd
    have := ha c (hd ▸ hc)
    simp [CP.isAlphaOrDigit, inR] at this; omega
  · decide

instance (text : List UInt8) : Decidable (Printable text) := by unfold Printable; infer_instance

/-! ### C56 -/

theorem graphical_shown {cs : List Char} (h : ∀ c ∈ cs, 0x20 ≤ c.toNat ∧ c.toNat ≤ 0x7e) :
    showAll (graphicalGo 1) cs = some (bytes cs) :=
  showAll_ascii fun c hc => graphicalGo_ascii (h c hc)

theorem display_shown {cs : List Char} (h : ∀ c ∈ cs, c.toNat < 128) :
    showAll CP.display cs = some (bytes cs) :=
  showAll_ascii fun c hc => encodeBytes_ascii (h c hc)

/-- The graphical form of a character is printable and is read as this character. -/
def Offers (n : Nat) (o : Option (List UInt8)) : Prop :=
  ∃ text c, o = some text ∧ Printable text ∧ ReadsAs text c ∧ value c.point = some n

theorem offers {n : Nat} {cs : List Char} {c : WLC} {o : Option (List UInt8)} (ho : o = showAll (graphicalGo 1) cs)
    (hp : ∀ c ∈ cs, 0x20 ≤ c.toNat ∧ c.toNat ≤ 0x7e) (hr : ReadsAs (bytes cs) c) (hv : value c.point = some n) : Offers n o :=
  ⟨_, c, ho.trans (graphical_shown hp), printable_bytes hp, hr, hv⟩

theorem showNumber_eq {src : CP → Option (List UInt8)} {intro : List Char} {base k : Nat} {p : CP} {i : Nat}
    (h : numberOfCP p = some i) : showNumber src intro base k p = showAll src (numberText intro base k i) := by
  unfold showNumber; rw [h]; rfl

theorem singleChar_mem {p : CP} {x : Char} (h : singleChar p = some x) (h1 : p ≠ .contLF) (h2 : p ≠ .contCR) :
    (x, p) ∈ singleEscapes ∧ 0x20 ≤ x.toNat ∧ x.toNat ≤ 0x7e := by
  have key : ∀ q ∈ singleEscapes, 0x20 ≤ q.1.toNat ∧ q.1.toNat ≤ 0x7e := by decide +kernel
  have hm : (x, p) ∈ singleEscapes := by
    cases p with
    | char n =>
      unfold singleChar at h
      have step : ∀ {m : Nat} {y : Char} {o : Option Char}, (if n = m then some y else o) = some x →
          (y, CP.char m) ∈ singleEscapes → (o = some x → (x, CP.char n) ∈ singleEscapes) → (x, CP.char n) ∈ singleEscapes := by
        intro m y o h hm hk
        by_cases hn : n = m
        · rw [if_pos hn] at h
          cases h; rw [hn]; exact hm
        · rw [if_neg hn] at h; exact hk h
      refine step h (by decide +kernel) fun h => ?_
      refine step h (by decide +kernel) fun h => ?_
      refine step h (by decide +kernel) fun h => ?_
      refine step h (by decide +kernel) fun h => ?_
      refine step h (by decide +kernel) fun h => ?_
      refine step h (by decide +kernel) fun h => ?_
      refine step h (by decide +kernel) fun h => ?_
      refine step h (by decide +kernel) fun h => ?_
      refine step h (by decide +kernel) fun h => ?_
      refine step h (by decide +kernel) fun h => ?_
      refine step h (by decide +kernel) fun h => ?_
      refine step h (by decide +kernel) fun h => ?_
      cases h
    | _ => first
      | exact absurd rfl h1
      | exact absurd rfl h2
      | (cases h; done)
      | (cases h; decide +kernel)
  exact ⟨hm, key _ hm⟩

theorem linear_single {n : Nat} (h : isLinearSyntax n = true) : ∃ x, singleChar (.char n) = some x ∧ (x, CP.char n) ∈ singleEscapes ∧
    0x20 ≤ x.toNat ∧ x.toNat ≤ 0x7e := by
  unfold isLinearSyntax at h
  obtain ⟨x, hx⟩ := Option.isSome_iff_exists.mp h
  exact ⟨x, hx, singleChar_mem hx (by simp) (by simp)⟩

theorem graphical_offers {n : Nat} (hn : IsScalar n) (hb : n ≠ 0x5c) : Offers n (CP.char n).graphical := by
  unfold CP.graphical graphicalGo
  simp only
  have single : ∀ {x : Char} {p : CP}, p ≠ .contCRLF → singleChar p = some x → (x, p) ∈ singleEscapes → value p = some n →
      0x20 ≤ x.toNat ∧ x.toNat ≤ 0x7e → Offers n (WLC.showWith (graphicalGo 1) ⟨p, .single⟩) := by
    intro x p h0 hx hs hv hx'
    refine offers (cs := ['\\', x]) ?_ ?_ (reads_single hs) hv
    · simp [WLC.showWith, h0, hx]
    · intro c hc
      simp only [List.mem_cons, List.not_mem_nil, or_false] at hc
      rcases hc with rfl | rfl
      · decide
      · exact hx'
  have name : ∀ {name : List Char} {e : Escape}, codepointToLongname (.char n) = some name →
      ReadsAs (bytes ('\\' :: '[' :: (name ++ [']']))) ⟨.char n, e⟩ → 
      Offers n (WLC.showWith (graphicalGo 1) ⟨.char n, .longName⟩) := by
    intro name e hc hr
    refine offers (cs := '\\' :: '[' :: (name ++ [']'])) ?_ (name_printable (names_registered hc)) hr rfl
    simp [WLC.showWith, hc]
  have hex2 : n < 16 ^ 2 → Offers n (WLC.showWith (graphicalGo 1) ⟨.char n, .hex2⟩) := fun h =>
    offers (showNumber_eq rfl) (number_printable (by decide)) (reads_hex2 h) (value_canon n)
  have hlt : n < 0x110000 := by unfold IsScalar at hn; omega
  by_cases h1 : n = 0x08
  · rw [if_pos h1]
    exact single (by simp) rfl (by decide) (by rw [h1]; rfl) (by decide)
  rw [if_neg h1]
  by_cases h2 : n = 0x0c
  · rw [if_pos h2]
    exact single (by simp) rfl (by decide) (by rw [h2]; rfl) (by decide)
  rw [if_neg h2]
  by_cases h3 : n = 0x09
  · rw [if_pos h3]
    exact single (by simp) rfl (by decide) (by rw [h3]; rfl) (by decide)
  rw [if_neg h3]
  by_cases h4 : n = 0x0a
  · rw [if_pos h4]
    exact single (by simp) rfl (by decide) (by rw [h4]; rfl) (by decide)
  rw [if_neg h4]
  by_cases h5 : n = 0x0d
  · rw [if_pos h5]
    exact single (by simp) rfl (by decide) (by rw [h5]; rfl) (by decide)
  rw [if_neg h5]
  by_cases h6 : isLinearSyntax n = true
  · rw [if_pos h6]
    obtain ⟨x, h1, h2, h3⟩ := linear_single h6
    exact single (by simp) h1 h2 rfl h3
  rw [if_neg h6]
  by_cases h7 : n = 0x1b
  · rw [if_pos h7]
    subst h7
    have hc : codepointToLongname (.char 0x1b) = some "RawEscape".toList := by decide +kernel
    exact name hc (reads_raw (names_registered hc) (by decide +kernel))
  rw [if_neg h7]
  by_cases h8 : isControlHex n = true
  · rw [if_pos h8]
    exact hex2 (by simp [isControlHex, inR] at h8; omega)
  rw [if_neg h8]
  by_cases h9 : (decide (0x7f < n) && (codepointToLongname (.char n)).isSome) = true
  · rw [if_pos h9]
    simp only [Bool.and_eq_true, decide_eq_true_eq] at h9
    obtain ⟨nm, hc⟩ := Option.isSome_iff_exists.mp h9.2
    exact name hc (reads_name (names_registered hc) (names_not_raw h9.1 hc))
  rw [if_neg h9]
  by_cases h10 : 0xffff < n
  · rw [if_pos h10]
    exact offers (showNumber_eq rfl) (number_printable (by decide)) (reads_hex6 (by omega) hn) (value_canon n)
  rw [if_neg h10]
  by_cases h11 : 0xff < n
  · rw [if_pos h11]
    exact offers (showNumber_eq rfl) (number_printable (by decide)) (reads_hex4 (by omega) hn) (value_canon n)
  rw [if_neg h11]
  by_cases h12 : 0x7f < n
  · rw [if_pos h12]
    exact hex2 (by omega)
  rw [if_neg h12]
  have hr : 0x20 ≤ n ∧ n ≤ 0x7e := by simp [isControlHex, inR] at h8; omega
  have hc : n = (Char.ofNat n).toNat := by
    have : n.isValidChar := by left; omega
    simp [Char.ofNat, this, Char.toNat, Char.ofNatAux]
  refine ⟨_, ⟨.char n, .none⟩, by rw [hc]; exact encodeBytes_ascii (by omega), printable_bytes (cs := [_]) (by simpa [← hc] using hr), ?_, rfl⟩
  intro cfg s rest hs hrest
  have hby : (byte (Char.ofNat n)).toNat = n := by rw [byte_toNat (by omega), ← hc]
  have hns := ns_byte (cfg := cfg) hs (show s.rest = byte (Char.ofNat n) :: rest from hrest) (by omega) (by omega)
  rw [hby] at hns
  refine ⟨(nextSource cfg s).2, ?_, by rw [hns]⟩
  have hne : (nextSource cfg s).1 ≠ ch '\\' := by
    rw [hns]; simp only [ch, ne_eq, CP.char.injEq]; exact hb
  have : nextWL cfg s = (if (nextSource cfg s).1 ≠ ch '\\' then pure ⟨(nextSource cfg s).1, .none⟩
      else (do let escaped ← M.mark; nextEscape cfg escaped) : M WLC) (nextSource cfg s).2 := rfl
  rw [this, if_pos hne]
  simp only [hns]; rfl

/-- C56: the replacement that is offered for a character, other than the backslash, is a text of
printable ASCII characters, and this text is read as one character that stands for the same one,
wherever it is and whatever follows. -/
theorem C56_replacement {n : Nat} (hn : IsScalar n) (hb : n ≠ 0x5c) :
    ∃ text, (CP.char n).graphical = some text ∧ Printable text ∧
      ∀ (cfg : Cfg) (conv : Conv) (bs : List UInt8) (s : St) (rest : List UInt8), Reachable cfg conv bs s →
        s.rest = text ++ rest → ∃ c t, nextWL cfg s = .ok (c, t) ∧ t.rest = rest ∧ value c.point = some n := by
  obtain ⟨text, c, h1, h2, h3, h4⟩ := graphical_offers hn hb
  refine ⟨text, h1, h2, fun cfg conv bs s rest hs hr => ?_⟩
  obtain ⟨t, ht, hr'⟩ := h3 cfg s rest hs.wf hr
  exact ⟨c, t, ht, hr', h4⟩

/-! ### Characters that were read -/

theorem graphical_shown2 {cs : List Char} (h : ∀ c ∈ cs, 0x20 ≤ c.toNat ∧ c.toNat ≤ 0x7e) :
    showAll CP.graphical cs = some (bytes cs) :=
  showAll_ascii fun c hc => graphicalGo_ascii (h c hc)

theorem single_shown : ∀ q ∈ singleEscapes, singleChar q.2 = some q.1 ∧ q.2 ≠ .contCRLF ∧
    (0x20 ≤ q.1.toNat ∧ q.1.toNat ≤ 0x7e) ∧ q.2 ≠ .contLF ∧ q.2 ≠ .contCR := by
  decide +kernel

theorem raw_point {name : List Char} {p : CP} (h : (name, p) ∈ longNameTable) (hr : name ∈ rawSet) :
    p = .metaDoubleQuote ∨ p = .metaBackslash ∨ ∃ n, p = .char n ∧ n ≠ 0x5c ∧ n < 128 := by
  have := List.all_eq_true.mp raw_points _ h
  rw [C14_raw.mpr ⟨name, hr, rfl⟩] at this
  cases p <;> simp at this ⊢
  exact this

theorem continuation_single {r : List UInt8} {p : CP} {e : Escape} {rest : List UInt8} (h : Escapes r p e rest)
    (hc : IsContinuation p) : e = .single := by
  have hcanon : ∀ v, ¬ IsContinuation (canon v) := by
    intro v hv
    have := value_canon v
    rcases hv with hv | hv | hv <;> rw [hv] at this <;> cases this
  have hname : ∀ {name}, (name, p) ∈ longNameTable → False := by
    intro name hm
    have := List.all_eq_true.mp no_continuation _ hm
    rcases hc with rfl | rfl | rfl <;> cases this
  cases h with
  | hex2 => exact absurd hc (hcanon _)
  | hex4 => exact absurd hc (hcanon _)
  | hex6 => exact absurd hc (hcanon _)
  | octal => exact absurd hc (hcanon _)
  | raw hm _ => exact (hname hm).elim
  | longName hm _ => exact (hname hm).elim
  | _ => rfl

/-- What an escape, other than the raw names, is displayed as. -/
theorem escape_shown {r : List UInt8} {p : CP} {e : Escape} {rest : List UInt8} (h : Escapes r p e rest) (hr : e ≠ .raw)
    (hc : ¬ IsContinuation p) : ∃ cs, (∀ src, WLC.showWith src ⟨p, e⟩ = showAll src cs) ∧
      (∀ c ∈ cs, 0x20 ≤ c.toNat ∧ c.toNat ≤ 0x7e) ∧ ReadsAs (bytes cs) ⟨p, e⟩ := by
  cases h with
  | @single c _ _ hm =>
    obtain ⟨h1, h2, h3, -⟩ := single_shown _ hm
    refine ⟨['\\', c], fun src => by simp only at h1 h2; simp [WLC.showWith, h1, h2], ?_, reads_single hm⟩
    intro x hx
    simp only [List.mem_cons, List.not_mem_nil, or_false] at hx
    rcases hx with rfl | rfl
    · decide
    · exact h3
  | lineFeed => exact absurd (Or.inl rfl) hc
  | carriageReturn _ => exact absurd (Or.inr (Or.inl rfl)) hc
  | crlf => exact absurd (Or.inr (Or.inr rfl)) hc
  | @hex2 ds v _ hl hn =>
    have := Numeral.lt hexDigit_lt hn
    rw [hl] at this
    exact ⟨_, fun _ => showNumber_eq (numberOf_canon v), number_printable (by decide), reads_hex2 this⟩
  | @hex4 ds v _ hl hn hs =>
    have := Numeral.lt hexDigit_lt hn
    rw [hl] at this
    exact ⟨_, fun _ => showNumber_eq (numberOf_canon v), number_printable (by decide), reads_hex4 this hs⟩
  | @hex6 ds v _ hl hn hs =>
    have := Numeral.lt hexDigit_lt hn
    rw [hl] at this
    exact ⟨_, fun _ => showNumber_eq (numberOf_canon v), number_printable (by decide), reads_hex6 this hs⟩
  | @octal ds v _ hl hn =>
    have := Numeral.lt octDigit_lt hn
    rw [hl] at this
    exact ⟨_, fun _ => showNumber_eq (numberOf_canon v), number_printable (by decide), reads_octal this⟩
  | raw _ _ => exact absurd rfl hr
  | @longName name _ _ hm hn =>
    obtain ⟨name', h1, h2, h3⟩ := named_again hm hn
    exact ⟨'\\' :: '[' :: (name' ++ [']']), fun src => by simp [WLC.showWith, h1], name_printable h2, reads_name h2 h3⟩

theorem eof_not_escape {r : List UInt8} {p : CP} {e : Escape} {rest : List UInt8} (h : Escapes r p e rest) :
    e ≠ .none := by
  cases h <;> simp

/-- How a character comes to be read. -/
theorem read_cases {cfg : Cfg} {s t : St} {c : WLC} (hs : WF s) (h : nextWL cfg s = .ok (c, t)) :
    (c = ⟨(nextSource cfg s).1, .none⟩ ∧ t = (nextSource cfg s).2 ∧ (nextSource cfg s).1 ≠ ch '\\') ∨
    (∃ r, s.rest = byte '\\' :: r ∧ c = ⟨ch '\\', .none⟩ ∧ t.rest = r) ∨
    (∃ r, s.rest = byte '\\' :: r ∧ Escapes r c.point c.escape t.rest) := by
  have hw := nextWL_spec (cfg := cfg) hs
  unfold wp at hw
  rw [h] at hw
  by_cases hc : (nextSource cfg s).1 = ch '\\'
  · obtain ⟨b, r, h1, h2, h3, h4⟩ := ns_char hs hc (by decide)
    have hb : b = byte '\\' := UInt8.toNat_inj.mp h2
    subst hb
    rcases hw.esc r h1 with he | ⟨he, hr, -, -⟩
    · exact .inr (.inr ⟨r, h1, he⟩)
    · exact .inr (.inl ⟨r, h1, he, hr⟩)
  · obtain ⟨h1, h2⟩ := hw.plain hc
    exact .inl ⟨h1, h2, hc⟩

theorem scalar_of_char (c : Char) : IsScalar c.toNat := by
  have := c.valid
  unfold IsScalar
  simp only [UInt32.isValidChar, Nat.isValidChar] at this
  unfold Char.toNat
  omega

/-- C56: a character of a text that was written with an escape, other than the raw names and the line
continuations, is displayed with the same kind of escape, and reading what is displayed gives exactly
this character again, wherever it is and whatever follows. -/
theorem C56_display_partial {cfg : Cfg} {conv : Conv} {bs : List UInt8} {s t : St} {c : WLC} (hs : Reachable cfg conv bs s)
    (h : nextWL cfg s = .ok (c, t)) (he : c.escape ≠ .none) (hr : c.escape ≠ .raw) (hc : ¬ IsContinuation c.point) :
    ∃ text, c.display = some text ∧ c.graphical = some text ∧ Printable text ∧
      ∀ (cfg : Cfg) (conv : Conv) (bs : List UInt8) (s : St) (rest : List UInt8), Reachable cfg conv bs s →
        s.rest = text ++ rest → ∃ t, nextWL cfg s = .ok (c, t) ∧ t.rest = rest := by
  rcases read_cases hs.wf h with ⟨h1, -, -⟩ | ⟨r, -, h1, -⟩ | ⟨r, -, h1⟩
  · exact absurd (by rw [h1]) he
  · exact absurd (by rw [h1]) he
  · obtain ⟨cs, h2, h3, h4⟩ := escape_shown h1 hr hc
    refine ⟨bytes cs, (h2 _).trans (display_shown fun c hc => by have := h3 c hc; omega), (h2 _).trans (graphical_shown2 h3),
      printable_bytes h3, fun cfg conv bs s rest hs hrest => ?_⟩
    exact h4 cfg s rest hs.wf hrest

/-- C56: a character of a text that was not written with an escape is displayed as it is written. -/
theorem C56_plain {cfg : Cfg} {conv : Conv} {bs : List UInt8} {s t : St} {c : WLC} (hs : Reachable cfg conv bs s)
    (h : nextWL cfg s = .ok (c, t)) (he : c.escape = .none) (h1 : c.point ≠ .eof) (h2 : c.point.isUnsafe = false) :
    ∃ text, c.display = some text ∧ s.rest = text ++ t.rest := by
  rcases read_cases hs.wf h with ⟨hc, ht, -⟩ | ⟨r, hr, hc, ht⟩ | ⟨r, -, hc⟩
  · subst hc ht
    have hne : s.rest ≠ [] := by
      intro hn; rw [nextSource_nil hn] at h1; exact h1 rfl
    have hd := nextSource_Dec (cfg := cfg) hs.wf hne
    generalize nextSource cfg s = q at hd h1 h2
    cases hd with
    | valid ch rest hv _ _ =>
      refine ⟨String.utf8EncodeChar ch, ?_, hv⟩
      show some (String.utf8EncodeChar (Char.ofNat ch.toNat)) = _
      rw [ofNat_toNat]
    | crlf rest hv => exact ⟨[13, 10], rfl, hv⟩
    | invalid _ _ _ _ _ hu => simp only at h2; rw [hu] at h2; cases h2
  · subst hc
    exact ⟨[byte '\\'], encodeBytes_ascii (c := '\\') (by decide), by rw [hr, ht]; rfl⟩
  · exact absurd he (eof_not_escape hc)

theorem plain_point {cfg : Cfg} {s : St} (hs : WF s) (h1 : (nextSource cfg s).1 ≠ .eof) (h2 : (nextSource cfg s).1.isUnsafe = false) :
    (nextSource cfg s).1 = .crlf ∨ ∃ n, (nextSource cfg s).1 = .char n ∧ IsScalar n := by
  have hne : s.rest ≠ [] := by
    intro hn; rw [nextSource_nil hn] at h1; exact h1 rfl
  have hd := nextSource_Dec (cfg := cfg) hs hne
  generalize nextSource cfg s = q at hd h1 h2
  cases hd with
  | valid ch rest h1 _ _ => exact .inr ⟨ch.toNat, rfl, scalar_of_char ch⟩
  | crlf rest h1 => exact .inl rfl
  | invalid _ _ _ _ _ hu => simp only at h2; rw [hu] at h2; cases h2

/-- C56: naming a character in the description of an issue never aborts, and gives a printable text. -/
theorem C56_total {cfg : Cfg} {conv : Conv} {bs : List UInt8} {s t : St} {c : WLC} (hs : Reachable cfg conv bs s)
    (h : nextWL cfg s = .ok (c, t)) (h1 : c.point ≠ .eof) (h2 : c.point.isUnsafe = false) :
    ∃ text, c.graphical = some text ∧ Printable text := by
  have hchar : ∀ {n}, IsScalar n → ∃ text, CP.graphical (.char n) = some text ∧ Printable text := by
    intro n hn
    by_cases hb : n = 0x5c
    · subst hb; exact ⟨[0x5c], by decide, by decide⟩
    · obtain ⟨text, c, h1, h2, -⟩ := graphical_offers hn hb
      exact ⟨text, h1, h2⟩
  rcases read_cases hs.wf h with ⟨hc, ht, -⟩ | ⟨r, hr, hc, ht⟩ | ⟨r, -, hc⟩
  · subst hc
    rcases plain_point hs.wf h1 h2 with hp | ⟨n, hp, hn⟩
    · exact ⟨bytes ['\\', 'r', '\\', 'n'], by show CP.graphical _ = _; simp only [hp]; decide, by decide⟩
    · show ∃ text, CP.graphical _ = _ ∧ _
      simp only [hp]; exact hchar hn
  · subst hc; exact hchar (n := 0x5c) (by unfold IsScalar; decide)
  · obtain ⟨p, e⟩ := c
    by_cases hcont : IsContinuation p
    · have : e = .single := continuation_single hc hcont
      subst this
      rcases hcont with rfl | rfl | rfl
      · exact ⟨bytes ['\\', '\\', 'n'], by decide, by decide⟩
      · exact ⟨bytes ['\\', '\\', 'r'], by decide, by decide⟩
      · exact ⟨bytes ['\\', '\\', 'r', '\\', 'n'], by decide, by decide⟩
    · by_cases hr : e = .raw
      · subst hr
        have : ∃ name, (name, p) ∈ longNameTable ∧ name ∈ rawSet := by
          cases hc with | raw hm hn => exact ⟨_, hm, hn⟩
        obtain ⟨name, hm, hn⟩ := this
        rcases raw_point hm hn with rfl | rfl | ⟨n, rfl, hb, hn⟩
        · exact ⟨bytes ['\\', '"'], by decide, by decide⟩
        · exact ⟨bytes ['\\', '\\'], by decide, by decide⟩
        · exact hchar (by unfold IsScalar; omega)
      · obtain ⟨cs, h2, h3, -⟩ := escape_shown hc hr hcont
        exact ⟨bytes cs, (h2 _).trans (graphical_shown2 h3), printable_bytes h3⟩

/-- C56: the name that a character has in the description of an issue reads as this character, unless it
is a backslash, a line break CR LF or a line continuation. -/
theorem C56_graphical_partial {cfg : Cfg} {conv : Conv} {bs : List UInt8} {s t : St} {c : WLC} (hs : Reachable cfg conv bs s)
    (h : nextWL cfg s = .ok (c, t)) (h1 : c.point ≠ .eof) (h2 : c.point.isUnsafe = false)
    (h3 : c ≠ ⟨ch '\\', .none⟩) (h4 : c.point ≠ .crlf) (h5 : ¬ IsContinuation c.point) :
    ∃ text, c.graphical = some text ∧ Printable text ∧
      ∀ (cfg : Cfg) (conv : Conv) (bs : List UInt8) (s : St) (rest : List UInt8), Reachable cfg conv bs s →
        s.rest = text ++ rest → ∃ c' t, nextWL cfg s = .ok (c', t) ∧ t.rest = rest ∧ Same c'.point c.point := by
  have hchar : ∀ {n}, IsScalar n → n ≠ 0x5c → ∃ text, CP.graphical (.char n) = some text ∧ Printable text ∧
      ∀ (cfg : Cfg) (conv : Conv) (bs : List UInt8) (s : St) (rest : List UInt8), Reachable cfg conv bs s →
        s.rest = text ++ rest → ∃ c' t, nextWL cfg s = .ok (c', t) ∧ t.rest = rest ∧ Same c'.point (.char n) := by
    intro n hn hb
    obtain ⟨text, h1, h2, h3⟩ := C56_replacement hn hb
    refine ⟨text, h1, h2, fun cfg conv bs s rest hs hr => ?_⟩
    obtain ⟨c', t, ht, hr', hv⟩ := h3 cfg conv bs s rest hs hr
    exact ⟨c', t, ht, hr', .inr ⟨n, hv, rfl⟩⟩
  rcases read_cases hs.wf h with ⟨hc, ht, hb⟩ | ⟨r, hr, hc, ht⟩ | ⟨r, -, hc⟩
  · subst hc
    rcases plain_point hs.wf h1 h2 with hp | ⟨n, hp, hn⟩
    · exact absurd hp h4
    · show ∃ text, CP.graphical _ = _ ∧ _
      simp only [hp]
      exact hchar hn fun hn => hb (by rw [hp, hn]; rfl)
  · exact absurd hc h3
  · obtain ⟨p, e⟩ := c
    by_cases hr : e = .raw
    · subst hr
      have : ∃ name, (name, p) ∈ longNameTable ∧ name ∈ rawSet := by
        cases hc with | raw hm hn => exact ⟨_, hm, hn⟩
      obtain ⟨name, hm, hn⟩ := this
      have key : ∀ {x : Char}, (x, p) ∈ singleEscapes → p.graphical = some (bytes ['\\', x]) → Printable (bytes ['\\', x]) →
          ∃ text, p.graphical = some text ∧ Printable text ∧
          ∀ (cfg : Cfg) (conv : Conv) (bs : List UInt8) (s : St) (rest : List UInt8), Reachable cfg conv bs s →
            s.rest = text ++ rest → ∃ c' t, nextWL cfg s = .ok (c', t) ∧ t.rest = rest ∧ Same c'.point p := by
        intro x hx hg hp
        refine ⟨_, hg, hp, fun cfg conv bs s rest hs hr => ?_⟩
        obtain ⟨t, ht, hr'⟩ := reads_single hx cfg s rest hs.wf hr
        exact ⟨_, t, ht, hr', .inl rfl⟩
      rcases raw_point hm hn with rfl | rfl | ⟨n, rfl, hb, hn⟩
      · exact key (x := '"') (by decide) (by decide) (by decide)
      · exact key (x := '\\') (by decide) (by decide) (by decide)
      · exact hchar (by unfold IsScalar; omega) hb
    · obtain ⟨text, -, g1, g2, g3⟩ := C56_display_partial hs h (eof_not_escape hc) hr h5
      refine ⟨text, g1, g2, fun cfg conv bs s rest hs hr => ?_⟩
      obtain ⟨t, ht, hr'⟩ := g3 cfg conv bs s rest hs hr
      exact ⟨_, t, ht, hr', .inl rfl⟩

/-- The text `\[RawDoubleQuote]`. -/
def rawQuote : List UInt8 := bytes ("\\[RawDoubleQuote]".toList)

/-- C56 is violated: displaying the character `\[RawDoubleQuote]` aborts. -/
theorem C56_violated : ¬ ∀ (cfg : Cfg) (conv : Conv) (bs : List UInt8) (s t : St) (c : WLC), Reachable cfg conv bs s →
    nextWL cfg s = .ok (c, t) → c.point ≠ .eof → ∃ text, c.display = some text := by
  intro h
  have hr : Reachable Cfg.default .lineColumn rawQuote (St.init .lineColumn rawQuote) := .init
  have hm : ("RawDoubleQuote".toList, CP.metaDoubleQuote) ∈ longNameTable := by decide +kernel
  obtain ⟨t, ht, -⟩ := reads_raw hm (by decide +kernel) Cfg.default (St.init .lineColumn rawQuote) [] hr.wf (by decide)
  obtain ⟨text, hd⟩ := h _ _ _ _ _ _ hr ht (by decide)
  cases hd

/-- C56 is violated: a line continuation is named by a text that reads as an escaped backslash. -/
theorem C56_continuation_violated : (WLC.graphical ⟨.contLF, .single⟩ = some (bytes ['\\', '\\', 'n'])) ∧
    ∀ (cfg : Cfg) (conv : Conv) (bs : List UInt8) (s : St) (rest : List UInt8), Reachable cfg conv bs s →
      s.rest = bytes ['\\', '\\', 'n'] ++ rest → ∃ t, nextWL cfg s = .ok (⟨.metaBackslash, .single⟩, t) := by
  refine ⟨by decide, fun cfg conv bs s rest hs hr => ?_⟩
  obtain ⟨t, ht, -⟩ := reads_single (x := '\\') (p := .metaBackslash) (by decide) cfg s (byte 'n' :: rest) hs.wf hr
  exact ⟨t, ht⟩

/-! ### Instances -/

-- a space without break, a letter, a character above U+FFFF, a tab
example : (CP.char 0xa0).graphical = some (bytes "\\[NonBreakingSpace]".toList) := by decide +kernel
example : (CP.char 0x1f600).graphical = some (bytes "\\|01f600".toList) := by decide +kernel
example : (CP.char 0x200b).graphical = some (bytes "\\:200b".toList) := by decide +kernel
example : (CP.char 9).graphical = some (bytes "\\t".toList) := by decide +kernel
-- the hypotheses of `C56_display_partial`
example : ∃ t, nextWL Cfg.default (St.init .lineColumn (bytes "\\.e9x".toList)) = .ok (⟨.char 0xe9, .hex2⟩, t) ∧
    WLC.display ⟨.char 0xe9, .hex2⟩ = some (bytes "\\.e9".toList) := by
  obtain ⟨t, ht, -⟩ := reads_hex2 (i := 0xe9) (by decide) Cfg.default (St.init .lineColumn (bytes "\\.e9x".toList))
    (bytes ['x']) (Reachable.init (cfg := Cfg.default)).wf (by decide)
  exact ⟨t, ht, by decide⟩

end CodeParser.Props
