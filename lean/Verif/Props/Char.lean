import Verif.Proofs.Sim
import Verif.Props.Reader
/-!
Properties C08 (Wolfram characters), C10-C13.
-/
namespace CodeParser.Props
open CodeParser Spec

/-- The reader states a client can bring about on the input `bs` by reading and
peeking at source characters and Wolfram characters, and by going back to earlier
positions. -/
inductive Reachable (cfg : Cfg) (conv : Conv) (bs : List UInt8) : St → Prop
  | init : Reachable cfg conv bs (St.init conv bs)
  | source {s} : Reachable cfg conv bs s → Reachable cfg conv bs (nextSource cfg s).2
  | wolfram {s c t} : Reachable cfg conv bs s → nextWL cfg s = .ok (c, t) → Reachable cfg conv bs t
  | back {s m} : Reachable cfg conv bs s → Reachable cfg conv bs m → Reachable cfg conv bs (s.seek m)

theorem nextWL_ok {cfg : Cfg} {s t : St} {c : WLC} (hs : WF s) (h : nextWL cfg s = .ok (c, t)) :
    WLPost cfg s c t := by
  have := nextWL_spec (cfg := cfg) hs
  unfold wp at this
  rw [h] at this
  exact this

theorem Reachable.wf {cfg conv bs s} (h : Reachable cfg conv bs s) : WF s := by
  induction h with
  | init => exact WF_init conv bs
  | source _ ih => exact WF_nextSource ih
  | wolfram _ h ih => exact (nextWL_ok ih h).reach.wf
  | back _ _ _ ih => exact ih

theorem Numeral.unique {digit : UInt8 → Option Nat} {base : Nat} {ds : List UInt8} {v w : Nat}
    (h : Numeral digit base ds v) (h' : Numeral digit base ds w) : v = w := by
  induction h generalizing w with
  | nil =>
    generalize hq : ([] : List UInt8) = q at h'
    cases h' with
    | nil => rfl
    | snoc _ _ => simp at hq
  | @snoc ds v b d _ hd ih =>
    generalize hq : ds ++ [b] = q at h'
    cases h' with
    | nil => simp at hq
    | @snoc ds' v' b' d' hv' hd' =>
      have := List.append_inj' hq rfl
      simp at this
      obtain ⟨rfl, rfl⟩ := this
      rw [ih hv', Option.some.inj (hd.symm.trans hd')]

theorem name_append {n n' : List Char} {p p' : CP} {rest rest' : List UInt8}
    (h : (n, p) ∈ longNameTable) (h' : (n', p') ∈ longNameTable)
    (he : bytes n ++ byte ']' :: rest = bytes n' ++ byte ']' :: rest') :
    n = n' ∧ p = p' ∧ rest = rest' := by
  have hno : ∀ {n : List Char} {p : CP}, (n, p) ∈ longNameTable → byte ']' ∉ bytes n := by
    intro n p hm hb
    obtain ⟨c, cs, hc, _, ha⟩ := longNameTable_shape _ hm
    simp only at hc; subst hc
    obtain ⟨x, hx, hxb⟩ := List.mem_map.mp hb
    have hl := alnum_lt (ha x hx)
    have := congrArg UInt8.toNat hxb
    rw [byte_toNat hl] at this
    have h2 := ha x hx
    rw [this] at h2
    exact absurd h2 (by decide)
  have aux : ∀ (a b : List UInt8) (r r' : List UInt8), byte ']' ∉ a → byte ']' ∉ b →
      a ++ byte ']' :: r = b ++ byte ']' :: r' → a = b ∧ r = r' := by
    intro a
    induction a with
    | nil =>
      intro b r r' _ hb h
      cases b with
      | nil => simpa using h
      | cons y ys => simp at h; exact absurd h.1 (by rintro rfl; simp at hb)
    | cons x xs ih =>
      intro b r r' ha hb h
      cases b with
      | nil => simp at h; exact absurd h.1 (by rintro rfl; simp at ha)
      | cons y ys =>
        simp only [List.cons_append, List.cons.injEq] at h
        have := ih ys r r' (fun h => ha (by simp [h])) (fun h => hb (by simp [h])) h.2
        exact ⟨by rw [h.1, this.1], this.2⟩
  obtain ⟨h1, h2⟩ := aux _ _ _ _ (hno h) (hno h') he
  have hn : n = n' := bytes_inj (longNameTable_ascii _ h) (longNameTable_ascii _ h') h1
  refine ⟨hn, ?_, h2⟩
  have e1 := (C14_longname (name := bytes n) (p := p)).mpr ⟨n, h, rfl⟩
  have e2 := (C14_longname (name := bytes n) (p := p')).mpr ⟨n', h', h1⟩
  exact Option.some.inj (e1.symm.trans e2)

/-- A text starts with at most one escape. -/
theorem Escapes.unique {r : List UInt8} {p p' : CP} {e e' : Escape} {rest rest' : List UInt8}
    (h : Escapes r p e rest) (h' : Escapes r p' e' rest') : p = p' ∧ e = e' ∧ rest = rest' := by
  have hwf : WF (St.init .lineColumn r) := WF_init _ _
  obtain ⟨c, hc, h1⟩ := escapes_first (cfg := Cfg.default) hwf (h : Escapes (St.init .lineColumn r).rest _ _ _)
  obtain ⟨c', hc', h2⟩ := escapes_first (cfg := Cfg.default) hwf (h' : Escapes (St.init .lineColumn r).rest _ _ _)
  rw [hc] at hc'; subst hc'
  have o1 : ∀ {q}, simpleEscape c = some q → c.isOctal = true → False := by
    intro q hq ho
    obtain ⟨n, rfl, _⟩ := octTest.ascii c ho
    rw [(octal_not_simple ho).1] at hq; cases hq
  have o2 : ∀ {q}, simpleEscape c = some q → (c = ch '[' ∨ c = ch ':' ∨ c = ch '.' ∨ c = ch '|') → False := by
    intro q hq ho
    rw [(ascii_ne_octal c ho).2] at hq; cases hq
  have o3 : c.isOctal = true → (c = ch '[' ∨ c = ch ':' ∨ c = ch '.' ∨ c = ch '|') → False := by
    intro hq ho
    rw [(ascii_ne_octal c ho).1] at hq; cases hq
  have he : e = e' ∨ (c = ch '[' ∧ (e = .raw ∨ e = .longName) ∧ (e' = .raw ∨ e' = .longName)) := by
    rcases h1 with ⟨a, rfl⟩ | ⟨a, rfl⟩ | ⟨a, rfl⟩ | ⟨a, rfl⟩ | ⟨a, rfl⟩ | ⟨a, a'⟩ <;>
    rcases h2 with ⟨b, rfl⟩ | ⟨b, rfl⟩ | ⟨b, rfl⟩ | ⟨b, rfl⟩ | ⟨b, rfl⟩ | ⟨b, b'⟩ <;>
    first
    | exact Or.inl rfl
    | exact Or.inr ⟨a, a', b'⟩
    | exact absurd (a.symm.trans b) (by decide)
    | exact (o1 a b).elim
    | exact (o1 b a).elim
    | exact (o2 a (by simp [b])).elim
    | exact (o2 b (by simp [a])).elim
    | exact (o3 a (by simp [b])).elim
    | exact (o3 b (by simp [a])).elim
  have digits : ∀ {x : UInt8} {n : Nat} {base : Nat} {digit : UInt8 → Option Nat}
      {ds ds' : List UInt8} {v v' : Nat}, ds.length = n → ds'.length = n → Numeral digit base ds v →
      Numeral digit base ds' v' → ds ++ rest = ds' ++ rest' → canon v = canon v' ∧ rest = rest' := by
    intro x n base digit ds ds' v v' hl hl' hv hv' hq
    obtain ⟨rfl, rfl⟩ := List.append_inj hq (hl.trans hl'.symm)
    rw [Numeral.unique hv hv']; exact ⟨rfl, rfl⟩
  rcases he with rfl | ⟨hb, ha, ha'⟩
  · generalize hq : r = q at h
    cases h with
    | @single x p rest hx =>
      subst hq
      generalize hq : byte x :: rest = q at h'
      have hl := singleEscapes_simple _ hx
      simp only at hl
      cases h' with
      | @single y p' rest' hy =>
        have hl' := singleEscapes_simple _ hy
        simp only at hl'
        simp only [List.cons.injEq] at hq
        have hxy : x.toNat = y.toNat := by
          rw [← byte_toNat hl.1, ← byte_toNat hl'.1, hq.1]
        rw [hxy] at hl
        exact ⟨Option.some.inj (hl.2.2.2.symm.trans hl'.2.2.2), rfl, hq.2⟩
      | lineFeed =>
        simp only [List.cons.injEq] at hq
        have := congrArg UInt8.toNat hq.1; rw [byte_toNat hl.1] at this
        exact absurd this hl.2.2.1
      | carriageReturn =>
        simp only [List.cons.injEq] at hq
        have := congrArg UInt8.toNat hq.1; rw [byte_toNat hl.1] at this
        exact absurd this hl.2.1
      | crlf =>
        simp only [List.cons.injEq] at hq
        have := congrArg UInt8.toNat hq.1; rw [byte_toNat hl.1] at this
        exact absurd this hl.2.1
    | lineFeed =>
      subst hq
      generalize hq : (10 : UInt8) :: rest = q at h'
      cases h' with
      | @single y p' rest' hy =>
        have hl' := singleEscapes_simple _ hy
        simp only at hl'
        simp only [List.cons.injEq] at hq
        have := congrArg UInt8.toNat hq.1; rw [byte_toNat hl'.1] at this
        exact absurd this.symm hl'.2.2.1
      | lineFeed => simpa using hq
      | carriageReturn => simp at hq
      | crlf => simp at hq
    | carriageReturn hcr =>
      subst hq
      generalize hq : (13 : UInt8) :: rest = q at h'
      cases h' with
      | @single y p' rest' hy =>
        have hl' := singleEscapes_simple _ hy
        simp only at hl'
        simp only [List.cons.injEq] at hq
        have := congrArg UInt8.toNat hq.1; rw [byte_toNat hl'.1] at this
        exact absurd this.symm hl'.2.1
      | lineFeed => simp at hq
      | carriageReturn => simpa using hq
      | crlf => simp only [List.cons.injEq, true_and] at hq; rw [hq] at hcr; simp at hcr
    | crlf =>
      subst hq
      generalize hq : (13 : UInt8) :: 10 :: rest = q at h'
      cases h' with
      | @single y p' rest' hy =>
        have hl' := singleEscapes_simple _ hy
        simp only at hl'
        simp only [List.cons.injEq] at hq
        have := congrArg UInt8.toNat hq.1; rw [byte_toNat hl'.1] at this
        exact absurd this.symm hl'.2.1
      | lineFeed => simp at hq
      | carriageReturn hcr => simp only [List.cons.injEq, true_and] at hq; rw [← hq] at hcr; simp at hcr
      | crlf => simpa using hq
    | @hex2 ds v rest hl hv =>
      subst hq
      generalize hq : byte '.' :: (ds ++ rest) = q at h'
      cases h' with
      | hex2 hl' hv' =>
        simp only [List.cons.injEq, true_and] at hq
        have := digits (x := 0) hl hl' hv hv' hq
        exact ⟨this.1, rfl, this.2⟩
    | @hex4 ds v rest hl hv _ =>
      subst hq
      generalize hq : byte ':' :: (ds ++ rest) = q at h'
      cases h' with
      | hex4 hl' hv' =>
        simp only [List.cons.injEq, true_and] at hq
        have := digits (x := 0) hl hl' hv hv' hq
        exact ⟨this.1, rfl, this.2⟩
    | @hex6 ds v rest hl hv =>
      subst hq
      generalize hq : byte '|' :: (ds ++ rest) = q at h'
      cases h' with
      | hex6 hl' hv' =>
        simp only [List.cons.injEq, true_and] at hq
        have := digits (x := 0) hl hl' hv hv' hq
        exact ⟨this.1, rfl, this.2⟩
    | @octal ds v rest hl hv =>
      subst hq
      generalize hq : ds ++ rest = q at h'
      cases h' with
      | octal hl' hv' =>
        have := digits (x := 0) hl hl' hv hv' hq
        exact ⟨this.1, rfl, this.2⟩
    | @raw name p rest hm hr =>
      subst hq
      generalize hq : byte '[' :: (bytes name ++ byte ']' :: rest) = q at h'
      cases h' with
      | raw hm' _ =>
        simp only [List.cons.injEq, true_and] at hq
        have := name_append hm hm' hq
        exact ⟨this.2.1, rfl, this.2.2⟩
    | @longName name p rest hm hr =>
      subst hq
      generalize hq : byte '[' :: (bytes name ++ byte ']' :: rest) = q at h'
      cases h' with
      | longName hm' _ =>
        simp only [List.cons.injEq, true_and] at hq
        have := name_append hm hm' hq
        exact ⟨this.2.1, rfl, this.2.2⟩
  · have form : ∀ {r p e rest}, Escapes r p e rest → (e = .raw ∨ e = .longName) →
        ∃ n, (n, p) ∈ longNameTable ∧ r = byte '[' :: (bytes n ++ byte ']' :: rest) ∧
          (e = .raw ↔ n ∈ rawSet) := by
      intro r p e rest h he
      cases h with
      | raw hm hr => exact ⟨_, hm, rfl, by simp [hr]⟩
      | longName hm hr => exact ⟨_, hm, rfl, by simp [hr]⟩
      | _ => simp at he
    obtain ⟨n, hm, hr, hi⟩ := form h ha
    obtain ⟨n', hm', hr', hi'⟩ := form h' ha'
    rw [hr] at hr'
    simp only [List.cons.injEq, true_and] at hr'
    obtain ⟨rfl, rfl, rfl⟩ := name_append hm hm' hr'
    refine ⟨rfl, ?_, rfl⟩
    rcases ha with rfl | rfl <;> rcases ha' with rfl | rfl <;> first | rfl | skip
    · exact absurd (hi.mp rfl) (by rw [← hi']; simp)
    · exact absurd (hi'.mp rfl) (by rw [← hi]; simp)

/-- No text starts with both an escape and a surrogate. -/
theorem Escapes.not_surrogate {r : List UInt8} {p : CP} {e : Escape} {rest : List UInt8}
    (h : Escapes r p e rest) (h' : SurrogateEscape r) : False := by
  have hwf : WF (St.init .lineColumn r) := WF_init _ _
  obtain ⟨c, hc, h1⟩ := escapes_first (cfg := Cfg.default) hwf (h : Escapes (St.init .lineColumn r).rest _ _ _)
  have h2 := surrogate_first (cfg := Cfg.default) hwf (h' : SurrogateEscape (St.init .lineColumn r).rest)
  rw [hc] at h2
  have hc2 : c = ch '[' ∨ c = ch ':' ∨ c = ch '.' ∨ c = ch '|' := by
    rcases h2 with h | h <;> simp [h]
  have ho := (ascii_ne_octal c hc2).1
  have hs := (ascii_ne_octal c hc2).2
  simp only [ho, hs] at h1
  have contra : ∀ {n : Nat} {ds ds' rest rest' : List UInt8} {v v' : Nat}, ds.length = n → ds'.length = n →
      Numeral hexDigit 16 ds v → Numeral hexDigit 16 ds' v' → ds ++ rest = ds' ++ rest' →
      IsScalar v → IsSurrogate v' → False := by
    intro n ds ds' rest rest' v v' hl hl' hv hv' hq h1 h2
    obtain ⟨rfl, rfl⟩ := List.append_inj hq (hl.trans hl'.symm)
    rw [Numeral.unique hv hv'] at h1
    unfold IsScalar at h1; unfold IsSurrogate at h2; omega
  rcases h2 with rfl | rfl
  · simp [ch] at h1
    subst h1
    generalize hq : r = q at h
    cases h with
    | @hex4 ds v rest hl hv hsc =>
      subst hq
      generalize hq : byte ':' :: (ds ++ rest) = q at h'
      cases h' with
      | hex4 hl' hv' hsu =>
        simp only [List.cons.injEq, true_and] at hq
        exact contra hl hl' hv hv' hq hsc hsu
      | hex6 => simp [byte] at hq
  · simp [ch] at h1
    subst h1
    generalize hq : r = q at h
    cases h with
    | @hex6 ds v rest hl hv hsc =>
      subst hq
      generalize hq : byte '|' :: (ds ++ rest) = q at h'
      cases h' with
      | hex6 hl' hv' hsu =>
        simp only [List.cons.injEq, true_and] at hq
        exact contra hl hl' hv hv' hq hsc hsu
      | hex4 => simp [byte] at hq

/-- What reading a Wolfram character gives when the text starts with an escape. -/
theorem nextWL_escape {cfg : Cfg} {s : St} (hs : WF s) {r rest : List UInt8} {p : CP} {e : Escape}
    (hr : s.rest = byte '\\' :: r) (h : Escapes r p e rest) :
    ∃ t, nextWL cfg s = .ok (⟨p, e⟩, t) ∧ t.rest = rest := by
  have hw := nextWL_spec (cfg := cfg) hs
  unfold wp at hw
  cases hm : nextWL cfg s with
  | error er =>
    rw [hm] at hw
    obtain ⟨_, r', hr', hsu⟩ := hw
    rw [hr] at hr'
    simp only [List.cons.injEq, true_and] at hr'
    subst hr'
    exact (Escapes.not_surrogate h hsu).elim
  | ok q =>
    obtain ⟨⟨p', e'⟩, t⟩ := q
    rw [hm] at hw
    rcases hw.esc r hr with hesc | ⟨_, _, hno, _⟩
    · obtain ⟨rfl, rfl, rfl⟩ := Escapes.unique h hesc
      exact ⟨t, rfl, rfl⟩
    · exact absurd h (hno _ _ _)

/-! ### C10 -/

/-- C10, two hexadecimal digits. -/
theorem C10_hex2 {cfg : Cfg} {conv : Conv} {bs : List UInt8} {s : St} (hs : Reachable cfg conv bs s)
    {ds rest : List UInt8} {v : Nat} (hl : ds.length = 2) (hv : Numeral hexDigit 16 ds v)
    (hr : s.rest = byte '\\' :: byte '.' :: (ds ++ rest)) :
    ∃ t, nextWL cfg s = .ok (⟨canon v, .hex2⟩, t) ∧ t.rest = rest :=
  nextWL_escape hs.wf hr (.hex2 hl hv)

/-- C10, four hexadecimal digits spelling a scalar value. -/
theorem C10_hex4 {cfg : Cfg} {conv : Conv} {bs : List UInt8} {s : St} (hs : Reachable cfg conv bs s)
    {ds rest : List UInt8} {v : Nat} (hl : ds.length = 4) (hv : Numeral hexDigit 16 ds v)
    (hsc : IsScalar v) (hr : s.rest = byte '\\' :: byte ':' :: (ds ++ rest)) :
    ∃ t, nextWL cfg s = .ok (⟨canon v, .hex4⟩, t) ∧ t.rest = rest :=
  nextWL_escape hs.wf hr (.hex4 hl hv hsc)

/-- C10, six hexadecimal digits spelling a scalar value. -/
theorem C10_hex6 {cfg : Cfg} {conv : Conv} {bs : List UInt8} {s : St} (hs : Reachable cfg conv bs s)
    {ds rest : List UInt8} {v : Nat} (hl : ds.length = 6) (hv : Numeral hexDigit 16 ds v)
    (hsc : IsScalar v) (hr : s.rest = byte '\\' :: byte '|' :: (ds ++ rest)) :
    ∃ t, nextWL cfg s = .ok (⟨canon v, .hex6⟩, t) ∧ t.rest = rest :=
  nextWL_escape hs.wf hr (.hex6 hl hv hsc)

/-- C10, three octal digits. -/
theorem C10_octal {cfg : Cfg} {conv : Conv} {bs : List UInt8} {s : St} (hs : Reachable cfg conv bs s)
    {ds rest : List UInt8} {v : Nat} (hl : ds.length = 3) (hv : Numeral octDigit 8 ds v)
    (hr : s.rest = byte '\\' :: (ds ++ rest)) :
    ∃ t, nextWL cfg s = .ok (⟨canon v, .octal⟩, t) ∧ t.rest = rest :=
  nextWL_escape hs.wf hr (.octal hl hv)

/-- The escapes of one character: line continuations, `\n`, `\"`, linear syntax and
so on; and in general every escape of the grammar `Escapes`. -/
theorem C10_escape {cfg : Cfg} {conv : Conv} {bs : List UInt8} {s : St} (hs : Reachable cfg conv bs s)
    {r rest : List UInt8} {p : CP} {e : Escape} (hr : s.rest = byte '\\' :: r) (h : Escapes r p e rest) :
    ∃ t, nextWL cfg s = .ok (⟨p, e⟩, t) ∧ t.rest = rest :=
  nextWL_escape hs.wf hr h

/-- A text that does not start with a backslash is read as a source character. -/
theorem C10_plain {cfg : Cfg} {conv : Conv} {bs : List UInt8} {s : St} (hs : Reachable cfg conv bs s)
    (h : s.rest.head? ≠ some (byte '\\')) :
    nextWL cfg s = .ok (⟨(nextSource cfg s).1, .none⟩, (nextSource cfg s).2) := by
  have hne : (nextSource cfg s).1 ≠ ch '\\' := by
    intro hc
    obtain ⟨b, r, h1, h2, _⟩ := ns_char hs.wf hc (by decide)
    rw [h1] at h
    exact h (congrArg some (UInt8.toNat_inj.mp h2))
  have : nextWL cfg s = (if (nextSource cfg s).1 ≠ ch '\\' then pure ⟨(nextSource cfg s).1, .none⟩
      else (do let escaped ← M.mark; nextEscape cfg escaped) : M WLC) (nextSource cfg s).2 := rfl
  rw [this, if_pos hne]; rfl

/-- The position after reading a Wolfram character, escape or not, is the one
reached by reading the same text as source characters; with the remaining bytes
given by the theorems above this determines the line and column. -/
theorem C10_position {cfg : Cfg} {conv : Conv} {bs : List UInt8} {s t : St} {c : WLC}
    (hs : Reachable cfg conv bs s) (h : nextWL cfg s = .ok (c, t)) :
    ∃ n, t.rest = (readN cfg n s).2.rest ∧ t.loc = (readN cfg n s).2.loc := by
  have hp : ∃ cs, Path cfg s cs t := by
    obtain ⟨cs, hp, _⟩ := (nextWL_ok hs.wf h).reach.path
    exact ⟨cs, hp⟩
  obtain ⟨cs, hp⟩ := hp
  clear h hs
  induction hp with
  | nil h1 h2 => exact ⟨0, h1, h2⟩
  | cons _ _ ih => obtain ⟨n, hn⟩ := ih; exact ⟨n + 1, hn⟩

/-! ### C11 -/

/-- C11: a backslash that starts no escape (and no spelled-out surrogate, see C12) is
read as a backslash character and exactly that byte is consumed. -/
theorem C11_malformed {cfg : Cfg} {conv : Conv} {bs : List UInt8} {s : St}
    (hs : Reachable cfg conv bs s) {r : List UInt8} (hr : s.rest = byte '\\' :: r)
    (hno : ∀ p e rest, ¬ Escapes r p e rest) (hsu : ¬ SurrogateEscape r) :
    ∃ t, nextWL cfg s = .ok (⟨ch '\\', .none⟩, t) ∧ t.rest = r := by
  have hw := nextWL_spec (cfg := cfg) hs.wf
  unfold wp at hw
  cases hm : nextWL cfg s with
  | error er =>
    rw [hm] at hw
    obtain ⟨_, r', hr', h⟩ := hw
    rw [hr] at hr'
    simp only [List.cons.injEq, true_and] at hr'
    subst hr'
    exact absurd h hsu
  | ok q =>
    obtain ⟨c, t⟩ := q
    rw [hm] at hw
    rcases hw.esc r hr with hesc | ⟨rfl, ht, _⟩
    · exact absurd hesc (hno _ _ _)
    · exact ⟨t, rfl, ht⟩

/-! ### C12 -/

/-- C12 fails: reading a Wolfram character aborts exactly when the text spells a
surrogate numerically. -/
theorem C12_panic_iff {cfg : Cfg} {conv : Conv} {bs : List UInt8} {s : St}
    (hs : Reachable cfg conv bs s) :
    (∃ e, nextWL cfg s = .error e) ↔ ∃ r, s.rest = byte '\\' :: r ∧ SurrogateEscape r := by
  have hw := nextWL_spec (cfg := cfg) hs.wf
  unfold wp at hw
  constructor
  · rintro ⟨e, he⟩
    rw [he] at hw
    exact hw.2
  · rintro ⟨r, hr, hsu⟩
    cases hm : nextWL cfg s with
    | error er => exact ⟨er, rfl⟩
    | ok q =>
      obtain ⟨c, t⟩ := q
      rw [hm] at hw
      rcases hw.esc r hr with hesc | ⟨_, _, _, h⟩
      · exact (Escapes.not_surrogate hesc hsu).elim
      · exact absurd hsu h

/-- C12 fails: the input `\:d800` makes the program abort. -/
theorem C12_violated : ¬ ∀ (cfg : Cfg) (conv : Conv) (bs : List UInt8) (s : St),
    Reachable cfg conv bs s → ∃ c t, nextWL cfg s = .ok (c, t) := by
  intro h
  have hr : Reachable Cfg.default .lineColumn (bytes ['\\', ':', 'd', '8', '0', '0'])
    (St.init .lineColumn (bytes ['\\', ':', 'd', '8', '0', '0'])) := .init
  obtain ⟨c, t, ht⟩ := h _ _ _ _ hr
  obtain ⟨e, he⟩ := (C12_panic_iff hr).mpr ⟨_, rfl, .hex4 (ds := bytes ['d', '8', '0', '0']) (rest := []) rfl
    (.snoc (d := 0) (.snoc (d := 0) (.snoc (d := 8) (.snoc (d := 13) .nil (by decide)) (by decide)) (by decide)) (by decide))
    (by unfold IsSurrogate; decide)⟩
  rw [ht] at he; cases he

/-- C12 except for inputs that spell a surrogate.  Missing: those inputs, for which
the claim is false (`C12_violated`). -/
theorem C12_no_abort_partial {cfg : Cfg} {conv : Conv} {bs : List UInt8} {s : St}
    (hs : Reachable cfg conv bs s) (h : ¬ HasSurrogateEscape s.rest) :
    ∃ c t, nextWL cfg s = .ok (c, t) := by
  cases hm : nextWL cfg s with
  | error er =>
    obtain ⟨r, hr, hsu⟩ := (C12_panic_iff hs).mp ⟨er, hm⟩
    exact absurd ⟨[], r, by simpa using hr, hsu⟩ h
  | ok q => exact ⟨q.1, q.2, rfl⟩

/-! ### C13 -/

/-- C13: a registered long name gives its registered code point. -/
theorem C13_registered {cfg : Cfg} {conv : Conv} {bs : List UInt8} {s : St}
    (hs : Reachable cfg conv bs s) {name : List Char} {p : CP} {rest : List UInt8}
    (hm : (name, p) ∈ longNameTable)
    (hr : s.rest = bytes ['\\', '['] ++ bytes name ++ bytes [']'] ++ rest) :
    ∃ c t, nextWL cfg s = .ok (c, t) ∧ c.point = p ∧ t.rest = rest ∧
      c.escape = (if name ∈ rawSet then .raw else .longName) := by
  have hr' : s.rest = byte '\\' :: byte '[' :: (bytes name ++ byte ']' :: rest) := by
    rw [hr]; simp [bytes]
  by_cases h : name ∈ rawSet
  · obtain ⟨t, h1, h2⟩ := nextWL_escape (cfg := cfg) hs.wf hr' (.raw hm h)
    exact ⟨_, t, h1, rfl, h2, by rw [if_pos h]⟩
  · obtain ⟨t, h1, h2⟩ := nextWL_escape (cfg := cfg) hs.wf hr' (.longName hm h)
    exact ⟨_, t, h1, rfl, h2, by rw [if_neg h]⟩

/-- C13: a text `\[Name]` whose name (any text without `]`) is not registered is not
recognised as an escape: only a backslash is read. -/
theorem C13_unregistered {cfg : Cfg} {conv : Conv} {bs : List UInt8} {s : St}
    (hs : Reachable cfg conv bs s) {name rest : List UInt8} (hb : byte ']' ∉ name)
    (hm : ∀ n p, (n, p) ∈ longNameTable → name ≠ bytes n)
    (hr : s.rest = bytes ['\\', '['] ++ name ++ bytes [']'] ++ rest) :
    ∃ t, nextWL cfg s = .ok (⟨ch '\\', .none⟩, t) ∧
      t.rest = bytes ['['] ++ name ++ bytes [']'] ++ rest := by
  have hr' : s.rest = byte '\\' :: (byte '[' :: (name ++ byte ']' :: rest)) := by
    rw [hr]; simp [bytes]
  have hsplit : ∀ n p rest', (n, p) ∈ longNameTable →
      name ++ byte ']' :: rest ≠ bytes n ++ byte ']' :: rest' := by
    intro n p rest' hmem he
    have hno : byte ']' ∉ bytes n := by
      intro hb
      obtain ⟨c, cs, hc, _, ha⟩ := longNameTable_shape _ hmem
      simp only at hc; subst hc
      obtain ⟨x, hx, hxb⟩ := List.mem_map.mp hb
      have hl := alnum_lt (ha x hx)
      have := congrArg UInt8.toNat hxb
      rw [byte_toNat hl] at this
      have h2 := ha x hx
      rw [this] at h2
      exact absurd h2 (by decide)
    refine hm n p hmem ?_
    have h1 := congrArg (List.takeWhile (· != byte ']')) he
    rw [List.takeWhile_append_of_pos (by intro a ha; simp; rintro rfl; exact hb ha),
      List.takeWhile_append_of_pos (by intro a ha; simp; rintro rfl; exact hno ha)] at h1
    simpa using h1
  have hinit : ∀ {p e rest'}, Escapes (byte '[' :: (name ++ byte ']' :: rest)) p e rest' → False := by
    intro p e rest' h
    have hwf : WF (St.init .lineColumn (byte '[' :: (name ++ byte ']' :: rest))) := WF_init _ _
    obtain ⟨c, hc, h1⟩ := escapes_first (cfg := Cfg.default) hwf h
    rw [ns_byte hwf rfl (by decide) (fun h => absurd h (by decide))] at hc
    have hc' : c = ch '[' := hc.symm
    rw [(ascii_ne_octal c (by simp [hc'])).1, (ascii_ne_octal c (by simp [hc'])).2, hc'] at h1
    simp [ch] at h1
    generalize hq : byte '[' :: (name ++ byte ']' :: rest) = q at h
    rcases h1 with rfl | rfl
    · cases h with
      | raw hmem _ => simp only [List.cons.injEq, true_and] at hq; exact hsplit _ _ _ hmem hq
    · cases h with
      | longName hmem _ => simp only [List.cons.injEq, true_and] at hq; exact hsplit _ _ _ hmem hq
  have hsur : ¬ SurrogateEscape (byte '[' :: (name ++ byte ']' :: rest)) := by
    intro h
    generalize hq : byte '[' :: (name ++ byte ']' :: rest) = q at h
    cases h <;> simp [byte] at hq
  obtain ⟨t, h1, h2⟩ := C11_malformed (cfg := cfg) hs hr' (fun p e rest' h => hinit h) hsur
  exact ⟨t, h1, by rw [h2]; simp [bytes]⟩

/-! ### C08 for Wolfram characters -/

/-- C08, Wolfram characters: peeking returns what reading would return (or aborts
where reading would), leaves byte position, location and end-of-file state
unchanged; peeking again gives the same answer; and reading after a peek behaves as
without the peek. -/
theorem C08_peek_wolfram (cfg : Cfg) (s : St) :
    match nextWL cfg s with
    | .error e => peekWL cfg s = .error e
    | .ok (c, t) => ∃ u, peekWL cfg s = .ok (c, u) ∧ SameAt u s ∧
        (∃ u', peekWL cfg u = .ok (c, u') ∧ SameAt u' s) ∧
        (∃ t', nextWL cfg u = .ok (c, t') ∧ SameAt t' t) := by
  have hpe : ∀ s, peekWL cfg s = match nextWL cfg s with
      | .ok (c, t) => .ok (c, t.seek s)
      | .error e => .error e := by
    intro s
    show M.bind M.mark (fun mark => M.bind (nextWL cfg) (fun c => M.bind (M.seek mark) fun _ => M.pure c)) s = _
    unfold M.bind M.mark
    simp only
    cases nextWL cfg s with
    | error e => rfl
    | ok p => rfl
  cases hm : nextWL cfg s with
  | error e => rw [hpe, hm]
  | ok p =>
    obtain ⟨c, t⟩ := p
    have hsame : SameAt (t.seek s) s := ⟨rfl, rfl, rfl⟩
    have hsim := nextWL_sim cfg (t.seek s) s hsame
    simp only [hm] at hsim
    cases hm' : nextWL cfg (t.seek s) with
    | error e => rw [hm'] at hsim; exact hsim.elim
    | ok q =>
      obtain ⟨c', t'⟩ := q
      rw [hm'] at hsim
      obtain ⟨rfl, ht⟩ := hsim
      refine ⟨t.seek s, by rw [hpe, hm], hsame, ⟨t'.seek (t.seek s), by rw [hpe, hm'], ⟨rfl, rfl, rfl⟩⟩, ⟨t', hm', ht⟩⟩

/-! ### Examples -/

private def start (cs : List Char) : St := St.init .lineColumn (bytes cs)

example : Numeral hexDigit 16 (bytes ['4', 'e', '0', '0']) 0x4e00 :=
  .snoc (d := 0) (.snoc (d := 0) (.snoc (d := 14) (.snoc (d := 4) .nil (by decide)) (by decide)) (by decide)) (by decide)
example : ((nextWL Cfg.default (start ['\\', ':', '4', 'e', '0', '0', 'x'])).toOption.map
    fun p => (p.1, p.2.rest)) = some (⟨.char 0x4e00, .hex4⟩, bytes ['x']) := by decide +kernel
example : ((nextWL Cfg.default (start ['\\', '[', 'P', 'i', ']', 'x'])).toOption.map
    fun p => (p.1, p.2.rest)) = some (⟨.char 0x3c0, .longName⟩, bytes ['x']) := by decide +kernel
example : ((nextWL Cfg.default (start ['\\', '[', 'P', 'j', ']', 'x'])).toOption.map
    fun p => (p.1, p.2.rest)) = some (⟨ch '\\', .none⟩, bytes ['[', 'P', 'j', ']', 'x']) := by decide +kernel
example : ((nextWL Cfg.default (start ['\\', '1', '2', '8'])).toOption.map
    fun p => (p.1, p.2.rest)) = some (⟨ch '\\', .none⟩, bytes ['1', '2', '8']) := by decide +kernel
example : ((nextWL Cfg.default (start ['\\', '0', '4', '2'])).toOption.map
    fun p => (p.1, p.2.rest)) = some (⟨.metaDoubleQuote, .octal⟩, []) := by decide +kernel
example : ∀ n p, (n, p) ∈ longNameTable → bytes ['P', 'j'] ≠ bytes n := by
  intro n p h he
  have := (C14_longname (name := bytes ['P', 'j']) (p := p)).mpr ⟨n, h, he⟩
  rw [show longnameToCodepoint (bytes ['P', 'j']) = none by decide +kernel] at this
  cases this

end CodeParser.Props
