import Verif.Model.Tokenizer
import Verif.Proofs.Sim
import Verif.Props.Reader
import Verif.Props.Char
/-!
Helper lemmas for the tokenizer: reading a character behind line continuations, and
the rules used to walk through the token handlers.
-/
namespace CodeParser
open Spec

/-! ### What the bytes in front of a character look like -/

/-- One source character, on bytes. -/
inductive Plain : List UInt8 → CP → List UInt8 → Prop
  | eof : Plain [] .eof []
  | ascii {b : UInt8} {r} : b.toNat < 0x80 → (b.toNat = 13 → r.head? ≠ some 10) →
      Plain (b :: r) (.char b.toNat) r
  | crlf {r} : Plain (13 :: 10 :: r) .crlf r
  | high {pre r} {p : CP} : pre ≠ [] → (∀ b ∈ pre, 0x80 ≤ b.toNat) →
      (p.isUnsafe = true ∨ ∃ n, p = .char n ∧ 0x80 ≤ n) → Plain (pre ++ r) p r

theorem enc_high {c : Char} (h : 0x80 ≤ c.toNat) : ∀ b ∈ String.utf8EncodeChar c, 0x80 ≤ b.toNat := by
  have hv := char_valid c
  unfold String.utf8EncodeChar
  simp only [enc_val]
  intro b hb
  split at hb
  · omega
  · split at hb
    · simp at hb; rcases hb with rfl | rfl <;> simp <;> omega
    · split at hb
      · simp at hb; rcases hb with rfl | rfl | rfl <;> simp <;> omega
      · simp at hb; rcases hb with rfl | rfl | rfl | rfl <;> simp <;> omega

theorem plain_nextSource {cfg : Cfg} {s : St} (hs : WF s) :
    Plain s.rest (nextSource cfg s).1 (nextSource cfg s).2.rest := by
  by_cases hne : s.rest = []
  · rw [nextSource_nil hne, hne]; exact .eof
  · have hd := nextSource_Dec (cfg := cfg) hs hne
    generalize nextSource cfg s = p at hd
    cases hd with
    | valid c rest h1 h2 h3 =>
      by_cases hc : c.toNat < 0x80
      · have he : String.utf8EncodeChar c = [UInt8.ofNat c.toNat] := by
          unfold String.utf8EncodeChar
          simp only [enc_val]
          rw [if_pos (by omega)]
        rw [h1, he]
        have hn : (UInt8.ofNat c.toNat).toNat = c.toNat := by simp; omega
        show Plain (UInt8.ofNat c.toNat :: rest) (CP.char c.toNat) rest
        have := Plain.ascii (b := UInt8.ofNat c.toNat) (r := rest) (by omega)
          (fun h => h3 (Char.toNat_inj.mp (hn ▸ h)))
        rw [hn] at this; exact this
      · rw [h1]
        refine .high ?_ (enc_high (by omega)) (Or.inr ⟨_, rfl, by omega⟩)
        intro h
        have := congrArg List.length h
        simp at this
        have := Char.utf8Size_pos c; omega
    | crlf rest h1 => rw [h1]; exact .crlf
    | invalid c pre rest e u h1 h2 hl h3 h4 => rw [h3]; exact .high h2 hl.2 (Or.inl h1)

/-- One Wolfram character, on bytes. -/
def WLB (r : List UInt8) (c : WLC) (r' : List UInt8) : Prop :=
  (∃ q, r = byte '\\' :: q ∧ EscPost q c r') ∨
    (r.head? ≠ some (byte '\\') ∧ Plain r c.point r' ∧ c.escape = .none)

theorem WLPost.wlb {cfg : Cfg} {s t : St} {c : WLC} (hs : WF s) (h : WLPost cfg s c t) :
    WLB s.rest c t.rest := by
  by_cases hb : ∃ q, s.rest = byte '\\' :: q
  · obtain ⟨q, hq⟩ := hb; exact Or.inl ⟨q, hq, h.esc q hq⟩
  · right
    have hne : (nextSource cfg s).1 ≠ ch '\\' := by
      intro h
      obtain ⟨b, r, h1, h2, _, _⟩ := ns_char hs h (by decide)
      exact hb ⟨r, by rw [h1]; congr 1; exact UInt8.toNat_inj.mp h2⟩
    obtain ⟨rfl, rfl⟩ := h.plain hne
    refine ⟨?_, plain_nextSource hs, rfl⟩
    intro h
    cases hr : s.rest with
    | nil => simp [hr] at h
    | cons b r => simp [hr] at h; exact hb ⟨r, by rw [hr, h]⟩

/-- White space behind a line continuation, on bytes. -/
inductive Whites : List UInt8 → List UInt8 → Prop
  | nil {r} : Whites r r
  | cons {r c r' r''} : WLB r c r' → c.point.isWhitespace = true → Whites r' r'' → Whites r r''

/-- A Wolfram character behind line continuations, on bytes. -/
inductive NextB : List UInt8 → WLC → List UInt8 → Prop
  | here {r c r'} : WLB r c r' → c.point.isLineContinuation = false → NextB r c r'
  | cont {r lc r1 r2 c r'} : WLB r lc r1 → lc.point.isLineContinuation = true → Whites r1 r2 →
      NextB r2 c r' → NextB r c r'

theorem Plain.len {r p r'} (h : Plain r p r') (hne : r ≠ []) : r'.length < r.length := by
  cases h with
  | eof => exact absurd rfl hne
  | ascii _ _ => simp
  | crlf => simp; omega
  | @high pre r p h1 h2 h3 =>
    have := List.length_pos_iff.mpr h1
    simp; omega

theorem Plain.not_lc {r p r'} (h : Plain r p r') : p.isLineContinuation = false := by
  cases h with
  | eof => rfl
  | ascii _ _ => rfl
  | crlf => rfl
  | high h1 h2 h3 =>
    rcases h3 with h3 | ⟨m, rfl, hm⟩
    · cases p <;> simp_all [CP.isUnsafe, CP.isLineContinuation]
    · rfl

theorem Plain.suffix {r p r'} (h : Plain r p r') : ∃ pre, r = pre ++ r' := by
  cases h with
  | eof => exact ⟨[], rfl⟩
  | ascii _ _ => exact ⟨[_], rfl⟩
  | crlf => exact ⟨[13, 10], rfl⟩
  | high h1 h2 h3 => exact ⟨_, rfl⟩

theorem Escapes.suffix {r p e rest} (h : Escapes r p e rest) : ∃ pre, r = pre ++ rest ∧ pre ≠ [] := by
  cases h with
  | single h => exact ⟨[_], rfl, by simp⟩
  | lineFeed => exact ⟨[_], rfl, by simp⟩
  | carriageReturn h => exact ⟨[_], rfl, by simp⟩
  | crlf => exact ⟨[_, _], rfl, by simp⟩
  | hex2 h1 h2 => exact ⟨_ :: _, rfl, by simp⟩
  | hex4 h1 h2 h3 => exact ⟨_ :: _, rfl, by simp⟩
  | hex6 h1 h2 h3 => exact ⟨_ :: _, rfl, by simp⟩
  | octal h1 h2 => exact ⟨_, rfl, by rintro rfl; simp at h1⟩
  | @raw name p rest h1 h2 => exact ⟨byte '[' :: (bytes name ++ [byte ']']), by simp, by simp⟩
  | @longName name p rest h1 h2 => exact ⟨byte '[' :: (bytes name ++ [byte ']']), by simp, by simp⟩

theorem WLB.suffix {r c r'} (h : WLB r c r') : ∃ pre, r = pre ++ r' := by
  rcases h with ⟨q, rfl, h | ⟨_, rfl, _⟩⟩ | ⟨_, h, _⟩
  · obtain ⟨pre, rfl, _⟩ := Escapes.suffix h; exact ⟨byte '\\' :: pre, rfl⟩
  · exact ⟨[byte '\\'], rfl⟩
  · exact h.suffix

theorem WLB.len {r c r'} (h : WLB r c r') (hne : r ≠ []) : r'.length < r.length := by
  rcases h with ⟨q, rfl, h | ⟨_, rfl, _⟩⟩ | ⟨_, h, _⟩
  · obtain ⟨pre, rfl, _⟩ := Escapes.suffix h; simp; omega
  · simp
  · exact h.len hne

theorem WLB.nil {c r'} (h : WLB [] c r') : c = ⟨.eof, .none⟩ ∧ r' = [] := by
  rcases h with ⟨q, h, _⟩ | ⟨_, h, he⟩
  · cases h
  · obtain ⟨p, e⟩ := c
    simp only at h he
    subst he
    generalize hr : ([] : List UInt8) = r at h
    cases h with
    | eof => exact ⟨rfl, rfl⟩
    | ascii => cases hr
    | crlf => cases hr
    | high h1 => simp at hr; exact absurd hr.1.symm (by rintro rfl; exact h1 rfl)

theorem WLB.le {r c r'} (h : WLB r c r') : r'.length ≤ r.length := by
  obtain ⟨pre, rfl⟩ := h.suffix; simp

theorem Whites.suffix {r r'} (h : Whites r r') : ∃ pre, r = pre ++ r' := by
  induction h with
  | nil => exact ⟨[], rfl⟩
  | cons h _ _ ih =>
    obtain ⟨p, rfl⟩ := ih; obtain ⟨q, rfl⟩ := h.suffix; exact ⟨q ++ p, by simp⟩

theorem NextB.suffix {r c r'} (h : NextB r c r') : ∃ pre, r = pre ++ r' := by
  induction h with
  | here h _ => exact h.suffix
  | cont h _ hw _ ih =>
    obtain ⟨p, rfl⟩ := ih; obtain ⟨q, rfl⟩ := hw.suffix; obtain ⟨k, rfl⟩ := h.suffix
    exact ⟨k ++ (q ++ p), by simp⟩

theorem NextB.nil {c r'} (h : NextB [] c r') : c = ⟨.eof, .none⟩ ∧ r' = [] := by
  cases h with
  | here h _ => exact h.nil
  | cont h hl _ _ => rw [h.nil.1] at hl; simp [CP.isLineContinuation] at hl

theorem NextB.not_lc {r c r'} (h : NextB r c r') : c.point.isLineContinuation = false := by
  induction h with
  | here _ h => exact h
  | cont _ _ _ _ ih => exact ih

theorem NextB.len {r c r'} (h : NextB r c r') (hne : r ≠ []) : r'.length < r.length := by
  cases h with
  | here h _ => exact h.len hne
  | cont h _ hw hn =>
    obtain ⟨p, rfl⟩ := hw.suffix; obtain ⟨q, rfl⟩ := hn.suffix
    have := h.len hne
    simp at *; omega

theorem NextB.ne_nil {r c r'} (h : NextB r c r') (hc : c.point ≠ .eof) : r ≠ [] := by
  rintro rfl; rw [h.nil.1] at hc; exact hc rfl

/-- An ASCII character is written as itself or with an escape. -/
theorem NextB.ascii {r c r'} (h : NextB r c r') {n : Nat} (hc : c.point = .char n) (hn : n < 0x80) :
    ∃ b q, r = b :: q ∧ (b.toNat = n ∨ b = byte '\\') := by
  cases h with
  | here h _ =>
    rcases h with ⟨q, rfl, _⟩ | ⟨_, h, _⟩
    · exact ⟨_, q, rfl, Or.inr rfl⟩
    · rw [hc] at h
      generalize hp : CP.char n = p at h
      cases h with
      | eof => cases hp
      | @ascii b h1 h2 => cases hp; exact ⟨b, _, rfl, Or.inl rfl⟩
      | crlf => cases hp
      | high h1 h2 h3 =>
        subst hp
        rcases h3 with h3 | ⟨m, h3, hm⟩
        · simp [CP.isUnsafe] at h3
        · cases h3; omega
  | cont h hl _ _ =>
    rcases h with ⟨q, rfl, _⟩ | ⟨_, h, _⟩
    · exact ⟨_, q, rfl, Or.inr rfl⟩
    · rw [h.not_lc] at hl; cases hl

/-! ### Reading such a character -/

/-- The only way reading can fail. -/
def EE (r : List UInt8) (e : Err) : Prop := e = .panic .surrogate ∧ HasSurrogateEscape r

theorem EE.mono {r r' : List UInt8} (h : ∃ pre, r = pre ++ r') {e : Err} (he : EE r' e) : EE r e := by
  obtain ⟨pre, rfl⟩ := h
  obtain ⟨h1, p, q, rfl, h2⟩ := he
  exact ⟨h1, pre ++ p, q, by simp, h2⟩

theorem EE.of_R {cfg : Cfg} {s t : St} (hs : WF s) (h : R cfg s t) {e : Err} (he : EE t.rest e) :
    EE s.rest e := he.mono (h.suffix hs)

theorem nextWL_wp {cfg : Cfg} {s : St} (hs : WF s) :
    wp (EE s.rest) (nextWL cfg) s (fun c t => R cfg s t ∧ WLB s.rest c t.rest) := by
  refine wp_mono (nextWL_spec hs) ?_ fun c t h => ⟨h.reach, h.wlb hs⟩
  rintro e ⟨he, r, hr, h⟩
  exact ⟨he, [], r, hr, h⟩

/-- Reading a Wolfram character at the position of `s` gives `c`. -/
def WLAt (cfg : Cfg) (s : St) (c : WLC) : Prop :=
  ∀ s', SameAt s s' → ∃ t, nextWL cfg s' = .ok (c, t)

theorem wp_ok {α} {E : Err → Prop} {m : M α} {s : St} {Q : α → St → Prop} (h : wp E m s Q) {a t}
    (ha : m s = .ok (a, t)) : Q a t := by
  unfold wp at h; rw [ha] at h; exact h

theorem MSim.ok {α} {m : M α} (h : MSim Eq m m) {s s' : St} (hs : SameAt s s') {a t}
    (ha : m s = .ok (a, t)) : ∃ t', m s' = .ok (a, t') ∧ SameAt t t' := by
  have := h s s' hs
  rw [ha] at this
  cases hm : m s' with
  | error e => rw [hm] at this; exact this.elim
  | ok p =>
    obtain ⟨a', t'⟩ := p
    rw [hm] at this
    obtain ⟨rfl, h⟩ := this
    exact ⟨t', rfl, h⟩

theorem wp_eq {α} {E : Err → Prop} {m : M α} {s : St} {Q : α → St → Prop}
    (h : wp E m s Q) : wp E m s (fun a t => Q a t ∧ m s = .ok (a, t)) := by
  unfold wp at *
  cases hm : m s with
  | error e => rw [hm] at h; exact h
  | ok p => obtain ⟨a, t⟩ := p; rw [hm] at h; exact ⟨h, rfl⟩

theorem peekWL_wp {cfg : Cfg} {s : St} (hs : WF s) :
    wp (EE s.rest) (peekWL cfg) s (fun c t => R cfg s t ∧ SameAt s t ∧ WLAt cfg s c ∧
      ∃ r', WLB s.rest c r') := by
  unfold peekWL
  refine wp_bind (wp_mark ?_)
  refine wp_call (wp_eq (nextWL_wp hs)) (fun _ h => h) ?_
  rintro c t ⟨⟨hR, hb⟩, he⟩
  refine wp_bind (wp_seek (wp_pure ⟨R.seek hs (R.refl hs) hR, ⟨rfl, rfl, rfl⟩, ?_, _, hb⟩))
  intro s' h'
  obtain ⟨t', h1, _⟩ := (nextWL_sim cfg).ok h' he
  exact ⟨t', h1⟩

theorem nextWL_at {cfg : Cfg} {s s0 : St} {c0 : WLC} (hs : WF s) (h : SameAt s0 s) (hc : WLAt cfg s0 c0) :
    wp (EE s.rest) (nextWL cfg) s (fun c t => R cfg s t ∧ WLB s.rest c t.rest ∧ c = c0) := by
  refine wp_mono (wp_eq (nextWL_wp hs)) (fun _ h => h) ?_
  rintro c t ⟨⟨h1, h2⟩, h3⟩
  obtain ⟨t', h4⟩ := hc s h
  rw [h3] at h4; cases h4
  exact ⟨h1, h2, rfl⟩

theorem Whites.snoc {r c r' r''} (h : Whites r r') (h2 : WLB r' c r'') (hc : c.point.isWhitespace = true) :
    Whites r r'' := by
  induction h with
  | nil => exact .cons h2 hc .nil
  | cons h1 h3 _ ih => exact .cons h1 h3 (ih h2)

theorem skipWhite_wp {cfg : Cfg} {s : St} {c : WLC} (hs : WF s) (hc : WLAt cfg s c)
    (hb : ∃ r', WLB s.rest c r') :
    wp (EE s.rest) (skipWhite cfg c) s (fun c t => R cfg s t ∧ Whites s.rest t.rest ∧ WLAt cfg t c) := by
  unfold skipWhite
  refine wp_loop (fun c t => R cfg s t ∧ Whites s.rest t.rest ∧ WLAt cfg t c ∧ ∃ r', WLB t.rest c r')
    (fun _ t => t.rest.length) ⟨R.refl hs, .nil, hc, hb⟩ (by omega) ?_
  rintro c t ⟨hR, hw, hc, r', hb⟩
  refine wp_ite (fun hwh => ?_) (fun _ => wp_pure ⟨hR, hw, hc⟩)
  refine wp_call (nextWL_at hR.wf (SameAt.refl t) hc) (fun _ h => h.of_R hs hR) ?_
  rintro c1 u ⟨hRu, hbu, rfl⟩
  have hRu' := R.trans hs hR hRu
  refine wp_call (peekWL_wp hRu.wf) (fun _ h => h.of_R hs hRu') ?_
  rintro c2 v ⟨hRv, hsame, hcv, hbv⟩
  have hne : t.rest ≠ [] := by
    intro h; rw [h] at hb; rw [hb.nil.1] at hwh; simp [CP.isWhitespace] at hwh
  have hl := hbu.len hne
  refine wp_pure ⟨⟨R.trans hs hRu' hRv, ?_, ?_, ?_⟩, ?_⟩
  · rw [← hsame.rest]; exact hw.snoc hbu hwh
  · intro s' h'; exact hcv s' (hsame.trans h')
  · rw [← hsame.rest]; exact hbv
  · rw [← hsame.rest]; exact hl

/-- What precedes the current character of the loop in `nextC`. -/
inductive Conts : List UInt8 → List UInt8 → Prop
  | nil {r} : Conts r r
  | cons {r lc r1 r2 r3} : WLB r lc r1 → lc.point.isLineContinuation = true → Whites r1 r2 →
      Conts r2 r3 → Conts r r3

theorem Conts.snoc {r lc r1 r2 r3} (h : Conts r r1) (h1 : WLB r1 lc r2)
    (h2 : lc.point.isLineContinuation = true) (h3 : Whites r2 r3) : Conts r r3 := by
  induction h with
  | nil => exact .cons h1 h2 h3 .nil
  | cons a b c _ ih => exact .cons a b c (ih h1)

theorem Conts.next {r r1 c r2} (h : Conts r r1) (h1 : NextB r1 c r2) : NextB r c r2 := by
  induction h with
  | nil => exact h1
  | cons a b c _ ih => exact .cont a b c (ih h1)

theorem nextC_wp {cfg : Cfg} {s : St} (hs : WF s) :
    wp (EE s.rest) (nextC cfg) s (fun c t => R cfg s t ∧ NextB s.rest c t.rest) := by
  unfold nextC
  refine wp_call (nextWL_wp hs) (fun _ h => h) ?_
  rintro c t ⟨hR, hb⟩
  have hle := R.len hs hR
  refine wp_loop (fun c t => R cfg s t ∧ ∃ r, Conts s.rest r ∧ WLB r c t.rest)
    (fun c t => if c.point = .eof then 0 else t.rest.length + 1) ⟨hR, _, .nil, hb⟩ (by split <;> omega) ?_
  clear hle hb hR
  rintro c t ⟨hR, r, hcs, hb⟩
  refine wp_ite (fun hl => ?_) (fun hl => wp_pure ⟨hR, hcs.next (.here hb (by simpa using hl))⟩)
  refine wp_call (peekWL_wp hR.wf) (fun _ h => h.of_R hs hR) ?_
  rintro c1 u ⟨hRu, hsame, hcu, hbu⟩
  have hRu' := R.trans hs hR hRu
  refine wp_call (skipWhite_wp hRu.wf (c := c1) (fun s' h' => hcu s' (hsame.trans h')) (by rw [← hsame.rest]; exact hbu))
    (fun _ h => h.of_R hs hRu') ?_
  rintro c2 v ⟨hRv, hw, hcv⟩
  have hRv' := R.trans hs hRu' hRv
  refine wp_call (nextWL_at hRv.wf (SameAt.refl v) hcv) (fun _ h => h.of_R hs hRv') ?_
  rintro c3 w ⟨hRw, hbw, rfl⟩
  rw [← hsame.rest] at hw
  refine wp_pure ⟨⟨R.trans hs hRv' hRw, _, hcs.snoc hb hl hw, hbw⟩, ?_⟩
  have hne : c.point ≠ .eof := by intro h; rw [h] at hl; simp [CP.isLineContinuation] at hl
  rw [if_neg hne]
  have l1 := R.len hRu.wf hRv
  rw [← hsame.rest] at l1
  split
  · omega
  · rename_i h3
    by_cases hv : v.rest = []
    · rw [hv] at hbw; rw [hbw.nil.1] at h3; exact absurd rfl h3
    · have := hbw.len hv; omega

/-- Reading a character behind line continuations at the position of `s` gives `c`. -/
def CAt (cfg : Cfg) (s : St) (c : WLC) : Prop :=
  ∀ s', SameAt s s' → ∃ t, nextC cfg s' = .ok (c, t)

theorem peekWL_sim (cfg : Cfg) : MSim Eq (peekWL cfg) (peekWL cfg) := by
  unfold peekWL
  refine MSim.bind MSim.mark fun _ _ h => MSim.bindE (nextWL_sim cfg) fun _ => ?_
  msim

theorem skipWhite_sim (cfg : Cfg) (c : WLC) : MSim Eq (skipWhite cfg c) (skipWhite cfg c) := by
  unfold skipWhite
  refine MSim.loopE fun _ => MSim.ite (fun _ => ?_) (fun _ => ?_)
  · refine MSim.bindE (nextWL_sim cfg) fun _ => MSim.bindE (peekWL_sim cfg) fun _ => ?_
    msim
  · msim

theorem nextC_sim (cfg : Cfg) : MSim Eq (nextC cfg) (nextC cfg) := by
  unfold nextC
  refine MSim.bindE (nextWL_sim cfg) fun _ => MSim.loopE fun _ => MSim.ite (fun _ => ?_) (fun _ => ?_)
  · refine MSim.bindE (peekWL_sim cfg) fun _ => MSim.bindE (skipWhite_sim cfg _) fun _ =>
      MSim.bindE (nextWL_sim cfg) fun _ => ?_
    msim
  · msim

theorem curC_sim (cfg : Cfg) : MSim Eq (curC cfg) (curC cfg) := by
  unfold curC
  refine MSim.bind MSim.mark fun _ _ h => MSim.bindE (nextC_sim cfg) fun _ => ?_
  msim

theorem curC_wp {cfg : Cfg} {s : St} (hs : WF s) :
    wp (EE s.rest) (curC cfg) s (fun c t => R cfg s t ∧ SameAt s t ∧ CAt cfg s c ∧
      ∃ r', NextB s.rest c r') := by
  unfold curC
  refine wp_bind (wp_mark ?_)
  refine wp_call (wp_eq (nextC_wp hs)) (fun _ h => h) ?_
  rintro c t ⟨⟨hR, hb⟩, he⟩
  refine wp_bind (wp_seek (wp_pure ⟨R.seek hs (R.refl hs) hR, ⟨rfl, rfl, rfl⟩, ?_, _, hb⟩))
  intro s' h'
  obtain ⟨t', h1, _⟩ := (nextC_sim cfg).ok h' he
  exact ⟨t', h1⟩

/-! ### Walking through a token handler -/

/-- Whether the encoding flag is set, as a number. -/
def fl (s : St) : Nat := if s.flag = none then 0 else 1

theorem R.fl {cfg : Cfg} {s t : St} (h : R cfg s t) : fl s ≤ CodeParser.fl t := by
  have := h.keep
  unfold CodeParser.fl
  split <;> split <;> simp_all

/-- Going back to a mark, as seen from the start of the token. -/
theorem R.seek' {cfg : Cfg} {start m t : St} (hm : R cfg start m) (ht : R cfg start t)
    (hf : CodeParser.fl m ≤ CodeParser.fl t) : R cfg start (t.seek m) := by
  obtain ⟨cs, hp, hu⟩ := hm.path
  have hk : m.flag ≠ none → t.flag ≠ none := by
    unfold CodeParser.fl at hf
    intro h; rw [if_neg h] at hf; intro h2; rw [if_pos h2] at hf; omega
  exact ⟨hm.wf, ⟨cs, hp.congr_right rfl rfl, fun h => hk (hu h)⟩, ht.keep, ht.blame⟩

/-- The location after reading is not before the location before it. -/
theorem Path.loc_le {cfg : Cfg} {cs} {s t : St} (h : Path cfg s cs t) (hs : WF s) :
    s.loc = t.loc ∨ before s.loc t.loc := by
  induction h with
  | nil h1 h2 => exact Or.inl h2.symm
  | @cons s t cs hne hp ih =>
    right
    have hb : before s.loc (nextSource cfg s).2.loc := by
      rw [Props.loc_step cfg s hs]
      exact Props.before_locUpd cfg _ _ (fun h => hne ((ns_eof hs).mp h))
    rcases ih (WF_nextSource hs) with h | h
    · rw [← h]; exact hb
    · revert hb h
      generalize s.loc = a
      generalize (nextSource cfg s).2.loc = b
      generalize t.loc = c
      cases a <;> cases b <;> cases c <;> simp [before] <;> omega

theorem span_new {cfg : Cfg} {s t : St} (hs : WF s) (h : R cfg s t) :
    Span.new s.loc t.loc = some ⟨s.loc, t.loc⟩ := by
  obtain ⟨cs, hp, _⟩ := h.path
  have := hp.loc_le hs
  revert this
  generalize s.loc = a
  generalize t.loc = b
  unfold Span.new
  intro h
  rw [if_pos]
  cases a <;> cases b <;> simp_all [before, Loc.le] <;> omega

/-- The token of kind `k` reaching from `start` to `t`. -/
def tokOf (k : TK) (start t : St) : Tok := ⟨k, between start t, t.rest, start.loc, t.loc⟩

theorem wp_tok' {E : Err → Prop} {cfg : Cfg} {k : TK} {start s : St} {Q : Tok → St → Prop}
    (h0 : WF start) (h : R cfg start s) (hQ : Q (tokOf k start s) s) : wp E (tok k start) s Q := by
  unfold wp tok
  rw [span_new h0 h]
  exact hQ

/-- The kinds `nextToken` can give, except for newlines and the end of the file. -/
def TK.fromSource : TK → Bool
  | .Unknown | .EndOfFile | .ToplevelNewline | .InternalNewline
  | .Buffer1 | .Buffer2 | .Buffer3 | .Buffer4
  | .Error_Aborted | .Error_ExpectedOperand | .Error_ExpectedTag | .Error_ExpectedFile
  | .Error_PrefixImplicitNull | .Error_InfixImplicitNull | .Error_UnterminatedFileString
  | .Fake_ImplicitTimes | .Fake_ImplicitNull | .Fake_ImplicitOne | .Fake_ImplicitAll
  | .Boxes_OpenParenStar | .Boxes_StarCloseParen | .Boxes_MultiSingleQuote | .Boxes_MultiWhitespace => false
  | _ => true

/-- The kinds `nextToken` can give under a policy, except for the end of the file. -/
def KOK (pol : Pol) (k : TK) : Bool :=
  k.fromSource || (k == .ToplevelNewline && pol.toplevel) || (k == .InternalNewline && !pol.toplevel)

theorem KOK_newline (pol : Pol) : KOK pol pol.newline = true := by
  obtain ⟨a, b, c⟩ := pol
  cases c <;> rfl

/-- What a token handler, entered with at most `n` bytes left, gives. -/
structure HPost (cfg : Cfg) (pol : Pol) (start : St) (n : Nat) (k : Tok) (t : St) : Prop where
  reach : R cfg start t
  shape : k = tokOf k.kind start t
  kind : KOK pol k.kind = true
  len : t.rest.length ≤ n

/-- The facts carried along. -/
structure At (cfg : Cfg) (start : St) (n : Nat) (s : St) : Prop where
  wf : WF start
  reach : R cfg start s
  len : s.rest.length ≤ n

theorem wp_tok {cfg : Cfg} {pol : Pol} {start s : St} {n : Nat} {k : TK} (h : At cfg start n s)
    (hk : KOK pol k = true) : wp (EE start.rest) (tok k start) s (HPost cfg pol start n) :=
  wp_tok' h.wf h.reach ⟨h.reach, rfl, hk, h.len⟩

/-- What is known about a character read from `r`. -/
structure Cur (r : List UInt8) (c : WLC) : Prop where
  next : ∃ r', NextB r c r'

theorem Cur.ne_nil {r : List UInt8} {c : WLC} (h : Cur r c) (hc : c.point ≠ .eof) : r ≠ [] := by
  obtain ⟨r', h⟩ := h.next; exact h.ne_nil hc

theorem wp_nextC {β} {cfg : Cfg} {start s : St} {n : Nat} {f : WLC → M β} {Q : β → St → Prop}
    (h : At cfg start n s)
    (hf : ∀ c t, At cfg start n t → fl s ≤ fl t → t.rest.length ≤ s.rest.length →
      (s.rest ≠ [] → t.rest.length < s.rest.length) → NextB s.rest c t.rest →
      wp (EE start.rest) (f c) t Q) :
    wp (EE start.rest) (nextC cfg >>= f) s Q := by
  refine wp_call (nextC_wp h.reach.wf) (fun _ he => he.of_R h.wf h.reach) ?_
  rintro c t ⟨hR, hb⟩
  have hl := R.len h.reach.wf hR
  exact hf c t ⟨h.wf, R.trans h.wf h.reach hR, by have := h.len; omega⟩ hR.fl hl hb.len hb

theorem wp_curC {β} {cfg : Cfg} {start s : St} {n : Nat} {f : WLC → M β} {Q : β → St → Prop}
    (h : At cfg start n s)
    (hf : ∀ c t, At cfg start n t → fl s ≤ fl t → t.rest = s.rest → Cur t.rest c →
      wp (EE start.rest) (f c) t Q) :
    wp (EE start.rest) (curC cfg >>= f) s Q := by
  refine wp_call (curC_wp h.reach.wf) (fun _ he => he.of_R h.wf h.reach) ?_
  rintro c t ⟨hR, hsame, _, hb⟩
  exact hf c t ⟨h.wf, R.trans h.wf h.reach hR, by rw [← hsame.rest]; exact h.len⟩ hR.fl
    hsame.rest.symm ⟨by rw [← hsame.rest]; exact hb⟩

theorem wp_src1 {β} {cfg : Cfg} {start s : St} {n : Nat} {f : CP → M β} {Q : β → St → Prop}
    (h : At cfg start n s)
    (hf : ∀ c t, At cfg start n t → fl s ≤ fl t → t.rest.length ≤ s.rest.length →
      (s.rest ≠ [] → t.rest.length < s.rest.length) → Plain s.rest c t.rest →
      wp (EE start.rest) (f c) t Q) :
    wp (EE start.rest) (src cfg >>= f) s Q := by
  refine wp_bind (wp_src' h.reach.wf fun c t hc ht hR => ?_)
  have hp := plain_nextSource (cfg := cfg) h.reach.wf
  rw [← hc, ← ht] at hp
  have hl := R.len h.reach.wf hR
  exact hf c t ⟨h.wf, R.trans h.wf h.reach hR, by have := h.len; omega⟩ hR.fl hl hp.len hp

theorem wp_peek1 {β} {cfg : Cfg} {start s : St} {n : Nat} {f : CP → M β} {Q : β → St → Prop}
    (h : At cfg start n s)
    (hf : ∀ c t, At cfg start n t → fl s ≤ fl t → t.rest = s.rest → (c = .eof ↔ t.rest = []) →
      wp (EE start.rest) (f c) t Q) :
    wp (EE start.rest) (peekSrc cfg >>= f) s Q := by
  refine wp_bind (wp_peekSrc' h.reach.wf fun c t hc ht _ _ hR _ => ?_)
  exact hf c t ⟨h.wf, R.trans h.wf h.reach hR, by rw [ht]; exact h.len⟩ hR.fl ht
    (by rw [hc, ht]; exact ns_eof h.reach.wf)

theorem wp_seek1 {β} {cfg : Cfg} {start s m : St} {n : Nat} {f : Unit → M β} {Q : β → St → Prop}
    (hm : At cfg start n m) (h : At cfg start n s) (hfl : fl m ≤ fl s)
    (hf : ∀ t, At cfg start n t → fl s ≤ fl t → t.rest = m.rest →
      wp (EE start.rest) (f ()) t Q) :
    wp (EE start.rest) (M.seek m >>= f) s Q := by
  refine wp_bind (wp_seek ?_)
  exact hf _ ⟨h.wf, hm.reach.seek' h.reach hfl, hm.len⟩ (Nat.le_refl _) rfl

theorem wp_assert {β} {E : Err → Prop} {s : St} {b : Bool} {f : Unit → M β} {Q : β → St → Prop}
    (h : b = true) (hf : wp E (f ()) s Q) : wp E (assertB b >>= f) s Q := by
  unfold assertB; rw [if_pos h]; exact wp_bind (wp_pure hf)

theorem wp_mark1 {β} {E : Err → Prop} {s : St} {f : St → M β} {Q : β → St → Prop}
    (hf : wp E (f s) s Q) : wp E (M.mark >>= f) s Q := wp_bind (wp_mark hf)

theorem wp_tokNext {cfg : Cfg} {pol : Pol} {start s : St} {n : Nat} {k : TK} (h : At cfg start n s)
    (hk : KOK pol k = true) : wp (EE start.rest) (tokNext cfg k start) s (HPost cfg pol start n) := by
  unfold tokNext
  exact wp_nextC h fun _ _ h _ _ _ _ => wp_tok h hk

theorem wp_assertAscii {β} {E : Err → Prop} {s m : St} {b : UInt8} {c : WLC} {f : Unit → M β}
    {Q : β → St → Prop} (hc : Cur m.rest c) (hp : c.point = .char b.toNat) (hb : b.toNat < 0x80)
    (hf : wp E (f ()) s Q) : wp E (assertAscii m b >>= f) s Q := by
  obtain ⟨r', hn⟩ := hc.next
  obtain ⟨x, q, hr, hx⟩ := hn.ascii hp hb
  unfold assertAscii
  rw [hr]
  refine wp_assert ?_ hf
  unfold ifAsciiWL
  rcases hx with hx | rfl
  · have : x = b := UInt8.toNat_inj.mp hx
    subst this; simp
  · rw [if_neg (by decide), if_neg (by decide), if_pos (by decide)]

end CodeParser
