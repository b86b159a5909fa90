import Verif.Model.Iter
import Verif.Spec.Iter
import Verif.Props.Char
import Verif.Props.LongNames
import Verif.Props.Tokenizer
import Verif.Proofs.Parser1
/-!
# The iterators over characters and tokens (C74)
-/
namespace CodeParser.Props
open CodeParser CodeParser.Spec

/-! ### Source characters -/

theorem sourceCharsNext_eq {cfg : Cfg} {s : St} : sourceCharsNext cfg s =
    .ok (if (nextSource cfg s).1 ≠ .eof then some (nextSource cfg s).1 else none, (nextSource cfg s).2) := by
  unfold sourceCharsNext
  show M.bind (src cfg) _ s = _
  unfold M.bind src
  simp only
  split <;> rfl

theorem sourceCharsNext_nil {cfg : Cfg} {s : St} (h : s.rest = []) :
    sourceCharsNext cfg s = .ok (none, { s with eof := true }) := by
  rw [sourceCharsNext_eq, nextSource_nil h]; rfl

theorem source_ended {cfg : Cfg} : ∀ (n : Nat) (s : St), s.rest = [] → Ended (sourceCharsNext cfg) n s
  | 0, _, _ => trivial
  | n + 1, _, h => ⟨_, sourceCharsNext_nil h, source_ended n _ h⟩

theorem source_yields (cfg : Cfg) : ∀ (n : Nat) (s : St), WF s → s.rest.length ≤ n →
    ∃ t, Iterates (sourceCharsNext cfg) s ((readAll cfg (n + 1) s).1.map Prod.fst) t ∧ t.rest = [] := by
  intro n
  induction n with
  | zero =>
    intro s h hn
    have hnil : s.rest = [] := by simpa using hn
    refine ⟨{ s with eof := true }, ?_, hnil⟩
    simp only [readAll, nextSource_nil hnil, if_true, List.map_nil]
    exact .done (sourceCharsNext_nil hnil)
  | succ n ih =>
    intro s h hn
    by_cases hne : s.rest = []
    · refine ⟨{ s with eof := true }, ?_, hne⟩
      unfold readAll
      simp only [nextSource_nil hne, if_true, List.map_nil]
      exact .done (sourceCharsNext_nil hne)
    · obtain ⟨h1, -, h3⟩ := step_aux cfg s h
      have he : (nextSource cfg s).1 ≠ .eof := fun he => hne (h1.mp he)
      obtain ⟨piece, hp1, -, hp2⟩ := h3 he
      have hl : (nextSource cfg s).2.rest.length ≤ n := by
        have := congrArg List.length hp2
        simp at this; omega
      obtain ⟨t, ht, hr⟩ := ih _ (WF_nextSource h) hl
      refine ⟨t, ?_, hr⟩
      unfold readAll
      simp only [he, if_false, List.map_cons]
      exact .item (by rw [sourceCharsNext_eq, if_pos he]) ht

/-- C74: iterating over the source characters of a text gives exactly its characters, CR LF counted as
one, and then ends for good. -/
theorem C74_source (cfg : Cfg) (conv : Conv) (cs : List Char) (hb : BOM ∉ cs) :
    ∃ t, Iterates (sourceCharsNext cfg) (St.init conv (encode cs)) (chars cs) t ∧ ∀ n, Ended (sourceCharsNext cfg) n t := by
  obtain ⟨t, h1, h2⟩ := source_yields cfg _ (St.init conv (encode cs)) (WF_init _ _) (Nat.le_refl _)
  have := (C01_utf8_agreement cfg conv cs hb).1
  have he : (St.init conv (encode cs)).rest.length = (encode cs).length := rfl
  rw [he, this] at h1
  exact ⟨t, h1, fun n => source_ended n t h2⟩

example : BOM ∉ "a\r\n€\\[Pi]".toList ∧ chars "a\r\n€\\[Pi]".toList =
    [.char 97, .crlf, .char 0x20ac, .char 92, .char 91, .char 80, .char 105, .char 93] := by decide +kernel

/-! ### Wolfram characters -/

theorem wolframCharsNext_ok {cfg : Cfg} {s t : St} {c : WLC} (h : nextWL cfg s = .ok (c, t)) (hc : c.point ≠ .eof) :
    wolframCharsNext cfg s = .ok (some c, t) := by
  show M.bind (nextWL cfg) _ s = _
  unfold M.bind
  rw [h]
  simp only
  rw [if_pos hc]
  rfl

theorem nextWL_plain {cfg : Cfg} {s : St} (h : (nextSource cfg s).1 ≠ ch '\\') :
    nextWL cfg s = .ok (⟨(nextSource cfg s).1, .none⟩, (nextSource cfg s).2) := by
  unfold nextWL
  show M.bind (src cfg) _ s = _
  unfold M.bind src
  simp only
  rw [if_pos h]
  rfl

theorem nextWL_nil {cfg : Cfg} {s : St} (h : s.rest = []) : nextWL cfg s = .ok (⟨.eof, .none⟩, { s with eof := true }) := by
  rw [nextWL_plain (by rw [nextSource_nil h]; exact by simp [ch]), nextSource_nil h]

theorem wolframCharsNext_nil {cfg : Cfg} {s : St} (h : s.rest = []) :
    wolframCharsNext cfg s = .ok (none, { s with eof := true }) := by
  show M.bind (nextWL cfg) _ s = _
  unfold M.bind
  rw [nextWL_nil h]
  rfl

theorem wolfram_ended {cfg : Cfg} : ∀ (n : Nat) (s : St), s.rest = [] → Ended (wolframCharsNext cfg) n s
  | 0, _, _ => trivial
  | n + 1, _, h => ⟨_, wolframCharsNext_nil h, wolfram_ended n _ h⟩

theorem Escapes.not_eof {r : List UInt8} {p : CP} {e : Escape} {rest : List UInt8} (h : Escapes r p e rest) : p ≠ .eof := by
  have hc : ∀ v, canon v ≠ .eof := by
    intro v; unfold canon; split
    · decide
    · split
      · decide
      · intro h; cases h
  have hl : ∀ x ∈ longNameTable, x.2 ≠ .eof := by
    have : longNameTable.all (fun x => decide (x.2 ≠ .eof)) = true := by decide +kernel
    intro x hx
    exact of_decide_eq_true (List.all_eq_true.mp this x hx)
  cases h with
  | single h =>
    have : ∀ x ∈ singleEscapes, x.2 ≠ .eof := by decide
    exact this _ h
  | lineFeed => decide
  | carriageReturn => decide
  | crlf => decide
  | hex2 => exact hc _
  | hex4 => exact hc _
  | hex6 => exact hc _
  | octal => exact hc _
  | raw h => exact hl _ h
  | longName h => exact hl _ h

/-- A backslash that starts no escape. -/
theorem malformed_aux {cfg : Cfg} {s : St} (hs : WF s) {r : List UInt8} (hr : s.rest = byte '\\' :: r)
    (hno : ∀ p e rest, ¬ Escapes r p e rest) (hsu : ¬ SurrogateEscape r) :
    ∃ t, nextWL cfg s = .ok (⟨ch '\\', .none⟩, t) ∧ t.rest = r := by
  have hw := nextWL_spec (cfg := cfg) hs
  unfold wp at hw
  cases hm : nextWL cfg s with
  | error er =>
    rw [hm] at hw
    obtain ⟨_, r', hr', h⟩ := hw
    rw [hr] at hr'
    simp only [List.cons.injEq, true_and] at hr'
    subst hr'
    exact absurd h hsu
  | ok q =>
    obtain ⟨c, t⟩ := q
    rw [hm] at hw
    rcases hw.esc r hr with hesc | ⟨rfl, ht, _⟩
    · exact absurd hesc (hno _ _ _)
    · exact ⟨t, rfl, ht⟩

theorem wolfram_yields {cfg : Cfg} {bs : List UInt8} {cs : List WLC} (h : Wolfram bs cs) : ∀ s : St, WF s → s.rest = bs →
    ∃ t, Iterates (wolframCharsNext cfg) s cs t ∧ t.rest = [] := by
  induction h with
  | nil => exact fun s _ hr => ⟨_, .done (wolframCharsNext_nil hr), hr⟩
  | @plain c rest cs hc hb hcr _ ih =>
    intro s hs hr
    have hne : s.rest ≠ [] := by
      rw [hr]; intro h
      have := congrArg List.length h
      have hp := c.utf8Size_pos
      simp at this; omega
    have hef : s.eof = false := by
      cases he : s.eof
      · rfl
      · exact absurd (hs he) hne
    have hn : nextSource cfg s = (.char c.toNat, ⟨rest, locUpd cfg (.char c.toNat) s.loc, false, s.flag⟩) := by
      obtain ⟨r, l, e, f⟩ := s
      simp only at hr hef
      subst hr; subst hef
      exact nextSource_enc (fun h => hb (Char.toNat_inj.mp (by rw [h]; decide))) hcr
    have hw : nextWL cfg s = .ok (⟨.char c.toNat, .none⟩, ⟨rest, locUpd cfg (.char c.toNat) s.loc, false, s.flag⟩) := by
      rw [nextWL_plain (by rw [hn]; exact fun h => hc (Char.toNat_inj.mp (by injection h))), hn]
    obtain ⟨t, h1, h2⟩ := ih ⟨rest, locUpd cfg (.char c.toNat) s.loc, false, s.flag⟩ (by intro h; cases h) rfl
    exact ⟨t, .item (wolframCharsNext_ok hw (by intro h; cases h)) h1, h2⟩
  | @crlf rest cs _ ih =>
    intro s hs hr
    have hef : s.eof = false := by
      cases he : s.eof
      · rfl
      · have := hs he; rw [hr] at this; cases this
    have hn : nextSource cfg s = (.crlf, ⟨rest, s.loc.windowsNewline, false, s.flag⟩) := by
      obtain ⟨r, l, e, f⟩ := s
      simp only at hr hef
      subst hr; subst hef
      exact nextSource_enc_crlf
    have hw : nextWL cfg s = .ok (⟨.crlf, .none⟩, ⟨rest, s.loc.windowsNewline, false, s.flag⟩) := by
      rw [nextWL_plain (by rw [hn]; exact by simp [ch]), hn]
    obtain ⟨t, h1, h2⟩ := ih ⟨rest, s.loc.windowsNewline, false, s.flag⟩ (by intro h; cases h) rfl
    exact ⟨t, .item (wolframCharsNext_ok hw (by decide)) h1, h2⟩
  | @escape r p e rest cs he _ ih =>
    intro s hs hr
    obtain ⟨t, h1, h2⟩ := nextWL_escape (cfg := cfg) hs hr he
    have hR := (nextWL_ok hs h1).reach
    obtain ⟨u, h3, h4⟩ := ih t hR.wf h2
    exact ⟨u, .item (wolframCharsNext_ok h1 (Escapes.not_eof he)) h3, h4⟩
  | @backslash r cs hno hsu _ ih =>
    intro s hs hr
    obtain ⟨t, h1, h2⟩ := malformed_aux (cfg := cfg) hs hr hno hsu
    have hR := (nextWL_ok hs h1).reach
    obtain ⟨u, h3, h4⟩ := ih t hR.wf h2
    exact ⟨u, .item (wolframCharsNext_ok h1 (by decide)) h3, h4⟩

/-- C74: iterating over the Wolfram characters of a text gives exactly these, and then ends for good. -/
theorem C74_wolfram (cfg : Cfg) (conv : Conv) (bs : List UInt8) (cs : List WLC) (h : Wolfram bs cs) :
    ∃ t, Iterates (wolframCharsNext cfg) (St.init conv bs) cs t ∧ ∀ n, Ended (wolframCharsNext cfg) n t := by
  obtain ⟨t, h1, h2⟩ := wolfram_yields (cfg := cfg) h (St.init conv bs) (WF_init _ _) rfl
  exact ⟨t, h1, fun n => wolfram_ended n t h2⟩

/-- Call an iterator until it ends, at most `n` times. -/
def collect {α : Type} (next : M (Option α)) : Nat → St → List α
  | 0, _ => []
  | n + 1, s => match next s with
    | .ok (some a, t) => a :: collect next n t
    | _ => []

example : collect (wolframCharsNext Cfg.default) 10 (St.init .lineColumn (encode "a\r\n\\[Pi]\\:0041".toList)) =
    [⟨.char 97, .none⟩, ⟨.crlf, .none⟩, ⟨.char 0x3c0, .longName⟩, ⟨.char 65, .hex4⟩] := by decide +kernel

theorem numeral_ascii {digit : UInt8 → Option Nat} {base : Nat} (hd : ∀ b d, digit b = some d → b.toNat < 128)
    {ds : List UInt8} {v : Nat} (h : Numeral digit base ds v) : ∀ b ∈ ds, b.toNat < 128 := by
  induction h with
  | nil => intro b hb; cases hb
  | snoc _ h2 ih =>
    intro b hb
    rcases List.mem_append.mp hb with hb | hb
    · exact ih b hb
    · simp only [List.mem_singleton] at hb
      subst hb
      exact hd _ _ h2

theorem hex_ascii {b : UInt8} {d : Nat} (h : hexDigit b = some d) : b.toNat < 128 := by
  unfold hexDigit at h
  split at h
  · omega
  · split at h
    · omega
    · split at h
      · omega
      · cases h

theorem oct_ascii {b : UInt8} {d : Nat} (h : octDigit b = some d) : b.toNat < 128 := by
  unfold octDigit at h
  split at h
  · omega
  · cases h

theorem Escapes.ascii {r : List UInt8} {p : CP} {e : Escape} {rest : List UInt8} (h : Escapes r p e rest) :
    ∃ pre, r = pre ++ rest ∧ pre ≠ [] ∧ ∀ b ∈ pre, b.toNat < 128 := by
  have hn : ∀ {name : List Char}, (∀ c ∈ name, c.toNat < 128) → ∀ b ∈ byte '[' :: (bytes name ++ [byte ']']), b.toNat < 128 := by
    intro name hname b hb
    simp only [List.mem_cons, List.mem_append, List.not_mem_nil, or_false] at hb
    rcases hb with rfl | hb | rfl
    · decide
    · unfold bytes at hb
      obtain ⟨c, hc, rfl⟩ := List.mem_map.mp hb
      rw [byte_toNat (hname c hc)]
      exact hname c hc
    · decide
  have hc : ∀ {x : UInt8} {ds : List UInt8}, x.toNat < 128 → (∀ b ∈ ds, b.toNat < 128) → ∀ b ∈ x :: ds, b.toNat < 128 := by
    intro x ds hx hds b hb
    rcases List.mem_cons.mp hb with rfl | hb
    · exact hx
    · exact hds b hb
  cases h with
  | @single c _ _ h =>
    have : ∀ x ∈ singleEscapes, (byte x.1).toNat < 128 := by decide
    exact ⟨[_], rfl, by simp, hc (this _ h) (by simp)⟩
  | lineFeed => exact ⟨[10], rfl, by simp, by decide⟩
  | carriageReturn h => exact ⟨[13], rfl, by simp, by decide⟩
  | crlf => exact ⟨[13, 10], rfl, by simp, by decide⟩
  | hex2 h1 h2 => exact ⟨_ :: _, rfl, by simp, hc (by decide) (numeral_ascii (fun _ _ => hex_ascii) h2)⟩
  | hex4 h1 h2 h3 => exact ⟨_ :: _, rfl, by simp, hc (by decide) (numeral_ascii (fun _ _ => hex_ascii) h2)⟩
  | hex6 h1 h2 h3 => exact ⟨_ :: _, rfl, by simp, hc (by decide) (numeral_ascii (fun _ _ => hex_ascii) h2)⟩
  | octal h1 h2 => exact ⟨_, rfl, by rintro rfl; simp at h1, numeral_ascii (fun _ _ => oct_ascii) h2⟩
  | @raw name p rest h1 h2 => exact ⟨byte '[' :: (bytes name ++ [byte ']']), by simp, by simp, hn (longNameTable_ascii _ h1)⟩
  | @longName name p rest h1 h2 => exact ⟨byte '[' :: (bytes name ++ [byte ']']), by simp, by simp, hn (longNameTable_ascii _ h1)⟩

theorem enc_head {c : Char} {b : UInt8} {q r : List UInt8} (hb : b.toNat < 128) (h : String.utf8EncodeChar c ++ q = b :: r) :
    String.utf8EncodeChar c = [b] ∧ q = r := by
  have hv := char_valid c
  have hm : ∀ n, UInt8.ofNat n = b → n % 256 = b.toNat := by
    intro n hn; rw [← hn]; simp
  unfold String.utf8EncodeChar at h ⊢
  simp only [enc_val] at h ⊢
  split at h
  · simp only [List.cons_append, List.nil_append, List.cons.injEq] at h
    refine ⟨?_, h.2⟩
    rw [if_pos (by assumption), h.1]
  · split at h
    · simp only [List.cons_append, List.cons.injEq] at h
      have := hm _ h.1
      omega
    · split at h
      · simp only [List.cons_append, List.cons.injEq] at h
        have := hm _ h.1
        omega
      · simp only [List.cons_append, List.cons.injEq] at h
        have := hm _ h.1
        omega

theorem encode_split : ∀ (pre rest : List UInt8) (cs : List Char), encode cs = pre ++ rest → (∀ b ∈ pre, b.toNat < 128) →
    ∃ c1 c2, cs = c1 ++ c2 ∧ rest = encode c2 := by
  intro pre
  induction pre with
  | nil => exact fun rest cs h _ => ⟨[], cs, rfl, h.symm⟩
  | cons b pre ih =>
    intro rest cs h hb
    rcases cs with _ | ⟨c, cs⟩
    · simp [encode] at h
    · rw [encode_cons, List.cons_append] at h
      obtain ⟨-, h2⟩ := enc_head (hb b (by simp)) h
      obtain ⟨c1, c2, rfl, h3⟩ := ih rest cs h2 (fun x hx => hb x (by simp [hx]))
      exact ⟨c :: c1, c2, rfl, h3⟩

theorem surr_up {pre bs : List UInt8} (h : HasSurrogateEscape bs) : HasSurrogateEscape (pre ++ bs) := by
  obtain ⟨x, r, rfl, hr⟩ := h
  exact ⟨pre ++ x, r, by simp, hr⟩

/-- C74: every text in which no surrogate is spelled numerically consists of Wolfram characters. -/
theorem C74_characters : ∀ (n : Nat) (cs : List Char), cs.length ≤ n → BOM ∉ cs → ¬ HasSurrogateEscape (encode cs) →
    ∃ ws, Wolfram (encode cs) ws := by
  intro n
  induction n with
  | zero =>
    intro cs hn _ _
    have : cs = [] := by simpa using hn
    subst this
    exact ⟨[], .nil⟩
  | succ n ih =>
    intro cs hn hb hs
    rcases cs with _ | ⟨c, cs⟩
    · exact ⟨[], .nil⟩
    simp only [List.length_cons] at hn
    have hb2 : BOM ∉ cs := fun h => hb (by simp [h])
    have hs2 : ¬ HasSurrogateEscape (encode cs) := fun h => hs (by rw [encode_cons]; exact surr_up h)
    by_cases hc : c = '\\'
    · subst hc
      have he : encode ('\\' :: cs) = byte '\\' :: encode cs := by rw [encode_cons]; rfl
      rw [he]
      by_cases hx : ∃ p e rest, Escapes (encode cs) p e rest
      · obtain ⟨p, e, rest, hx⟩ := hx
        obtain ⟨pre, h1, h2, h3⟩ := Escapes.ascii hx
        obtain ⟨c1, c2, rfl, rfl⟩ := encode_split pre rest cs h1 h3
        have hs3 : ¬ HasSurrogateEscape (encode c2) := fun h => hs2 (by rw [h1]; exact surr_up h)
        obtain ⟨ws, hw⟩ := ih c2 (by simp at hn; omega) (fun h => hb2 (by simp [h])) hs3
        exact ⟨_, .escape hx hw⟩
      · obtain ⟨ws, hw⟩ := ih cs (by omega) hb2 hs2
        exact ⟨_, .backslash (fun p e rest h => hx ⟨p, e, rest, h⟩) (fun h => hs ⟨[], encode cs, by rw [he]; rfl, h⟩) hw⟩
    · by_cases hcr : c = '\r' ∧ (encode cs).head? = some 10
      · obtain ⟨rfl, h10⟩ := hcr
        rcases cs with _ | ⟨d, ds⟩
        · simp [encode] at h10
        · have hd := head_encode h10
          simp only [List.head?_cons, Option.some.injEq] at hd
          subst hd
          have hs3 : ¬ HasSurrogateEscape (encode ds) := fun h => hs2 (by rw [encode_cons]; exact surr_up h)
          obtain ⟨ws, hw⟩ := ih ds (by simp at hn; omega) (fun h => hb2 (by simp [h])) hs3
          refine ⟨⟨.crlf, .none⟩ :: ws, ?_⟩
          rw [encode_cons, encode_cons, enc_cr, enc_lf]
          exact .crlf hw
      · obtain ⟨ws, hw⟩ := ih cs (by omega) hb2 hs2
        refine ⟨⟨.char c.toNat, .none⟩ :: ws, ?_⟩
        rw [encode_cons]
        exact .plain hc (fun h => hb (by simp [h])) (fun h1 h2 => hcr ⟨h1, h2⟩) hw

/-- `2*\[Pi]` -/
example : Wolfram (bytes "2*\\[Pi]".toList) [⟨.char 50, .none⟩, ⟨.char 42, .none⟩, ⟨.char 0x3c0, .longName⟩] :=
  .plain (c := '2') (by decide) (by decide) (by decide) (.plain (c := '*') (by decide) (by decide) (by decide)
    (.escape (.longName (name := ['P', 'i']) (by decide +kernel) (by decide +kernel)) .nil))

/-! ### Tokens -/

theorem tokensNext_ok {cfg : Cfg} {s t : St} {k : Tok} (h : nextToken cfg Pol.top s = .ok (k, t)) :
    tokensNext cfg s = .ok (if k.kind ≠ .EndOfFile then some k else none, t) := by
  show M.bind (nextToken cfg Pol.top) _ s = _
  unfold M.bind
  rw [h]
  simp only
  split <;> rfl

theorem token_step {cfg : Cfg} {s t u : St} {k : Tok} (hs : WF s) (hu : WF u) (hr : u.rest = s.rest) (hl : u.loc = s.loc)
    (h : peekToken cfg false s = .ok (k, t)) :
    ∃ v, tokensNext cfg u = .ok (if k.kind ≠ .EndOfFile then some k else none, v) ∧ WF v ∧
      (k.kind = .EndOfFile → v.rest = []) ∧ (k.kind ≠ .EndOfFile → v.rest = k.after ∧ v.loc = k.stop) := by
  have hpk : peekToken cfg false s = (match nextToken cfg Pol.top s with
      | .ok (k, w) => .ok (k, w.seek s)
      | .error e => .error e) := by
    unfold peekToken peekTokenWith
    show M.bind M.mark (fun m => M.bind (nextToken cfg Pol.top) fun t => M.bind (M.seek m) fun _ => pure t) s = _
    unfold M.bind M.mark
    simp only
    rcases nextToken cfg Pol.top s with e | ⟨k, w⟩ <;> rfl
  rw [hpk] at h
  rcases hn : nextToken cfg Pol.top s with e | ⟨k', w⟩ <;> rw [hn] at h
  · cases h
  simp only [Except.ok.injEq, Prod.mk.injEq] at h
  obtain ⟨rfl, -⟩ := h
  have hw := nextToken_wp (cfg := cfg) (pol := Pol.top) hs
  unfold wp at hw
  rw [hn] at hw
  by_cases hne : s.rest = []
  · have hk : k'.kind = .EndOfFile := by
      cases hw with
      | token _ h => rw [hne] at h; simp at h
      | eof _ h => rw [h]; rfl
    have hu2 := nextToken_wp (cfg := cfg) (pol := Pol.top) hu
    unfold wp at hu2
    rcases hm : nextToken cfg Pol.top u with e | ⟨k2, v⟩ <;> rw [hm] at hu2
    · exfalso
      rw [hr, hne] at hu2
      obtain ⟨-, ⟨pre, r, h, -⟩⟩ := hu2
      simp at h
    · have hk2 : k2.kind = .EndOfFile ∧ v.rest = [] ∧ WF v := by
        cases hu2 with
        | token _ h => rw [hr, hne] at h; simp at h
        | eof hR h h2 => exact ⟨by rw [h]; rfl, h2, hR.wf⟩
      refine ⟨v, ?_, hk2.2.2, fun _ => hk2.2.1, fun h => absurd hk h⟩
      rw [tokensNext_ok hm, if_neg (by rw [hk2.1]; simp), if_neg (by rw [hk]; simp)]
  · have he : ∀ x : St, WF x → x.rest ≠ [] → x.eof = false := by
      intro x hx hx2
      cases hxe : x.eof
      · rfl
      · exact absurd (hx hxe) hx2
    have hsame : SameAt s u := ⟨hr.symm, hl.symm, by rw [he s hs hne, he u hu (by rw [hr]; exact hne)]⟩
    have hsim := nextToken_sim (cfg := cfg) (pol := Pol.top) s u hsame
    rw [hn] at hsim
    rcases hm : nextToken cfg Pol.top u with e | ⟨k2, v⟩ <;> rw [hm] at hsim
    · exact hsim.elim
    · obtain ⟨rfl, hsv⟩ := hsim
      have hwf : WF v := by
        have hu2 := nextToken_wp (cfg := cfg) (pol := Pol.top) hu
        unfold wp at hu2
        rw [hm] at hu2
        cases hu2 with
        | token h _ => exact h.reach.wf
        | eof h => exact h.wf
      refine ⟨v, tokensNext_ok hm, hwf, fun hk => ?_, fun hk => ?_⟩
      · cases hw with
        | token h _ => have := h.kind; rw [hk, KOK_not_eof] at this; cases this
        | eof _ _ h => rw [← hsv.rest, h]
      · cases hw with
        | token h _ => rw [h.shape, ← hsv.rest, ← hsv.loc]; exact ⟨rfl, rfl⟩
        | eof _ h => exact absurd (by rw [h]; rfl) hk

theorem tokens_ended {cfg : Cfg} : ∀ (n : Nat) (s : St), WF s → s.rest = [] → Ended (tokensNext cfg) n s
  | 0, _, _, _ => trivial
  | n + 1, s, hs, h => by
    have hu2 := nextToken_wp (cfg := cfg) (pol := Pol.top) hs
    unfold wp at hu2
    rcases hm : nextToken cfg Pol.top s with e | ⟨k2, v⟩ <;> rw [hm] at hu2
    · exfalso
      rw [h] at hu2
      obtain ⟨-, ⟨pre, r, h, -⟩⟩ := hu2
      simp at h
    · have hk2 : k2.kind = .EndOfFile ∧ v.rest = [] ∧ WF v := by
        cases hu2 with
        | token _ h' => rw [h] at h'; simp at h'
        | eof hR h h2 => exact ⟨by rw [h]; rfl, h2, hR.wf⟩
      exact ⟨v, by rw [tokensNext_ok hm, if_neg (by rw [hk2.1]; simp)], tokens_ended n v hk2.2.2 hk2.2.1⟩

/-- Several steps of an iterator. -/
inductive Items {α : Type} (next : M (Option α)) : St → List α → St → Prop
  | nil {s} : Items next s [] s
  | snoc {s as t a u} : Items next s as t → next t = .ok (some a, u) → Items next s (as ++ [a]) u

theorem Items.iterates {α : Type} {next : M (Option α)} {s t u : St} {as bs : List α} (h : Items next s as t)
    (h2 : Iterates next t bs u) : Iterates next s (as ++ bs) u := by
  induction h generalizing bs with
  | nil => exact h2
  | snoc _ h ih => rw [List.append_assoc]; exact ih (.item h h2)

theorem tokenLoop_iterates {cfg : Cfg} {s : St} (hs : WF s) :
    wp (fun _ => True) (tokenLoop cfg) s (fun ts _ => ∃ u, Iterates (tokensNext cfg) s ts u ∧ WF u ∧ u.rest = []) := by
  unfold tokenLoop
  refine wp_loop (fun ks t => WF t ∧ ∃ u, Items (tokensNext cfg) s ks.reverse u ∧ WF u ∧ u.rest = t.rest ∧ u.loc = t.loc)
    (fun _ t => t.rest.length) ⟨hs, s, .nil, hs, rfl, rfl⟩ (by omega) ?_
  rintro ks t ⟨ht, u, hu, hwu, hr, hl⟩
  have hp := peekTokenWith_wp (cfg := cfg) (pol := Pol.top) (g := false) ht
  rcases hm : peekToken cfg false t with e | ⟨k, w⟩
  · refine wp_call (Q := fun _ _ => False) (E := fun _ => True) ?_ (fun _ h => h) fun _ _ h => h.elim
    unfold wp; rw [hm]; trivial
  · obtain ⟨v, h1, h2, h3, h4⟩ := token_step ht hwu hr hl hm
    have hpk : PeekPost cfg (Pol.top.inside false) t k w := by
      unfold wp at hp
      have : peekTokenWith cfg Pol.top false t = .ok (k, w) := hm
      rw [this] at hp
      exact hp
    refine wp_call (Q := fun k' w' => k' = k ∧ w' = w) (E := fun _ => False) ?_ (fun _ h => h.elim) ?_
    · unfold wp; rw [hm]; exact ⟨rfl, rfl⟩
    intro k' w' hkw
    obtain ⟨hk', hw'⟩ := hkw
    subst hk'; subst hw'
    refine wp_ite (fun he => wp_pure ?_) fun hne => wp_skip (wp_pure ⟨⟨hpk.skip.wf, v, ?_, h2, (h4 hne).1, (h4 hne).2⟩, ?_⟩)
    · rw [if_neg (by simp [he])] at h1
      refine ⟨v, ?_, h2, h3 he⟩
      have := hu.iterates (.done h1)
      rwa [List.append_nil] at this
    · rw [if_pos hne] at h1
      rw [List.reverse_cons]
      exact .snoc hu h1
    · have := hpk.toPeeked.len
      have h5 := List.length_pos_iff.mpr (hpk.more hne)
      show k'.after.length < t.rest.length
      omega

/-- C74: iterating over the tokens of an input gives exactly the tokens `tokenize` finds, and then ends for good. -/
theorem C74_tokens (cfg : Cfg) (conv : Conv) (first : FirstLine) (bs : List UInt8) (ts : List Tok) (t : St)
    (h : tokens cfg conv first bs = .ok (ts, t)) :
    ∃ s u, handleFirstLine cfg first (St.init conv bs) = .ok ((), s) ∧ Iterates (tokensNext cfg) s ts u ∧
      ∀ n, Ended (tokensNext cfg) n u := by
  have h' : M.bind (handleFirstLine cfg first) (fun _ => tokenLoop cfg) (St.init conv bs) = .ok (ts, t) := h
  unfold M.bind at h'
  rcases h1 : handleFirstLine cfg first (St.init conv bs) with e | ⟨⟨⟩, s⟩ <;> rw [h1] at h'
  · cases h'
  have h2 : tokenLoop cfg s = .ok (ts, t) := h'
  have hw := handleFirstLine_wp (cfg := cfg) (f := first) (s := St.init conv bs) (by intro h; cases h)
  unfold wp at hw
  rw [h1] at hw
  have hi := tokenLoop_iterates (cfg := cfg) hw.wf
  unfold wp at hi
  rw [h2] at hi
  obtain ⟨u, hi, hu, hr⟩ := hi
  exact ⟨s, u, rfl, hi, fun n => tokens_ended n u hu hr⟩

example : (collect (tokensNext Cfg.default) 10 (St.init .lineColumn (encode "f[x] (*c*)".toList))).map (·.kind) =
    [.Symbol, .OpenSquare, .Symbol, .CloseSquare, .Whitespace, .Comment] := by decide +kernel

end CodeParser.Props
