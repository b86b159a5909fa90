import Verif.Model.Recover
import Verif.Props.Reader
import Verif.Props.Util
import Verif.Proofs.Parser1
/-!
Recovery: UTF-8, positions in a text and its lines (helper lemmas).
-/
namespace CodeParser
open Spec Props

/-! ### UTF-8 -/

theorem utf8Value_enc (c : Char) (r : List UInt8) : utf8Value (String.utf8EncodeChar c ++ r) = c.toNat := by
  have hv := char_valid c
  unfold String.utf8EncodeChar
  simp only [enc_val]
  split
  · simp only [List.cons_append, List.nil_append, utf8Value]
    rw [if_pos (by simp; omega)]
    simp; omega
  split
  · simp [utf8Value]
    rw [if_neg (by omega), if_pos (by omega)]
    omega
  split
  · simp [utf8Value]
    rw [if_neg (by omega), if_neg (by omega), if_pos (by omega)]
    omega
  · simp [utf8Value]
    rw [if_neg (by omega), if_neg (by omega), if_neg (by omega)]
    omega

theorem enc_ne_nil (c : Char) : String.utf8EncodeChar c ≠ [] := by
  intro h
  have := congrArg List.length h
  have := c.utf8Size_pos
  simp at *

theorem fromUtf8N_encode : ∀ (n : Nat) (cs : List Char), cs.length ≤ n → fromUtf8N n (encode cs) = some cs
  | n, [], _ => by cases n <;> rfl
  | 0, _ :: _, h => by simp at h
  | n + 1, c :: cs, h => by
    rw [encode_cons]
    have hne : String.utf8EncodeChar c ++ encode cs ≠ [] := by simp
    obtain ⟨b, r, hb⟩ := List.exists_cons_of_ne_nil hne
    unfold fromUtf8N
    rw [hb]
    simp only
    rw [← hb, utf8Value_enc, Char.ofNat_toNat, List.take_left, if_pos rfl, List.drop_left,
      fromUtf8N_encode n cs (by simpa using h)]
    rfl

theorem fromUtf8_encode (cs : List Char) : fromUtf8 (encode cs) = some cs :=
  fromUtf8N_encode _ _ (length_encode cs)

theorem fromUtf8N_some : ∀ (n : Nat) (bs : List UInt8) (cs : List Char), fromUtf8N n bs = some cs → bs = encode cs
  | n, [], cs, h => by
    have : some [] = some cs := by rw [← h]; cases n <;> rfl
    cases this; rfl
  | 0, _ :: _, _, h => by cases h
  | n + 1, b :: r, cs, h => by
    unfold fromUtf8N at h
    simp only at h
    split at h
    · next he =>
      cases hq : fromUtf8N n ((b :: r).drop (String.utf8EncodeChar (Char.ofNat (utf8Value (b :: r)))).length) with
      | none => rw [hq] at h; cases h
      | some ds =>
        rw [hq] at h
        cases h
        have := fromUtf8N_some n _ _ hq
        rw [encode_cons, ← this]
        generalize String.utf8EncodeChar (Char.ofNat (utf8Value (b :: r))) = e at he
        conv => lhs; rw [← List.take_append_drop e.length (b :: r), he]
    · cases h

theorem fromUtf8_some {bs : List UInt8} {cs : List Char} (h : fromUtf8 bs = some cs) : bs = encode cs :=
  fromUtf8N_some _ _ _ h

/-! ### Positions in a text -/

/-- One source character: what remains of the text and how the location moves. -/
def stepC (cfg : Cfg) : List Char → Loc → Option (List Char × Loc)
  | [], _ => none
  | '\r' :: '\n' :: cs, l => some (cs, l.windowsNewline)
  | c :: cs, l => some (cs, locUpd cfg (.char c.toNat) l)

/-- Reading from the text `cs` at location `l` leads to the text `ds` at location `m`. -/
inductive Steps (cfg : Cfg) : List Char → Loc → List Char → Loc → Prop
  | refl {cs l} : Steps cfg cs l cs l
  | step {cs l ds m es n} : stepC cfg cs l = some (ds, m) → Steps cfg ds m es n → Steps cfg cs l es n

section
variable {cfg : Cfg} {cs ds es : List Char} {l m n : Loc}

theorem Steps.trans (h : Steps cfg cs l ds m) (h' : Steps cfg ds m es n) : Steps cfg cs l es n := by
  induction h with
  | refl => exact h'
  | step a _ ih => exact .step a (ih h')

theorem nextSource_stepC {s : St} (hw : WF s) (hr : s.rest = encode cs) (hne : s.rest ≠ []) :
    ∃ ds m, stepC cfg cs s.loc = some (ds, m) ∧ (nextSource cfg s).2.rest = encode ds ∧ (nextSource cfg s).2.loc = m := by
  obtain ⟨rest, loc, eof, flag⟩ := s
  simp only at hr hne
  have he : eof = false := by
    cases eof
    · rfl
    · exact absurd (hw rfl) hne
  subst he
  subst hr
  cases cs with
  | nil => exact absurd rfl hne
  | cons c cs =>
    by_cases hcr : c = '\r' ∧ cs.head? = some '\n'
    · obtain ⟨rfl, hh⟩ := hcr
      cases cs with
      | nil => cases hh
      | cons d cs =>
        simp at hh
        subst hh
        refine ⟨cs, _, rfl, ?_, ?_⟩ <;> rw [encode_cons, encode_cons, enc_cr, enc_lf]
        · show (nextSource cfg ⟨13 :: 10 :: encode cs, _, _, _⟩).2.rest = _
          rw [nextSource_enc_crlf]
        · show (nextSource cfg ⟨13 :: 10 :: encode cs, _, _, _⟩).2.loc = _
          rw [nextSource_enc_crlf]
    · have hst : stepC cfg (c :: cs) loc = some (cs, locUpd cfg (.char c.toNat) loc) := by
        unfold stepC
        split
        · next h => cases h
        · next h => cases h; exact absurd ⟨rfl, rfl⟩ hcr
        · next h => cases h; rfl
      refine ⟨cs, _, hst, ?_⟩
      rw [encode_cons]
      by_cases hb : c.toNat = 0xfeff
      · rw [nextSource_enc_mb (by omega), if_pos hb, locUpd_char (by omega) (by omega) (by omega)]
        exact ⟨rfl, rfl⟩
      · rw [nextSource_enc hb (fun h hh => hcr ⟨h, head_encode hh⟩)]
        exact ⟨rfl, rfl⟩

theorem Path.steps {xs : List CP} {s t : St} (h : Path cfg s xs t) : ∀ {cs : List Char}, WF s → s.rest = encode cs →
    ∃ ds, t.rest = encode ds ∧ Steps cfg cs s.loc ds t.loc := by
  induction h with
  | nil h1 h2 => intro cs _ hr; exact ⟨cs, h1.trans hr, by rw [h2]; exact .refl⟩
  | @cons s t xs hne _ ih =>
    intro cs hw hr
    obtain ⟨ds, m, h1, h2, h3⟩ := nextSource_stepC (cfg := cfg) hw hr hne
    obtain ⟨es, h4, h5⟩ := ih (WF_nextSource hw) h2
    exact ⟨es, h4, .step h1 (by rw [← h3]; exact h5)⟩

theorem readN_steps : ∀ (n : Nat) {s : St} {cs : List Char}, WF s → s.rest = encode cs →
    (∀ p ∈ (readN cfg n s).1, p.1 ≠ .eof) →
    ∃ ds, (readN cfg n s).2.rest = encode ds ∧ Steps cfg cs s.loc ds (readN cfg n s).2.loc
  | 0, s, cs, _, hr, _ => ⟨cs, hr, .refl⟩
  | n + 1, s, cs, hw, hr, h => by
    have hne : s.rest ≠ [] := by
      intro h0
      refine h ((nextSource cfg s).1, _) (by unfold readN; exact List.mem_cons_self) ?_
      rw [nextSource_nil h0]
    obtain ⟨ds, m, h1, h2, h3⟩ := nextSource_stepC (cfg := cfg) hw hr hne
    obtain ⟨es, h4, h5⟩ := readN_steps n (WF_nextSource hw) h2 (fun p hp => h p (by unfold readN; exact List.mem_cons_of_mem _ hp))
    exact ⟨es, h4, .step h1 (by rw [← h3]; exact h5)⟩

theorem moves_steps {text after : List UInt8} {start stop : Loc} (h : Moves cfg text after start stop)
    (hr : text ++ after = encode cs) : ∃ ds, after = encode ds ∧ Steps cfg cs start ds stop := by
  obtain ⟨n, -, h2, h3, h4⟩ := h
  have := readN_steps (cfg := cfg) n (s := ⟨text ++ after, start, false, none⟩) (by intro h; cases h) hr h2
  rw [h3, h4] at this
  exact this

theorem Lies.steps {r r' : List UInt8} {ks : List Tok} (h : Lies cfg r l ks r' m) : ∀ {cs : List Char}, r = encode cs →
    ∃ ds, r' = encode ds ∧ Steps cfg cs l ds m := by
  induction h with
  | nil => intro cs hr; exact ⟨cs, hr, .refl⟩
  | cons hm _ ih =>
    intro cs hr
    obtain ⟨ds, h1, h2⟩ := moves_steps hm hr
    obtain ⟨es, h3, h4⟩ := ih h1
    exact ⟨es, h3, h2.trans h4⟩

end

/-! ### Lines -/

/-- The column behind the characters `cur` of a line. -/
def colOf (cfg : Cfg) (cur : List Char) : Nat := cur.foldl (nextColumn cfg) 1

/-- `ds` at location `m` is a position in the text `cs`: `lines` lines lie behind it, and
`cur` is the part of its line in front of it. -/
structure InLine (cfg : Cfg) (cs ds : List Char) (m : Loc) (lines : List (List Char × List Char)) (cur : List Char) : Prop where
  loc : m = .lineCol (lines.length + 1) (colOf cfg cur)
  split : splitLinesLoop cs [] [] = splitLinesLoop ds cur lines

theorem locUpd_lineCol {cfg : Cfg} {c : Char} {l k : Nat} (h1 : c ≠ '\n') (h2 : c ≠ '\r') :
    locUpd cfg (.char c.toNat) (.lineCol l k) = .lineCol l (nextColumn cfg k c) := by
  have e1 : c.toNat ≠ 10 := fun h => h1 (Char.toNat_inj.mp h)
  have e2 : c.toNat ≠ 13 := fun h => h2 (Char.toNat_inj.mp h)
  by_cases h : c = '\t'
  · subst h; rfl
  · have e3 : c.toNat ≠ 9 := fun h' => h (Char.toNat_inj.mp h')
    rw [locUpd_char e3 e1 e2]
    unfold nextColumn
    rw [if_neg h]; rfl

theorem InLine.step {cfg : Cfg} {cs ds es : List Char} {m n : Loc} {lines : List (List Char × List Char)} {cur : List Char}
    (h : InLine cfg cs ds m lines cur) (hs : stepC cfg ds m = some (es, n)) :
    (n = .lineCol (lines.length + 1) (colOf cfg (cur ++ ds.take 1)) ∧ InLine cfg cs es n lines (cur ++ ds.take 1) ∧
      ds.head? ≠ some '\n' ∧ ds.head? ≠ some '\r') ∨
    ∃ nl, InLine cfg cs es n (lines ++ [(cur, nl)]) [] := by
  rw [h.loc] at hs
  unfold stepC at hs
  split at hs
  · cases hs
  · cases hs
    refine Or.inr ⟨['\r', '\n'], ?_, ?_⟩
    · simp [Loc.windowsNewline, colOf]
    · rw [h.split, splitLinesLoop]
  · next c _ hn =>
    cases hs
    by_cases h1 : c = '\n'
    · subst h1
      refine Or.inr ⟨['\n'], ?_, ?_⟩
      · rw [show Char.toNat '\n' = 10 from rfl]
        simp [locUpd, Loc.newline, colOf]
      · rw [h.split, splitLinesLoop]
    by_cases h2 : c = '\r'
    · subst h2
      refine Or.inr ⟨['\r'], ?_, ?_⟩
      · rw [show Char.toNat '\r' = 13 from rfl]
        simp [locUpd, Loc.newline, colOf]
      · rw [h.split, splitLinesLoop]
        intro r hr
        exact hn r rfl hr
    · have e : locUpd cfg (.char c.toNat) (.lineCol (lines.length + 1) (colOf cfg cur)) =
          .lineCol (lines.length + 1) (colOf cfg (cur ++ [c])) := by
        rw [locUpd_lineCol h1 h2]; simp [colOf]
      refine Or.inl ⟨e, ⟨e, ?_⟩, by simpa using h1, by simpa using h2⟩
      rw [h.split, splitLinesLoop]
      · rfl
      · exact h1
      · intro r hr; exact absurd hr h2
      · exact h2

theorem InLine.steps {cfg : Cfg} {cs ds es : List Char} {m n : Loc} {lines : List (List Char × List Char)} {cur : List Char}
    (h : InLine cfg cs ds m lines cur) (hs : Steps cfg ds m es n) :
    ∃ lines' cur', InLine cfg cs es n lines' cur' ∧ lines <+: lines' := by
  induction hs generalizing lines cur with
  | refl => exact ⟨lines, cur, h, List.prefix_refl _⟩
  | step a _ ih =>
    rcases h.step a with ⟨-, h, -⟩ | ⟨nl, h⟩
    · exact ih h
    · obtain ⟨lines', cur', h1, h2⟩ := ih h
      exact ⟨lines', cur', h1, (List.prefix_append _ _).trans h2⟩

theorem InLine.start {cfg : Cfg} {cs : List Char} : InLine cfg cs cs (.lineCol 1 1) [] [] := ⟨rfl, rfl⟩

theorem splitLinesLoop_acc : ∀ (n : Nat) (cs : List Char), cs.length ≤ n → ∀ (cur : List Char) (lines : List (List Char × List Char)),
    splitLinesLoop cs cur lines = lines ++ splitLinesLoop cs cur []
  | n, [], _, cur, lines => by
    unfold splitLinesLoop
    split <;> simp
  | 0, _ :: _, h, _, _ => by simp at h
  | n + 1, c :: cs, h, cur, lines => by
    simp only [List.length_cons, Nat.add_le_add_iff_right] at h
    by_cases h1 : c = '\n'
    · subst h1
      rw [splitLinesLoop, splitLinesLoop, splitLinesLoop_acc n cs h, splitLinesLoop_acc n cs h [] ([] ++ _)]
      simp
    by_cases h2 : c = '\r'
    · subst h2
      by_cases h3 : ∃ r, cs = '\n' :: r
      · obtain ⟨r, rfl⟩ := h3
        have hr : r.length ≤ n := by simp at h; omega
        rw [splitLinesLoop, splitLinesLoop, splitLinesLoop_acc n r hr, splitLinesLoop_acc n r hr [] ([] ++ _)]
        simp
      · rw [splitLinesLoop, splitLinesLoop, splitLinesLoop_acc n cs h, splitLinesLoop_acc n cs h [] ([] ++ _)]
        · simp
        · exact fun r hr => h3 ⟨r, hr⟩
        · exact fun r hr => h3 ⟨r, hr⟩
    · have e : ∀ ls, splitLinesLoop (c :: cs) cur ls = splitLinesLoop cs (cur ++ [c]) ls := by
        intro ls
        rw [splitLinesLoop]
        · exact h1
        · intro r hr; exact absurd hr h2
        · exact h2
      rw [e, e, splitLinesLoop_acc n cs h]

/-- The lines from a position on: the first of them is the line of the position. -/
theorem splitLinesLoop_first : ∀ (cs cur : List Char), cur ++ cs ≠ [] →
    ∃ d nl more, splitLinesLoop cs cur [] = (cur ++ d, nl) :: more ∧ d <+: cs ∧
      (∀ c ∈ cs.head?, c ≠ '\n' → c ≠ '\r' → d ≠ [])
  | [], cur, h => by
    refine ⟨[], [], [], ?_, List.prefix_refl _, by simp⟩
    have : cur ≠ [] := by simpa using h
    simp [splitLinesLoop, this]
  | c :: cs, cur, _ => by
    by_cases h1 : c = '\n'
    · subst h1
      refine ⟨[], ['\n'], splitLinesLoop cs [] [], ?_, List.nil_prefix, fun c hc h => absurd (by simpa using hc.symm) h⟩
      rw [splitLinesLoop, splitLinesLoop_acc _ cs (Nat.le_refl _)]
      simp
    by_cases h2 : c = '\r'
    · subst h2
      by_cases h3 : ∃ r, cs = '\n' :: r
      · obtain ⟨r, rfl⟩ := h3
        refine ⟨[], ['\r', '\n'], splitLinesLoop r [] [], ?_, List.nil_prefix, fun c hc _ h => absurd (by simpa using hc.symm) h⟩
        rw [splitLinesLoop, splitLinesLoop_acc _ r (Nat.le_refl _)]
        simp
      · refine ⟨[], ['\r'], splitLinesLoop cs [] [], ?_, List.nil_prefix, fun c hc _ h => absurd (by simpa using hc.symm) h⟩
        rw [splitLinesLoop, splitLinesLoop_acc _ cs (Nat.le_refl _)]
        · simp
        · exact fun r hr => h3 ⟨r, hr⟩
    · obtain ⟨d, nl, more, e1, e2, -⟩ := splitLinesLoop_first cs (cur ++ [c]) (by simp)
      refine ⟨c :: d, nl, more, ?_, List.cons_prefix_cons.mpr ⟨rfl, e2⟩, by simp⟩
      rw [splitLinesLoop, e1]
      · simp
      · exact h1
      · intro r hr; exact absurd hr h2
      · exact h2

end CodeParser
