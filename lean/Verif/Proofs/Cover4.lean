import Verif.Proofs.Cover3
import Verif.Proofs.Show
import Verif.Spec.Issue
/-!
Helper lemmas: which characters have been reported when the reader comes to a place of the text.
-/
namespace CodeParser.Chk.Cov
open CodeParser.Spec

/-- The events about the source character at a place of the text. -/
def Tells (cfg : Cfg) (L : Ev → Prop) (r : List UInt8) (l : Loc) : Prop :=
  (∀ n, (nextSource cfg ⟨r, l, false, none⟩).1 = .char n → Unusual n → n ∉ [0x0b, 0x0c, 0xf3a2] →
    ∃ i, L (.issue i) ∧ aboutCharacter i ∧ i.span = ⟨l, (nextSource cfg ⟨r, l, false, none⟩).2.loc⟩) ∧
  ((nextSource cfg ⟨r, l, false, none⟩).1.isUnsafe = true → ∃ i, L (.issue i) ∧ aboutEncoding (.issue i) ∧ i.span.start = l)

/-- The places the reader comes to, all characters before them having been reported. -/
inductive Seen (cfg : Cfg) (L : Ev → Prop) (bs : List UInt8) (l0 : Loc) : List UInt8 → Loc → Prop
  | start : Seen cfg L bs l0 bs l0
  | step {r l} : Seen cfg L bs l0 r l → Tells cfg L r l →
      Seen cfg L bs l0 (nextSource cfg ⟨r, l, false, none⟩).2.rest (nextSource cfg ⟨r, l, false, none⟩).2.loc

section
variable {E : Env} {L : Ev → Prop}

theorem spanOf_ok {a b : Loc} {sp : Span} {s t : St} {es : List Ev} (h : spanOf a b s = .ok (sp, t, es)) : sp = ⟨a, b⟩ ∧ t = s := by
  unfold spanOf at h
  rcases h1 : Span.new a b with _ | x <;> rw [h1] at h
  · cases h
  · cases h
    unfold Span.new at h1
    split at h1 <;> cases h1
    exact ⟨rfl, rfl⟩

theorem previous_ok {l l' : Loc} {s t : St} {es : List Ev} (h : previous l s = .ok (l', t, es)) : Loc.previous l = some l' ∧ t = s := by
  unfold previous at h
  rcases h1 : Loc.previous l with _ | x <;> rw [h1] at h
  · cases h
  · cases h
    exact ⟨rfl, rfl⟩

theorem nonASCII_tells {p : CP} {s u t : St} {x : Unit} {es : List Ev} (hc : ColOK s.loc) (hu : u.loc = Loc.next s.loc)
    (h : nonASCIIWarning p u = .ok (x, t, es)) : ∃ i, .issue i ∈ es ∧ aboutCharacter i ∧ i.span = ⟨s.loc, u.loc⟩ := by
  unfold nonASCIIWarning at h
  obtain ⟨stop, s1, e1, e2, h1, h2, rfl⟩ := bind_split h
  cases h1
  obtain ⟨start, s2, e3, e4, h3, h4, rfl⟩ := bind_split h2
  obtain ⟨h3, rfl⟩ := previous_ok h3
  rw [hu, previous_next hc] at h3
  cases h3
  obtain ⟨_, s3, e5, e6, -, h6, rfl⟩ := bind_split h4
  obtain ⟨g, s4, e7, e8, -, h8, rfl⟩ := bind_split h6
  obtain ⟨sp, s5, e9, e10, h9, h10, rfl⟩ := bind_split h8
  obtain ⟨rfl, rfl⟩ := spanOf_ok h9
  cases h10
  exact ⟨⟨.enc, .nonASCIICharacter, .remark, ⟨s.loc, s2.loc⟩, 100, .replace ⟨s.loc, s2.loc⟩ g :: asciiActions p ⟨s.loc, s2.loc⟩⟩, by simp, ⟨rfl, (fun h => by cases h), .inl rfl⟩, rfl⟩

theorem strange_tells {p : CP} {s u t : St} {x : Unit} {es : List Ev} (hc : ColOK s.loc) (hu : u.loc = Loc.next s.loc)
    (hp : (isStrangeWhitespace p || p.isMBWhitespace) = false)
    (h : strangeWarning E p u = .ok (x, t, es)) : ∃ i, .issue i ∈ es ∧ aboutCharacter i ∧ i.span = ⟨s.loc, u.loc⟩ := by
  unfold strangeWarning at h
  obtain ⟨stop, s1, e1, e2, h1, h2, rfl⟩ := bind_split h
  cases h1
  obtain ⟨start, s2, e3, e4, h3, h4, rfl⟩ := bind_split h2
  obtain ⟨h3, rfl⟩ := previous_ok h3
  rw [hu, previous_next hc] at h3
  cases h3
  obtain ⟨_, s3, e5, e6, -, h6, rfl⟩ := bind_split h4
  obtain ⟨g, s4, e7, e8, -, h8, rfl⟩ := bind_split h6
  obtain ⟨sp, s5, e9, e10, h9, h10, rfl⟩ := bind_split h8
  obtain ⟨rfl, rfl⟩ := spanOf_ok h9
  obtain ⟨cs, s6, e11, e12, -, h12, rfl⟩ := bind_split h10
  simp only at h12
  rw [hp] at h12
  have key : ∃ i, .issue i ∈ e12 ∧ aboutCharacter i ∧ i.span = ⟨s.loc, s2.loc⟩ := by
    by_cases hE : E.str = true
    · rw [if_pos hE] at h12
      cases h12
      exact ⟨_, List.mem_singleton.mpr rfl, ⟨rfl, (fun h => by cases h), .inr rfl⟩, rfl⟩
    · rw [if_neg hE, if_neg (by decide)] at h12
      cases h12
      exact ⟨_, List.mem_singleton.mpr rfl, ⟨rfl, (fun h => by cases h), .inr rfl⟩, rfl⟩
  obtain ⟨i, hi, h13⟩ := key
  exact ⟨i, by simp [hi], h13⟩

theorem white_table : (mbWhitespaceTable.all fun n => !isMBStrange (.char n) && decide (0x80 ≤ n)) = true := by decide +kernel

theorem white_facts {n : Nat} (h : (CP.char n).isMBWhitespace = true) (hn : n ≠ 0xf3a2) : isMBStrange (.char n) = false ∧ 0x80 ≤ n := by
  unfold CP.isMBWhitespace at h
  rw [Bool.or_eq_true] at h
  rcases h with h | h
  · exact absurd (by simpa using h) hn
  · have hm : n ∈ mbWhitespaceTable := by
      change (bsearch (fun e => cmpNat e n) mbWhitespaceTable).isSome = true at h
      obtain ⟨i, hi⟩ := Option.isSome_iff_exists.mp h
      obtain ⟨a, ha, hc⟩ := Props.bsearchGo_eq _ _ _ _ hi
      have : a = n := by
        unfold cmpNat at hc
        split at hc
        · cases hc
        · split at hc
          · cases hc
          · omega
      exact this ▸ List.mem_of_getElem? ha
    have h1 := List.all_eq_true.mp white_table n hm
    simpa using h1

theorem encoding_tells {l : Loc} {f : Option Unsafe} {u t : St} {x : Unit} {es : List Ev} (h : encodingIssue l f u = .ok (x, t, es)) :
    ∃ i, .issue i ∈ es ∧ aboutEncoding (.issue i) ∧ i.span.start = l := by
  unfold encodingIssue at h
  obtain ⟨sp, s1, e1, e2, h1, h2, rfl⟩ := bind_split h
  obtain ⟨rfl, rfl⟩ := spanOf_ok h1
  cases h2
  refine ⟨_, List.mem_append_right _ (List.mem_singleton.mpr rfl), ⟨rfl, rfl, ?_⟩, rfl⟩
  rcases f with _ | f
  · exact .inl rfl
  · cases f <;> simp

theorem src_tells {s t : St} {c : CP} {es : List Ev} (hck : E.check = true) (hn : E.normal = true) (hw : WF s) (hc : ColOK s.loc)
    (h : src E s = .ok (c, t, es)) :
    (∀ n, (nextSource E.cfg s).1 = .char n → Unusual n → n ∉ [0x0b, 0x0c, 0xf3a2] →
      ∃ i, .issue i ∈ es ∧ aboutCharacter i ∧ i.span = ⟨s.loc, (nextSource E.cfg s).2.loc⟩) ∧
    ((nextSource E.cfg s).1.isUnsafe = true → ∃ i, .issue i ∈ es ∧ aboutEncoding (.issue i) ∧ i.span.start = s.loc) := by
  unfold src at h
  obtain ⟨l, s1, e1, e2, h1, h2, rfl⟩ := bind_split h
  cases h1
  obtain ⟨p, v, e3, e4, h3, h4, rfl⟩ := bind_split h2
  have hl : M.lift (CodeParser.src E.cfg) s = .ok ((nextSource E.cfg s).1, (nextSource E.cfg s).2, []) := rfl
  rw [hl] at h3
  cases h3
  obtain ⟨_, w, ds, e6, h5, h6, rfl⟩ := bind_split h4
  cases h6
  simp only [List.nil_append, List.append_nil]
  rw [hck] at h5
  change sourceIssues E s.loc _ _ = _ at h5
  have hloc := Props.loc_step E.cfg s hw
  constructor
  · intro n hp hu hx
    rw [hp] at h5 hloc
    simp only [List.mem_cons, List.not_mem_nil, or_false, not_or] at hx
    have h13 : n ≠ 13 := by unfold Unusual at hu; omega
    have h9 : n ≠ 9 := by unfold Unusual at hu; omega
    have h10 : n ≠ 10 := by unfold Unusual at hu; omega
    rw [Chk.locUpd_char h9 h10 h13, increment_next] at hloc
    unfold sourceIssues at h5
    simp only at h5
    rw [if_neg h13] at h5
    by_cases hs : (n ≤ 0x1f ∧ n ≠ 0x09 ∧ n ≠ 0x0a) ∨ n = 0x7f
    · rw [if_pos hs] at h5
      refine strange_tells hc hloc ?_ h5
      rw [Bool.or_eq_false_iff]
      refine ⟨by simp [isStrangeWhitespace, hx.1, hx.2.1], ?_⟩
      rcases hb : (CP.char n).isMBWhitespace with _ | _
      · rfl
      · have := (white_facts hb hx.2.2).2
        omega
    · rw [if_neg hs] at h5
      have h80 : 0x80 ≤ n := by unfold Unusual at hu; omega
      rw [if_pos h80] at h5
      by_cases hm : isMBStrange (.char n) = true
      · rw [if_pos hm] at h5
        refine strange_tells hc hloc ?_ h5
        rw [Bool.or_eq_false_iff]
        refine ⟨by simp [isStrangeWhitespace, hx.1, hx.2.1], ?_⟩
        rcases hb : (CP.char n).isMBWhitespace with _ | _
        · rfl
        · rw [(white_facts hb hx.2.2).1] at hm; cases hm
      · rw [if_neg hm, if_pos hn] at h5
        exact nonASCII_tells hc hloc h5
  · intro hu
    rw [sourceIssues_bad hu] at h5
    obtain ⟨f, x, ds1, ds2, h7, h8, rfl⟩ := bind_split h5
    cases h7
    obtain ⟨i, hi, h9⟩ := encoding_tells h8
    exact ⟨i, by simp [hi], h9⟩

/-- Reading takes `Seen` along. -/
theorem seen_cover (hck : E.check = true) (hn : E.normal = true) {bs : List UInt8} {l0 : Loc} :
    Par.Cov.CoverC E L (fun r l => Seen E.cfg L bs l0 r l ∧ ColOK l) where
  src := by
    rintro E' s t c es hk hw ⟨h1, h2⟩ h hl
    obtain ⟨h3, h4⟩ := src_tells (hk.check.trans hck) (hk.normal.trans hn) hw h2 h
    obtain ⟨rfl, -, -⟩ := src_left h
    rw [hk.cfg] at h3 h4 ⊢
    obtain ⟨c1, c2, c3⟩ := nextSource_WF_congr (cfg := E.cfg) (t := ⟨s.rest, s.loc, false, none⟩) hw nofun rfl rfl
    refine ⟨?_, ?_⟩
    · rw [c2, c3]
      refine .step h1 ⟨fun n hn1 hu hx => ?_, fun hu => ?_⟩
      · obtain ⟨i, hi, h5, h6⟩ := h3 n (c1.trans hn1) hu hx
        exact ⟨i, hl _ hi, h5, by rw [h6, c3]⟩
      · obtain ⟨i, hi, h5⟩ := h4 (by rw [c1]; exact hu)
        exact ⟨i, hl _ hi, h5⟩
    · rw [Props.loc_step E.cfg s hw]; exact h2.upd
  col := fun h => h.2

/-! ### From the places seen to the text -/

theorem readN_last {cfg : Cfg} (n : Nat) : ∀ s : St, (readN cfg (n + 1) s).2 = (nextSource cfg (readN cfg n s).2).2 := by
  induction n with
  | zero => intro s; rfl
  | succ n ih => intro s; exact ih _

theorem readN_wf {cfg : Cfg} (n : Nat) : ∀ s : St, WF s → WF (readN cfg n s).2 := by
  induction n with
  | zero => intro s h; exact h
  | succ n ih => intro s h; exact ih _ (WF_nextSource h)

theorem readN_end {cfg : Cfg} {n m : Nat} {s : St} (h : (readN cfg n s).2.rest = []) (hm : n ≤ m) : (readN cfg m s).2.rest = [] := by
  induction hm with
  | refl => exact h
  | step _ ih => rw [readN_last, nextSource_nil ih]; exact ih

theorem Seen.told {cfg : Cfg} {bs : List UInt8} {l0 : Loc} {r : List UInt8} {l : Loc} (h : Seen cfg L bs l0 r l) :
    ∃ n, (readN cfg n ⟨bs, l0, false, none⟩).2.rest = r ∧ (readN cfg n ⟨bs, l0, false, none⟩).2.loc = l ∧
      ∀ m < n, Tells cfg L (readN cfg m ⟨bs, l0, false, none⟩).2.rest (readN cfg m ⟨bs, l0, false, none⟩).2.loc := by
  induction h with
  | start => exact ⟨0, rfl, rfl, nofun⟩
  | @step r l _ ht ih =>
    obtain ⟨n, h1, h2, h3⟩ := ih
    obtain ⟨-, c2, c3⟩ := nextSource_WF_congr (cfg := cfg) (s := (readN cfg n ⟨bs, l0, false, none⟩).2) (t := ⟨r, l, false, none⟩)
      (readN_wf n _ nofun) nofun h1 h2
    refine ⟨n + 1, by rw [readN_last, c2], by rw [readN_last, c3], fun m hm => ?_⟩
    rcases Nat.lt_or_eq_of_le (Nat.le_of_lt_succ hm) with hm | rfl
    · exact h3 m hm
    · rw [h1, h2]; exact ht

/-- Every place in front of the end has been reported. -/
theorem Seen.place {cfg : Cfg} {bs : List UInt8} {l0 le : Loc} (h : Seen cfg L bs l0 [] le) {before rest : List UInt8} {l : Loc}
    (hb : bs = before ++ rest) (hm : Moves cfg before rest l0 l) (hne : rest ≠ []) : Tells cfg L rest l := by
  obtain ⟨n, h1, -, h3⟩ := h.told
  obtain ⟨m, -, -, h4, h5⟩ := hm
  rw [← hb] at h4 h5
  have hlt : m < n := by
    rcases Nat.lt_or_ge m n with h6 | h6
    · exact h6
    · exact absurd (h4.symm.trans (readN_end h1 h6)) hne
  have := h3 m hlt
  rw [h4, h5] at this
  exact this

/-- Reading one character. -/
theorem moves_char {cfg : Cfg} {c : Char} {after : List UInt8} {l : Loc} (hb : c.toNat ≠ 0xfeff) (hr : c ≠ '\r') :
    Moves cfg (String.utf8EncodeChar c) after l (nextSource cfg ⟨String.utf8EncodeChar c ++ after, l, false, none⟩).2.loc := by
  have h1 := nextSource_enc (cfg := cfg) (t := after) (loc := l) (flag := none) hb fun h => absurd h hr
  refine ⟨1, ?_⟩
  simp only [readN, h1]
  simp

theorem Seen.characters {cfg : Cfg} {bs : List UInt8} {l0 le : Loc} (h : Seen cfg L bs l0 [] le) :
    CharactersTold cfg bs l0 fun i => L (.issue i) := by
  intro before c after l hb hm ⟨h1, h2, h3⟩
  have hfe : c.toNat ≠ 0xfeff := fun h4 => h3 (by rw [← Char.ofNat_toNat c, h4]; rfl)
  have hr : c ≠ '\r' := by
    rintro rfl
    revert h1
    unfold Unusual
    decide
  have h4 := nextSource_enc (cfg := cfg) (t := after) (loc := l) (flag := none) hfe fun h => absurd h hr
  obtain ⟨i, hi, h5, h6⟩ := (h.place hb hm (by have := String.length_utf8EncodeChar c; have := Char.utf8Size_pos c; intro h; have := congrArg List.length h; simp at this; omega)).1 c.toNat
    (congrArg Prod.fst h4) h1 h2
  exact ⟨i, hi, h5, by rw [h6], by rw [h6]; exact moves_char hfe hr⟩

theorem Seen.breaks {cfg : Cfg} {bs : List UInt8} {l0 le : Loc} (h : Seen cfg L bs l0 [] le) :
    BreaksTold cfg bs l0 fun i => L (.issue i) := by
  intro before rest l hb hne hm hc
  refine (h.place hb hm hne).2 ?_
  have hd := nextSource_Dec (cfg := cfg) (s := ⟨rest, l, false, none⟩) nofun hne
  generalize nextSource cfg ⟨rest, l, false, none⟩ = p at hd
  cases hd with
  | valid ch r h1 h2 _ => exact absurd (by rw [hc ch r h1]; rfl) h2
  | crlf r h1 => exact absurd (hc '\r' (10 :: r) (by rw [show rest = _ from h1]; rfl)) (by decide)
  | invalid c pre r e u h1 => exact h1

end
end CodeParser.Chk.Cov
