import Verif.Proofs.Check1
import Verif.Props.Show
/-!
Helper lemmas about reading characters with issues.
-/
namespace CodeParser.Chk
open CodeParser (Bad Path WF SameAt MSim R)
open Spec (IsScalar)

/-! ### Characters that can be formatted -/

/-- The character can be formatted if it is an ordinary one. -/
def Ready (c : WLC) : Prop := ∀ n, c.point = .char n → c.display.isSome = true ∧ c.graphical.isSome = true

theorem graphical_char {n : Nat} (h : IsScalar n) : (CP.char n).graphical.isSome = true := by
  by_cases hb : n = 0x5c
  · subst hb; decide
  · obtain ⟨t, _, h1, -⟩ := Props.graphical_offers h hb
    rw [h1]; rfl

theorem showAll_some {src : CP → Option (List UInt8)} (h : ∀ c : Char, (src (ch c)).isSome = true) :
    ∀ cs, (showAll src cs).isSome = true
  | [] => rfl
  | c :: cs => by
    have h1 := h c
    have h2 := showAll_some h cs
    obtain ⟨a, ha⟩ := Option.isSome_iff_exists.mp h1
    obtain ⟨b, hb⟩ := Option.isSome_iff_exists.mp h2
    simp [showAll, ha, hb]

theorem display_all (cs : List Char) : (showAll CP.display cs).isSome = true := showAll_some (fun _ => rfl) cs

theorem graphical_all (cs : List Char) : (showAll CP.graphical cs).isSome = true :=
  showAll_some (fun c => graphical_char (Props.scalar_of_char c)) cs

theorem ready_shown {c : WLC} (h : ∃ cs, ∀ src, WLC.showWith src c = showAll src cs) : Ready c := by
  obtain ⟨cs, h⟩ := h
  intro n _
  exact ⟨by rw [WLC.display, h]; exact display_all cs, by rw [WLC.graphical, h]; exact graphical_all cs⟩

theorem ready_plain {n : Nat} {e : Escape} (he : e = .none ∨ e = .raw) (h : IsScalar n) : Ready ⟨.char n, e⟩ := by
  intro m hm
  cases hm
  rcases he with rfl | rfl
  · exact ⟨rfl, graphical_char h⟩
  · exact ⟨rfl, graphical_char h⟩

theorem ready_number {p : CP} {e : Escape} (h : e = .octal ∨ e = .hex2 ∨ e = .hex4 ∨ e = .hex6) : Ready ⟨p, e⟩ := by
  intro n hn
  simp only at hn
  subst hn
  refine ready_shown ?_ n rfl
  rcases h with rfl | rfl | rfl | rfl <;> exact ⟨_, fun src => rfl⟩

theorem raw_named {r rest : List UInt8} {p : CP} {e : Escape} (h : Spec.Escapes r p e rest) (he : e = .raw) :
    ∃ name, (name, p) ∈ longNameTable ∧ name ∈ rawSet := by
  cases h <;> first | exact ⟨_, ‹_›, ‹_›⟩ | cases he

theorem ready_escape {r : List UInt8} {c : WLC} {rest : List UInt8} (h : Spec.Escapes r c.point c.escape rest) : Ready c := by
  intro n hn
  obtain ⟨p, e⟩ := c
  simp only at h hn
  subst hn
  by_cases hr : e = .raw
  · subst hr
    obtain ⟨name, hm, hx⟩ := raw_named h rfl
    rcases Props.raw_point hm hx with h | h | ⟨k, h, hb, hk⟩
    · cases h
    · cases h
    · cases h; exact ready_plain (.inr rfl) (by unfold IsScalar; omega) _ rfl
  · obtain ⟨cs, h2, -⟩ := Props.escape_shown h hr (by rintro (h | h | h) <;> cases h)
    exact ready_shown ⟨cs, h2⟩ n rfl

theorem ready_named {name : List UInt8} {p : CP} (h : longnameToCodepoint name = some p) :
    Ready ⟨p, if isRaw name then .raw else .longName⟩ := by
  obtain ⟨nm, hn, rfl⟩ := Props.C14_longname.mp h
  by_cases hr : nm ∈ rawSet
  · rw [if_pos (Props.C14_raw.mpr ⟨nm, hr, rfl⟩)]
    exact ready_escape (rest := []) (c := ⟨p, .raw⟩) (.raw hn hr)
  · rw [if_neg]
    · exact ready_escape (rest := []) (c := ⟨p, .longName⟩) (.longName hn hr)
    · intro h
      obtain ⟨n', hn', he⟩ := Props.C14_raw.mp h
      have : nm = n' := bytes_inj (Props.longNameTable_ascii _ hn) (Props.rawSet_ascii _ hn') he
      exact hr (this ▸ hn')

/-- What `nextSource` can give. -/
def SrcOK (p : CP) : Prop := p = .eof ∨ p.isUnsafe = true ∨ p = .crlf ∨ ∃ n, p = .char n ∧ IsScalar n

theorem srcOK {cfg : Cfg} {s : St} (hs : WF s) : SrcOK (nextSource cfg s).1 := by
  by_cases h1 : (nextSource cfg s).1 = .eof
  · exact .inl h1
  · by_cases h2 : (nextSource cfg s).1.isUnsafe = true
    · exact .inr (.inl h2)
    · rcases Props.plain_point hs h1 (by simpa using h2) with h | h
      · exact .inr (.inr (.inl h))
      · exact .inr (.inr (.inr h))

theorem SrcOK.ready {p : CP} (h : SrcOK p) : Ready ⟨p, .none⟩ := by
  intro n hn
  rcases h with h | h | h | ⟨m, h, hm⟩ <;> simp only at hn <;> subst hn
  · cases h
  · cases h
  · cases h
  · cases h; exact ready_plain (.inl rfl) hm _ rfl

theorem ready_read {cfg : Cfg} {s t : St} {c : WLC} (hs : WF s) (h : CodeParser.nextWL cfg s = .ok (c, t)) : Ready c := by
  rcases Props.read_cases hs h with ⟨hc, -, -⟩ | ⟨r, -, hc, -⟩ | ⟨r, -, hc⟩
  · rw [hc]; exact (srcOK hs).ready
  · rw [hc]; exact ready_plain (.inl rfl) (by unfold IsScalar; decide)
  · exact ready_escape hc

/-! ### Replacements -/

section
variable {cfg : Cfg} {T : Want} {z : St}

theorem safe_quiet {c : WLC} (h1 : c.display.isSome = true) (h2 : c.graphical.isSome = true) :
    Quiet cfg T z (fun _ => True) (safeAndGraphical c) := by
  unfold safeAndGraphical
  refine (Quiet.shown h1).bind fun _ _ => Quiet.ite (fun _ => ?_) fun _ => Quiet.pure trivial
  exact (Quiet.shown h2).bind fun _ _ => Quiet.pure trivial

theorem certainTarget_some {p : CP} {n : Nat} {name : List Char} (h : certainTarget p = some (n, name)) :
    (∃ k, p = .char k) ∧ IsScalar n := by
  unfold certainTarget at h
  split at h
  · refine ⟨⟨_, rfl⟩, ?_⟩
    unfold IsScalar
    split at h
    · cases h; omega
    split at h
    · cases h; omega
    split at h
    · cases h; omega
    split at h
    · cases h; omega
    split at h
    · cases h; omega
    split at h
    · cases h; omega
    split at h
    · cases h; omega
    cases h
  · cases h

theorem certain_quiet {c : WLC} {sp : Span} (hc : Ready c) :
    Quiet cfg T z (fun as => ∀ a ∈ as, Spec.InPlace sp a) (certainActions c sp) := by
  unfold certainActions
  cases h : certainTarget c.point with
  | none => exact Quiet.pure (by simp)
  | some q =>
    obtain ⟨n, name⟩ := q
    obtain ⟨⟨k, hk⟩, hn⟩ := certainTarget_some h
    obtain ⟨h1, h2⟩ := hc k hk
    refine (safe_quiet h1 h2).bind fun _ _ => (safe_quiet rfl ?_).bind fun _ _ => Quiet.pure ?_
    · exact graphical_char hn
    · intro a ha
      split at ha
      · rcases List.mem_cons.mp ha with rfl | ha
        · exact .inr ⟨_, rfl⟩
        · exact .inl (List.mem_singleton.mp ha)
      · exact .inr ⟨_, List.mem_singleton.mp ha⟩

theorem inPlace_span {a : Action} {sp : Span} (h : Spec.InPlace sp a) : a.span = sp := by
  rcases h with rfl | ⟨_, rfl⟩ <;> rfl

theorem asciiActions_span {p : CP} {sp : Span} : ∀ a ∈ asciiActions p sp, Spec.InPlace sp a := by
  unfold asciiActions
  intro a ha
  obtain ⟨x, -, rfl⟩ := List.mem_map.mp ha
  exact .inr ⟨_, rfl⟩

theorem previous_next {l : Loc} (h : ColOK l) : Loc.previous (Loc.next l) = some l := by
  cases l with
  | index i => simp [Loc.previous, Loc.next]
  | lineCol a b =>
    simp only [ColOK] at h
    simp only [Loc.previous, Loc.next]
    rw [if_neg (by omega)]; simp

theorem issue_placed {p q : St} {i : Report} (hp : Pos cfg z p) (hq : Pos cfg p q) (h1 : i.span = ⟨p.loc, q.loc⟩)
    (h2 : ∀ a ∈ i.actions, a.span = ⟨p.loc, q.loc⟩) (h3 : T.full → Spec.Says (between z p) (between p q) q.rest i) :
    Placed cfg T z (.issue i) :=
  ⟨⟨p, q, hp, hq, h1⟩, fun a ha => ⟨p, q, hp, hq, h2 a ha⟩, fun hf => ⟨p, q, hp, hq, h1, h3 hf⟩⟩

/-! ### What bytes are invalid -/

/-- What the encoding flag says about the bytes that have been read. -/
def Kind (s : St) (r : CP × St) : Prop := r.1.isUnsafe = true → ∃ pre, s.rest = pre ++ r.2.rest ∧
  (r.2.flag = some .incompleteUTF8Sequence ∨
   (r.2.flag = some .straySurrogate ∧ ∃ a b : UInt8, pre = [0xed, a, b] ∧ (0xa0 ≤ a.toNat ∧ a.toNat ≤ 0xbf) ∧ 0x80 ≤ b.toNat ∧ b.toNat ≤ 0xbf) ∨
   (r.2.flag = some .bom ∧ pre = [0xef, 0xbb, 0xbf]))

theorem Kind.ite {s : St} {c : Prop} [Decidable c] {x y : CP × St} (h1 : c → Kind s x) (h2 : ¬ c → Kind s y) :
    Kind s (if c then x else y) := by
  by_cases h : c
  · rw [if_pos h]; exact h1 h
  · rw [if_neg h]; exact h2 h

theorem Kind.valid {s t : St} {n : Nat} : Kind s (.char n, t) := by intro h; cases h
theorem Kind.incomplete {s t : St} {c : CP} (pre : List UInt8) (h : s.rest = pre ++ t.rest) (hf : t.flag = some .incompleteUTF8Sequence) :
    Kind s (c, t) := fun _ => ⟨pre, h, .inl hf⟩

theorem kind2 {b : UInt8} {r l f} : Kind ⟨b :: r, l, false, f⟩ (decode2 b ⟨r, l, false, f⟩) := by
  rcases r with _ | ⟨x, xs⟩
  all_goals
    simp only [decode2, nextByte, St.seek, invalidChar, validChar, Bool.false_eq_true, if_false]
    repeat' (first | (refine Kind.ite (fun _ => ?_) (fun _ => ?_)) | exact Kind.valid | exact Kind.incomplete [b] rfl rfl)
theorem kind3 {lo : Nat} {ck : Bool} {b : UInt8} {r l f} (hb : ck = true → 0xe1 ≤ b.toNat ∧ b.toNat ≤ 0xef ∧ 0x80 ≤ lo) :
    Kind ⟨b :: r, l, false, f⟩ (decode3 lo ck b ⟨r, l, false, f⟩) := by
  rcases r with _ | ⟨x, xs⟩
  · simp only [decode3, nextByte, St.seek, invalidChar, validChar]
    exact Kind.incomplete [b] rfl rfl
  simp only [decode3, nextByte, St.seek, invalidChar, validChar, Bool.false_eq_true, if_false]
  refine Kind.ite (fun _ => Kind.incomplete [b] rfl rfl) (fun hx => ?_)
  rcases xs with _ | ⟨y, ys⟩
  · exact Kind.incomplete [b, x] rfl rfl
  simp only [Bool.false_eq_true, if_false]
  refine Kind.ite (fun _ => Kind.incomplete [b, x] rfl rfl) (fun hy => ?_)
  simp only [inRange, inR, Bool.not_eq_true', decide_eq_false_iff_not, Bool.and_eq_false_iff, not_or, not_not] at hx hy
  refine Kind.ite (fun hs => ?_) (fun _ => Kind.ite (fun hs => ?_) fun _ => Kind.valid)
  · simp only [Bool.and_eq_true, isStraySurrogate, decide_eq_true_eq] at hs
    obtain ⟨h1, h2, h3⟩ := hb hs.1
    refine fun _ => ⟨[b, x, y], rfl, .inr (.inl ⟨rfl, x, y, ?_, ?_, ?_⟩)⟩
    · congr 1
      exact UInt8.toNat_inj.mp (show b.toNat = 0xed by omega)
    · omega
    · omega
  · simp only [Bool.and_eq_true, beq_iff_eq] at hs
    obtain ⟨h1, h2, h3⟩ := hb hs.1
    refine fun _ => ⟨[b, x, y], rfl, .inr (.inr ⟨rfl, ?_⟩)⟩
    rw [UInt8.toNat_inj.mp (show b.toNat = (0xef : UInt8).toNat by simp; omega),
      UInt8.toNat_inj.mp (show x.toNat = (0xbb : UInt8).toNat by simp; omega),
      UInt8.toNat_inj.mp (show y.toNat = (0xbf : UInt8).toNat by simp; omega)]
theorem kind4 {lo hi : Nat} {b : UInt8} {r l f} : Kind ⟨b :: r, l, false, f⟩ (decode4 lo hi b ⟨r, l, false, f⟩) := by
  rcases r with _ | ⟨x, _ | ⟨y, _ | ⟨z, zs⟩⟩⟩
  all_goals
    simp only [decode4, nextByte, St.seek, invalidChar, validChar, Bool.false_eq_true, if_false]
    repeat' (first | (refine Kind.ite (fun _ => ?_) (fun _ => ?_)) | exact Kind.valid | exact Kind.incomplete [b] rfl rfl | exact Kind.incomplete [b, _] rfl rfl | exact Kind.incomplete [b, _, _] rfl rfl)

theorem kind {s : St} (h : WF s) : Kind s (nextSource cfg s) := by
  obtain ⟨r, l, e, f⟩ := s
  rcases r with _ | ⟨b, t⟩
  · rw [nextSource_nil rfl]; intro h; cases h
  · have he : e = false := by
      cases e
      · rfl
      · simpa using h rfl
    subst he
    unfold nextSource nextSourceUncommon
    simp only [nextByte, currentByte]
    refine Kind.ite (fun _ => Kind.valid) fun _ => ?_
    refine Kind.ite (fun _ => Kind.valid) fun _ => ?_
    refine Kind.ite (fun _ => Kind.valid) fun _ => ?_
    refine Kind.ite (fun _ => ?_) fun _ => ?_
    · rcases t with _ | ⟨y, ys⟩
      · exact Kind.ite (fun _ => by intro h; cases h) fun _ => Kind.valid
      · exact Kind.ite (fun _ => by intro h; cases h) fun _ => Kind.valid
    refine Kind.ite (fun _ => Kind.valid) fun _ => ?_
    refine Kind.ite (fun _ => kind2) fun _ => ?_
    refine Kind.ite (fun _ => kind3 fun h => by cases h) fun _ => ?_
    refine Kind.ite (fun hb => kind3 fun _ => ?_) fun _ => ?_
    · simp only [inR, Bool.and_eq_true, decide_eq_true_eq] at hb
      exact ⟨hb.1, hb.2, Nat.le.refl⟩
    refine Kind.ite (fun _ => kind4) fun _ => ?_
    refine Kind.ite (fun _ => kind4) fun _ => ?_
    refine Kind.ite (fun _ => kind4) fun _ => ?_
    refine Kind.ite (fun _ => ?_) fun _ => Kind.incomplete [b] rfl rfl
    exact Kind.ite (fun _ => by intro h; cases h) fun _ => Kind.incomplete [b] rfl rfl

/-- The issue about invalid bytes. -/
theorem encoding_says {s : St} (hs : WF s) (h : (nextSource cfg s).1.isUnsafe = true) {pre : List UInt8} {sp : Span} :
    Spec.Says pre (between s (nextSource cfg s).2) (nextSource cfg s).2.rest
      ⟨.enc, (match (nextSource cfg s).2.flag with
        | some .straySurrogate => Tag.straySurrogate
        | some .bom => Tag.bom
        | _ => Tag.incompleteUTF8Sequence), .fatal, sp, 100, []⟩ := by
  have hne : s.rest ≠ [] := by intro hn; rw [nextSource_nil hn] at h; cases h
  obtain ⟨x, hx, hk⟩ := kind (cfg := cfg) hs h
  have hd := nextSource_Dec (cfg := cfg) hs hne
  rw [between_eq hx]
  rcases hk with hf | ⟨hf, a, b, h1, h2, h3⟩ | ⟨hf, h1⟩
  · rw [hf]
    have hd' := hd
    generalize hg : nextSource cfg s = g at hx hd h
    cases hd with
    | valid => cases h
    | crlf => cases h
    | invalid c y rest e u h1 h2 h3 h4 h5 =>
      have : x = y := List.append_cancel_right (hx.symm.trans h4)
      subst this
      refine .incomplete h2 (fun ch hc => ?_) h3.2
      have hs' : s = ⟨String.utf8EncodeChar ch ++ rest, s.loc, false, s.flag⟩ :=
        St.ext' (by rw [h4, hc]) rfl (hs.eof_false hne) rfl
      have h7 : 0x7f < ch.toNat := by
        apply Classical.byContradiction
        intro h7
        have he : String.utf8EncodeChar ch = [UInt8.ofNat ch.toNat] := by
          unfold String.utf8EncodeChar
          simp only [enc_val]
          rw [if_pos (by omega)]
        have := h3.2 (UInt8.ofNat ch.toNat) (by rw [hc, he]; simp)
        simp only [UInt8.toNat_ofNat'] at this
        omega
      have := nextSource_enc_mb (cfg := cfg) (t := rest) (loc := s.loc) (flag := s.flag) h7
      rw [← hs', hg] at this
      split at this
      · have h8 := congrArg (fun q => q.2.flag) this
        rw [hg] at hf
        rw [hf] at h8
        cases h8
      · have h8 := congrArg (fun q => q.1) this
        simp only at h8
        rw [h8] at h1
        cases h1
  · rw [hf]; exact .surrogate h1 h2 h3
  · rw [hf]; exact .bom h1

/-- A character that is read. -/
theorem char_read {s : St} {n : Nat} (hs : WF s) (h : (nextSource cfg s).1 = .char n) : ∃ c : Char, c.toNat = n ∧
    s.rest = String.utf8EncodeChar c ++ (nextSource cfg s).2.rest ∧ (n = 13 → (nextSource cfg s).2.rest.head? ≠ some 10) := by
  have hne : s.rest ≠ [] := by intro hn; rw [nextSource_nil hn] at h; cases h
  have hd := nextSource_Dec (cfg := cfg) hs hne
  generalize nextSource cfg s = g at h hd
  cases hd with
  | valid c rest h1 h2 h3 =>
    simp only [CP.char.injEq] at h
    refine ⟨c, h, h1, fun hn => h3 ?_⟩
    exact Char.toNat_inj.mp (h.trans hn)
  | crlf => cases h
  | invalid c pre rest e u h1 => simp only at h; rw [h] at h1; cases h1

/-- The graphical text of an unusual character. -/
theorem spells {n : Nat} (hn : IsScalar n) (hu : n < 0x20 ∨ 0x7f ≤ n) {g : List UInt8} (hg : (CP.char n).graphical = some g) :
    Spec.Spells g n := by
  obtain ⟨text, c, h1, h2, h3, h4⟩ := Props.graphical_offers hn (by omega)
  have hg' : text = g := Option.some.inj (h1.symm.trans hg)
  rw [← hg']
  refine ⟨h2, ?_⟩
  have key : ∀ rest, ∃ r, text ++ rest = Spec.byte '\\' :: r ∧ Spec.Escapes r c.point c.escape rest := by
    intro rest
    have hw : WF ⟨text ++ rest, .index 0, false, none⟩ := by intro h; cases h
    obtain ⟨t, ht, hr⟩ := h3 Cfg.default ⟨text ++ rest, .index 0, false, none⟩ rest hw rfl
    rcases Props.read_cases hw ht with ⟨hc, -, -⟩ | ⟨r, -, hc, -⟩ | ⟨r, h5, h6⟩
    · exfalso
      rw [hc] at h4
      by_cases hne : text ++ rest = []
      · rw [nextSource_nil hne] at h4; cases h4
      · rcases text with _ | ⟨b, text⟩
        · have := h3 Cfg.default ⟨[], .index 0, false, none⟩ [] (by intro h; cases h) rfl
          obtain ⟨t', ht', -⟩ := this
          rcases Props.read_cases (by intro h; cases h) ht' with ⟨hc', -, -⟩ | ⟨r, h, -⟩ | ⟨r, h, -⟩
          · have : c.point = .eof := by rw [hc', nextSource_nil rfl]
            rw [hc] at this
            simp only at this
            rw [this] at h4
            cases h4
          · cases h
          · cases h
        · have hb := h2 b (by simp)
          rw [ns_byte hw rfl (by omega) (by omega)] at h4
          simp only [Spec.value, Option.some.injEq] at h4
          omega
    · exfalso
      rw [hc] at h4
      simp [Spec.value, ch] at h4
      omega
    · exact ⟨r, h5, hr ▸ h6⟩
  obtain ⟨r0, h5, -⟩ := key []
  simp only [List.append_nil] at h5
  refine ⟨r0, c.point, c.escape, h5, h4, fun rest => ?_⟩
  obtain ⟨r, h6, h7⟩ := key rest
  rw [h5] at h6
  have := (List.cons.inj h6).2
  simp only [List.append_eq] at this
  rw [this]; exact h7

/-! ### Source characters -/

/-- `q` is one column behind `p`. -/
structure Step (cfg : Cfg) (p q : St) : Prop where
  pos : Pos cfg p q
  col : ColOK p.loc
  loc : q.loc = Loc.next p.loc

theorem Step.prev {p q : St} (h : Step cfg p q) : Loc.previous q.loc = some p.loc := by
  rw [h.loc]; exact previous_next h.col

/-- The text from `p` to `q` is the character with the number `n`. -/
def Wrote (p : St) (n : Nat) (q : St) : Prop := ∃ c : Char, c.toNat = n ∧ p.rest = String.utf8EncodeChar c ++ q.rest

/-- `Quiet` in one state. -/
def QuietAt {α} (cfg : Cfg) (T : Want) (z : St) (ra : α → Prop) (m' : M α) (s' : St) : Prop :=
  ∃ a' t' es, m' s' = .ok (a', t', es) ∧ ra a' ∧ Near s' t' ∧ Pos cfg z t' ∧ ∀ e ∈ es, Placed cfg T z e

theorem QuietAt.here {α} {ra : α → Prop} {f : Loc → M α} {s : St} (h : QuietAt cfg T z ra (f s.loc) s) :
    QuietAt cfg T z ra (here >>= f) s := by
  obtain ⟨b, u, fs, g1, g⟩ := h
  exact ⟨b, u, [] ++ fs, bind_ok rfl g1, g⟩

theorem strangeWarning_at {E : Env} {p q : St} {c : CP} (hz : Pos cfg z p) (h : Step cfg p q) (hc : Ready ⟨c, .none⟩)
    (hn : ∃ n, c = .char n ∧ Spec.Unusual n ∧ Wrote p n q) : QuietAt cfg T z (fun _ => True) (strangeWarning E c) q := by
  obtain ⟨n, rfl, hu, c0, rfl, hw⟩ := hn
  obtain ⟨h1, h2⟩ := hc _ rfl
  unfold strangeWarning
  refine QuietAt.here ?_
  refine ((Quiet.previous h.prev).bind fun _ hl => ?_) q (hz.trans h.pos)
  subst hl
  refine (Quiet.shown h1).bind fun _ _ => (Quiet.shown h2).bind fun g hg => ?_
  refine (Quiet.spanOf h.pos).bind fun sp hsp => (certain_quiet (sp := sp) hc).bind fun as has => ?_
  subst hsp
  have : ∀ a ∈ as ++ [Action.replace ⟨p.loc, q.loc⟩ g] ++ asciiActions (.char c0.toNat) ⟨p.loc, q.loc⟩, a.span = ⟨p.loc, q.loc⟩ := by
    intro a ha
    simp only [List.append_assoc, List.mem_append, List.mem_singleton] at ha
    rcases ha with ha | rfl | ha
    · exact inPlace_span (has a ha)
    · rfl
    · exact inPlace_span (asciiActions_span a ha)
  have hsay : ∀ sev, sev = Severity.remark ∨ sev = .warning → Spec.Says (between z p) (between p q) q.rest
      ⟨.enc, .unexpectedCharacter, sev, ⟨p.loc, q.loc⟩, 95, as ++ [.replace ⟨p.loc, q.loc⟩ g] ++ asciiActions (.char c0.toNat) ⟨p.loc, q.loc⟩⟩ := by
    intro sev hsev
    refine .strange (between_eq hw) hu (spells (n := c0.toNat) c0.valid (by rcases hu with h | h <;> omega) hg) (fun a ha => ?_) hsev
    rcases List.mem_append.mp ha with ha | ha
    · exact has a ha
    · exact asciiActions_span a ha
  simp only
  refine Quiet.ite (fun _ => ?_) fun _ => Quiet.ite (fun _ => Quiet.pure trivial) fun _ => ?_
  · exact Quiet.emit (issue_placed hz h.pos rfl this fun _ => hsay _ (.inl rfl))
  · exact Quiet.emit (issue_placed hz h.pos rfl this fun _ => hsay _ (.inr rfl))

theorem nonASCII_at {p q : St} {c : CP} (hz : Pos cfg z p) (h : Step cfg p q) (hc : Ready ⟨c, .none⟩)
    (hn : ∃ n, c = .char n ∧ 0x80 ≤ n ∧ Wrote p n q) : QuietAt cfg T z (fun _ => True) (nonASCIIWarning c) q := by
  obtain ⟨n, rfl, hu, c0, rfl, hw⟩ := hn
  obtain ⟨h1, h2⟩ := hc _ rfl
  unfold nonASCIIWarning
  refine QuietAt.here ?_
  refine ((Quiet.previous h.prev).bind fun _ hl => ?_) q (hz.trans h.pos)
  subst hl
  refine (Quiet.shown h1).bind fun _ _ => (Quiet.shown h2).bind fun g hg => ?_
  refine (Quiet.spanOf h.pos).bind fun sp hsp => ?_
  subst hsp
  refine Quiet.emit (issue_placed hz h.pos rfl ?_ fun _ => ?_)
  · intro a ha
    rcases List.mem_cons.mp ha with rfl | ha
    · rfl
    · exact inPlace_span (asciiActions_span a ha)
  · exact .nonASCII (between_eq hw) hu (spells (n := c0.toNat) c0.valid (by omega) hg) asciiActions_span

theorem increment_next (l : Loc) : l.increment = Loc.next l := by cases l <;> rfl

theorem step_of {s : St} (hp : Pos cfg z s) (h : locUpd cfg (nextSource cfg s).1 s.loc = s.loc.increment) :
    Step cfg s (nextSource cfg s).2 :=
  ⟨.src hp.wf hp.col, hp.col, by rw [Props.loc_step cfg s hp.wf, h, increment_next]⟩

theorem locUpd_char {n : Nat} (h1 : n ≠ 9) (h2 : n ≠ 10) (h3 : n ≠ 13) (l : Loc) : locUpd cfg (.char n) l = l.increment := by
  unfold locUpd
  split <;> simp_all

theorem issues_at {E : Env} {s : St} (hp : Pos cfg z s) : QuietAt cfg T z (fun _ => True)
    (M.when E.check (sourceIssues E s.loc (nextSource cfg s).1)) (nextSource cfg s).2 := by
  have hok := srcOK (cfg := cfg) hp.wf
  have hn := hp.next (cfg := cfg)
  have quiet : QuietAt cfg T z (fun _ => True) (Pure.pure ()) (nextSource cfg s).2 := (Quiet.pure trivial) _ hn
  unfold M.when
  split
  swap
  · exact quiet
  rcases hok with h | h | h | ⟨n, h, hs⟩
  · rw [h]; exact quiet
  · have hst : Step cfg s (nextSource cfg s).2 := step_of hp (by
      revert h
      generalize (nextSource cfg s).1 = c
      intro h
      cases c <;> first | rfl | cases h)
    have : sourceIssues E s.loc (nextSource cfg s).1 = (do let f ← flagNow; encodingIssue s.loc f) := by
      revert h
      generalize (nextSource cfg s).1 = c
      intro h
      cases c <;> first | rfl | cases h
    rw [this]
    have h1 : QuietAt cfg T z (fun _ => True) (encodingIssue s.loc (nextSource cfg s).2.flag) (nextSource cfg s).2 := by
      unfold encodingIssue
      rw [← hst.loc]
      refine ((Quiet.spanOf hst.pos).bind fun sp hsp => ?_) _ hn
      subst hsp
      refine Quiet.emit (issue_placed hp hst.pos rfl (fun a ha => by cases ha) fun _ => ?_)
      exact encoding_says hp.wf h
    obtain ⟨b, u, fs, g1, g⟩ := h1
    exact ⟨b, u, [] ++ fs, bind_ok rfl g1, g⟩
  · rw [h]; exact quiet
  · have hr : Ready ⟨CP.char n, .none⟩ := ready_plain (.inl rfl) hs
    have hst : n ≠ 9 → n ≠ 10 → n ≠ 13 → Step cfg s (nextSource cfg s).2 := fun h1 h2 h3 =>
      step_of hp (by rw [h]; exact locUpd_char h1 h2 h3 _)
    obtain ⟨c0, hc0, hw, hcr⟩ := char_read hp.wf h
    rw [h]
    unfold sourceIssues
    simp only
    split
    · rename_i hn13
      split
      · refine QuietAt.here ?_
        refine ((Quiet.spanOf (p := (nextSource cfg s).2) hn.self).bind fun sp hsp => ?_) _ hn
        subst hsp
        refine Quiet.emit (issue_placed hn hn.self rfl (fun a ha => by cases ha) fun _ => ?_)
        refine .carriageReturn (by unfold between; simp) ?_ (hcr hn13)
        have e : z.rest = (between z s ++ String.utf8EncodeChar c0) ++ (nextSource cfg s).2.rest := by
          rw [List.append_assoc, ← hw]; exact hp.rest
        rw [between_eq e, List.getLast?_append]
        have : c0 = '\r' := Char.toNat_inj.mp (hc0.trans hn13)
        rw [this]; rfl
      · exact quiet
    · split
      · refine strangeWarning_at hp (hst (by omega) (by omega) (by omega)) hr ⟨n, rfl, ?_, c0, hc0, hw⟩
        unfold Spec.Unusual; omega
      · split
        · split
          · refine strangeWarning_at hp (hst (by omega) (by omega) (by omega)) hr ⟨n, rfl, ?_, c0, hc0, hw⟩
            unfold Spec.Unusual; omega
          · split
            · exact nonASCII_at hp (hst (by omega) (by omega) (by omega)) hr ⟨n, rfl, by omega, c0, hc0, hw⟩
            · exact quiet
        · exact quiet

theorem flag_step {s : St} (h : WF s) : ((nextSource cfg s).1.isUnsafe = true → (nextSource cfg s).2.flag ≠ none) ∧
    ((nextSource cfg s).1.isUnsafe = false → (nextSource cfg s).2.flag = s.flag) := by
  by_cases hne : s.rest = []
  · rw [nextSource_nil hne]; simp [CP.isUnsafe]
  · have hd := nextSource_Dec (cfg := cfg) h hne
    generalize nextSource cfg s = p at hd
    cases hd with
    | valid c rest h1 h2 h3 => simp [CP.isUnsafe]
    | crlf rest h1 => simp [CP.isUnsafe]
    | invalid c pre rest e u h1 h2 hl h3 h4 => simp [h1]

theorem Near.src {s s' : St} (h : Near s s') (hw : WF s') : (nextSource cfg s).1 = (nextSource cfg s').1 ∧
    Near (nextSource cfg s).2 (nextSource cfg s').2 := by
  have h1 := MSim.src cfg s s' h.same
  have hw' : WF s := by unfold WF at *; rw [h.same.rest, h.same.eof]; exact hw
  refine ⟨h1.1, h1.2, fun hf => ?_⟩
  have e1 : (nextSource cfg s).1 = (nextSource cfg s').1 := h1.1
  obtain ⟨a1, a2⟩ := flag_step (cfg := cfg) hw'
  obtain ⟨b1, b2⟩ := flag_step (cfg := cfg) hw
  cases hu : (nextSource cfg s').1.isUnsafe with
  | true => exact b1 hu
  | false => rw [b2 hu]; rw [e1] at a2; rw [a2 hu] at hf; exact h.flag hf

/-- Reading a source character with issues. -/
theorem src_run {E : Env} {s : St} (hp : Pos E.cfg z s) : ∃ u es, src E s = .ok ((nextSource E.cfg s).1, u, es) ∧
    Near (nextSource E.cfg s).2 u ∧ Pos E.cfg z u ∧ ∀ e ∈ es, Placed E.cfg T z e := by
  obtain ⟨b, u, fs, g1, -, g⟩ := issues_at (T := T) (E := E) hp
  refine ⟨u, [] ++ ([] ++ (fs ++ [])), ?_, g.1, g.2.1, by simpa using g.2.2⟩
  unfold src
  exact bind_ok (a := s.loc) (t := s) rfl (bind_ok (a := (nextSource E.cfg s).1) (t := (nextSource E.cfg s).2) rfl (bind_ok g1 rfl))

/-- The same source character, and one that `nextSource` can give. -/
def SrcEq (a a' : CP) : Prop := a = a' ∧ SrcOK a

theorem src_sim {E : Env} {D : CP → St → Fail → Prop} : Sim E.cfg T D z SrcEq (CodeParser.src E.cfg) (src E) := by
  intro s s' hs hp
  obtain ⟨u, es, h1, h2, h3, h4⟩ := src_run (T := T) hp
  obtain ⟨h5, h6⟩ := hs.src (cfg := E.cfg) hp.wf
  rw [h1]
  exact ⟨⟨h5, h5 ▸ srcOK hp.wf⟩, h6.trans h2, h3, h4⟩

theorem peekSrc_eq (cfg : Cfg) : CodeParser.peekSrc cfg = (do
    let m ← CodeParser.M.mark
    let c ← CodeParser.src cfg
    CodeParser.M.seek m
    pure c) := rfl

theorem peekSrc_sim {E : Env} {D : CP → St → Fail → Prop} : Sim E.cfg T D z SrcEq (CodeParser.peekSrc E.cfg) (peekSrc E) := by
  rw [peekSrc_eq]
  unfold peekSrc
  refine Sim.mark.bind fun m m' hm => src_sim.bind fun c c' hc => ?_
  exact (Sim.seek hm).bind fun _ _ _ => Sim.pure hc

end
end CodeParser.Chk
