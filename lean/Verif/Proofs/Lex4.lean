import Verif.Proofs.Lex3
/-!
Reading a name (helper lemmas).
-/
namespace CodeParser
open Spec

section
variable {cfg : Cfg} {pol : Pol} {start s t : St} {E : Err → Prop} {r q : List UInt8} {b : UInt8} {c : WLC}

/-! ### Names -/

theorem Look.char (h : Look (b :: r) c) (hb : b.toNat < 0x80) (h13 : b.toNat ≠ 13)
    (h92 : b ≠ byte '\\') : c.point = .char b.toNat := by
  rcases h with ⟨-, r', hp⟩ | ⟨hh, -⟩
  rotate_left
  · exact absurd (Option.some.inj hh) h92
  generalize c.point = p at hp
  generalize hq : b :: r = q at hp
  cases hp with
  | eof => cases hq
  | ascii h1 h2 => cases hq; rfl
  | crlf => cases hq; exact absurd rfl h13
  | @high pre _ _ h1 h2 h3 =>
    cases pre with
    | nil => exact absurd rfl h1
    | cons a pre =>
      cases hq
      have := h2 _ List.mem_cons_self
      omega

theorem byte_toNat' {x : Char} (h : x.toNat < 128) : (byte x).toNat = x.toNat := by unfold byte; simp; omega

theorem isNameChar_lt {n : Nat} (h : isNameChar n = true) : n < 128 ∧ n ≠ 13 ∧ n ≠ 92 := by
  simp [isNameChar, isNameStart] at h
  omega

theorem isNameStart_char {n : Nat} (h : isNameStart n = true) : isNameChar n = true := by
  simp [isNameChar, h]

theorem isAscii_lt {n : Nat} (h : n < 128) : (CP.char n).isMBLetterlike = false := by
  have : (CP.char n).isAscii = true := by simp [CP.isAscii]; omega
  simp [CP.isMBLetterlike, this]

/-- Whether a character continues a segment. -/
theorem nameChar_iff {n : Nat} (h : n < 128) (hc : 32 ≤ n ∨ (7 ≤ n ∧ n ≤ 13 ∧ n ≠ 8)) :
    ((CP.char n).isDigit || (⟨.char n, .none⟩ : WLC).isLetter) = isNameChar n := by
  unfold WLC.isLetter
  simp only [isAscii_lt h, Bool.or_false]
  have : ∀ n < 128, (32 ≤ n ∨ (7 ≤ n ∧ n ≤ 13 ∧ n ≠ 8)) → ((CP.char n).isDigit || (CP.char n).isLetterlike) = isNameChar n := by
    decide
  exact this n h hc

theorem nameStart_letter {n : Nat} (h : isNameStart n = true) : (CP.char n).isLetterlike = true := by
  simp [isNameStart] at h
  simp [CP.isLetterlike, inR]
  omega

theorem nameChar_cont {n : Nat} (h : isNameChar n = true) : (CP.char n).isDigit = true ∨ (CP.char n).isLetterlike = true := by
  simp [isNameChar, isNameStart] at h
  simp [CP.isLetterlike, CP.isDigit, inR]
  omega

/-- The text does not continue a segment. -/
structure Stops (r : List UInt8) : Prop where
  esc : r.head? ≠ some (byte '\\')
  digit : ∀ c, Look r c → c.point.isDigit = false
  letter : ∀ c, Look r c → c.isLetter = false

theorem endsName_stops (h : endsName r) : Stops r ∧ r.head? ≠ some (byte '`') := by
  cases r with
  | nil =>
    refine ⟨⟨by simp, fun c hl => ?_, fun c hl => ?_⟩, by simp⟩
    · rcases hl with ⟨-, r', hp⟩ | ⟨hh, -⟩
      rotate_left
      · cases hh
      generalize hq : ([] : List UInt8) = q at hp
      generalize c.point = p at hp
      cases hp with
      | eof => rfl
      | ascii => cases hq
      | crlf => cases hq
      | high h1 => simp at hq; exact absurd hq.1 h1
    · rcases hl with ⟨-, r', hp⟩ | ⟨hh, -⟩
      rotate_left
      · cases hh
      unfold WLC.isLetter
      generalize hq : ([] : List UInt8) = q at hp
      generalize c.point = p at hp
      cases hp with
      | eof => rfl
      | ascii => cases hq
      | crlf => cases hq
      | high h1 => simp at hq; exact absurd hq.1 h1
  | cons b q =>
    obtain ⟨h1, h2, h3, h4, h5⟩ := h b q rfl
    have key : ∀ c, Look (b :: q) c → (c.point.isDigit || c.isLetter) = false := by
      intro c hl
      by_cases h13 : b.toNat = 13
      · rcases hl with ⟨-, r', hp⟩ | ⟨hh, -⟩
        rotate_left
        · exact absurd (Option.some.inj hh) h4
        unfold WLC.isLetter
        generalize hq : b :: q = z at hp
        generalize c.point = p at hp
        cases hp with
        | eof => cases hq
        | ascii => cases hq; rw [h13]; decide
        | crlf => decide +kernel
        | @high pre _ _ e1 e2 =>
          cases pre with
          | nil => exact absurd rfl e1
          | cons a pre => cases hq; have := e2 _ List.mem_cons_self; omega
      · have hc := hl.char h1 h13 h4
        have := nameChar_iff h1 h5
        rw [h2] at this
        unfold WLC.isLetter at this ⊢
        rw [hc]
        exact this
    refine ⟨⟨by simpa using h4, fun c hl => ?_, fun c hl => ?_⟩, by simpa using h3⟩
    · have := key c hl
      simp only [Bool.or_eq_false_iff] at this
      exact this.1
    · have := key c hl
      simp only [Bool.or_eq_false_iff] at this
      exact this.2

theorem stops_quote : Stops (byte '`' :: r) := by
  refine ⟨by simp; decide, fun c hl => ?_, fun c hl => ?_⟩
  · rw [hl.char (by decide) (by decide) (by decide)]; decide
  · unfold WLC.isLetter; rw [hl.char (by decide) (by decide) (by decide)]; decide +kernel

theorem head_name {seg : List Char} (hseg : ∀ x ∈ seg, isNameChar x.toNat = true) (hr : r.head? ≠ some (byte '\\')) :
    (bytes seg ++ r).head? ≠ some (byte '\\') := by
  cases seg with
  | nil => exact hr
  | cons x seg =>
    have := isNameChar_lt (hseg x List.mem_cons_self)
    simp only [bytes, List.map_cons, List.cons_append, List.head?_cons, ne_eq, Option.some.injEq]
    intro h
    have h := congrArg UInt8.toNat h
    rw [byte_toNat' this.1] at h
    exact this.2.2 h

/-- The rest of a segment. -/
theorem lex_segment {Q : WLC → St → Prop} {seg : List Char} (h : Lex cfg start (bytes seg ++ r) s)
    (hseg : ∀ x ∈ seg, isNameChar x.toNat = true) (hr : Stops r) (hc : c.isLetter = true)
    (h1 : ∀ q c t, r = byte '`' :: q → c.point = ch '`' → Lex cfg start q t → Q c t)
    (h2 : ∀ c t, r.head? ≠ some (byte '`') → c.point ≠ ch '`' → Lex cfg start r t → Q c t) :
    wp E (symbolSegment cfg c) s Q := by
  unfold symbolSegment
  refine lex_assert hc (lex_cur h (head_name hseg hr.esc) fun c t ht hl => ?_)
  refine wp_loop (fun c u => ∃ seg : List Char, (∀ x ∈ seg, isNameChar x.toNat = true) ∧ Lex cfg start (bytes seg ++ r) u ∧
    Look (bytes seg ++ r) c) (fun _ u => u.rest.length) ⟨seg, hseg, ht, hl⟩ (by omega) ?_
  rintro c u ⟨seg, hseg, hu, hl⟩
  cases seg with
  | nil =>
    change Look r c at hl
    change Lex cfg start r u at hu
    rw [if_neg (by rw [hr.digit c hl]; simp), if_neg (by rw [hr.letter c hl]; simp)]
    refine wp_ite (fun hx => ?_) (fun hx => ?_)
    · obtain ⟨q, rfl⟩ := head_some ((hl.ch (by decide) (by decide)).mp hx)
      exact lex_next hu (by decide) (by decide) (by decide) fun v hv => wp_pure (h1 q c v rfl hx hv)
    · exact wp_pure (h2 c u (fun h => hx ((hl.ch (by decide) (by decide)).mpr h)) hx hu)
  | cons x seg =>
    have hx := hseg x List.mem_cons_self
    obtain ⟨l1, l2, l3⟩ := isNameChar_lt hx
    have hb := byte_toNat' l1
    have hp := hl.char (b := byte x) (by omega) (by omega) (fun h => l3 (by have h := congrArg UInt8.toNat h; rw [hb] at h; exact h))
    have step : wp E (do
        let _ ← nextC cfg
        let c ← curC cfg
        pure (Sum.inl c) : M (WLC ⊕ WLC)) u (fun r' u' => match r' with
        | .inl c' => (∃ seg : List Char, (∀ x ∈ seg, isNameChar x.toNat = true) ∧ Lex cfg start (bytes seg ++ r) u' ∧
            Look (bytes seg ++ r) c') ∧ u'.rest.length < u.rest.length
        | .inr c' => Q c' u') := by
      have hseg' : ∀ x ∈ seg, isNameChar x.toNat = true := fun x hx => hseg x (List.mem_cons_of_mem _ hx)
      refine lex_next (b := byte x) (r := bytes seg ++ r) hu (by omega) ?_ (by omega) fun v hv => ?_
      · intro h
        have h := congrArg UInt8.toNat h
        rw [hb] at h
        exact l3 h
      · refine lex_cur hv (head_name hseg' hr.esc) fun c w hw hl => ?_
        refine wp_pure ⟨⟨seg, hseg', hw, hl⟩, ?_⟩
        rw [hw.rest, hu.rest]
        simp [bytes]
    refine wp_ite (fun _ => wp_mono step (fun _ h => h) (fun r u h => by cases r <;> exact h)) (fun hd => ?_)
    rw [if_pos]
    · exact wp_mono step (fun _ h => h) (fun r u h => by cases r <;> exact h)
    · unfold WLC.isLetter
      rcases nameChar_cont hx with h | h
      · rw [hp, hb] at hd; exact absurd h hd
      · rw [hp, hb, h]; rfl

/-- The contexts of a name, after its first segment. -/
theorem contexts_cons (x : List Char) (segs : List (List Char)) : bytes (contexts (x :: segs)) = byte '`' :: (bytes x ++ bytes (contexts segs)) := by
  simp [contexts, bytes]

theorem stops_contexts {segs : List (List Char)} (hr : endsName r) : Stops (bytes (contexts segs) ++ r) := by
  cases segs with
  | nil => exact (endsName_stops hr).1
  | cons x segs => rw [contexts_cons]; exact stops_quote

/-- What is left of a name: the character read last tells whether there are more segments. -/
def SymRest (cfg : Cfg) (start : St) (r : List UInt8) (c : WLC) (u : St) : Prop :=
  (c.point ≠ ch '`' ∧ Lex cfg start r u) ∨
  ∃ x segs, (∀ s ∈ x :: segs, Segment s) ∧ c.point = ch '`' ∧ Lex cfg start (bytes x ++ (bytes (contexts segs) ++ r)) u

theorem lex_segment_rest {seg : List Char} {segs : List (List Char)} (h : Lex cfg start (bytes seg ++ (bytes (contexts segs) ++ r)) s)
    (hseg : ∀ x ∈ seg, isNameChar x.toNat = true) (hsegs : ∀ s ∈ segs, Segment s) (hr : endsName r) (hc : c.isLetter = true) :
    wp E (symbolSegment cfg c) s (fun c u => SymRest cfg start r c u ∧ u.rest.length ≤ s.rest.length) := by
  have hlen : (bytes (contexts segs) ++ r).length ≤ s.rest.length := by rw [h.rest]; simp
  refine lex_segment h hseg (stops_contexts hr) hc ?_ ?_
  · intro q c t hq hc ht
    cases segs with
    | nil =>
      exfalso
      have := (endsName_stops hr).2
      change r = _ at hq
      rw [hq] at this
      exact this rfl
    | cons x segs =>
      rw [contexts_cons, List.cons_append, List.append_assoc] at hq
      cases hq
      refine ⟨Or.inr ⟨x, segs, hsegs, hc, ht⟩, ?_⟩
      rw [contexts_cons] at hlen
      rw [ht.rest]
      simp at hlen ⊢
      omega
  · intro c t hh hc ht
    cases segs with
    | nil => exact ⟨Or.inl ⟨hc, ht⟩, by rw [ht.rest]; exact hlen⟩
    | cons x segs => rw [contexts_cons] at hh; simp at hh

theorem isLetter_start {x : Char} (h : isNameStart x.toNat = true) (hp : c.point = .char x.toNat) : c.isLetter = true := by
  unfold WLC.isLetter
  rw [hp, nameStart_letter h]
  rfl

/-- The loop over the segments of a name. -/
theorem lex_symbolLoop (hr : endsName r) (h : SymRest cfg start r c s) :
    wp E (M.loop (fun c : WLC =>
      if c.point ≠ ch '`' then pure (.inr true)
      else do
        let c ← curC cfg
        if c.isLetter then do
          let _ ← nextC cfg
          let c ← symbolSegment cfg c
          pure (.inl c)
        else pure (.inr false)) c) s (fun ok t => ok = true ∧ Lex cfg start r t) := by
  refine wp_loop (SymRest cfg start r) (fun _ u => u.rest.length) h (by omega) ?_
  intro c u hu
  rcases hu with ⟨hc, hu⟩ | ⟨x, segs, hsegs, hc, hu0⟩
  · rw [if_pos hc]
    exact wp_pure ⟨rfl, hu⟩
  · rw [if_neg (by simpa using hc)]
    obtain ⟨a, q, rfl, ha, hq⟩ := hsegs x List.mem_cons_self
    have ha' := isNameStart_char ha
    obtain ⟨l1, l2, l3⟩ := isNameChar_lt ha'
    have hb := byte_toNat' l1
    have h92 : byte a ≠ byte '\\' := by
      intro h
      have h := congrArg UInt8.toNat h
      rw [hb] at h
      exact l3 h
    refine lex_cur (r := byte a :: (bytes q ++ (bytes (contexts segs) ++ r))) hu0 ?_ fun c u hu hl => ?_
    · simpa using h92
    · have hp := hl.char (by omega) (by omega) h92
      rw [hb] at hp
      have hlet := isLetter_start ha hp
      rw [if_pos hlet]
      refine lex_next hu (by omega) h92 (by omega) fun v hv => ?_
      refine wp_bind (wp_mono (lex_segment_rest hv hq (fun s hs => hsegs s (List.mem_cons_of_mem _ hs)) hr hlet) (fun _ h => h) ?_)
      rintro c w ⟨hw, hlen⟩
      refine wp_pure ⟨hw, ?_⟩
      rw [hv.rest] at hlen
      rw [hu0.rest]
      simp [bytes] at hlen ⊢
      omega

/-- A name is one token. -/
theorem lex_name {name : List Char} (hs : WF s) (hn : Name name) (h : s.rest = bytes name ++ r) (hr : endsName r) :
    wp E (nextToken cfg pol) s (Gives s (if pol.insideSlot then .String else .Symbol) (bytes name) r) := by
  have fin : ∀ (c : WLC) t, SymRest cfg s r c t → wp E (do
      let ok ← M.loop (fun c : WLC =>
        if c.point ≠ ch '`' then pure (.inr true)
        else do
          let c ← curC cfg
          if c.isLetter then do
            let _ ← nextC cfg
            let c ← symbolSegment cfg c
            pure (.inl c)
          else pure (.inr false)) c
      if ok then tok (if pol.insideSlot then .String else .Symbol) s
      else tok .Error_ExpectedLetterlike s : M Tok) t (Gives s (if pol.insideSlot then .String else .Symbol) (bytes name) r) := by
    intro c t ht
    refine wp_bind (wp_mono (lex_symbolLoop hr ht) (fun _ h => h) ?_)
    rintro ok u ⟨rfl, hu⟩
    exact lex_tok hu h
  cases hn with
  | @plain seg segs h1 h2 =>
    obtain ⟨a, q, rfl, ha, hq⟩ := h1
    obtain ⟨l1, l2, l3⟩ := isNameChar_lt (isNameStart_char ha)
    have hb := byte_toNat' l1
    have h' : s.rest = byte a :: (bytes q ++ (bytes (contexts segs) ++ r)) := by rw [h]; simp [bytes]
    refine lex_start hs h' (by omega) (fun h => l3 (by have h := congrArg UInt8.toNat h; rw [hb] at h; exact h)) (by omega) fun t ht => ?_
    rw [hb]
    have hlet : (⟨.char a.toNat, .none⟩ : WLC).isLetter = true := isLetter_start ha rfl
    have hd : dispatch cfg pol s ⟨.char a.toNat, .none⟩ = handleSymbol cfg pol s ⟨.char a.toNat, .none⟩ := by
      have : ∀ n, isNameStart n = true → (CP.char n = ch '$' ∨ (CP.char n).isAlpha = true) ∧ n ≠ 10 ∧ n ≠ 32 ∧ n ≠ 34 := by
        intro n h
        simp [isNameStart] at h
        simp [ch, CP.isAlpha, inR]
        omega
      obtain ⟨e1, e2, e3, e4⟩ := this _ ha
      unfold dispatch
      rw [if_neg (by simpa [ch] using e2), if_neg (by simpa [ch] using e3), if_neg (by simpa [ch] using e4), if_pos e1]
    rw [hd]
    unfold handleSymbol
    refine lex_assert (by rw [hlet]; simp) ?_
    unfold symbolFirst
    rw [if_pos hlet]
    refine wp_bind (wp_mono (lex_segment_rest ht hq h2 hr hlet) (fun _ h => h) ?_)
    rintro c u ⟨hu, -⟩
    exact fin c u hu
  | @relative segs h1 h2 =>
    cases segs with
    | nil => exact absurd rfl h1
    | cons x segs =>
      rw [contexts_cons, List.cons_append, List.append_assoc] at h
      refine lex_start hs h (by decide) (by decide) (by decide) fun t ht => ?_
      change wp E (handleSymbol cfg pol s ⟨ch '`', .none⟩) _ _
      unfold handleSymbol
      refine lex_assert rfl ?_
      unfold symbolFirst
      rw [if_neg (by decide +kernel)]
      refine wp_bind (wp_pure ?_)
      exact fin _ t (Or.inr ⟨x, segs, h2, rfl, ht⟩)

end

end CodeParser
