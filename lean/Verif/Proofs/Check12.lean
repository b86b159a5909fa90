import Verif.Proofs.Check11
/-!
Helper lemmas: the laws about encoding errors and about the options that switch issues and tracking off.
-/
namespace CodeParser.Chk
open CodeParser.Spec (aboutEncoding recorded)

/-! ### The encoding flag after a source character -/

/-- The flag is raised with an unsafe character, otherwise it stays. -/
def Flg (s : St) (p : CP × St) : Prop :=
  (p.1.isUnsafe = true ∧ p.2.flag ≠ none) ∨ (p.1.isUnsafe = false ∧ p.2.flag = s.flag)

section
variable {s t : St}

theorem Flg.bad {c : CP} {f : Unsafe} (h : c.isUnsafe = true) : Flg s (invalidChar c f t) := .inl ⟨h, by simp [invalidChar]⟩
theorem Flg.good {n : Nat} (h : t.flag = s.flag) : Flg s (validChar n t) := .inr ⟨rfl, h⟩
theorem Flg.ite {c : Prop} [Decidable c] {p q : CP × St} (h1 : Flg s p) (h2 : Flg s q) : Flg s (if c then p else q) := by
  by_cases h : c
  · rw [if_pos h]; exact h1
  · rw [if_neg h]; exact h2

theorem nextByte_flag : (nextByte s).2.flag = s.flag := by
  unfold nextByte
  split <;> rfl

theorem decode2_flg {b : UInt8} (h : t.flag = s.flag) : Flg s (decode2 b t) := by
  unfold decode2
  exact .ite (.bad rfl) (.ite (.bad rfl) (.good (nextByte_flag.trans h)))

theorem decode3_flg {lo : Nat} {k : Bool} {b : UInt8} (h : t.flag = s.flag) : Flg s (decode3 lo k b t) := by
  unfold decode3
  exact .ite (.bad rfl) (.ite (.bad rfl) (.ite (.bad rfl) (.ite (.bad rfl) (.ite (.bad rfl) (.ite (.bad rfl)
    (.good (nextByte_flag.trans (nextByte_flag.trans h))))))))

theorem decode4_flg {lo hi : Nat} {b : UInt8} (h : t.flag = s.flag) : Flg s (decode4 lo hi b t) := by
  unfold decode4
  exact .ite (.bad rfl) (.ite (.bad rfl) (.ite (.bad rfl) (.ite (.bad rfl) (.ite (.bad rfl) (.ite (.bad rfl)
    (.good (nextByte_flag.trans (nextByte_flag.trans (nextByte_flag.trans h)))))))))

theorem nextSource_flg {cfg : Cfg} : Flg s (nextSource cfg s) := by
  have h := nextByte_flag (s := s)
  unfold nextSource
  refine .ite (.inr ⟨rfl, h⟩) (.ite (.inr ⟨rfl, h⟩) ?_)
  unfold nextSourceUncommon
  refine .ite (.inr ⟨rfl, h⟩) (.ite (.ite (.inr ⟨rfl, nextByte_flag.trans h⟩) (.inr ⟨rfl, h⟩)) (.ite (.good h) (.ite (decode2_flg h)
    (.ite (decode3_flg h) (.ite (decode3_flg h) (.ite (decode4_flg h) (.ite (decode4_flg h) (.ite (decode4_flg h)
    (.ite (.ite (.inr ⟨rfl, h⟩) (.bad rfl)) (.bad rfl))))))))))
end

/-! ### What is reported about a source character -/

/-- The computation leaves the state as it is, and the events have a property. -/
def Calm {α : Type} (Q : Ev → Prop) (m : M α) : Prop := ∀ s a t es, m s = .ok (a, t, es) → t = s ∧ ∀ e ∈ es, Q e

section
variable {Q : Ev → Prop} {α β : Type}

theorem Calm.pure {a : α} : Calm Q (Pure.pure a : M α) := by
  intro s b t es h
  cases h
  exact ⟨rfl, fun _ h => by cases h⟩
theorem Calm.fail {e : Fail} : Calm Q (M.fail e : M α) := by intro s a t es h; cases h
theorem Calm.here : Calm Q here := by intro s a t es h; cases h; exact ⟨rfl, fun _ h => by cases h⟩
theorem Calm.flagNow : Calm Q flagNow := by intro s a t es h; cases h; exact ⟨rfl, fun _ h => by cases h⟩
theorem Calm.emit {e : Ev} (he : Q e) : Calm Q (emit e) := by
  intro s a t es h
  cases h
  exact ⟨rfl, fun _ h => by cases h with | head => exact he | tail _ h => cases h⟩
theorem Calm.bind {m : M α} {f : α → M β} (hm : Calm Q m) (hf : ∀ a, Calm Q (f a)) : Calm Q (m >>= f) := by
  intro s b u es h
  change M.bind m f s = _ at h
  unfold M.bind at h
  rcases h1 : m s with e | ⟨a, t, es1⟩ <;> rw [h1] at h
  · cases h
  · simp only at h
    rcases h2 : f a t with e | ⟨b', u', es2⟩ <;> rw [h2] at h
    · cases h
    · cases h
      obtain ⟨rfl, h3⟩ := hm _ _ _ _ h1
      obtain ⟨rfl, h4⟩ := hf _ _ _ _ _ h2
      exact ⟨rfl, fun e he => (List.mem_append.mp he).elim (h3 e) (h4 e)⟩
theorem Calm.ite {c : Prop} [Decidable c] {a b : M α} (h1 : Calm Q a) (h2 : Calm Q b) : Calm Q (if c then a else b) := by
  by_cases h : c
  · rw [if_pos h]; exact h1
  · rw [if_neg h]; exact h2
theorem Calm.shown {o : Option (List UInt8)} : Calm Q (shown o) := by
  cases o with
  | none => exact .fail
  | some t => exact .pure
theorem Calm.previous {l : Loc} : Calm Q (previous l) := by
  unfold Chk.previous
  split
  · exact Calm.pure
  · exact .fail
theorem Calm.spanOf {a b : Loc} : Calm Q (spanOf a b) := by
  unfold Chk.spanOf
  split
  · exact Calm.pure
  · exact .fail
theorem Calm.safeAndGraphical {c : WLC} : Calm Q (safeAndGraphical c) := by
  unfold Chk.safeAndGraphical
  exact .bind .shown fun _ => .ite (.bind .shown fun _ => .pure) .pure
theorem Calm.certainActions {c : WLC} {sp : Span} : Calm Q (certainActions c sp) := by
  unfold Chk.certainActions
  split
  · exact .pure
  · exact .bind .safeAndGraphical fun _ => .bind .safeAndGraphical fun _ => .pure

/-- An issue that is not about the encoding. -/
def Other : Ev → Prop
  | .issue i => ¬ aboutEncoding (.issue i)
  | _ => False

theorem strangeWarning_calm {E : Env} {p : CP} : Calm Other (strangeWarning E p) := by
  unfold strangeWarning
  refine .bind .here fun _ => .bind .previous fun _ => .bind .shown fun _ => .bind .shown fun _ => .bind .spanOf fun _ =>
    .bind .certainActions fun _ => ?_
  exact .ite (.emit (by simp [Other, aboutEncoding])) (.ite .pure (.emit (by simp [Other, aboutEncoding])))

theorem nonASCIIWarning_calm {p : CP} : Calm Other (nonASCIIWarning p) := by
  unfold nonASCIIWarning
  exact .bind .here fun _ => .bind .previous fun _ => .bind .shown fun _ => .bind .shown fun _ => .bind .spanOf fun _ =>
    .emit (by simp [Other, aboutEncoding])

theorem encodingIssue_calm {l : Loc} {f : Option Unsafe} : Calm aboutEncoding (encodingIssue l f) := by
  unfold encodingIssue
  refine .bind .spanOf fun _ => .emit ?_
  refine ⟨rfl, rfl, ?_⟩
  rcases f with _ | f
  · exact .inl rfl
  · cases f
    · exact .inl rfl
    · exact .inr (.inl rfl)
    · exact .inr (.inr rfl)

theorem sourceIssues_calm {E : Env} {l : Loc} {p : CP} (h : p.isUnsafe = false) : Calm Other (sourceIssues E l p) := by
  unfold sourceIssues
  cases p with
  | unsafe1 => cases h
  | unsafe2 => cases h
  | unsafe3 => cases h
  | char n =>
    simp only
    exact .ite (.ite (.bind .here fun _ => .bind .spanOf fun _ => .emit (by simp [Other, aboutEncoding])) .pure)
      (.ite strangeWarning_calm (.ite (.ite strangeWarning_calm (.ite nonASCIIWarning_calm .pure)) .pure))
  | _ => exact .pure

theorem sourceIssues_bad {E : Env} {l : Loc} {p : CP} (h : p.isUnsafe = true) :
    sourceIssues E l p = (do let f ← flagNow; encodingIssue l f) := by
  cases p with
  | unsafe1 => rfl
  | unsafe2 => rfl
  | unsafe3 => rfl
  | _ => cases h

/-- An issue about the encoding is raised, if it does not fail. -/
theorem encodingIssue_raises {l : Loc} {f : Option Unsafe} {s t : St} {es : List Ev} (h : encodingIssue l f s = .ok ((), t, es)) :
    ∃ e ∈ es, aboutEncoding e := by
  have hc := (encodingIssue_calm _ _ _ _ h).2
  suffices es ≠ [] by
    cases es with
    | nil => exact absurd rfl this
    | cons e es => exact ⟨e, List.mem_cons_self, hc e List.mem_cons_self⟩
  unfold encodingIssue at h
  change M.bind _ _ s = _ at h
  unfold M.bind at h
  rcases h1 : spanOf l (Loc.next l) s with e | ⟨a, u, es1⟩ <;> rw [h1] at h
  · cases h
  · simp only [emit] at h
    cases h
    simp

theorem bind_split {m : M α} {f : α → M β} {s u : St} {b : β} {es : List Ev} (h : (m >>= f) s = .ok (b, u, es)) :
    ∃ a t es1 es2, m s = .ok (a, t, es1) ∧ f a t = .ok (b, u, es2) ∧ es = es1 ++ es2 := by
  change M.bind m f s = _ at h
  unfold M.bind at h
  rcases h1 : m s with e | ⟨a, t, es1⟩ <;> rw [h1] at h
  · cases h
  · simp only at h
    rcases h2 : f a t with e | ⟨b', u', es2⟩ <;> rw [h2] at h
    · cases h
    · cases h
      exact ⟨a, t, es1, es2, rfl, h2, rfl⟩

/-- What reading a source character leaves behind. -/
theorem src_left {E : Env} {s t : St} {c : CP} {es : List Ev} (h : src E s = .ok (c, t, es)) :
    t = (nextSource E.cfg s).2 ∧ c = (nextSource E.cfg s).1 ∧
    ((E.check = false ∧ es = []) ∨
     (E.check = true ∧ c.isUnsafe = false ∧ ∀ e ∈ es, Other e) ∨
     (E.check = true ∧ c.isUnsafe = true ∧ (∀ e ∈ es, aboutEncoding e) ∧ ∃ e ∈ es, aboutEncoding e)) := by
  unfold src at h
  obtain ⟨l, s1, e1, e2, h1, h2, rfl⟩ := bind_split h
  cases h1
  obtain ⟨p, v, e3, e4, h3, h4, rfl⟩ := bind_split h2
  have hl : M.lift (CodeParser.src E.cfg) s = .ok ((nextSource E.cfg s).1, (nextSource E.cfg s).2, []) := rfl
  rw [hl] at h3
  cases h3
  obtain ⟨_, w, ds, e6, h5, h6, rfl⟩ := bind_split h4
  cases h6
  simp only [List.nil_append, List.append_nil]
  generalize (nextSource E.cfg s).1 = p at h5 ⊢
  generalize (nextSource E.cfg s).2 = v at h5 ⊢
  cases hc : E.check with
  | false =>
    rw [hc] at h5
    cases h5
    exact ⟨rfl, trivial, .inl ⟨rfl, rfl⟩⟩
  | true =>
    rw [hc] at h5
    change sourceIssues E s.loc p v = _ at h5
    cases hu : p.isUnsafe with
    | false =>
      obtain ⟨rfl, h7⟩ := sourceIssues_calm hu _ _ _ _ h5
      exact ⟨rfl, trivial, .inr (.inl ⟨rfl, rfl, h7⟩)⟩
    | true =>
      rw [sourceIssues_bad hu] at h5
      obtain ⟨f, x, ds1, ds2, h7, h8, rfl⟩ := bind_split h5
      cases h7
      obtain ⟨rfl, h9⟩ := encodingIssue_calm _ _ _ _ h8
      exact ⟨rfl, trivial, .inr (.inr ⟨rfl, rfl, by simpa using h9, by simpa using encodingIssue_raises h8⟩)⟩

end

/-! ### The laws -/

/-- Encoding errors are recorded if they are reported; they are reported if they are recorded and issues
are looked for. -/
def EncodingLaw (E : Env) (s t : St) (es : List Ev) : Prop :=
  (s.flag ≠ none → t.flag ≠ none) ∧ ((∃ e ∈ es, aboutEncoding e) → t.flag ≠ none) ∧
  (E.check = true → s.flag = none → t.flag ≠ none → ∃ e ∈ es, aboutEncoding e)

theorem encoding_law (E : Env) : Law E (EncodingLaw E) where
  move := by
    intro s t h
    refine ⟨fun h1 => by rw [h]; exact h1, ?_, fun _ h1 h2 => absurd (h.trans h1) h2⟩
    rintro ⟨_, h, _⟩
    cases h
  trans := by
    intro s t u es fs ⟨a1, a2, a3⟩ ⟨b1, b2, b3⟩
    refine ⟨fun h => b1 (a1 h), fun ⟨e, he, hq⟩ => ?_, fun hc h1 h2 => ?_⟩
    · rcases List.mem_append.mp he with he | he
      · exact b1 (a2 ⟨e, he, hq⟩)
      · exact b2 ⟨e, he, hq⟩
    · by_cases ht : t.flag = none
      · obtain ⟨e, he, hq⟩ := b3 hc ht h2
        exact ⟨e, List.mem_append_right _ he, hq⟩
      · obtain ⟨e, he, hq⟩ := a3 hc h1 ht
        exact ⟨e, List.mem_append_left _ he, hq⟩
  src := by
    intro E' s t c es hk h
    obtain ⟨rfl, rfl, h⟩ := src_left h
    have hf := nextSource_flg (cfg := E'.cfg) (s := s)
    rcases hf with ⟨f1, f2⟩ | ⟨f1, f2⟩
    · refine ⟨fun _ => f2, fun _ => f2, fun hc _ _ => ?_⟩
      rcases h with ⟨h, -⟩ | ⟨-, h, -⟩ | ⟨-, -, -, h⟩
      · rw [hk.check, hc] at h; cases h
      · rw [h] at f1; cases f1
      · exact h
    · refine ⟨fun h => by rw [f2]; exact h, fun ⟨e, he, hq⟩ => ?_, fun _ h1 h2 => absurd (f2 ▸ h1) h2⟩
      rcases h with ⟨-, rfl⟩ | ⟨-, -, h⟩ | ⟨-, h, -⟩
      · cases he
      · have := h e he
        cases e with
        | issue i => exact absurd hq this
        | _ => exact this.elim
      · rw [h] at f1; cases f1
  issue := by
    intro s i hc hn
    refine ⟨id, fun ⟨e, he, hq⟩ => ?_, fun _ h1 h2 => absurd h1 h2⟩
    cases he with
    | head => exact absurd hq hn
    | tail _ h => cases h
  track := by
    intro s e hc hn
    refine ⟨id, fun ⟨e, he, hq⟩ => ?_, fun _ h1 h2 => absurd h1 h2⟩
    cases he with
    | head =>
      cases e with
      | issue i => exact absurd rfl hn
      | _ => exact hq.elim
    | tail _ h => cases h

/-- No issues without `check_issues`, no tracked locations without `compute_oob`. -/
def OffLaw (E : Env) (_ _ : St) (es : List Ev) : Prop :=
  ∀ e ∈ es, (E.check = false → recorded e ≠ none) ∧ (E.oob = false → recorded e = none)

theorem off_law (E : Env) : Law E (OffLaw E) where
  move _ := fun _ h => by cases h
  trans h1 h2 := fun e he => (List.mem_append.mp he).elim (h1 e) (h2 e)
  src := by
    intro E' s t c es hk h e he
    obtain ⟨-, -, h⟩ := src_left h
    rcases h with ⟨-, rfl⟩ | ⟨hc, -, h⟩ | ⟨hc, -, h, -⟩
    · cases he
    · refine ⟨fun h1 => ?_, fun _ => ?_⟩
      · rw [hk.check, h1] at hc; cases hc
      · have := h e he
        cases e with
        | issue i => rfl
        | _ => exact this.elim
    · refine ⟨fun h1 => ?_, fun _ => ?_⟩
      · rw [hk.check, h1] at hc; cases hc
      · have := h e he
        cases e with
        | issue i => rfl
        | _ => exact this.elim
  issue := by
    intro s i hc _ e he
    cases he with
    | head => exact ⟨fun h => (by rw [h] at hc; cases hc), fun _ => rfl⟩
    | tail _ h => cases h
  track := by
    intro s e ho hn e' he
    cases he with
    | head => exact ⟨fun _ => hn, fun h => by rw [h] at ho; cases ho⟩
    | tail _ h => cases h

end CodeParser.Chk
