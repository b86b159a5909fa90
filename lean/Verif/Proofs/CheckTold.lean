import Verif.Proofs.Check4
/-!
Helper lemmas: the issues of escapes are justified by the text.
-/
namespace CodeParser.Chk
open CodeParser (Bad Path WF SameAt MSim R)
open Spec (byte bytes Escapes NoEscape Says Mends)

/-- Everything about issues. -/
def all : Want := ⟨fun _ => True, True⟩

/-- All issues are justified. -/
def Tells (cfg : Cfg) (z : St) (es : List Ev) : Prop := ∀ i, Ev.issue i ∈ es → Told cfg z i

section
variable {cfg : Cfg} {E : Env} {z o m' s t : St} {α β : Type} {es : List Ev}

theorem Tells.nil : Tells cfg z [] := fun _ h => by cases h
theorem Tells.append {fs : List Ev} (h : Tells cfg z es) (h' : Tells cfg z fs) : Tells cfg z (es ++ fs) := fun i hi => by
  rcases List.mem_append.mp hi with hi | hi
  · exact h i hi
  · exact h' i hi
theorem Tells.up (hz : Pos cfg z o) (h : Tells cfg o es) : Tells cfg z es := fun i hi => (h i hi).up hz

theorem bind_inv {m : M α} {f : α → M β} {b : β} (h : (m >>= f) s = .ok (b, t, es)) :
    ∃ a u es1 es2, m s = .ok (a, u, es1) ∧ f a u = .ok (b, t, es2) ∧ es = es1 ++ es2 := by
  have h : M.bind m f s = .ok (b, t, es) := h
  unfold M.bind at h
  rcases hm : m s with e | ⟨a, u, es1⟩ <;> rw [hm] at h
  · cases h
  · simp only at h
    rcases hf : f a u with e | ⟨b', v, es2⟩ <;> rw [hf] at h
    · cases h
    · simp only [Except.ok.injEq, Prod.mk.injEq] at h
      obtain ⟨rfl, rfl, rfl⟩ := h
      exact ⟨a, u, es1, es2, rfl, hf, rfl⟩

theorem pure_inv {a b : α} (h : (Pure.pure a : M α) s = .ok (b, t, es)) : b = a ∧ t = s ∧ es = [] := by
  have h : Except.ok (a, s, []) = (Except.ok (b, t, es) : Except Fail _) := h
  simp only [Except.ok.injEq, Prod.mk.injEq] at h
  exact ⟨h.1.symm, h.2.1.symm, h.2.2.symm⟩

theorem mark_inv {m : St} (h : M.mark s = .ok (m, t, es)) : m = s ∧ t = s ∧ es = [] := by
  have h : Except.ok (s, s, []) = (Except.ok (m, t, es) : Except Fail _) := h
  simp only [Except.ok.injEq, Prod.mk.injEq] at h
  exact ⟨h.1.symm, h.2.1.symm, h.2.2.symm⟩

theorem seek_inv {m : St} {u : Unit} (h : M.seek m s = .ok (u, t, es)) : t = s.seek m ∧ es = [] := by
  have h : Except.ok ((), s.seek m, []) = (Except.ok (u, t, es) : Except Fail _) := h
  simp only [Except.ok.injEq, Prod.mk.injEq] at h
  exact ⟨h.2.1.symm, h.2.2.symm⟩

theorem here_inv {l : Loc} (h : here s = .ok (l, t, es)) : l = s.loc ∧ t = s ∧ es = [] := by
  have h : Except.ok (s.loc, s, []) = (Except.ok (l, t, es) : Except Fail _) := h
  simp only [Except.ok.injEq, Prod.mk.injEq] at h
  exact ⟨h.1.symm, h.2.1.symm, h.2.2.symm⟩

theorem text_inv {m : St} {l : List UInt8} (h : textFrom m s = .ok (l, t, es)) : l = between m s ∧ t = s ∧ es = [] := by
  have h : Except.ok (between m s, s, []) = (Except.ok (l, t, es) : Except Fail _) := h
  simp only [Except.ok.injEq, Prod.mk.injEq] at h
  exact ⟨h.1.symm, h.2.1.symm, h.2.2.symm⟩

theorem lift_inv {m : CodeParser.M α} {a : α} (hk : Keeps m) (h : M.lift m s = .ok (a, t, es)) : t = s ∧ es = [] := by
  unfold M.lift at h
  rcases hm : m s with e | ⟨b, u⟩ <;> rw [hm] at h
  · cases h
  · simp only [Except.ok.injEq, Prod.mk.injEq] at h
    exact ⟨h.2.1 ▸ hk _ _ _ hm, h.2.2.symm⟩

theorem Ran.inv {T : Want} {m : M α} {a : α} {Q : α → St → Prop} (hT : T.full) (h : Ran cfg T z s m Q) (hm : m s = .ok (a, t, es)) :
    Q a t ∧ Pos cfg z t ∧ Tells cfg z es := by
  obtain ⟨b, u, fs, h1, h2, h3, h4, h5⟩ := h
  rw [h1] at hm
  simp only [Except.ok.injEq, Prod.mk.injEq] at hm
  obtain ⟨rfl, rfl, rfl⟩ := hm
  exact ⟨h2, h4, fun i hi => (h5 _ hi).2.2 hT⟩

theorem Sim.inv {T : Want} {m : CodeParser.M α} {m' : M β} {ra : α → β → Prop} {b : β} (hT : T.full)
    (h : Sim cfg T never z ra m m') (hp : Pos cfg z s) (hm : m' s = .ok (b, t, es)) :
    ∃ a u, m s = .ok (a, u) ∧ ra a b ∧ Near u t ∧ Pos cfg z t ∧ Tells cfg z es := by
  have := h s s (.refl s) hp
  rw [hm] at this
  rcases hx : m s with e | ⟨a, u⟩ <;> rw [hx] at this
  · exact this.elim
  · exact ⟨a, u, rfl, this.1, this.2.1, this.2.2.1, fun i hi => (this.2.2.2 _ hi).2.2 hT⟩

/-- The same without the issues. -/
theorem Ran.inv' {T : Want} {m : M α} {a : α} {Q : α → St → Prop} (h : Ran cfg T z s m Q) (hm : m s = .ok (a, t, es)) :
    Q a t ∧ Pos cfg z t := by
  obtain ⟨b, u, fs, h1, h2, h3, h4, h5⟩ := h
  rw [h1] at hm
  simp only [Except.ok.injEq, Prod.mk.injEq] at hm
  obtain ⟨rfl, rfl, rfl⟩ := hm
  exact ⟨h2, h4⟩

theorem src_inv {c : CP} (hp : Pos E.cfg z s) (h : src E s = .ok (c, t, es)) :
    c = (nextSource E.cfg s).1 ∧ SameAt (nextSource E.cfg s).2 t ∧ Pos E.cfg z t ∧ Tells E.cfg z es := by
  obtain ⟨h1, h2, h3⟩ := Ran.inv (T := all) trivial (Ran.src hp) h
  exact ⟨h1.1, h1.2, h2, h3⟩

theorem peek_inv {c : CP} (hp : Pos E.cfg z s) (h : peekSrc E s = .ok (c, t, es)) :
    c = (nextSource E.cfg s).1 ∧ SameAt s t ∧ Pos E.cfg z t ∧ Tells E.cfg z es := by
  obtain ⟨h1, h2, h3⟩ := Ran.inv (T := all) trivial (Ran.peek hp) h
  exact ⟨h1.1, h1.2, h2, h3⟩

/-- The text between a backslash and a later position. -/
theorem piece_eq (hb : o.rest = byte '\\' :: m'.rest) (hs : Pos cfg m' s) :
    between o s = byte '\\' :: between m' s ∧ between m' s ++ s.rest = m'.rest := by
  have h1 := hs.rest
  refine ⟨between_eq ?_, h1.symm⟩
  rw [hb, List.cons_append, ← h1]

theorem strange_told {c : WLC} {u : Unit} (hz : Pos E.cfg z o) (h : Step E.cfg o m') (hb : o.rest = byte '\\' :: m'.rest) (hs : Pos E.cfg m' s)
    (hc : Ready c) (hm : checkStrangeSyntax E c m'.loc s = .ok (u, t, es)) :
    SameAt s t ∧ (Escapes m'.rest c.point c.escape s.rest → Tells E.cfg z es) := by
  have h0 := Ran.inv' (QuietAt.ran (checkStrange_at (T := all.lo) hz h hc (h.pos.trans hs) False.elim)) hm
  refine ⟨h0.1.2, fun he => ?_⟩
  obtain ⟨h1, h2⟩ := piece_eq hb hs
  refine (Ran.inv (T := all) trivial (QuietAt.ran (checkStrange_at hz h hc (h.pos.trans hs) fun _ n hn => ⟨_, h1, ?_⟩)) hm).2.2
  rw [h2, ← hn]; exact he

theorem malformed_told {d : St} {i : List Char} {u : Unit} (hz : Pos E.cfg z o) (h : Step E.cfg o m') (hb : o.rest = byte '\\' :: m'.rest)
    (hs : Pos E.cfg m' s) (hi : txt i ++ between d s = byte '\\' :: byte '\\' :: between m' s)
    (hm : malformedDigits E m' d i s = .ok (u, t, es)) :
    SameAt s t ∧ (NoEscape m'.rest → Tells E.cfg z es) := by
  have h0 := Ran.inv' (QuietAt.ran (malformedDigits_at (T := all.lo) hz h (h.pos.trans hs) False.elim)) hm
  refine ⟨h0.1.2, fun he => ?_⟩
  obtain ⟨h1, h2⟩ := piece_eq hb hs
  refine (Ran.inv (T := all) trivial (QuietAt.ran (malformedDigits_at hz h (h.pos.trans hs) fun _ => ⟨_, h1, ?_, ?_⟩)) hm).2.2
  · rw [h2]; exact he
  · rw [h1]; exact hi

theorem esc_no {r rest : List UInt8} {c : WLC} (h : EscPost r c rest) (hc : c = backslash) : NoEscape r := by
  rcases h with h | h
  · subst hc
    have key : ∀ {p e}, Escapes r p e rest → e ≠ .none := by
      intro p e h
      cases h <;> simp
    exact absurd rfl (key h)
  · exact h.2.2.1

theorem esc_yes {r rest : List UInt8} {c : WLC} (h : EscPost r c rest) (hc : c.escape ≠ .none) : Escapes r c.point c.escape rest := by
  rcases h with h | h
  · exact h
  · rw [h.1] at hc; exact absurd rfl hc

theorem previous_inv {l k : Loc} (h : previous l s = .ok (k, t, es)) : Loc.previous l = some k ∧ t = s ∧ es = [] := by
  unfold previous at h
  rcases hk : Loc.previous l with _ | k' <;> rw [hk] at h
  · cases h
  · obtain ⟨rfl, rfl, rfl⟩ := pure_inv h
    exact ⟨rfl, rfl, rfl⟩

theorem span_inv {a b : Loc} {sp : Span} (h : spanOf a b s = .ok (sp, t, es)) : sp = ⟨a, b⟩ ∧ t = s ∧ es = [] := by
  unfold spanOf at h
  rcases hk : Span.new a b with _ | sp' <;> rw [hk] at h
  · cases h
  · obtain ⟨rfl, rfl, rfl⟩ := pure_inv h
    unfold Span.new at hk
    split at hk
    · exact ⟨(Option.some.inj hk).symm, rfl, rfl⟩
    · cases hk

theorem shown_inv {x : Option (List UInt8)} {g : List UInt8} (h : shown x s = .ok (g, t, es)) : x = some g ∧ t = s ∧ es = [] := by
  unfold shown at h
  rcases x with _ | x
  · cases h
  · obtain ⟨rfl, rfl, rfl⟩ := pure_inv h
    exact ⟨rfl, rfl, rfl⟩

theorem emit_inv {e : Ev} {u : Unit} (h : emit e s = .ok (u, t, es)) : t = s ∧ es = [e] := by
  have h : Except.ok ((), s, [e]) = (Except.ok (u, t, es) : Except Fail _) := h
  simp only [Except.ok.injEq, Prod.mk.injEq] at h
  exact ⟨h.2.1.symm, h.2.2.symm⟩

theorem Tells.one {i : Report} (h : Told cfg z i) : Tells cfg z [.issue i] := fun j hj => by
  cases List.mem_singleton.mp hj
  exact h

/-! ### Digits -/

theorem hex4_told {c : WLC} (h : Step E.cfg o m') (hb : o.rest = byte '\\' :: m'.rest) (hm1 : m'.rest = byte ':' :: s.rest) (hs : Pos E.cfg m' s)
    (hm : handle4Hex E m' s = .ok (c, t, es)) (hpost : EscPost m'.rest c t.rest) : Tells E.cfg o es := by
  have ho : Pos E.cfg o o := .refl h.pos.wfz h.col
  unfold handle4Hex at hm
  obtain ⟨_, s1, _, _, h1, k1, rfl⟩ := bind_inv hm
  obtain ⟨rfl, rfl⟩ := lift_inv keeps_assertStart h1
  obtain ⟨start, s1, _, _, h2, k2, rfl⟩ := bind_inv k1
  obtain ⟨rfl, rfl, rfl⟩ := mark_inv h2
  obtain ⟨b, s2, es2, _, h3, k3, rfl⟩ := bind_inv k2
  obtain ⟨-, -, -, -, -, hp2, ht2⟩ := Sim.inv (T := all) trivial (digitRun_sim' _ _) hs.self h3
  have hq2 := hs.trans hp2
  refine Tells.nil.append (Tells.nil.append ((ht2.up (h.pos.trans hs)).append ?_))
  split at k3
  · obtain ⟨v, s3, _, _, h4, k4, rfl⟩ := bind_inv k3
    obtain ⟨rfl, rfl⟩ := lift_inv (keeps_digitsValue 4) h4
    obtain ⟨v, s3, _, _, h5, k5, rfl⟩ := bind_inv k4
    obtain ⟨rfl, rfl⟩ := lift_inv keeps_fromU32 h5
    obtain ⟨_, s4, es4, _, h6, k6, rfl⟩ := bind_inv k5
    obtain ⟨rfl, rfl, rfl⟩ := pure_inv k6
    obtain ⟨g1, g2⟩ := strange_told ho h hb hq2 (ready_number (by simp)) h6
    rw [← g1.rest] at hpost
    exact Tells.nil.append <| Tells.nil.append <| (g2 (esc_yes hpost (by simp))).append .nil
  · obtain ⟨_, s3, es3, _, h4, k4, rfl⟩ := bind_inv k3
    obtain ⟨_, s4, _, _, h5, k5, rfl⟩ := bind_inv k4
    obtain ⟨rfl, rfl⟩ := seek_inv h5
    obtain ⟨rfl, rfl, rfl⟩ := pure_inv k5
    obtain ⟨-, g2⟩ := malformed_told ho h hb hq2 (by
      rw [between_eq (a := m') (b := s2) (x := byte ':' :: between s1 s2) (by rw [hm1, hp2.rest]; rfl)]; rfl) h4
    exact (g2 (esc_no hpost rfl)).append (Tells.nil.append .nil)

theorem hex2_told {c : WLC} (h : Step E.cfg o m') (hb : o.rest = byte '\\' :: m'.rest) (hm1 : m'.rest = byte '.' :: s.rest) (hs : Pos E.cfg m' s)
    (hm : handle2Hex E m' s = .ok (c, t, es)) (hpost : EscPost m'.rest c t.rest) : Tells E.cfg o es := by
  have ho : Pos E.cfg o o := .refl h.pos.wfz h.col
  unfold handle2Hex at hm
  obtain ⟨_, s1, _, _, h1, k1, rfl⟩ := bind_inv hm
  obtain ⟨rfl, rfl⟩ := lift_inv keeps_assertStart h1
  obtain ⟨start, s1, _, _, h2, k2, rfl⟩ := bind_inv k1
  obtain ⟨rfl, rfl, rfl⟩ := mark_inv h2
  obtain ⟨b, s2, es2, _, h3, k3, rfl⟩ := bind_inv k2
  obtain ⟨-, -, -, -, -, hp2, ht2⟩ := Sim.inv (T := all) trivial (digitRun_sim' _ _) hs.self h3
  have hq2 := hs.trans hp2
  refine Tells.nil.append (Tells.nil.append ((ht2.up (h.pos.trans hs)).append ?_))
  split at k3
  · obtain ⟨v, s3, _, _, h4, k4, rfl⟩ := bind_inv k3
    obtain ⟨rfl, rfl⟩ := lift_inv (keeps_digitsValue 2) h4
    have k5 := k4
    obtain ⟨_, s4, es4, _, h6, k6, rfl⟩ := bind_inv k5
    obtain ⟨rfl, rfl, rfl⟩ := pure_inv k6
    obtain ⟨g1, g2⟩ := strange_told ho h hb hq2 (ready_number (by simp)) h6
    rw [← g1.rest] at hpost
    exact Tells.nil.append <| (g2 (esc_yes hpost (by simp))).append .nil
  · obtain ⟨_, s3, es3, _, h4, k4, rfl⟩ := bind_inv k3
    obtain ⟨_, s4, _, _, h5, k5, rfl⟩ := bind_inv k4
    obtain ⟨rfl, rfl⟩ := seek_inv h5
    obtain ⟨rfl, rfl, rfl⟩ := pure_inv k5
    obtain ⟨-, g2⟩ := malformed_told ho h hb hq2 (by
      rw [between_eq (a := m') (b := s2) (x := byte '.' :: between s1 s2) (by rw [hm1, hp2.rest]; rfl)]; rfl) h4
    exact (g2 (esc_no hpost rfl)).append (Tells.nil.append .nil)

theorem hex6_told {c : WLC} (h : Step E.cfg o m') (hb : o.rest = byte '\\' :: m'.rest) (hm1 : m'.rest = byte '|' :: s.rest) (hs : Pos E.cfg m' s)
    (hm : handle6Hex E m' s = .ok (c, t, es)) (hpost : EscPost m'.rest c t.rest) : Tells E.cfg o es := by
  have ho : Pos E.cfg o o := .refl h.pos.wfz h.col
  unfold handle6Hex at hm
  obtain ⟨_, s1, _, _, h1, k1, rfl⟩ := bind_inv hm
  obtain ⟨rfl, rfl⟩ := lift_inv keeps_assertStart h1
  obtain ⟨start, s1, _, _, h2, k2, rfl⟩ := bind_inv k1
  obtain ⟨rfl, rfl, rfl⟩ := mark_inv h2
  obtain ⟨b, s2, es2, _, h3, k3, rfl⟩ := bind_inv k2
  obtain ⟨-, -, -, -, -, hp2, ht2⟩ := Sim.inv (T := all) trivial (digitRun_sim' _ _) hs.self h3
  have hq2 := hs.trans hp2
  refine Tells.nil.append (Tells.nil.append ((ht2.up (h.pos.trans hs)).append ?_))
  split at k3
  · obtain ⟨v, s3, _, _, h4, k4, rfl⟩ := bind_inv k3
    obtain ⟨rfl, rfl⟩ := lift_inv (keeps_digitsValue 6) h4
    refine Tells.nil.append ?_
    split at k4
    · obtain ⟨_, s4, _, _, h5, k5, rfl⟩ := bind_inv k4
      obtain ⟨rfl, rfl⟩ := seek_inv h5
      obtain ⟨rfl, rfl, rfl⟩ := pure_inv k5
      exact Tells.nil.append .nil
    · obtain ⟨v, s3, _, _, h5, k5, rfl⟩ := bind_inv k4
      obtain ⟨rfl, rfl⟩ := lift_inv keeps_fromU32 h5
      obtain ⟨_, s4, es4, _, h6, k6, rfl⟩ := bind_inv k5
      obtain ⟨rfl, rfl, rfl⟩ := pure_inv k6
      obtain ⟨g1, g2⟩ := strange_told ho h hb hq2 (ready_number (by simp)) h6
      rw [← g1.rest] at hpost
      exact Tells.nil.append <| (g2 (esc_yes hpost (by simp))).append .nil
  · obtain ⟨_, s3, es3, _, h4, k4, rfl⟩ := bind_inv k3
    obtain ⟨_, s4, _, _, h5, k5, rfl⟩ := bind_inv k4
    obtain ⟨rfl, rfl⟩ := seek_inv h5
    obtain ⟨rfl, rfl, rfl⟩ := pure_inv k5
    obtain ⟨-, g2⟩ := malformed_told ho h hb hq2 (by
      rw [between_eq (a := m') (b := s2) (x := byte '|' :: between s1 s2) (by rw [hm1, hp2.rest]; rfl)]; rfl) h4
    exact (g2 (esc_no hpost rfl)).append (Tells.nil.append .nil)

theorem octal_told {c : WLC} (h : Step E.cfg o m') (hb : o.rest = byte '\\' :: m'.rest) (hs : Pos E.cfg m' s)
    (hm : handleOctal E m' s = .ok (c, t, es)) (hpost : EscPost m'.rest c t.rest) : Tells E.cfg o es := by
  have ho : Pos E.cfg o o := .refl h.pos.wfz h.col
  unfold handleOctal at hm
  obtain ⟨_, s1, _, _, h1, k1, rfl⟩ := bind_inv hm
  obtain ⟨rfl, rfl⟩ := lift_inv keeps_assertStart h1
  have k2 := k1
  obtain ⟨b, s2, es2, _, h3, k3, rfl⟩ := bind_inv k2
  obtain ⟨-, -, -, -, -, hp2, ht2⟩ := Sim.inv (T := all) trivial (digitRun_sim' _ _) hs.self h3
  have hq2 := hs.trans hp2
  refine Tells.nil.append ((ht2.up (h.pos.trans hs)).append ?_)
  split at k3
  · obtain ⟨v, s3, _, _, h4, k4, rfl⟩ := bind_inv k3
    obtain ⟨rfl, rfl⟩ := lift_inv (keeps_digitsValue 3) h4
    obtain ⟨v, s3, _, _, h5, k5, rfl⟩ := bind_inv k4
    obtain ⟨rfl, rfl⟩ := lift_inv keeps_fromU32 h5
    obtain ⟨_, s4, es4, _, h6, k6, rfl⟩ := bind_inv k5
    obtain ⟨rfl, rfl, rfl⟩ := pure_inv k6
    obtain ⟨g1, g2⟩ := strange_told ho h hb hq2 (ready_number (by simp)) h6
    rw [← g1.rest] at hpost
    exact Tells.nil.append <| Tells.nil.append <| (g2 (esc_yes hpost (by simp))).append .nil
  · obtain ⟨_, s3, es3, _, h4, k4, rfl⟩ := bind_inv k3
    obtain ⟨_, s4, _, _, h5, k5, rfl⟩ := bind_inv k4
    obtain ⟨rfl, rfl⟩ := seek_inv h5
    obtain ⟨rfl, rfl, rfl⟩ := pure_inv k5
    obtain ⟨-, g2⟩ := malformed_told ho h hb hq2 (by
      rfl) h4
    exact (g2 (esc_no hpost rfl)).append (Tells.nil.append .nil)

/-! ### Long names -/

theorem scan_inv {c : CP} {b : Bool} (hp : Pos E.cfg s s) (h : longNameScan E c s = .ok (b, t, es)) :
    Pos E.cfg s t ∧ Tells E.cfg s es ∧ (b = true → ∃ r, t.rest = byte ']' :: r) := by
  obtain ⟨a, u, h1, rfl, h3, h4, h5⟩ := Sim.inv (T := all) trivial longNameScan_sim' hp h
  refine ⟨h4, h5, fun hb => ?_⟩
  subst hb
  obtain ⟨r, hr⟩ := longNameScan_true hp.wf h1
  exact ⟨r, h3.same.rest ▸ hr⟩

theorem longName_told {c : WLC} (hz : Pos E.cfg z o) (hzb : E.scan = true → Step E.cfg z o ∧ z.rest = byte '\\' :: o.rest)
    (h : Step E.cfg o m') (hb : o.rest = byte '\\' :: m'.rest) (hm1 : m'.rest = byte '[' :: s.rest) (hs : Pos E.cfg m' s)
    (hm : handleLongName E m' s = .ok (c, t, es)) (hpost : EscPost m'.rest c t.rest) : Tells E.cfg z es := by
  unfold handleLongName at hm
  obtain ⟨_, s1, _, _, h1, k1, rfl⟩ := bind_inv hm
  obtain ⟨rfl, rfl⟩ := lift_inv keeps_assertStart h1
  obtain ⟨start, s2, _, _, h2, k2, rfl⟩ := bind_inv k1
  obtain ⟨rfl, rfl, rfl⟩ := mark_inv h2
  obtain ⟨c1, s3, es3, _, h3, k3, rfl⟩ := bind_inv k2
  obtain ⟨-, hsame, hp3, ht3⟩ := peek_inv (z := s2) hs.self h3
  obtain ⟨b, s4, es4, _, h4, k4, rfl⟩ := bind_inv k3
  obtain ⟨hp4, ht4, hclose⟩ := scan_inv hp3.self h4
  have hzs : Pos E.cfg z s2 := hz.trans (h.pos.trans hs)
  have hq4 : Pos E.cfg s2 s4 := hp3.trans hp4
  have hm4 : Pos E.cfg m' s4 := hs.trans hq4
  have hbt : between m' s4 = byte '[' :: between s2 s4 := between_eq (by rw [hm1, hq4.rest]; rfl)
  obtain ⟨g1, g2⟩ := piece_eq hb hm4
  refine Tells.nil.append <| Tells.nil.append <| (ht3.up hzs).append <| (ht4.up (hzs.trans hp3)).append ?_
  split at k4
  · obtain ⟨_, s5, es5, _, h5, k5, rfl⟩ := bind_inv k4
    obtain ⟨_, s6, _, _, h6, k6, rfl⟩ := bind_inv k5
    obtain ⟨rfl, rfl⟩ := seek_inv h6
    obtain ⟨rfl, rfl, rfl⟩ := pure_inv k6
    refine Tells.append ?_ (Tells.nil.append .nil)
    refine (Ran.inv (T := all) trivial (QuietAt.ran (malformedLongName_at hz h (h.pos.trans hm4) fun _ => ⟨by rw [g1, hbt], ?_⟩)) h5).2.2
    rw [← hbt, g2]; exact esc_no hpost rfl
  · rename_i hbn
    obtain ⟨stop, s5, _, _, h5, k5, rfl⟩ := bind_inv k4
    obtain ⟨rfl, rfl, rfl⟩ := mark_inv h5
    refine Tells.nil.append ?_
    obtain ⟨r, hr⟩ := hclose (by simpa using hbn)
    dsimp only at k5
    rcases hcp : longnameToCodepoint (between s2 s5) with _ | p <;> rw [hcp] at k5
    · have hnone := hcp
      obtain ⟨_, s6, es6, _, h6, k6, rfl⟩ := bind_inv k5
      obtain ⟨_, s7, _, _, h7, k7, rfl⟩ := bind_inv k6
      obtain ⟨rfl, rfl⟩ := seek_inv h7
      obtain ⟨rfl, rfl, rfl⟩ := pure_inv k7
      refine Tells.append ?_ (Tells.nil.append .nil)
      have hst : Step E.cfg s5 (nextSource E.cfg s5).2 := step_byte hm4 hr (by decide) (by decide)
      have hrest : (nextSource E.cfg s5).2.rest = r := by
        rw [ns_byte hm4.wf hr (by decide) (fun h => absurd h (by decide))]
      have hmt : between m' (nextSource E.cfg s5).2 = byte '[' :: (between s2 s5 ++ [byte ']']) := by
        refine between_eq ?_
        rw [hm1, hq4.rest, hr, hrest]; simp
      obtain ⟨g3, g4⟩ := piece_eq hb (hm4.trans hst.pos)
      refine (Ran.inv (T := all) trivial (QuietAt.ran (unknownLongName_at hz h (h.pos.trans hm4) hst (fun hsc => (hzb hsc).1)
        fun _ => ⟨?_, by rw [g3, hmt], fun _ => ?_, fun hsc => ?_⟩)) h6).2.2
      · intro hn
        have := named_iff.mpr hn
        rw [hnone] at this; cases this
      · rw [← hmt, g4]; exact esc_no hpost rfl
      · exact between_eq (by rw [(hzb hsc).2, ((h.pos.trans hm4).trans hst.pos).rest]; rfl)
    · have hsome := hcp
      obtain ⟨_, s6, es6, _, h6, k6, rfl⟩ := bind_inv k5
      obtain ⟨-, hsame6, hp6, ht6⟩ := src_inv hm4.self h6
      obtain ⟨_, s7, es7, _, h7, k7, rfl⟩ := bind_inv k6
      obtain ⟨rfl, rfl, rfl⟩ := pure_inv k7
      refine (ht6.up (hz.trans (h.pos.trans hm4))).append (Tells.append ?_ .nil)
      unfold M.when at h7
      split at h7
      · obtain ⟨f1, f2⟩ := strange_told hz h hb (hm4.trans hp6) (ready_named hsome) h7
        rw [← f1.rest] at hpost
        refine f2 (esc_yes hpost ?_)
        split <;> simp
      · obtain ⟨-, -, rfl⟩ := pure_inv h7
        exact .nil

/-! ### A backslash behind a backslash -/

/-- What the base reads as a long name. -/
theorem longName_post {m : St} {c : WLC} (hm : WF m) (hc : (nextSource cfg m).1 = ch '[') (hs : SameAt (nextSource cfg m).2 s)
    (h : CodeParser.handleLongName cfg m s = .ok (c, t)) : EscPost m.rest c t.rest := by
  obtain ⟨b, r, h1, h2, -, h3⟩ := ns_char hm hc (by decide)
  have hb : b = byte '[' := UInt8.toNat_inj.mp (h2.trans (by decide))
  subst hb
  have hm2 : WF { m with flag := s.flag } := hm
  have e0 := ns_byte (cfg := cfg) (s := { m with flag := s.flag }) hm2 h1 (by decide) (fun h => absurd h (by decide))
  have e : (nextSource cfg { m with flag := s.flag }).2 = s := by
    rw [e0]
    rw [h3] at hs
    exact St.ext' hs.rest (by rw [h2]; exact hs.loc) hs.eof rfl
  have hsp := nextEscape_spec (cfg := cfg) hm2
  unfold wp at hsp
  have : CodeParser.nextEscape cfg { m with flag := s.flag } { m with flag := s.flag } = CodeParser.handleLongName cfg m s := by
    have e1 : (nextSource cfg { m with flag := s.flag }).1 = ch '[' := by rw [e0]; rfl
    have e3 : CodeParser.peekSrc cfg { m with flag := s.flag } = .ok (ch '[', { m with flag := s.flag }) := by
      show Except.ok (peekSource cfg _) = _
      unfold peekSource
      rw [e0]
      simp only [St.seek]
      rfl
    have e4 : CodeParser.src cfg { m with flag := s.flag } = .ok (ch '[', s) := by
      exact congrArg Except.ok (Prod.ext e1 e)
    unfold CodeParser.nextEscape
    show CodeParser.M.bind _ _ _ = _
    unfold CodeParser.M.bind
    rw [e3]
    simp only [show simpleEscape (ch '[') = none from rfl, if_pos]
    show CodeParser.M.bind _ _ _ = _
    unfold CodeParser.M.bind
    rw [e4]
    rfl
  rw [this, h] at hsp
  exact hsp.2

theorem goBack_inv {m : St} {u : Unit} (h : goBack m s = .ok (u, t, es)) : t = { s with rest := m.rest, loc := m.loc } ∧ es = [] := by
  have h : Except.ok ((), { s with rest := m.rest, loc := m.loc }, []) = (Except.ok (u, t, es) : Except Fail _) := h
  simp only [Except.ok.injEq, Prod.mk.injEq] at h
  exact ⟨h.2.1.symm, h.2.2.symm⟩

theorem look_told {u : Unit} (hz : Step E.cfg z o) (hzb : z.rest = byte '\\' :: o.rest) (h : Step E.cfg o m') (hb : o.rest = byte '\\' :: m'.rest)
    (hm : lookForLongName E m' m' = .ok (u, t, es)) : Tells E.cfg z es := by
  have hzm := hz.pos.trans h.pos
  unfold lookForLongName at hm
  obtain ⟨c1, s1, es1, _, h1, k1, rfl⟩ := bind_inv hm
  obtain ⟨rfl, hsame1, hp1, ht1⟩ := src_inv h.pos.self h1
  refine (ht1.up hzm).append ?_
  split at k1
  swap
  · obtain ⟨-, -, rfl⟩ := pure_inv k1; exact .nil
  rename_i hc
  obtain ⟨b, r, hb1, hb2, -, hb3⟩ := ns_char h.pos.wf hc (by decide)
  have hbb : b = byte '[' := UInt8.toNat_inj.mp (hb2.trans (by decide))
  subst hbb
  obtain ⟨start, s2, _, _, h2, k2, rfl⟩ := bind_inv k1
  obtain ⟨rfl, rfl, rfl⟩ := mark_inv h2
  obtain ⟨c3, s3, es3, _, h3, k3, rfl⟩ := bind_inv k2
  obtain ⟨-, -, hp3, ht3⟩ := src_inv hp1 h3
  refine Tells.nil.append ((ht3.up hzm).append ?_)
  split at k3
  swap
  · obtain ⟨-, -, rfl⟩ := pure_inv k3; exact .nil
  obtain ⟨c4, s4, es4, _, h4, k4, rfl⟩ := bind_inv k3
  obtain ⟨hc4, hsame4, hp4, ht4⟩ := src_inv hp3 h4
  obtain ⟨w, s5, es5, _, h5, k5, rfl⟩ := bind_inv k4
  obtain ⟨hw, hp5, ht5⟩ := Ran.inv (T := all) trivial (skippedName_ran hp4 fun he => by
    obtain ⟨b, r, -, -, -, h⟩ := ns_char hp3.wf (hc4 ▸ he) (by decide)
    rw [← hsame4.eof, h]) h5
  refine (ht4.up hzm).append ((ht5.up hzm).append ?_)
  split at k5
  swap
  · obtain ⟨-, -, rfl⟩ := pure_inv k5; exact .nil
  rename_i hwt
  have heof : s5.eof = false := hw (by simpa using hwt)
  obtain ⟨_, s6, es6, _, h6, k6, rfl⟩ := bind_inv k5
  obtain ⟨rfl, rfl⟩ := goBack_inv h6
  have hsame : SameAt s2 { s5 with rest := s2.rest, loc := s2.loc } :=
    ⟨rfl, rfl, by rw [heof, ← hsame1.eof, hb3]⟩
  have hp7 : Pos E.cfg m' { s5 with rest := s2.rest, loc := s2.loc } := by
    have := hp1.seek hp5
    rwa [show s5.seek s2 = { s5 with rest := s2.rest, loc := s2.loc } from by
      unfold St.seek; congr 1; rw [heof, ← hsame1.eof, hb3]] at this
  obtain ⟨c7, s7, es7, _, h7, k7, rfl⟩ := bind_inv k6
  obtain ⟨-, -, rfl⟩ := pure_inv k7
  refine Tells.nil.append (Tells.append ?_ .nil)
  obtain ⟨c8, t8, hok, -⟩ := longName_ok h.pos.wf hc (hsame1.trans hsame)
  have hout := handleLongName_out (E := { E with enable := true, scan := true }) (T := all) hz.pos (SameAt.refl m') h (fun _ => hz) (Near.refl _) (h.pos.trans hp7)
  simp only at hout
  rw [hok, h7] at hout
  have hpost := longName_post h.pos.wf hc (hsame1.trans hsame) hok
  rw [hout.1, hout.2.1.same.rest] at hpost
  refine longName_told (E := { E with enable := true, scan := true }) hz.pos (fun _ => ⟨hz, hzb⟩) h hb ?_ hp7 h7 hpost
  show m'.rest = byte '[' :: s2.rest
  rw [hb1, ← hsame1.rest, hb3]

/-! ### Other escapes -/

theorem escapedName_inv {b : Bool} (hp : Pos E.cfg s s) (h : escapedName E s = .ok (b, t, es)) :
    Pos E.cfg s t ∧ Tells E.cfg s es ∧ (b = true → ∃ x, s.rest = x ++ byte ']' :: t.rest) := by
  have key : Ran E.cfg all s s (escapedName E) (fun b t => b = true → ∃ x, s.rest = x ++ byte ']' :: t.rest) := by
    unfold escapedName
    refine Ran.loop (fun _ _ => True) (fun _ s => s.rest.length) trivial hp (by omega) ?_
    intro _ v _ hp
    refine (Ran.peek hp).bind fun c t h ht => ?_
    obtain ⟨rfl, h⟩ := h
    split
    · rename_i ha
      have hne : v.rest ≠ [] := fun hr => by rw [nextSource_nil hr] at ha; cases ha
      refine (Ran.src ht).bind fun _ u hu hpu => Ran.pure hpu ⟨trivial, ?_⟩
      rw [← hu.2.rest, h.rest]
      exact ns_len ht.wf (by rw [← h.rest]; exact hne)
    · split
      · rename_i hc
        have e := MSim.src E.cfg v t h
        have e2 : SameAt (nextSource E.cfg v).2 (nextSource E.cfg t).2 := e.2
        obtain ⟨b, r, hb1, hb2, -, hb3⟩ := ns_char hp.wf hc (by decide)
        refine (Ran.src ht).bind fun _ u hu hpu => Ran.pure hpu fun _ => ⟨between s v, ?_⟩
        rw [hp.rest, hb1, ← hu.2.rest, ← e2.rest, hb3]
        rw [show b = byte ']' from UInt8.toNat_inj.mp (hb2.trans (by decide))]
      · exact Ran.pure ht fun h => by cases h
  obtain ⟨h1, h2, h3⟩ := Ran.inv (T := all) trivial key h
  exact ⟨h2, h3, h1⟩

theorem unhandled_told {f : Span → List Action} {u : Unit} (h : Step E.cfg o m') (hb : o.rest = byte '\\' :: m'.rest) (hs : Pos E.cfg m' s)
    (hno : NoEscape m'.rest) (hf : ∀ a ∈ f ⟨o.loc, s.loc⟩, Mends (byte '\\' :: between m' s) ⟨o.loc, s.loc⟩ a)
    (hm : unhandled m' f s = .ok (u, t, es)) : Tells E.cfg o es := by
  obtain ⟨g1, g2⟩ := piece_eq hb hs
  unfold unhandled at hm
  obtain ⟨l, s1, _, _, h1, k1, rfl⟩ := bind_inv hm
  obtain ⟨hl, rfl, rfl⟩ := previous_inv h1
  rw [h.prev] at hl
  cases hl
  obtain ⟨l, s2, _, _, h2, k2, rfl⟩ := bind_inv k1
  obtain ⟨rfl, rfl, rfl⟩ := here_inv h2
  obtain ⟨sp, s3, _, _, h3, k3, rfl⟩ := bind_inv k2
  obtain ⟨rfl, rfl, rfl⟩ := span_inv h3
  obtain ⟨rfl, rfl⟩ := emit_inv k3
  refine Tells.nil.append <| Tells.nil.append <| Tells.nil.append <| Tells.one ?_
  refine ⟨o, _, .refl h.pos.wfz h.col, h.pos.trans hs, rfl, .unhandled g1 ?_ ?_⟩
  · rw [g2]; exact hno
  · rw [g1]; exact hf

theorem shown_short {n : Nat} {g : List UInt8} {c0 : Char} (hn : c0.toNat = n) (hg : (CP.char n).graphical = some g) (hl : ¬ g.length > 1) :
    g = String.utf8EncodeChar c0 := by
  subst hn
  by_cases hp : 0x20 ≤ c0.toNat ∧ c0.toNat ≤ 0x7e
  · have h1 : (CP.char c0.toNat).graphical = some [byte c0] := Props.graphicalGo_ascii hp
    rw [h1] at hg
    cases hg
    unfold String.utf8EncodeChar byte
    simp only [enc_val]
    rw [if_pos (by omega)]
  · exfalso
    obtain ⟨-, r, p, e, h1, -, h2⟩ := spells (n := c0.toNat) c0.valid (by omega) hg
    subst h1
    rcases r with _ | ⟨b, r⟩
    · have := h2 []
      generalize hq : ([] ++ [] : List UInt8) = q at this
      cases this with
      | octal hl hnum => rename_i ds _; rcases ds with _ | ⟨x, ds⟩ <;> simp at hl hq
      | _ => simp at hq
    · simp at hl

theorem ofNat_toNat' {n : Nat} (h : n < 128) : (Char.ofNat n).toNat = n := by
  have : Nat.isValidChar n := by unfold Nat.isValidChar; omega
  unfold Char.ofNat
  rw [dif_pos this]
  rfl

theorem graphical_ascii {n : Nat} {b : UInt8} {g : List UInt8} (hb : b.toNat = n) (hn : 0x20 ≤ n ∧ n ≤ 0x7e) (hg : (CP.char n).graphical = some g) :
    g = [b] := by
  obtain ⟨c, rfl⟩ : ∃ c : Char, c.toNat = n := ⟨Char.ofNat n, ofNat_toNat' (by omega)⟩
  rw [show (CP.char c.toNat).graphical = some [byte c] from Props.graphicalGo_ascii hn] at hg
  cases hg
  rw [show b = byte c from UInt8.toNat_inj.mp (by rw [hb, byte_toNat (by omega)])]

theorem unhandledIssue_told {c : CP} {u : Unit} (h : Step E.cfg o m') (hb : o.rest = byte '\\' :: m'.rest) (hs : Pos E.cfg m' s)
    (hc : c = (nextSource E.cfg m').1) (hsame : SameAt (nextSource E.cfg m').2 s) (hno : NoEscape m'.rest)
    (hm : unhandledIssue E m' c s = .ok (u, t, es)) : Tells E.cfg o es := by
  have ho : Pos E.cfg o o := .refl h.pos.wfz h.col
  obtain ⟨g1, g2⟩ := piece_eq hb hs
  unfold unhandledIssue at hm
  obtain ⟨l, s1, _, _, h1, k1, rfl⟩ := bind_inv hm
  obtain ⟨hl, rfl, rfl⟩ := previous_inv h1
  rw [h.prev] at hl
  cases hl
  obtain ⟨l, s2, _, _, h2, k2, rfl⟩ := bind_inv k1
  obtain ⟨rfl, rfl, rfl⟩ := here_inv h2
  refine Tells.nil.append <| Tells.nil.append ?_
  have one : ∀ {n : Nat}, c = .char n → n < 0x80 → n ≠ 13 → ∃ b, b.toNat = n ∧ between m' s2 = [b] := by
    intro n hn hlt h13
    obtain ⟨b, r, hb1, hb2, -, hb3⟩ := ns_char h.pos.wf (hc ▸ hn) hlt
    exact ⟨b, hb2, between_eq (by rw [hb1, ← hsame.rest, hb3]; rfl)⟩
  split at k2
  · rename_i hup
    obtain ⟨n, rfl⟩ : ∃ n, c = .char n := by cases c <;> first | exact ⟨_, rfl⟩ | cases hup
    simp only [CP.isUpper, inR, Bool.and_eq_true, decide_eq_true_eq] at hup
    obtain ⟨b, hb1, hb2⟩ := one rfl (by omega) (by omega)
    unfold escapedUpper at k2
    obtain ⟨closed, s3, es3, _, h3, k3, rfl⟩ := bind_inv k2
    obtain ⟨hp3, ht3, hcl⟩ := escapedName_inv hs.self h3
    obtain ⟨name, s4, _, _, h4, k4, rfl⟩ := bind_inv k3
    obtain ⟨rfl, rfl, rfl⟩ := text_inv h4
    refine (ht3.up (h.pos.trans hs)).append (Tells.nil.append ?_)
    split at k4
    · rename_i hcn
      simp only [Bool.and_eq_true] at hcn
      obtain ⟨x, hx⟩ := hcl hcn.1
      have hbt : between m' s4 = (b :: x) ++ [byte ']'] := by
        refine between_eq ?_
        rw [hs.rest, hb2, hx]; simp
      rw [hbt] at hcn
      refine unhandled_told h hb (hs.trans hp3) hno (fun a ha => ?_) k4
      simp only [List.mem_singleton] at ha; subst ha
      refine .opened (name := b :: x) (named_iff.mp ?_) (by rw [hbt]) rfl
      simpa using hcn.2
    · obtain ⟨g, s5, _, _, h5, k5, rfl⟩ := bind_inv k4
      obtain ⟨hg, rfl, rfl⟩ := shown_inv h5
      obtain ⟨sp, s6, _, _, h6, k6, rfl⟩ := bind_inv k5
      obtain ⟨rfl, rfl, rfl⟩ := span_inv h6
      obtain ⟨rfl, rfl⟩ := emit_inv k6
      refine Tells.nil.append <| Tells.nil.append <| Tells.one ?_
      have hgb : g = [b] := graphical_ascii hb1 (by omega) hg
      refine ⟨o, s2, ho, h.pos.trans hs, rfl, .unhandled g1 (by rw [g2]; exact hno) fun a ha => ?_⟩
      rw [g1, hb2]
      subst hgb
      have : a = .replace ⟨o.loc, s2.loc⟩ (txt ['\\', '['] ++ [b] ++ txt ['X', 'X', 'X', ']']) ∨
          a = .replace ⟨o.loc, s2.loc⟩ (txt ['\\', ':'] ++ [b] ++ txt ['X', 'X', 'X']) := by
        split at ha
        · simpa using ha
        · left; simpa using ha
      rcases this with rfl | rfl
      · exact .template rfl (List.mem_cons_self ..)
      · exact .template rfl (List.mem_cons_of_mem _ (List.mem_cons_self ..))
  · split at k2
    · rename_i hhex
      obtain ⟨n, rfl⟩ : ∃ n, c = .char n := by cases c <;> first | exact ⟨_, rfl⟩ | cases hhex
      simp only [CP.isHex, inR, Bool.or_eq_true, Bool.and_eq_true, decide_eq_true_eq] at hhex
      obtain ⟨b, hb1, hb2⟩ := one rfl (by omega) (by omega)
      obtain ⟨g, s5, _, _, h5, k5, rfl⟩ := bind_inv k2
      obtain ⟨hg, rfl, rfl⟩ := shown_inv h5
      have hgb : g = [b] := graphical_ascii hb1 (by omega) hg
      refine Tells.nil.append (unhandled_told h hb hs hno (fun a ha => ?_) k5)
      simp only [List.mem_singleton] at ha; subst ha
      rw [hb2, hgb]
      exact .template rfl (List.mem_cons_of_mem _ (List.mem_cons_of_mem _ (List.mem_cons_self ..)))
    · split at k2
      · obtain ⟨-, -, rfl⟩ := pure_inv k2; exact .nil
      · split at k2
        · obtain ⟨-, -, rfl⟩ := pure_inv k2; exact .nil
        · rename_i h3 h4
          obtain ⟨g, s5, _, _, h5, k5, rfl⟩ := bind_inv k2
          obtain ⟨hg, rfl, rfl⟩ := shown_inv h5
          refine Tells.nil.append (unhandled_told h hb hs hno (fun a ha => ?_) k5)
          split at ha
          · cases ha
          · rename_i hl
            simp only [List.mem_singleton] at ha; subst ha
            rcases srcOK (cfg := E.cfg) h.pos.wf with hk | hk | hk | ⟨n, hk, hn⟩
            · rw [← hc] at hk; exact absurd hk h3
            · rw [← hc] at hk
              cases c <;> first | (cases hk; done) | exact absurd rfl h4
            · rw [← hc] at hk; subst hk
              rw [show (WLC.graphical ⟨.crlf, .none⟩) = some (bytes ['\\', 'r', '\\', 'n']) by decide] at hg
              cases hg
              exact absurd (by decide) hl
            · obtain ⟨c0, hc0, hw, -⟩ := char_read h.pos.wf hk
              rw [← hc] at hk; subst hk
              rw [shown_short hc0 hg hl, between_eq (a := m') (b := s5) (by rw [hw, hsame.rest])]
              exact .doubled

theorem odd_escapes : ∀ e ∈ Spec.singleEscapes, (e.2 = .metaOpen ∨ e.2 = .metaClose ∨ e.2 = .metaBackspace ∨ e.2 = .metaFormFeed) →
    e.1 ∈ ['<', '>', 'b', 'f'] := by decide +kernel

theorem simple_told {c p : CP} {u : Unit} (h : Step E.cfg o m') (hb : o.rest = byte '\\' :: m'.rest) (hs : Pos E.cfg m' s)
    (hc : c = (nextSource E.cfg m').1) (hsame : SameAt (nextSource E.cfg m').2 s) (hp : simpleEscape c = some p)
    (hm : simpleIssue E m' p s = .ok (u, t, es)) : Tells E.cfg o es := by
  have ho : Pos E.cfg o o := .refl h.pos.wfz h.col
  obtain ⟨g1, g2⟩ := piece_eq hb hs
  have one : ∀ {n : Nat}, c = .char n → n < 0x80 → ∃ b, b.toNat = n ∧ m'.rest = b :: s.rest := by
    intro n hn hlt
    obtain ⟨b, r, hb1, hb2, -, hb3⟩ := ns_char h.pos.wf (hc ▸ hn) hlt
    exact ⟨b, hb2, by rw [hb1, ← hsame.rest, hb3]⟩
  unfold simpleIssue at hm
  split at hm
  · rename_i hpb
    subst hpb
    have hc' := mem_simple hp
    unfold escapedBackslash at hm
    split at hm
    swap
    · obtain ⟨-, -, rfl⟩ := pure_inv hm; exact .nil
    obtain ⟨reset, s1, _, _, h1, k1, rfl⟩ := bind_inv hm
    obtain ⟨rfl, rfl, rfl⟩ := mark_inv h1
    obtain ⟨_, s2, es2, _, h2, k2, rfl⟩ := bind_inv k1
    obtain ⟨-, rfl⟩ := seek_inv k2
    refine Tells.nil.append (Tells.append ?_ .nil)
    obtain ⟨b, hb1, hb2⟩ := one hc' (by decide)
    have hst : Step E.cfg m' s1 := ⟨hs, h.pos.col, by
      rw [← hsame.loc, Props.loc_step E.cfg m' h.pos.wf, ← hc, hc',
        locUpd_char (by decide) (by decide) (by decide), increment_next]⟩
    refine look_told h hb hst ?_ h2
    rw [hb2, show b = byte '\\' from UInt8.toNat_inj.mp (hb1.trans (by decide))]
  · split at hm
    swap
    · obtain ⟨-, -, rfl⟩ := pure_inv hm; exact .nil
    rename_i hodd
    simp only [Bool.and_eq_true, Bool.or_eq_true, beq_iff_eq] at hodd
    obtain ⟨g, s1, _, _, h1, k1, rfl⟩ := bind_inv hm
    obtain ⟨-, rfl, rfl⟩ := shown_inv h1
    obtain ⟨l, s2, _, _, h2, k2, rfl⟩ := bind_inv k1
    obtain ⟨hl, rfl, rfl⟩ := previous_inv h2
    rw [h.prev] at hl
    cases hl
    obtain ⟨l, s3, _, _, h3, k3, rfl⟩ := bind_inv k2
    obtain ⟨rfl, rfl, rfl⟩ := here_inv h3
    obtain ⟨sp, s4, _, _, h4, k4, rfl⟩ := bind_inv k3
    obtain ⟨rfl, rfl, rfl⟩ := span_inv h4
    obtain ⟨rfl, rfl⟩ := emit_inv k4
    refine Tells.nil.append <| Tells.nil.append <| Tells.nil.append <| Tells.nil.append <| Tells.one ?_
    refine ⟨o, _, ho, h.pos.trans hs, rfl, ?_⟩
    have hx : ∃ x, (x, p) ∈ Spec.singleEscapes ∧ c = .char x.toNat := by
      rcases simpleEscape_cases hp with h | ⟨-, rfl⟩ | ⟨-, rfl⟩ | ⟨-, rfl⟩
      · exact h
      all_goals (rcases hodd.2 with ((h | h) | h) | h <;> cases h)
    obtain ⟨x, hx1, hx2⟩ := hx
    have hlt := (singleEscapes_simple _ hx1).1
    obtain ⟨b, hb1, hb2⟩ := one hx2 hlt
    refine .oddEscape (x := x) ?_ (odd_escapes _ hx1 ?_)
    · rw [g1, between_eq (a := m') (x := [b]) (by rw [hb2]; rfl), show b = byte x from UInt8.toNat_inj.mp (by rw [hb1, byte_toNat hlt])]
    · rcases hodd.2 with ((h | h) | h) | h <;> simp [h]

/-! ### Characters -/

theorem nextEscape_told {c : WLC} (hE : E.scan = false) (h : Step E.cfg o m') (hb : o.rest = byte '\\' :: m'.rest)
    (hm : nextEscape E m' m' = .ok (c, t, es)) : Tells E.cfg o es := by
  have hmm := h.pos.self
  have hpost : EscPost m'.rest c t.rest := by
    have hout := nextEscape_out (T := all) hE h (Near.refl m')
    have hsp := nextEscape_spec (cfg := E.cfg) h.pos.wf
    unfold wp at hsp
    rw [hm] at hout
    rcases hx : CodeParser.nextEscape E.cfg m' m' with e | ⟨a, v⟩ <;> rw [hx] at hout hsp
    · exact hout.elim
    · have := hsp.2
      rwa [hout.1, hout.2.1.same.rest] at this
  unfold nextEscape at hm
  obtain ⟨c1, s1, es1, _, h1, k1, rfl⟩ := bind_inv hm
  obtain ⟨hc1, hsame1, hp1, ht1⟩ := peek_inv hmm h1
  refine (ht1.up h.pos).append ?_
  have hsrc := MSim.src E.cfg m' s1 hsame1
  have e1 : (nextSource E.cfg m').1 = (nextSource E.cfg s1).1 := hsrc.1
  have e2 : SameAt (nextSource E.cfg m').2 (nextSource E.cfg s1).2 := hsrc.2
  have one : ∀ {n : Nat} {s2 : St}, SameAt (nextSource E.cfg m').2 s2 → c1 = .char n → n < 0x80 → ∃ b, b.toNat = n ∧ m'.rest = b :: s2.rest := by
    intro n s2 hsame hn hlt
    obtain ⟨b, r, hb1, hb2, -, hb3⟩ := ns_char h.pos.wf (hc1 ▸ hn) hlt
    exact ⟨b, hb2, by rw [hb1, ← hsame.rest, hb3]⟩
  rcases hp : simpleEscape c1 with _ | p <;> rw [hp] at k1
  rotate_left
  · obtain ⟨d, s2, es2, _, h2, k2, rfl⟩ := bind_inv k1
    obtain ⟨-, hsame2, hp2, ht2⟩ := src_inv hp1 h2
    obtain ⟨_, s3, es3, _, h3, k3, rfl⟩ := bind_inv k2
    obtain ⟨-, -, rfl⟩ := pure_inv k3
    exact (ht2.up h.pos).append ((simple_told h hb hp2 hc1 (e2.trans hsame2) hp h3).append .nil)
  · dsimp only at k1
    split at k1
    · rename_i hcc
      obtain ⟨d, s2, es2, _, h2, k2, rfl⟩ := bind_inv k1
      obtain ⟨-, hsame2, hp2, ht2⟩ := src_inv hp1 h2
      obtain ⟨b, hb1, hb2⟩ := one (e2.trans hsame2) hcc (by decide)
      rw [show b = byte '[' from UInt8.toNat_inj.mp (hb1.trans (by decide))] at hb2
      exact (ht2.up h.pos).append (longName_told (.refl h.pos.wfz h.col) (fun hs => by rw [hE] at hs; cases hs) h hb hb2 hp2 k2 hpost)
    split at k1
    · rename_i hcc
      obtain ⟨d, s2, es2, _, h2, k2, rfl⟩ := bind_inv k1
      obtain ⟨-, hsame2, hp2, ht2⟩ := src_inv hp1 h2
      obtain ⟨b, hb1, hb2⟩ := one (e2.trans hsame2) hcc (by decide)
      rw [show b = byte ':' from UInt8.toNat_inj.mp (hb1.trans (by decide))] at hb2
      exact (ht2.up h.pos).append (hex4_told h hb hb2 hp2 k2 hpost)
    split at k1
    · rename_i hcc
      obtain ⟨d, s2, es2, _, h2, k2, rfl⟩ := bind_inv k1
      obtain ⟨-, hsame2, hp2, ht2⟩ := src_inv hp1 h2
      obtain ⟨b, hb1, hb2⟩ := one (e2.trans hsame2) hcc (by decide)
      rw [show b = byte '.' from UInt8.toNat_inj.mp (hb1.trans (by decide))] at hb2
      exact (ht2.up h.pos).append (hex2_told h hb hb2 hp2 k2 hpost)
    split at k1
    · rename_i hcc
      obtain ⟨d, s2, es2, _, h2, k2, rfl⟩ := bind_inv k1
      obtain ⟨-, hsame2, hp2, ht2⟩ := src_inv hp1 h2
      obtain ⟨b, hb1, hb2⟩ := one (e2.trans hsame2) hcc (by decide)
      rw [show b = byte '|' from UInt8.toNat_inj.mp (hb1.trans (by decide))] at hb2
      exact (ht2.up h.pos).append (hex6_told h hb hb2 hp2 k2 hpost)
    split at k1
    · obtain ⟨d, s2, es2, _, h2, k2, rfl⟩ := bind_inv k1
      obtain ⟨-, hsame2, hp2, ht2⟩ := src_inv hp1 h2
      exact (ht2.up h.pos).append (octal_told h hb hp2 k2 hpost)
    · unfold unhandledEscape at k1
      obtain ⟨c2, s2, es2, _, h2, k2, rfl⟩ := bind_inv k1
      obtain ⟨hc2, hsame2, hp2, ht2⟩ := peek_inv hp1 h2
      obtain ⟨c3, s3, es3, _, h3, k3, rfl⟩ := bind_inv k2
      obtain ⟨hc3, hsame3, hp3, ht3⟩ := src_inv hp2 h3
      obtain ⟨_, s4, es4, _, h4, k4, rfl⟩ := bind_inv k3
      obtain ⟨_, s5, _, _, h5, k5, rfl⟩ := bind_inv k4
      obtain ⟨rfl, rfl⟩ := seek_inv h5
      obtain ⟨rfl, rfl, rfl⟩ := pure_inv k5
      refine (ht2.up h.pos).append <| (ht3.up h.pos).append <| Tells.append ?_ <| Tells.nil.append .nil
      unfold M.when at h4
      split at h4
      · have e3 : SameAt (nextSource E.cfg s1).2 (nextSource E.cfg s2).2 := (MSim.src E.cfg s1 s2 hsame2).2
        exact unhandledIssue_told h hb hp3 (hc2.trans e1.symm) (e2.trans (e3.trans hsame3)) (esc_no hpost rfl) h4
      · obtain ⟨-, -, rfl⟩ := pure_inv h4; exact .nil

theorem nextWL_told {c : WLC} (hE : E.scan = false) (hp : Pos E.cfg z s) (hm : nextWL E s = .ok (c, t, es)) : Tells E.cfg z es := by
  refine Tells.up hp ?_
  unfold nextWL at hm
  obtain ⟨c1, s1, es1, _, h1, k1, rfl⟩ := bind_inv hm
  obtain ⟨hc1, hsame1, hp1, ht1⟩ := src_inv hp.self h1
  refine ht1.append ?_
  split at k1
  · obtain ⟨-, -, rfl⟩ := pure_inv k1; exact .nil
  · rename_i hc
    have hc' : (nextSource E.cfg s).1 = ch '\\' := hc1 ▸ not_not.mp hc
    obtain ⟨m, s2, _, _, h2, k2, rfl⟩ := bind_inv k1
    obtain ⟨rfl, rfl, rfl⟩ := mark_inv h2
    obtain ⟨b, r, hb1, hb2, -, hb3⟩ := ns_char hp.wf hc' (by decide)
    have hst : Step E.cfg s s2 := ⟨hp1, hp.col, by
      rw [← hsame1.loc, Props.loc_step E.cfg s hp.wf, hc',
        locUpd_char (by decide) (by decide) (by decide), increment_next]⟩
    refine Tells.nil.append (nextEscape_told hE hst ?_ k2)
    rw [hb1, ← hsame1.rest, hb3, show b = byte '\\' from UInt8.toNat_inj.mp (hb2.trans (by decide))]

/-- The same character, and all about issues. -/
theorem nextWL_full {T : Want} (hE : E.scan = false) : Sim E.cfg T never z Read (CodeParser.nextWL E.cfg) (nextWL E) := by
  intro s s' hs hp
  have := nextWL_sim' (T := T) hE s s' hs hp
  rcases hm : CodeParser.nextWL E.cfg s with e | ⟨a, t⟩ <;> rcases hm' : nextWL E s' with e' | ⟨a', t', es⟩ <;> rw [hm, hm'] at this
  · exact this
  · exact this
  · exact this
  · refine ⟨this.1, this.2.1, this.2.2.1, fun e he => ?_⟩
    have h1 := this.2.2.2 e he
    cases e with
    | issue i => exact ⟨h1.1, h1.2.1, fun _ => nextWL_told hE hp hm' i he⟩
    | _ => exact h1

end
end CodeParser.Chk
