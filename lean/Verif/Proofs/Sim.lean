import Verif.Model.Char
import Verif.Proofs.Char3
/-!
The encoding flag does not influence reading: computations run in states that
differ in the flag only give the same results (helper lemmas).
-/
namespace CodeParser

/-- Two reader states at the same position (they may differ in the encoding flag). -/
structure SameAt (s t : St) : Prop where
  rest : s.rest = t.rest
  loc : s.loc = t.loc
  eof : s.eof = t.eof

theorem SameAt.refl (s : St) : SameAt s s := ⟨rfl, rfl, rfl⟩
theorem SameAt.symm {s t : St} (h : SameAt s t) : SameAt t s := ⟨h.1.symm, h.2.symm, h.3.symm⟩
theorem SameAt.trans {s t u : St} (h : SameAt s t) (h' : SameAt t u) : SameAt s u :=
  ⟨h.1.trans h'.1, h.2.trans h'.2, h.3.trans h'.3⟩

/-- `m` and `m'` give `ra`-related results and the same error from states at the
same position, and end at the same position. -/
def MSim {α} (ra : α → α → Prop) (m m' : M α) : Prop :=
  ∀ s s', SameAt s s' → match m s, m' s' with
    | .ok (a, t), .ok (a', t') => ra a a' ∧ SameAt t t'
    | .error e, .error e' => e = e'
    | _, _ => False

theorem MSim.pure {α} {ra : α → α → Prop} {a a' : α} (h : ra a a') :
    MSim ra (Pure.pure a) (Pure.pure a') := fun _ _ hs => ⟨h, hs⟩

theorem MSim.bind {α β} {ra : α → α → Prop} {rb : β → β → Prop} {m m' : M α} {f f' : α → M β}
    (h : MSim ra m m') (hf : ∀ a a', ra a a' → MSim rb (f a) (f' a')) :
    MSim rb (m >>= f) (m' >>= f') := by
  intro s s' hs
  have h1 := h s s' hs
  show match M.bind m f s, M.bind m' f' s' with
    | .ok (a, t), .ok (a', t') => rb a a' ∧ SameAt t t'
    | .error e, .error e' => e = e'
    | _, _ => False
  unfold M.bind
  cases hm : m s with
  | error e =>
    cases hm' : m' s' with
    | error e' => rw [hm, hm'] at h1; exact h1
    | ok p => rw [hm, hm'] at h1; exact h1.elim
  | ok p =>
    cases hm' : m' s' with
    | error e' => rw [hm, hm'] at h1; exact h1.elim
    | ok p' =>
      rw [hm, hm'] at h1
      obtain ⟨a, t⟩ := p; obtain ⟨a', t'⟩ := p'
      exact hf a a' h1.1 t t' h1.2

/-- The common case of equal results. -/
theorem MSim.bindE {α β} {rb : β → β → Prop} {m m' : M α} {f f' : α → M β}
    (h : MSim Eq m m') (hf : ∀ a, MSim rb (f a) (f' a)) : MSim rb (m >>= f) (m' >>= f') :=
  h.bind fun a a' e => by subst e; exact hf a

theorem MSim.ite {α} {ra : α → α → Prop} {c : Prop} [Decidable c] {x y x' y' : M α}
    (h1 : c → MSim ra x x') (h2 : ¬ c → MSim ra y y') :
    MSim ra (if c then x else y) (if c then x' else y') := by
  by_cases h : c
  · rw [if_pos h, if_pos h]; exact h1 h
  · rw [if_neg h, if_neg h]; exact h2 h

theorem MSim.panic {α} {ra : α → α → Prop} (p : Site) : MSim ra (M.panic p) (M.panic p) :=
  fun _ _ _ => rfl

theorem MSim.mark : MSim SameAt M.mark M.mark := fun _ _ h => ⟨h, h⟩

theorem MSim.seek {m m' : St} (h : SameAt m m') : MSim Eq (M.seek m) (M.seek m') :=
  fun _ _ _ => ⟨rfl, h.1, h.2, h.3⟩

theorem MSim.src (cfg : Cfg) : MSim Eq (src cfg) (src cfg) := by
  intro s s' h
  obtain ⟨r, l, e, f⟩ := s
  obtain ⟨r', l', e', f'⟩ := s'
  obtain ⟨h1, h2, h3⟩ := h
  simp only at h1 h2 h3
  subst h1; subst h2; subst h3
  have := @nextSource_sim cfg r l e f f'
  exact ⟨this.1, this.2.1, this.2.2.1, this.2.2.2⟩

theorem MSim.peekSrc (cfg : Cfg) : MSim Eq (peekSrc cfg) (peekSrc cfg) := by
  intro s s' h
  have := MSim.src cfg s s' h
  exact ⟨this.1, h.1, h.2, h.3⟩

theorem MSim.byteAt (buf : List UInt8) (i : Nat) : MSim Eq (byteAt buf i) (byteAt buf i) := by
  unfold CodeParser.byteAt
  cases buf[i]? with
  | none => exact MSim.panic _
  | some b => exact MSim.pure rfl

theorem MSim.loopN {α β} {ra : α → α → Prop} {rb : β → β → Prop} {body body' : β → M (β ⊕ α)}
    (h : ∀ b b', rb b b' → MSim (Sum.LiftRel rb ra) (body b) (body' b')) (n : Nat) :
    ∀ b b', rb b b' → MSim ra (M.loopN body n b) (M.loopN body' n b') := by
  induction n with
  | zero => intro b b' _ s s' _; rfl
  | succ n ih =>
    intro b b' hb s s' hs
    have h1 := h b b' hb s s' hs
    unfold M.loopN
    revert h1
    cases hm : body b s with
    | error e =>
      cases hm' : body' b' s' with
      | error e' => exact id
      | ok p => exact False.elim
    | ok p =>
      cases hm' : body' b' s' with
      | error e' => exact False.elim
      | ok p' =>
        rintro h1
        obtain ⟨x, t⟩ := p; obtain ⟨x', t'⟩ := p'
        obtain ⟨hx, ht⟩ := h1
        cases hx with
        | inl hx => exact ih _ _ hx t t' ht
        | inr hx => exact ⟨hx, ht⟩

theorem MSim.loop {α β} {ra : α → α → Prop} (rb : β → β → Prop) {body body' : β → M (β ⊕ α)}
    {b b' : β} (h : ∀ b b', rb b b' → MSim (Sum.LiftRel rb ra) (body b) (body' b'))
    (hb : rb b b') : MSim ra (M.loop body b) (M.loop body' b') := by
  intro s s' hs
  unfold M.loop
  rw [hs.rest]
  exact MSim.loopN h _ b b' hb s s' hs

/-- Loops whose variables are not marks. -/
theorem MSim.loopE {α β} {ra : α → α → Prop} {body body' : β → M (β ⊕ α)}
    {b : β} (h : ∀ b, MSim (Sum.LiftRel Eq ra) (body b) (body' b)) :
    MSim ra (M.loop body b) (M.loop body' b) :=
  MSim.loop Eq (fun b b' e => by subst e; exact h b) rfl

theorem MSim.inl {α β} {ra : α → α → Prop} {b : β} :
    MSim (Sum.LiftRel Eq ra) (Pure.pure (.inl b) : M (β ⊕ α)) (Pure.pure (.inl b)) :=
  MSim.pure (.inl rfl)

theorem MSim.inr {α β} {rb : β → β → Prop} {a : α} :
    MSim (Sum.LiftRel rb Eq) (Pure.pure (.inr a) : M (β ⊕ α)) (Pure.pure (.inr a)) :=
  MSim.pure (.inr rfl)

/-- One step of a proof that a computation does not depend on the encoding flag. -/
macro "msim1" : tactic => `(tactic| with_reducible first
  | exact MSim.pure rfl
  | exact MSim.inl
  | exact MSim.inr
  | exact MSim.src _
  | exact MSim.peekSrc _
  | exact MSim.panic _
  | exact MSim.byteAt _ _
  | (refine MSim.bindE (MSim.src _) fun _ => ?_)
  | (refine MSim.bindE (MSim.peekSrc _) fun _ => ?_)
  | (refine MSim.bindE (MSim.byteAt _ _) fun _ => ?_)
  | (refine MSim.bindE (MSim.seek (by assumption)) fun _ => ?_)
  | (refine MSim.bind MSim.mark fun _ _ _ => ?_)
  | exact MSim.seek (by assumption)
  | (refine MSim.ite (fun _ => ?_) (fun _ => ?_)))

macro "msim" : tactic => `(tactic| repeat' msim1)

theorem digitRun_sim (cfg : Cfg) (p : CP → Bool) (n : Nat) :
    MSim Eq (digitRun cfg p n) (digitRun cfg p n) := by
  induction n with
  | zero => exact MSim.pure rfl
  | succ n ih => unfold digitRun; msim; exact ih

theorem digitsValue_sim (base : Nat) (buf : List UInt8) (n : Nat) :
    MSim Eq (digitsValue base buf n) (digitsValue base buf n) := by
  induction n with
  | zero => exact MSim.pure rfl
  | succ n ih => unfold digitsValue; refine MSim.bindE ih fun _ => ?_; msim

theorem fromU32_sim (n : Nat) : MSim Eq (fromU32 n) (fromU32 n) := by unfold fromU32; msim

theorem assertStart_sim {m m' : St} (h : SameAt m m') (p : Nat → Bool) :
    MSim Eq (assertStart m p) (assertStart m' p) := by
  unfold assertStart
  rw [h.rest]
  cases m'.rest with
  | nil => msim
  | cons b r => simp only []; msim

theorem handle4Hex_sim {cfg : Cfg} {m m' : St} (h : SameAt m m') :
    MSim Eq (handle4Hex cfg m) (handle4Hex cfg m') := by
  unfold handle4Hex
  refine MSim.bindE (assertStart_sim h _) fun _ => ?_
  refine MSim.bind MSim.mark fun a a' ha => ?_
  refine MSim.bindE (digitRun_sim _ _ _) fun _ => ?_
  rw [ha.rest]
  refine MSim.ite (fun _ => ?_) (fun _ => ?_)
  · refine MSim.bindE (digitsValue_sim _ _ _) fun _ => MSim.bindE (fromU32_sim _) fun _ => ?_
    msim
  · msim

theorem handle2Hex_sim {cfg : Cfg} {m m' : St} (h : SameAt m m') :
    MSim Eq (handle2Hex cfg m) (handle2Hex cfg m') := by
  unfold handle2Hex
  refine MSim.bindE (assertStart_sim h _) fun _ => ?_
  refine MSim.bind MSim.mark fun a a' ha => ?_
  refine MSim.bindE (digitRun_sim _ _ _) fun _ => ?_
  rw [ha.rest]
  refine MSim.ite (fun _ => ?_) (fun _ => ?_)
  · refine MSim.bindE (digitsValue_sim _ _ _) fun _ => ?_
    msim
  · msim

theorem handleOctal_sim {cfg : Cfg} {m m' : St} (h : SameAt m m') :
    MSim Eq (handleOctal cfg m) (handleOctal cfg m') := by
  unfold handleOctal
  refine MSim.bindE (assertStart_sim h _) fun _ => ?_
  refine MSim.bindE (digitRun_sim _ _ _) fun _ => ?_
  rw [h.rest]
  refine MSim.ite (fun _ => ?_) (fun _ => ?_)
  · refine MSim.bindE (digitsValue_sim _ _ _) fun _ => MSim.bindE (fromU32_sim _) fun _ => ?_
    msim
  · msim

theorem handle6Hex_sim {cfg : Cfg} {m m' : St} (h : SameAt m m') :
    MSim Eq (handle6Hex cfg m) (handle6Hex cfg m') := by
  unfold handle6Hex
  refine MSim.bindE (assertStart_sim h _) fun _ => ?_
  refine MSim.bind MSim.mark fun a a' ha => ?_
  refine MSim.bindE (digitRun_sim _ _ _) fun _ => ?_
  rw [ha.rest]
  refine MSim.ite (fun _ => ?_) (fun _ => ?_)
  · refine MSim.bindE (digitsValue_sim _ _ _) fun _ => ?_
    refine MSim.ite (fun _ => ?_) (fun _ => ?_)
    · msim
    · refine MSim.bindE (fromU32_sim _) fun _ => ?_
      msim
  · msim

theorem longNameTail_sim (cfg : Cfg) : MSim Eq (longNameTail cfg) (longNameTail cfg) := by
  unfold longNameTail
  refine MSim.loopE fun _ => ?_
  msim

theorem longNameScan_sim (cfg : Cfg) (c : CP) : MSim Eq (longNameScan cfg c) (longNameScan cfg c) := by
  unfold longNameScan
  msim
  exact longNameTail_sim cfg

theorem handleLongName_sim {cfg : Cfg} {m m' : St} (h : SameAt m m') :
    MSim Eq (handleLongName cfg m) (handleLongName cfg m') := by
  unfold handleLongName
  refine MSim.bindE (assertStart_sim h _) fun _ => ?_
  refine MSim.bind MSim.mark fun a a' ha => ?_
  refine MSim.bindE (MSim.peekSrc _) fun _ => ?_
  refine MSim.bindE (longNameScan_sim _ _) fun _ => ?_
  refine MSim.ite (fun _ => by msim) (fun _ => ?_)
  refine MSim.bind MSim.mark fun b b' hb => ?_
  have : between a b = between a' b' := by unfold between; rw [ha.rest, hb.rest]
  simp only [this]
  cases longnameToCodepoint (between a' b') with
  | none => simp only []; msim
  | some p => simp only []; msim

theorem nextEscape_sim {cfg : Cfg} {m m' : St} (h : SameAt m m') :
    MSim Eq (nextEscape cfg m) (nextEscape cfg m') := by
  unfold nextEscape
  refine MSim.bindE (MSim.peekSrc _) fun c => ?_
  cases simpleEscape c with
  | some p => simp only []; msim
  | none =>
    simp only []
    msim
    · exact handleLongName_sim h
    · exact handle4Hex_sim h
    · exact handle2Hex_sim h
    · exact handle6Hex_sim h
    · exact handleOctal_sim h

theorem nextWL_sim (cfg : Cfg) : MSim Eq (nextWL cfg) (nextWL cfg) := by
  unfold nextWL
  msim
  exact nextEscape_sim (by assumption)

end CodeParser
