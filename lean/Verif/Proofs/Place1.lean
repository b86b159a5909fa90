import Verif.Model.Tokenizer
import Verif.Proofs.Char3
/-!
Positions do not influence reading: computations run with different tab widths in states that
differ in the location only give the same results (helper lemmas).
-/
namespace CodeParser.Place

/-- The same options with another tab width. -/
def wide (cfg : Cfg) (w : Nat) (hw : 0 < w) : Cfg := ⟨w, hw, cfg.uniAlnum⟩

/-- Two reader states that may differ in the location. -/
structure Alike (s t : St) : Prop where
  rest : s.rest = t.rest
  eof : s.eof = t.eof
  flag : s.flag = t.flag

theorem Alike.refl (s : St) : Alike s s := ⟨rfl, rfl, rfl⟩

/-- Outcomes of two computations: `ra`-related results in states that differ in the location,
or the same error.  An assertion about locations may fail in one of them only. -/
def Same {α} (ra : α → α → Prop) : Except Err (α × St) → Except Err (α × St) → Prop
  | .ok (a, t), .ok (a', t') => ra a a' ∧ Alike t t'
  | .error e, .error e' => e = e' ∨ e = .panic .span ∨ e' = .panic .span
  | .error e, .ok _ => e = .panic .span
  | .ok _, .error e' => e' = .panic .span

/-- `m` and `m'` have the same outcome in states that differ in the location. -/
def PSim {α} (ra : α → α → Prop) (m m' : M α) : Prop := ∀ s s', Alike s s' → Same ra (m s) (m' s')

theorem PSim.pure {α} {ra : α → α → Prop} {a a' : α} (h : ra a a') :
    PSim ra (Pure.pure a) (Pure.pure a') := fun _ _ hs => ⟨h, hs⟩

theorem PSim.bind {α β} {ra : α → α → Prop} {rb : β → β → Prop} {m m' : M α} {f f' : α → M β}
    (h : PSim ra m m') (hf : ∀ a a', ra a a' → PSim rb (f a) (f' a')) :
    PSim rb (m >>= f) (m' >>= f') := by
  intro s s' hs
  have h1 := h s s' hs
  show Same rb (M.bind m f s) (M.bind m' f' s')
  unfold M.bind
  cases hm : m s with
  | error e =>
    cases hm' : m' s' with
    | error e' => rw [hm, hm'] at h1; exact h1
    | ok p =>
      rw [hm, hm'] at h1
      have h1 : e = .panic .span := h1
      simp only
      cases f' p.1 p.2 with
      | error e' => exact Or.inr (Or.inl h1)
      | ok q => exact h1
  | ok p =>
    cases hm' : m' s' with
    | error e' =>
      rw [hm, hm'] at h1
      have h1 : e' = .panic .span := h1
      simp only
      cases f p.1 p.2 with
      | error e => exact Or.inr (Or.inr h1)
      | ok q => exact h1
    | ok p' =>
      rw [hm, hm'] at h1
      obtain ⟨a, t⟩ := p; obtain ⟨a', t'⟩ := p'
      exact hf a a' h1.1 t t' h1.2

/-- The common case of equal results. -/
theorem PSim.bindE {α β} {rb : β → β → Prop} {m m' : M α} {f f' : α → M β}
    (h : PSim Eq m m') (hf : ∀ a, PSim rb (f a) (f' a)) : PSim rb (m >>= f) (m' >>= f') :=
  h.bind fun a a' e => by subst e; exact hf a

theorem PSim.ite {α} {ra : α → α → Prop} {c : Prop} [Decidable c] {x y x' y' : M α}
    (h1 : c → PSim ra x x') (h2 : ¬ c → PSim ra y y') :
    PSim ra (if c then x else y) (if c then x' else y') := by
  by_cases h : c
  · rw [if_pos h, if_pos h]; exact h1 h
  · rw [if_neg h, if_neg h]; exact h2 h

theorem PSim.panic {α} {ra : α → α → Prop} (p : Site) : PSim ra (M.panic p) (M.panic p) :=
  fun _ _ _ => Or.inl rfl

theorem PSim.mark : PSim Alike M.mark M.mark := fun _ _ h => ⟨h, h⟩

theorem PSim.seek {m m' : St} (h : Alike m m') : PSim Eq (M.seek m) (M.seek m') :=
  fun _ _ hs => ⟨rfl, h.1, h.2, hs.3⟩

/-- Equal up to the location. -/
def Reads (p q : CP × St) : Prop := p.1 = q.1 ∧ Alike p.2 q.2

theorem Reads.ite {c : Prop} {d d' : Decidable c} {x y x' y'} (h1 : c → Reads x x') (h2 : ¬ c → Reads y y') :
    Reads (@_root_.ite _ c d x y) (@_root_.ite _ c d' x' y') := by
  by_cases h : c
  · rw [if_pos h, if_pos h]; exact h1 h
  · rw [if_neg h, if_neg h]; exact h2 h

theorem decode2_reads {b r l l' e f} : Reads (decode2 b ⟨r, l, e, f⟩) (decode2 b ⟨r, l', e, f⟩) := by
  rcases r with _ | ⟨x, xs⟩
  all_goals
    simp only [decode2, nextByte, St.seek, invalidChar, validChar]
    repeat' (first | (apply Reads.ite <;> intro _) | exact ⟨rfl, rfl, rfl, rfl⟩)

theorem decode3_reads {lo ck b r l l' e f} : Reads (decode3 lo ck b ⟨r, l, e, f⟩) (decode3 lo ck b ⟨r, l', e, f⟩) := by
  rcases r with _ | ⟨x, _ | ⟨y, ys⟩⟩
  all_goals
    simp only [decode3, nextByte, St.seek, invalidChar, validChar]
    repeat' (first | (apply Reads.ite <;> intro _) | exact ⟨rfl, rfl, rfl, rfl⟩)

theorem decode4_reads {lo hi b r l l' e f} : Reads (decode4 lo hi b ⟨r, l, e, f⟩) (decode4 lo hi b ⟨r, l', e, f⟩) := by
  rcases r with _ | ⟨x, _ | ⟨y, _ | ⟨z, zs⟩⟩⟩
  all_goals
    simp only [decode4, nextByte, St.seek, invalidChar, validChar]
    repeat' (first | (apply Reads.ite <;> intro _) | exact ⟨rfl, rfl, rfl, rfl⟩)

theorem nextSource_reads {cfg cfg' r l l' e f} :
    Reads (nextSource cfg ⟨r, l, e, f⟩) (nextSource cfg' ⟨r, l', e, f⟩) := by
  rcases r with _ | ⟨x, t⟩
  · rw [nextSource_nil rfl, nextSource_nil rfl]; exact ⟨rfl, rfl, rfl, rfl⟩
  · unfold nextSource nextSourceUncommon
    simp only [nextByte, currentByte, invalidChar, validChar]
    refine Reads.ite (fun _ => ⟨rfl, rfl, rfl, rfl⟩) fun _ => ?_
    refine Reads.ite (fun _ => ⟨rfl, rfl, rfl, rfl⟩) fun _ => ?_
    refine Reads.ite (fun _ => ⟨rfl, rfl, rfl, rfl⟩) fun _ => ?_
    refine Reads.ite (fun _ => ?_) fun _ => ?_
    · rcases t with _ | ⟨y, ys⟩
      · exact ⟨rfl, rfl, rfl, rfl⟩
      · exact Reads.ite (fun _ => ⟨rfl, rfl, rfl, rfl⟩) fun _ => ⟨rfl, rfl, rfl, rfl⟩
    refine Reads.ite (fun _ => ⟨rfl, rfl, rfl, rfl⟩) fun _ => ?_
    refine Reads.ite (fun _ => decode2_reads) fun _ => ?_
    refine Reads.ite (fun _ => decode3_reads) fun _ => ?_
    refine Reads.ite (fun _ => decode3_reads) fun _ => ?_
    refine Reads.ite (fun _ => decode4_reads) fun _ => ?_
    refine Reads.ite (fun _ => decode4_reads) fun _ => ?_
    refine Reads.ite (fun _ => decode4_reads) fun _ => ?_
    refine Reads.ite (fun _ => ?_) fun _ => ⟨rfl, rfl, rfl, rfl⟩
    exact Reads.ite (fun _ => ⟨rfl, rfl, rfl, rfl⟩) fun _ => ⟨rfl, rfl, rfl, rfl⟩

theorem PSim.src {cfg cfg' : Cfg} : PSim Eq (src cfg) (src cfg') := by
  intro s s' h
  obtain ⟨r, l, e, f⟩ := s
  obtain ⟨r', l', e', f'⟩ := s'
  obtain ⟨h1, h2, h3⟩ := h
  simp only at h1 h2 h3
  subst h1; subst h2; subst h3
  exact nextSource_reads

theorem PSim.peekSrc {cfg cfg' : Cfg} : PSim Eq (peekSrc cfg) (peekSrc cfg') := by
  intro s s' h
  have := PSim.src (cfg := cfg) (cfg' := cfg') s s' h
  exact ⟨this.1, h.1, h.2, this.2.3⟩

theorem isAlphaOrDigitSrc_wide {cfg : Cfg} {w : Nat} {hw : 0 < w} (c : CP) :
    c.isAlphaOrDigitSrc (wide cfg w hw) = c.isAlphaOrDigitSrc cfg := by cases c <;> rfl

theorem PSim.byteAt (buf : List UInt8) (i : Nat) : PSim Eq (byteAt buf i) (byteAt buf i) := by
  unfold CodeParser.byteAt
  cases buf[i]? with
  | none => exact PSim.panic _
  | some b => exact PSim.pure rfl

theorem PSim.loopN {α β} {ra : α → α → Prop} {rb : β → β → Prop} {body body' : β → M (β ⊕ α)}
    (h : ∀ b b', rb b b' → PSim (Sum.LiftRel rb ra) (body b) (body' b')) (n : Nat) :
    ∀ b b', rb b b' → PSim ra (M.loopN body n b) (M.loopN body' n b') := by
  induction n with
  | zero => intro b b' _ s s' _; exact Or.inl rfl
  | succ n ih =>
    intro b b' hb s s' hs
    have h1 := h b b' hb s s' hs
    unfold M.loopN
    revert h1
    cases hm : body b s with
    | error e =>
      cases hm' : body' b' s' with
      | error e' => exact id
      | ok p' =>
        intro h1
        have h1 : e = .panic .span := h1
        obtain ⟨x, t⟩ := p'
        cases x with
        | inl x =>
          simp only
          cases M.loopN body' n x t with
          | error e' => exact Or.inr (Or.inl h1)
          | ok q => exact h1
        | inr x => exact h1
    | ok p =>
      cases hm' : body' b' s' with
      | error e' =>
        intro h1
        have h1 : e' = .panic .span := h1
        obtain ⟨x, t⟩ := p
        cases x with
        | inl x =>
          simp only
          cases M.loopN body n x t with
          | error e => exact Or.inr (Or.inr h1)
          | ok q => exact h1
        | inr x => exact h1
      | ok p' =>
        rintro h1
        obtain ⟨x, t⟩ := p; obtain ⟨x', t'⟩ := p'
        obtain ⟨hx, ht⟩ := h1
        cases hx with
        | inl hx => exact ih _ _ hx t t' ht
        | inr hx => exact ⟨hx, ht⟩

theorem PSim.loop {α β} {ra : α → α → Prop} (rb : β → β → Prop) {body body' : β → M (β ⊕ α)}
    {b b' : β} (h : ∀ b b', rb b b' → PSim (Sum.LiftRel rb ra) (body b) (body' b'))
    (hb : rb b b') : PSim ra (M.loop body b) (M.loop body' b') := by
  intro s s' hs
  unfold M.loop
  rw [hs.rest]
  exact PSim.loopN h _ b b' hb s s' hs

/-- Loops whose variables are not marks. -/
theorem PSim.loopE {α β} {ra : α → α → Prop} {body body' : β → M (β ⊕ α)}
    {b : β} (h : ∀ b, PSim (Sum.LiftRel Eq ra) (body b) (body' b)) :
    PSim ra (M.loop body b) (M.loop body' b) :=
  PSim.loop Eq (fun b b' e => by subst e; exact h b) rfl

theorem PSim.inl {α β} {ra : α → α → Prop} {b : β} :
    PSim (Sum.LiftRel Eq ra) (Pure.pure (.inl b) : M (β ⊕ α)) (Pure.pure (.inl b)) :=
  PSim.pure (.inl rfl)

theorem PSim.inr {α β} {rb : β → β → Prop} {a : α} :
    PSim (Sum.LiftRel rb Eq) (Pure.pure (.inr a) : M (β ⊕ α)) (Pure.pure (.inr a)) :=
  PSim.pure (.inr rfl)

/-- One step of a proof that a computation does not depend on the encoding flag. -/
macro "psim1" : tactic => `(tactic| with_reducible first
  | exact PSim.pure rfl
  | exact PSim.inl
  | exact PSim.inr
  | exact PSim.src
  | exact PSim.peekSrc
  | exact PSim.panic _
  | exact PSim.byteAt _ _
  | (refine PSim.bindE (PSim.src) fun _ => ?_)
  | (refine PSim.bindE (PSim.peekSrc) fun _ => ?_)
  | (refine PSim.bindE (PSim.byteAt _ _) fun _ => ?_)
  | (refine PSim.bindE (PSim.seek (by assumption)) fun _ => ?_)
  | (refine PSim.bind PSim.mark fun _ _ _ => ?_)
  | exact PSim.seek (by assumption)
  | (refine PSim.ite (fun _ => ?_) (fun _ => ?_)))

macro "psim" : tactic => `(tactic| repeat' psim1)

theorem digitRun_sim {cfg : Cfg} {w : Nat} {hw : 0 < w} (p : CP → Bool) (n : Nat) :
    PSim Eq (digitRun cfg p n) (digitRun (wide cfg w hw) p n) := by
  induction n with
  | zero => exact PSim.pure rfl
  | succ n ih => unfold digitRun; psim; exact ih

theorem digitsValue_sim (base : Nat) (buf : List UInt8) (n : Nat) :
    PSim Eq (digitsValue base buf n) (digitsValue base buf n) := by
  induction n with
  | zero => exact PSim.pure rfl
  | succ n ih => unfold digitsValue; refine PSim.bindE ih fun _ => ?_; psim

theorem fromU32_sim (n : Nat) : PSim Eq (fromU32 n) (fromU32 n) := by unfold fromU32; psim

theorem assertStart_sim {m m' : St} (h : Alike m m') (p : Nat → Bool) :
    PSim Eq (assertStart m p) (assertStart m' p) := by
  unfold assertStart
  rw [h.rest]
  cases m'.rest with
  | nil => psim
  | cons b r => simp only []; psim

theorem handle4Hex_sim {cfg : Cfg} {w : Nat} {hw : 0 < w} {m m' : St} (h : Alike m m') :
    PSim Eq (handle4Hex cfg m) (handle4Hex (wide cfg w hw) m') := by
  unfold handle4Hex
  refine PSim.bindE (assertStart_sim h _) fun _ => ?_
  refine PSim.bind PSim.mark fun a a' ha => ?_
  refine PSim.bindE (digitRun_sim _ _) fun _ => ?_
  rw [ha.rest]
  refine PSim.ite (fun _ => ?_) (fun _ => ?_)
  · refine PSim.bindE (digitsValue_sim _ _ _) fun _ => PSim.bindE (fromU32_sim _) fun _ => ?_
    psim
  · psim

theorem handle2Hex_sim {cfg : Cfg} {w : Nat} {hw : 0 < w} {m m' : St} (h : Alike m m') :
    PSim Eq (handle2Hex cfg m) (handle2Hex (wide cfg w hw) m') := by
  unfold handle2Hex
  refine PSim.bindE (assertStart_sim h _) fun _ => ?_
  refine PSim.bind PSim.mark fun a a' ha => ?_
  refine PSim.bindE (digitRun_sim _ _) fun _ => ?_
  rw [ha.rest]
  refine PSim.ite (fun _ => ?_) (fun _ => ?_)
  · refine PSim.bindE (digitsValue_sim _ _ _) fun _ => ?_
    psim
  · psim

theorem handleOctal_sim {cfg : Cfg} {w : Nat} {hw : 0 < w} {m m' : St} (h : Alike m m') :
    PSim Eq (handleOctal cfg m) (handleOctal (wide cfg w hw) m') := by
  unfold handleOctal
  refine PSim.bindE (assertStart_sim h _) fun _ => ?_
  refine PSim.bindE (digitRun_sim _ _) fun _ => ?_
  rw [h.rest]
  refine PSim.ite (fun _ => ?_) (fun _ => ?_)
  · refine PSim.bindE (digitsValue_sim _ _ _) fun _ => PSim.bindE (fromU32_sim _) fun _ => ?_
    psim
  · psim

theorem handle6Hex_sim {cfg : Cfg} {w : Nat} {hw : 0 < w} {m m' : St} (h : Alike m m') :
    PSim Eq (handle6Hex cfg m) (handle6Hex (wide cfg w hw) m') := by
  unfold handle6Hex
  refine PSim.bindE (assertStart_sim h _) fun _ => ?_
  refine PSim.bind PSim.mark fun a a' ha => ?_
  refine PSim.bindE (digitRun_sim _ _) fun _ => ?_
  rw [ha.rest]
  refine PSim.ite (fun _ => ?_) (fun _ => ?_)
  · refine PSim.bindE (digitsValue_sim _ _ _) fun _ => ?_
    refine PSim.ite (fun _ => ?_) (fun _ => ?_)
    · psim
    · refine PSim.bindE (fromU32_sim _) fun _ => ?_
      psim
  · psim

theorem longNameTail_sim {cfg : Cfg} {w : Nat} {hw : 0 < w} : PSim Eq (longNameTail cfg) (longNameTail (wide cfg w hw)) := by
  unfold longNameTail
  simp only [isAlphaOrDigitSrc_wide]
  refine PSim.loopE fun _ => ?_
  psim

theorem longNameScan_sim {cfg : Cfg} {w : Nat} {hw : 0 < w} (c : CP) : PSim Eq (longNameScan cfg c) (longNameScan (wide cfg w hw) c) := by
  unfold longNameScan
  psim
  exact longNameTail_sim

theorem handleLongName_sim {cfg : Cfg} {w : Nat} {hw : 0 < w} {m m' : St} (h : Alike m m') :
    PSim Eq (handleLongName cfg m) (handleLongName (wide cfg w hw) m') := by
  unfold handleLongName
  refine PSim.bindE (assertStart_sim h _) fun _ => ?_
  refine PSim.bind PSim.mark fun a a' ha => ?_
  refine PSim.bindE (PSim.peekSrc) fun _ => ?_
  refine PSim.bindE (longNameScan_sim _) fun _ => ?_
  refine PSim.ite (fun _ => by psim) (fun _ => ?_)
  refine PSim.bind PSim.mark fun b b' hb => ?_
  have : between a b = between a' b' := by unfold between; rw [ha.rest, hb.rest]
  simp only [this]
  cases longnameToCodepoint (between a' b') with
  | none => simp only []; psim
  | some p => simp only []; psim

theorem nextEscape_sim {cfg : Cfg} {w : Nat} {hw : 0 < w} {m m' : St} (h : Alike m m') :
    PSim Eq (nextEscape cfg m) (nextEscape (wide cfg w hw) m') := by
  unfold nextEscape
  refine PSim.bindE (PSim.peekSrc) fun c => ?_
  cases simpleEscape c with
  | some p => simp only []; psim
  | none =>
    simp only []
    psim
    · exact handleLongName_sim h
    · exact handle4Hex_sim h
    · exact handle2Hex_sim h
    · exact handle6Hex_sim h
    · exact handleOctal_sim h

theorem nextWL_sim {cfg : Cfg} {w : Nat} {hw : 0 < w} : PSim Eq (nextWL cfg) (nextWL (wide cfg w hw)) := by
  unfold nextWL
  psim
  exact nextEscape_sim (by assumption)

section
variable {cfg : Cfg} {w : Nat} {hw : 0 < w}

theorem peekWL_sim : PSim Eq (peekWL cfg) (peekWL (wide cfg w hw)) := by
  unfold peekWL
  refine PSim.bind PSim.mark fun _ _ h => PSim.bindE nextWL_sim fun _ => ?_
  psim

theorem skipWhite_sim (c : WLC) : PSim Eq (skipWhite cfg c) (skipWhite (wide cfg w hw) c) := by
  unfold skipWhite
  refine PSim.loopE fun _ => PSim.ite (fun _ => ?_) (fun _ => ?_)
  · refine PSim.bindE nextWL_sim fun _ => PSim.bindE peekWL_sim fun _ => ?_
    psim
  · psim

theorem nextC_sim : PSim Eq (nextC cfg) (nextC (wide cfg w hw)) := by
  unfold nextC
  refine PSim.bindE nextWL_sim fun _ => PSim.loopE fun _ => PSim.ite (fun _ => ?_) (fun _ => ?_)
  · refine PSim.bindE peekWL_sim fun _ => PSim.bindE (skipWhite_sim _) fun _ =>
      PSim.bindE nextWL_sim fun _ => ?_
    psim
  · psim

theorem curC_sim : PSim Eq (curC cfg) (curC (wide cfg w hw)) := by
  unfold curC
  refine PSim.bind PSim.mark fun _ _ h => PSim.bindE nextC_sim fun _ => ?_
  psim
end

end CodeParser.Place
