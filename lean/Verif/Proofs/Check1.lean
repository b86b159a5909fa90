import Verif.Model.CheckTokens
import Verif.Proofs.TokenSim
import Verif.Spec.Issue
/-!
Helper lemmas about reading with issues: positions, and the comparison of a computation that reports
issues with the same computation that does not.
-/
namespace CodeParser.Chk
open CodeParser (Bad Path WF SameAt MSim R)

theorem M.assoc {α β γ : Type} (m : M α) (f : α → M β) (g : β → M γ) :
    ((m >>= f) >>= g) = (m >>= fun a => f a >>= g) := by
  funext s
  show M.bind (M.bind m f) g s = M.bind m (fun a => M.bind (f a) g) s
  unfold M.bind
  rcases m s with e | ⟨a, t, es⟩
  · rfl
  · simp only
    rcases f a t with e | ⟨b, u, fs⟩
    · rfl
    · simp only
      rcases g b u with e | ⟨c, v, gs⟩
      · rfl
      · simp only [List.append_assoc]

/-- Columns start at one. -/
def ColOK : Loc → Prop
  | .lineCol _ c => 1 ≤ c
  | .index _ => True

/-- `t` is a position at or behind `z`; its encoding flag is raised for a reason. -/
structure Pos (cfg : Cfg) (z t : St) : Prop where
  wfz : WF z
  wf : WF t
  path : ∃ cs, Path cfg z cs t
  col : ColOK t.loc
  blame : t.flag ≠ none → z.flag ≠ none ∨ Bad cfg z

section
variable {cfg : Cfg} {z s t u : St}

theorem Pos.refl (h : WF s) (hc : ColOK s.loc) : Pos cfg s s := ⟨h, h, ⟨[], .nil rfl rfl⟩, hc, .inl⟩

theorem Pos.self (h : Pos cfg z s) : Pos cfg s s := .refl h.wf h.col

theorem Pos.trans (h1 : Pos cfg s t) (h2 : Pos cfg t u) : Pos cfg s u := by
  obtain ⟨cs, hp⟩ := h1.path
  obtain ⟨ds, hq⟩ := h2.path
  refine ⟨h1.wfz, h2.wf, ⟨cs ++ ds, hp.trans hq h1.wfz h1.wf⟩, h2.col, fun h => ?_⟩
  rcases h2.blame h with h | h
  · exact h1.blame h
  · exact .inr (h.of_path h1.wfz h1.wf hp)

theorem Pos.seek {m : St} (hm : Pos cfg z m) (h : Pos cfg z s) : Pos cfg z (s.seek m) := by
  obtain ⟨cs, hp⟩ := hm.path
  exact ⟨hm.wfz, hm.wf, ⟨cs, hp.congr_right rfl rfl⟩, hm.col, h.blame⟩

theorem ColOK.upd {c : CP} {l : Loc} (h : ColOK l) : ColOK (locUpd cfg c l) := by
  cases l with
  | index i =>
    unfold locUpd
    split <;> simp [ColOK, Loc.tab, Loc.newline, Loc.windowsNewline, Loc.increment]
  | lineCol a b =>
    simp only [ColOK] at h
    unfold locUpd
    split <;> simp [ColOK, Loc.tab, Loc.newline, Loc.windowsNewline, Loc.increment] <;> omega

theorem Pos.src (h : WF s) (hc : ColOK s.loc) : Pos cfg s (nextSource cfg s).2 := by
  have := R_nextSource (cfg := cfg) h
  obtain ⟨cs, hp, -⟩ := this.path
  refine ⟨h, this.wf, ⟨cs, hp⟩, ?_, this.blame⟩
  rw [Props.loc_step cfg s h]; exact hc.upd

theorem Pos.next (h : Pos cfg z s) : Pos cfg z (nextSource cfg s).2 := h.trans (.src h.wf h.col)

theorem Pos.span (h : Pos cfg s t) : Span.new s.loc t.loc = some ⟨s.loc, t.loc⟩ := by
  obtain ⟨cs, hp⟩ := h.path
  have := hp.loc_le h.wfz
  revert this
  generalize s.loc = a
  generalize t.loc = b
  unfold Span.new
  intro h
  rw [if_pos]
  cases a <;> cases b <;> simp_all [Spec.before, Loc.le] <;> omega

/-- A piece of the text that starts at `z`. -/
def Between (cfg : Cfg) (z : St) (sp : Span) : Prop :=
  ∃ p q, Pos cfg z p ∧ Pos cfg p q ∧ sp = ⟨p.loc, q.loc⟩

theorem Between.up (h : Pos cfg z s) {sp : Span} (hb : Between cfg s sp) : Between cfg z sp := by
  obtain ⟨p, q, h1, h2, h3⟩ := hb
  exact ⟨p, q, h.trans h1, h2, h3⟩

theorem Between.at (h : Pos cfg z s) : Between cfg z (spanAt s.loc) := ⟨s, s, h, h.self, rfl⟩

/-- What is shown about events: where the locations are that are tracked, and whether issues are
justified. -/
structure Want where
  spot : Loc → Prop
  full : Prop

instance : CoeFun Want (fun _ => Loc → Prop) := ⟨Want.spot⟩

/-- Only where events are. -/
def Want.lo (T : Want) : Want := ⟨T.spot, False⟩

/-- Everything. -/
def Want.all (P : Loc → Prop) : Want := ⟨P, True⟩

/-- The issue is justified by the text. -/
def Told (cfg : Cfg) (z : St) (i : Report) : Prop :=
  ∃ p q, Pos cfg z p ∧ Pos cfg p q ∧ i.span = ⟨p.loc, q.loc⟩ ∧ Spec.Says (between z p) (between p q) q.rest i

theorem between_eq {a b : St} {x : List UInt8} (h : a.rest = x ++ b.rest) : between a b = x := by
  unfold between
  rw [h]
  simp

theorem Pos.rest (h : Pos cfg z s) : z.rest = between z s ++ s.rest := by
  obtain ⟨cs, hp⟩ := h.path
  obtain ⟨pre, hr⟩ := hp.suffix h.wfz
  rw [between_eq hr, hr]

theorem between_append {a b c : St} {x y : List UInt8} (h1 : a.rest = x ++ b.rest) (h2 : b.rest = y ++ c.rest) :
    between a c = between a b ++ between b c := by
  rw [between_eq h1, between_eq h2, between_eq (by rw [h1, h2, List.append_assoc])]

theorem Says.up {x before piece after : List UInt8} {i : Report} (h : Spec.Says before piece after i) :
    Spec.Says (x ++ before) piece after i := by
  cases h with
  | carriageReturn h1 h2 h3 => exact .carriageReturn h1 (by rw [List.getLast?_append, h2]; rfl) h3
  | nonASCII h1 h2 h3 h4 => exact .nonASCII h1 h2 h3 h4
  | strange h1 h2 h3 h4 h5 => exact .strange h1 h2 h3 h4 h5
  | incomplete h1 h2 h3 => exact .incomplete h1 h2 h3
  | surrogate h1 h2 h3 => exact .surrogate h1 h2 h3
  | bom h1 => exact .bom h1
  | escaped h1 h2 h3 h4 h5 h6 => exact .escaped h1 h2 h3 h4 h5 h6
  | oddEscape h1 h2 => exact .oddEscape h1 h2
  | unhandled h1 h2 h3 => exact .unhandled h1 h2 h3
  | unrecognized h1 h2 h3 => exact .unrecognized h1 h2 h3
  | slot => exact .slot
  | confusable h1 h2 h3 => exact .confusable h1 h2 h3
  | tagSlot => exact .tagSlot
  | ambiguous h1 => exact .ambiguous h1
  | dot h1 h2 => exact .dot h1 h2
  | arrow h1 => exact .arrow h1
  | implicitTimes h1 => exact .implicitTimes h1
  | sign h1 h2 => exact .sign h1 h2

theorem Told.up (h : Pos cfg z s) {i : Report} (hi : Told cfg s i) : Told cfg z i := by
  obtain ⟨p, q, h1, h2, h3, h4⟩ := hi
  refine ⟨p, q, h.trans h1, h2, h3, ?_⟩
  rw [between_append h.rest h1.rest]
  exact Says.up h4

/-- Issues are about pieces of the text, and so are their actions, and they are justified; other events
are at a location with the property `T`. -/
def Placed (cfg : Cfg) (T : Want) (z : St) : Ev → Prop
  | .issue i => Between cfg z i.span ∧ (∀ a ∈ i.actions, Between cfg z a.span) ∧ (T.full → Told cfg z i)
  | .simpleContinuation l | .complexContinuation l | .embeddedNewline l | .embeddedTab l => T l

theorem Placed.up {T : Want} (h : Pos cfg z s) {e : Ev} (he : Placed cfg T s e) : Placed cfg T z e := by
  cases e with
  | issue i => exact ⟨he.1.up h, fun a ha => (he.2.1 a ha).up h, fun hf => (he.2.2 hf).up h⟩
  | _ => exact he

/-- The same position; what has been noticed on the left has been noticed on the right. -/
structure Near (s s' : St) : Prop where
  same : SameAt s s'
  flag : s.flag ≠ none → s'.flag ≠ none

theorem Near.refl (s : St) : Near s s := ⟨.refl s, id⟩
theorem Near.trans {s t u : St} (h : Near s t) (h' : Near t u) : Near s u :=
  ⟨h.1.trans h'.1, fun h1 => h'.2 (h.2 h1)⟩

theorem Near.seek {m m' : St} (h : Near s t) (hm : SameAt m m') : Near (s.seek m) (t.seek m') :=
  ⟨⟨hm.1, hm.2, hm.3⟩, h.2⟩
end

/-- How the outcome of a computation with issues compares to that without issues. -/
def Out {α α'} (cfg : Cfg) (T : Want) (D : α → St → Fail → Prop) (z : St) (ra : α → α' → Prop) :
    Except Err (α × St) → Except Fail (α' × St × List Ev) → Prop
  | .ok (a, t), .ok (a', t', es) => ra a a' ∧ Near t t' ∧ Pos cfg z t' ∧ ∀ e ∈ es, Placed cfg T z e
  | .error e, .error e' => e' = .base e
  | .ok (a, t), .error e' => D a t e'
  | .error _, .ok _ => False

/-- The computation with issues does what the computation without issues does. -/
def Sim {α α'} (cfg : Cfg) (T : Want) (D : α → St → Fail → Prop) (z : St) (ra : α → α' → Prop)
    (m : CodeParser.M α) (m' : M α') : Prop :=
  ∀ s s', Near s s' → Pos cfg z s' → Out cfg T D z ra (m s) (m' s')

/-- No failure is tolerated. -/
def never {α} : α → St → Fail → Prop := fun _ _ _ => False

section
variable {cfg : Cfg} {T : Want} {z : St} {α α' β β' : Type} {D : α → St → Fail → Prop}

theorem Out.mono {ra rb : α → α' → Prop} {D' : α → St → Fail → Prop} (hr : ∀ a a', ra a a' → rb a a')
    (hD : ∀ a t e, D a t e → D' a t e) {x y} (h : Out cfg T D z ra x y) : Out cfg T D' z rb x y := by
  rcases x with e | ⟨a, t⟩ <;> rcases y with e' | ⟨a', t', es⟩
  · exact h
  · exact h.elim
  · exact hD _ _ _ h
  · exact ⟨hr _ _ h.1, h.2⟩

theorem Sim.weaken {ra : α → α' → Prop} {m m'} (h : Sim cfg T never z ra m m') : Sim cfg T D z ra m m' :=
  fun s s' hs hp => (h s s' hs hp).mono (fun _ _ => id) (fun _ _ _ => False.elim)

theorem Sim.mono {ra rb : α → α' → Prop} {m m'} (hr : ∀ a a', ra a a' → rb a a') (h : Sim cfg T D z ra m m') :
    Sim cfg T D z rb m m' := fun s s' hs hp => (h s s' hs hp).mono hr (fun _ _ _ => id)

theorem Out.up {ra : α → α' → Prop} {z' : St} (hz : Pos cfg z z') {x y} (h : Out cfg T D z' ra x y) :
    Out cfg T D z ra x y := by
  rcases x with e | ⟨a, t⟩ <;> rcases y with e' | ⟨a', t', es⟩
  · exact h
  · exact h.elim
  · exact h
  · exact ⟨h.1, h.2.1, hz.trans h.2.2.1, fun e he => (h.2.2.2 e he).up hz⟩

theorem Sim.pure {ra : α → α' → Prop} {a a'} (h : ra a a') : Sim cfg T D z ra (Pure.pure a) (Pure.pure a') :=
  fun _ _ hs hp => ⟨h, hs, hp, fun _ h => by cases h⟩

/-- The outcome of two steps. -/
theorem Out.bind {ra : α → α' → Prop} {rb : β → β' → Prop} {D : β → St → Fail → Prop} {s s' : St}
    {m : CodeParser.M α} {m' : M α'} {f : α → CodeParser.M β} {f' : α' → M β'}
    (h : Out cfg T never z ra (m s) (m' s'))
    (hf : ∀ a t a' t' es, m s = .ok (a, t) → m' s' = .ok (a', t', es) → ra a a' → Near t t' → Pos cfg z t' →
      Out cfg T D z rb (f a t) (f' a' t')) : Out cfg T D z rb ((m >>= f) s) ((m' >>= f') s') := by
  show Out cfg T D z rb (CodeParser.M.bind m f s) (M.bind m' f' s')
  unfold CodeParser.M.bind M.bind
  rcases hm : m s with e | ⟨a, t⟩ <;> rcases hm' : m' s' with e' | ⟨a', t', es⟩ <;> rw [hm, hm'] at h
  · exact h
  · exact h.elim
  · exact h.elim
  · obtain ⟨h1, h2, h3, h4⟩ := h
    have := hf a t a' t' es hm hm' h1 h2 h3
    simp only
    rcases hg : f a t with e | ⟨b, u⟩ <;> rcases hg' : f' a' t' with e' | ⟨b', u', fs⟩ <;> rw [hg, hg'] at this
    · exact this
    · exact this.elim
    · exact this
    · refine ⟨this.1, this.2.1, this.2.2.1, fun e he => ?_⟩
      rcases List.mem_append.mp he with he | he
      · exact h4 e he
      · exact this.2.2.2 e he

theorem Sim.bind {ra : α → α' → Prop} {rb : β → β' → Prop} {D : β → St → Fail → Prop}
    {m : CodeParser.M α} {m' : M α'} {f : α → CodeParser.M β} {f' : α' → M β'}
    (h : Sim cfg T never z ra m m') (hf : ∀ a a', ra a a' → Sim cfg T D z rb (f a) (f' a')) :
    Sim cfg T D z rb (m >>= f) (m' >>= f') :=
  fun s s' hs hp => (h s s' hs hp).bind fun a t a' t' _ _ _ h1 h2 h3 => hf a a' h1 t t' h2 h3

/-- The common case of equal results. -/
theorem Sim.bindE {rb : β → β' → Prop} {D : β → St → Fail → Prop}
    {m : CodeParser.M α} {m' : M α} {f : α → CodeParser.M β} {f' : α → M β'}
    (h : Sim cfg T never z Eq m m') (hf : ∀ a, Sim cfg T D z rb (f a) (f' a)) :
    Sim cfg T D z rb (m >>= f) (m' >>= f') := h.bind fun a a' e => by subst e; exact hf a

theorem Sim.ite {ra : α → α' → Prop} {c : Prop} [Decidable c] {x y x' y'}
    (h1 : c → Sim cfg T D z ra x x') (h2 : ¬ c → Sim cfg T D z ra y y') :
    Sim cfg T D z ra (if c then x else y) (if c then x' else y') := by
  by_cases h : c
  · rw [if_pos h, if_pos h]; exact h1 h
  · rw [if_neg h, if_neg h]; exact h2 h

/-- The step does not move. -/
def Keeps (m : CodeParser.M α) : Prop := ∀ s a t, m s = .ok (a, t) → t = s

theorem Sim.lift {ra : α → α → Prop} {m m1 : CodeParser.M α} (h : MSim ra m m1) (hk : Keeps m) (hk1 : Keeps m1) :
    Sim cfg T D z ra m (M.lift m1) := by
  intro s s' hs hp
  have h1 := h s s' hs.same
  unfold M.lift
  rcases hm : m s with e | ⟨a, t⟩ <;> rcases hm' : m1 s' with e' | ⟨a', t'⟩ <;> rw [hm, hm'] at h1
  · simp only at h1; subst h1; rfl
  · exact h1.elim
  · exact h1.elim
  · have := hk _ _ _ hm
    have := hk1 _ _ _ hm'
    subst t; subst t'
    exact ⟨h1.1, hs, hp, fun _ h => by cases h⟩

/-- A mark and the mark of the other computation. -/
def Marks (cfg : Cfg) (z : St) (m m' : St) : Prop := SameAt m m' ∧ Pos cfg z m'

theorem Sim.mark : Sim cfg T never z (Marks cfg z) CodeParser.M.mark M.mark :=
  fun _ _ hs hp => ⟨⟨hs.same, hp⟩, hs, hp, fun _ h => by cases h⟩

/-- After a mark everything is behind the mark. -/
theorem Sim.markUp {rb : β → β' → Prop} {D : β → St → Fail → Prop} {f : St → CodeParser.M β} {f' : St → M β'}
    (h : ∀ m m', SameAt m m' → Pos cfg z m' → Sim cfg T D m' rb (f m) (f' m')) :
    Sim cfg T D z rb (CodeParser.M.mark >>= f) (M.mark >>= f') := by
  intro s s' hs hp
  have := (h s s' hs.same hp s s' hs hp.self).up hp
  exact (Sim.mark (T := T) s s' hs hp).bind fun a t a' t' es h1 h2 _ _ _ => by
    cases h1; cases h2; exact this

theorem Sim.seek {D : Unit → St → Fail → Prop} {m m' : St} (h : Marks cfg z m m') : Sim cfg T D z Eq (CodeParser.M.seek m) (M.seek m') :=
  fun _ _ hs hp => ⟨rfl, hs.seek h.1, h.2.seek hp, fun _ h => by cases h⟩

theorem Sim.loopN {ra : α → α' → Prop} {rb : β → β' → Prop} {body : β → CodeParser.M (β ⊕ α)} {body' : β' → M (β' ⊕ α')}
    (h : ∀ b b', rb b b' → Sim cfg T never z (Sum.LiftRel rb ra) (body b) (body' b')) (n : Nat) :
    ∀ b b', rb b b' → Sim cfg T never z ra (CodeParser.M.loopN body n b) (M.loopN body' n b') := by
  induction n with
  | zero => intro b b' _ s s' _ _; rfl
  | succ n ih =>
    intro b b' hb s s' hs hp
    have h1 := h b b' hb s s' hs hp
    unfold CodeParser.M.loopN M.loopN
    rcases hm : body b s with e | ⟨x, t⟩ <;> rcases hm' : body' b' s' with e' | ⟨x', t', es⟩ <;> rw [hm, hm'] at h1
    · exact h1
    · exact h1.elim
    · exact h1.elim
    · obtain ⟨hx, h2, h3, h4⟩ := h1
      cases hx with
      | inr hx => exact ⟨hx, h2, h3, h4⟩
      | inl hx =>
        have := ih _ _ hx t t' h2 h3
        simp only
        rename_i c c'
        rcases hg : CodeParser.M.loopN body n c t with e | ⟨b, u⟩ <;>
          rcases hg' : M.loopN body' n c' t' with e' | ⟨b', u', fs⟩ <;> rw [hg, hg'] at this
        · exact this
        · exact this.elim
        · exact this.elim
        · refine ⟨this.1, this.2.1, this.2.2.1, fun e he => ?_⟩
          rcases List.mem_append.mp he with he | he
          · exact h4 e he
          · exact this.2.2.2 e he

theorem Sim.loop {ra : α → α' → Prop} (rb : β → β' → Prop) {body : β → CodeParser.M (β ⊕ α)}
    {body' : β' → M (β' ⊕ α')} {b : β} {b' : β'}
    (h : ∀ b b', rb b b' → Sim cfg T never z (Sum.LiftRel rb ra) (body b) (body' b')) (hb : rb b b') :
    Sim cfg T never z ra (CodeParser.M.loop body b) (M.loop body' b') := by
  intro s s' hs hp
  unfold CodeParser.M.loop M.loop
  rw [hs.same.rest]
  exact Sim.loopN h _ b b' hb s s' hs hp

/-- Loops whose variables are not marks. -/
theorem Sim.loopE {ra : α → α' → Prop} {body : β → CodeParser.M (β ⊕ α)} {body' : β → M (β ⊕ α')} {b : β}
    (h : ∀ b, Sim cfg T never z (Sum.LiftRel Eq ra) (body b) (body' b)) :
    Sim cfg T never z ra (CodeParser.M.loop body b) (M.loop body' b) :=
  Sim.loop Eq (fun b b' e => by subst e; exact h b) rfl

theorem Sim.inl {ra : α → α' → Prop} {b : β} {D : β ⊕ α → St → Fail → Prop} :
    Sim cfg T D z (Sum.LiftRel Eq ra) (Pure.pure (.inl b)) (Pure.pure (.inl b)) :=
  Sim.pure (.inl rfl)

theorem Sim.inr {rb : β → β' → Prop} {a : α} {D : β ⊕ α → St → Fail → Prop} :
    Sim cfg T D z (Sum.LiftRel rb Eq) (Pure.pure (.inr a)) (Pure.pure (.inr a)) :=
  Sim.pure (.inr rfl)

/-- A step of the computation with issues only. -/
def Quiet (cfg : Cfg) (T : Want) (z : St) (ra : α' → Prop) (m' : M α') : Prop :=
  ∀ s', Pos cfg z s' → ∃ a' t' es, m' s' = .ok (a', t', es) ∧ ra a' ∧ Near s' t' ∧ Pos cfg z t' ∧
    ∀ e ∈ es, Placed cfg T z e

theorem bind_ok {m : M α} {f : α → M β} {s t u : St} {a : α} {b : β} {es fs : List Ev}
    (h : m s = .ok (a, t, es)) (hf : f a t = .ok (b, u, fs)) : (m >>= f) s = .ok (b, u, es ++ fs) := by
  show M.bind m f s = _
  unfold M.bind
  rw [h]
  simp only
  rw [hf]

theorem Quiet.sim {ra : α' → Prop} {rb : β → β' → Prop} {D : β → St → Fail → Prop} {m : CodeParser.M β} {m' : M α'}
    {f' : α' → M β'} (h : Quiet cfg T z ra m') (hf : ∀ a', ra a' → Sim cfg T D z rb m (f' a')) :
    Sim cfg T D z rb m (m' >>= f') := by
  intro s s' hs hp
  obtain ⟨a', t', es, h1, h2, h3, h4, h5⟩ := h s' hp
  have := hf a' h2 s t' (hs.trans h3) h4
  rcases hm' : f' a' t' with e' | ⟨b', u', fs⟩
  · have : (m' >>= f') s' = .error e' := by
      show M.bind m' f' s' = _
      unfold M.bind; rw [h1]; simp only; rw [hm']
    rw [this]
    rename_i h
    rw [hm'] at h; exact h
  · rw [bind_ok h1 hm']
    rw [hm'] at this
    rcases hm : m s with e | ⟨a, t⟩ <;> rw [hm] at this
    · exact this.elim
    · refine ⟨this.1, this.2.1, this.2.2.1, fun e he => ?_⟩
      rcases List.mem_append.mp he with he | he
      · exact h5 e he
      · exact this.2.2.2 e he

theorem Quiet.bind {ra : α → Prop} {rb : β → Prop} {m : M α} {f : α → M β} (h : Quiet cfg T z ra m)
    (hf : ∀ a, ra a → Quiet cfg T z rb (f a)) : Quiet cfg T z rb (m >>= f) := by
  intro s hp
  obtain ⟨a, t, es, h1, h2, h3, h4, h5⟩ := h s hp
  obtain ⟨b, u, fs, g1, g2, g3, g4, g5⟩ := hf a h2 t h4
  refine ⟨b, u, es ++ fs, bind_ok h1 g1, g2, h3.trans g3, g4, fun e he => ?_⟩
  rcases List.mem_append.mp he with he | he
  · exact h5 e he
  · exact g5 e he

theorem Quiet.pure {ra : α → Prop} {a : α} (h : ra a) : Quiet cfg T z ra (Pure.pure a) :=
  fun s hp => ⟨a, s, [], rfl, h, .refl s, hp, fun _ h => by cases h⟩

theorem Quiet.when {b : Bool} {m : M Unit} (h : b = true → Quiet cfg T z (fun _ => True) m) :
    Quiet cfg T z (fun _ => True) (M.when b m) := by
  unfold M.when
  cases b with
  | true => exact h rfl
  | false => exact Quiet.pure trivial

theorem Quiet.ite {ra : α → Prop} {c : Prop} [Decidable c] {x y : M α}
    (h1 : c → Quiet cfg T z ra x) (h2 : ¬ c → Quiet cfg T z ra y) : Quiet cfg T z ra (if c then x else y) := by
  by_cases h : c
  · rw [if_pos h]; exact h1 h
  · rw [if_neg h]; exact h2 h

theorem Quiet.emit {e : Ev} (h : Placed cfg T z e) : Quiet cfg T z (fun _ => True) (emit e) :=
  fun s hp => ⟨(), s, [e], rfl, trivial, .refl s, hp, fun x hx => by simp only [List.mem_singleton] at hx; subst hx; exact h⟩

theorem Quiet.here : Quiet cfg T z (fun l => ∃ p, Pos cfg z p ∧ l = p.loc) here :=
  fun s hp => ⟨s.loc, s, [], rfl, ⟨s, hp, rfl⟩, .refl s, hp, fun _ h => by cases h⟩

theorem Quiet.hereAt {rb : β → Prop} {f : Loc → M β} (h : ∀ p, Pos cfg z p → Quiet cfg T p rb (f p.loc)) :
    Quiet cfg T z rb (Chk.here >>= f) := by
  intro s hp
  obtain ⟨b, u, fs, g1, g2, g3, g4, g5⟩ := h s hp s hp.self
  exact ⟨b, u, [] ++ fs, bind_ok rfl g1, g2, g3, hp.trans g4, fun e he => (g5 e (by simpa using he)).up hp⟩

/-- The location of the last read position. -/
theorem Sim.here {rb : β → β' → Prop} {D : β → St → Fail → Prop} {m : CodeParser.M β} {f' : Loc → M β'}
    (h : ∀ p, Pos cfg z p → Sim cfg T D p rb m (f' p.loc)) : Sim cfg T D z rb m (Chk.here >>= f') := by
  intro s s' hs hp
  have := (h s' hp s s' hs hp.self).up hp
  have e : (Chk.here >>= f') s' = f' s'.loc s' := by
    show M.bind Chk.here f' s' = _
    unfold M.bind Chk.here
    simp only
    rcases f' s'.loc s' with e | ⟨a, t, es⟩ <;> rfl
  rw [e]; exact this

theorem Quiet.shown {o : Option (List UInt8)} (h : o.isSome = true) : Quiet cfg T z (fun t => o = some t) (shown o) := by
  cases o with
  | none => cases h
  | some t => exact Quiet.pure rfl

theorem Quiet.spanOf {p q : St} (h : Pos cfg p q) :
    Quiet cfg T z (fun sp => sp = ⟨p.loc, q.loc⟩) (spanOf p.loc q.loc) := by
  unfold Chk.spanOf
  rw [h.span]
  exact Quiet.pure rfl

theorem Quiet.previous {l k : Loc} (h : Loc.previous l = some k) : Quiet cfg T z (fun x => x = k) (previous l) := by
  unfold Chk.previous
  rw [h]
  exact Quiet.pure rfl

theorem Quiet.mono {ra rb : α → Prop} {m : M α} (h : Quiet cfg T z ra m) (hr : ∀ a, ra a → rb a) : Quiet cfg T z rb m := by
  intro s hp
  obtain ⟨b, u, fs, g1, g2, g3⟩ := h s hp
  exact ⟨b, u, fs, g1, hr _ g2, g3⟩

end

end CodeParser.Chk
