import Verif.Proofs.Check2
/-!
Helper lemmas about escapes read with issues.
-/
namespace CodeParser.Chk
open CodeParser (Bad Path WF SameAt MSim R)
open Spec (IsScalar)

section
variable {cfg : Cfg} {T : Want} {z : St} {α β : Type}

/-! ### What certainly succeeds -/

/-- The computation with issues succeeds in the state `s`. -/
def Ran (cfg : Cfg) (T : Want) (z s : St) (m : M α) (Q : α → St → Prop) : Prop :=
  ∃ a t es, m s = .ok (a, t, es) ∧ Q a t ∧ (s.flag ≠ none → t.flag ≠ none) ∧ Pos cfg z t ∧ ∀ e ∈ es, Placed cfg T z e

theorem Ran.bind {m : M α} {f : α → M β} {s : St} {Q : α → St → Prop} {P : β → St → Prop}
    (h : Ran cfg T z s m Q) (hf : ∀ a t, Q a t → Pos cfg z t → Ran cfg T z t (f a) P) : Ran cfg T z s (m >>= f) P := by
  obtain ⟨a, t, es, h1, h2, h3, h4, h5⟩ := h
  obtain ⟨b, u, fs, g1, g2, g3, g4, g5⟩ := hf a t h2 h4
  refine ⟨b, u, es ++ fs, bind_ok h1 g1, g2, fun h => g3 (h3 h), g4, fun e he => ?_⟩
  rcases List.mem_append.mp he with he | he
  · exact h5 e he
  · exact g5 e he

theorem Ran.pure {a : α} {s : St} {Q : α → St → Prop} (hp : Pos cfg z s) (h : Q a s) : Ran cfg T z s (Pure.pure a) Q :=
  ⟨a, s, [], rfl, h, id, hp, fun _ h => by cases h⟩

theorem Ran.mono {m : M α} {s : St} {Q P : α → St → Prop} (h : Ran cfg T z s m Q) (hr : ∀ a t, Q a t → P a t) :
    Ran cfg T z s m P := by
  obtain ⟨a, t, es, h1, h2, h3⟩ := h
  exact ⟨a, t, es, h1, hr _ _ h2, h3⟩

theorem Ran.mark {s : St} (hp : Pos cfg z s) : Ran cfg T z s M.mark (fun m t => m = s ∧ t = s) :=
  ⟨s, s, [], rfl, ⟨rfl, rfl⟩, id, hp, fun _ h => by cases h⟩

theorem Ran.seek {m s : St} (hm : Pos cfg z m) (hp : Pos cfg z s) : Ran cfg T z s (M.seek m) (fun _ t => SameAt m t) :=
  ⟨(), s.seek m, [], rfl, ⟨rfl, rfl, rfl⟩, id, hm.seek hp, fun _ h => by cases h⟩

theorem Ran.here {s : St} {f : Loc → M β} {P : β → St → Prop} (hf : Ran cfg T z s (f s.loc) P) :
    Ran cfg T z s (here >>= f) P := by
  obtain ⟨b, u, fs, g1, g⟩ := hf
  exact ⟨b, u, [] ++ fs, bind_ok rfl g1, g⟩

theorem Ran.text {m s : St} (hp : Pos cfg z s) : Ran cfg T z s (textFrom m) (fun _ t => t = s) :=
  ⟨between m s, s, [], rfl, rfl, id, hp, fun _ h => by cases h⟩

theorem Ran.when {b : Bool} {m : M Unit} {s : St} {Q : Unit → St → Prop} (hp : Pos cfg z s)
    (h : b = true → Ran cfg T z s m Q) (h' : b = false → Q () s) : Ran cfg T z s (M.when b m) Q := by
  unfold M.when
  cases b with
  | true => exact h rfl
  | false => exact Ran.pure hp (h' rfl)

theorem Ran.src {E : Env} {s : St} (hp : Pos E.cfg z s) : Ran E.cfg T z s (src E) (fun p t =>
    p = (nextSource E.cfg s).1 ∧ SameAt (nextSource E.cfg s).2 t) := by
  obtain ⟨u, es, h1, h2, h3, h4⟩ := src_run (T := T) hp
  refine ⟨_, u, es, h1, ⟨rfl, h2.same⟩, fun hf => h2.flag ?_, h3, h4⟩
  exact (R_nextSource hp.wf).keep hf

theorem Ran.peek {E : Env} {s : St} (hp : Pos E.cfg z s) : Ran E.cfg T z s (peekSrc E) (fun p t =>
    p = (nextSource E.cfg s).1 ∧ SameAt s t) := by
  unfold peekSrc
  refine (Ran.mark hp).bind fun m t h _ => ?_
  obtain ⟨rfl, rfl⟩ := h
  refine (Ran.src hp).bind fun p u h hu => ?_
  refine (Ran.seek hp hu).bind fun _ v hv hpv => ?_
  exact Ran.pure hpv ⟨h.1, hv⟩

theorem Quiet.ran {ra : α → Prop} {m : M α} {s : St} (hp : Pos cfg z s) (h : Quiet cfg T z ra m) :
    Ran cfg T z s m (fun a t => ra a ∧ SameAt s t) := by
  obtain ⟨a, t, es, h1, h2, h3, h4⟩ := h s hp
  exact ⟨a, t, es, h1, ⟨h2, h3.same⟩, h3.flag, h4⟩

/-- A computation that ends where it starts. -/
theorem Ran.quiet {m : M α} {ra : α → Prop} {s : St} (h : Ran cfg T z s m (fun a t => ra a ∧ SameAt s t)) :
    QuietAt cfg T z ra m s := by
  obtain ⟨a, t, es, h1, h2, h3, h4⟩ := h
  exact ⟨a, t, es, h1, h2.1, ⟨h2.2, h3⟩, h4⟩

theorem Ran.loopN {body : β → M (β ⊕ α)} {I : β → St → Prop} {μ : β → St → Nat} {Q : α → St → Prop}
    (h : ∀ b s, I b s → Pos cfg z s → Ran cfg T z s (body b) (fun x t => match x with
      | .inl b' => I b' t ∧ μ b' t < μ b s
      | .inr a => Q a t)) : ∀ n b s, I b s → Pos cfg z s → μ b s < n → Ran cfg T z s (M.loopN body n b) Q
  | 0, _, _, _, _, hn => absurd hn (by omega)
  | n + 1, b, s, hi, hp, hn => by
    obtain ⟨x, t, es, h1, h2, h3, h4, h5⟩ := h b s hi hp
    cases x with
    | inr a =>
      refine ⟨a, t, es, ?_, h2, h3, h4, h5⟩
      unfold M.loopN; rw [h1]
    | inl b' =>
      obtain ⟨a, u, fs, g1, g2, g3, g4, g5⟩ := Ran.loopN h n b' t h2.1 h4 (by omega)
      refine ⟨a, u, es ++ fs, ?_, g2, fun h => g3 (h3 h), g4, fun e he => ?_⟩
      · unfold M.loopN; rw [h1]; simp only; rw [g1]
      · rcases List.mem_append.mp he with he | he
        · exact h5 e he
        · exact g5 e he

theorem Ran.loop {body : β → M (β ⊕ α)} (I : β → St → Prop) (μ : β → St → Nat) {Q : α → St → Prop} {b : β} {s : St}
    (hi : I b s) (hp : Pos cfg z s) (hμ : μ b s < s.rest.length + 2)
    (h : ∀ b s, I b s → Pos cfg z s → Ran cfg T z s (body b) (fun x t => match x with
      | .inl b' => I b' t ∧ μ b' t < μ b s
      | .inr a => Q a t)) : Ran cfg T z s (M.loop body b) Q := Ran.loopN h _ b s hi hp hμ

theorem QuietAt.out {α' β' : Type} {ra : α' → Prop} {rb : β → β' → Prop} {D : β → St → Fail → Prop} {m : CodeParser.M β}
    {m' : M α'} {f' : α' → M β'} {s s' : St} (h : QuietAt cfg T z ra m' s') (hs : Near s s')
    (hf : ∀ a' t', ra a' → Near s t' → Pos cfg z t' → Out cfg T D z rb (m s) (f' a' t')) :
    Out cfg T D z rb (m s) ((m' >>= f') s') := by
  obtain ⟨a', t', es, h1, h2, h3, h4, h5⟩ := h
  have := hf a' t' h2 (hs.trans h3) h4
  rcases hm' : f' a' t' with e' | ⟨b', u', fs⟩
  · have e : (m' >>= f') s' = .error e' := by
      show M.bind m' f' s' = _
      unfold M.bind; rw [h1]; simp only; rw [hm']
    rw [e]
    rw [hm'] at this; exact this
  · rw [bind_ok h1 hm']
    rw [hm'] at this
    rcases hm : m s with e | ⟨a, t⟩ <;> rw [hm] at this
    · exact this.elim
    · refine ⟨this.1, this.2.1, this.2.2.1, fun e he => ?_⟩
      rcases List.mem_append.mp he with he | he
      · exact h5 e he
      · exact this.2.2.2 e he

theorem bind_err {m : M α} {f : α → M β} {s t : St} {a : α} {e : Fail} {es : List Ev}
    (h : m s = .ok (a, t, es)) (hf : f a t = .error e) : (m >>= f) s = .error e := by
  show M.bind m f s = _
  unfold M.bind
  rw [h]
  simp only
  rw [hf]

/-- A detour: the computation with issues moves, and then both go to the same mark. -/
theorem Ran.seekOut {α' β' : Type} {Q : α' → St → Prop} {rb : β → β' → Prop} {D : β → St → Fail → Prop} {m : St} {m1 : St}
    {k : CodeParser.M β} {m' : M α'} {k' : M β'} {s s' : St} (h : Ran cfg T z s' m' Q) (hs : Near s s')
    (hm : Marks cfg z m m1) (hk : Sim cfg T D z rb k k') :
    Out cfg T D z rb ((CodeParser.M.seek m >>= fun _ => k) s) ((m' >>= fun _ => M.seek m1 >>= fun _ => k') s') := by
  obtain ⟨a, t, es, h1, h2, h3, h4, h5⟩ := h
  have h6 := hk (s.seek m) (t.seek m1) ⟨⟨hm.1.1, hm.1.2, hm.1.3⟩, fun hf => h3 (hs.flag hf)⟩ (hm.2.seek h4)
  have e1 : (CodeParser.M.seek m >>= fun _ => k) s = k (s.seek m) := rfl
  rw [e1]
  rcases hg : k' (t.seek m1) with e' | ⟨b', u', fs⟩
  · have e : (m' >>= fun _ => M.seek m1 >>= fun _ => k') s' = .error e' := by
      exact bind_err h1 (bind_err (t := t.seek m1) (a := ()) rfl hg)
    rw [e]; rw [hg] at h6; exact h6
  · have e : (m' >>= fun _ => M.seek m1 >>= fun _ => k') s' = .ok (b', u', es ++ ([] ++ fs)) :=
      bind_ok h1 (bind_ok (t := t.seek m1) (a := ()) rfl hg)
    rw [e]; rw [hg] at h6
    rcases hg' : k (s.seek m) with e | ⟨b, u⟩ <;> rw [hg'] at h6
    · exact h6.elim
    · refine ⟨h6.1, h6.2.1, h6.2.2.1, fun e he => ?_⟩
      rcases List.mem_append.mp he with he | he
      · exact h5 e he
      · exact h6.2.2.2 e (by simpa using he)
end

/-! ### Issues of escapes -/

section
variable {E : Env} {T : Want} {o m' : St}

theorem strange_char {p : CP} (h : isStrange p = true ∨ isMBStrange p = true) : ∃ n, p = .char n := by
  cases p <;> first | exact ⟨_, rfl⟩ | (rcases h with h | h <;> cases h)

theorem strangeSyntax_at {z : St} {c : WLC} {conf : Nat} {s : St} (hz : Pos E.cfg z o) (h : Step E.cfg o m') (hc : Ready c)
    (hn : ∃ n, c.point = .char n) (hs : Pos E.cfg o s)
    (hsay : T.full → ∃ r n, between o s = Spec.byte '\\' :: r ∧ Spec.Escapes (r ++ s.rest) (.char n) c.escape s.rest ∧
      Spec.Unusual n ∧ (conf = 85 ∨ conf = 95)) :
    QuietAt E.cfg T z (fun _ => True) (strangeSyntaxIssue E c m'.loc conf) s := by
  obtain ⟨n, hn⟩ := hn
  obtain ⟨-, h2⟩ := hc n hn
  unfold strangeSyntaxIssue
  refine Ran.quiet (((Quiet.previous (k := o.loc) h.prev).ran (hz.trans hs)).bind fun l t hl ht => Ran.here ?_)
  obtain ⟨rfl, hst⟩ := hl
  rw [← hst.loc]
  have : Quiet E.cfg T z (fun _ => True) (do
      let _ ← shown c.graphical
      let sp ← spanOf o.loc s.loc
      let certain ← certainActions c sp
      emit (.issue ⟨.syn, .unexpectedCharacter, if E.str then .remark else .warning, sp, conf,
        certain ++ asciiActions c.point sp⟩)) := by
    refine (Quiet.shown h2).bind fun _ _ => (Quiet.spanOf hs).bind fun sp hsp => (certain_quiet (sp := sp) hc).bind fun as has => ?_
    subst hsp
    have hin : ∀ a ∈ as ++ asciiActions c.point ⟨o.loc, s.loc⟩, Spec.InPlace ⟨o.loc, s.loc⟩ a := by
      intro a ha
      rcases List.mem_append.mp ha with ha | ha
      · exact has a ha
      · exact asciiActions_span a ha
    refine Quiet.emit (issue_placed hz hs rfl (fun a ha => inPlace_span (hin a ha)) fun hf => ?_)
    obtain ⟨r, n, h1, h2, h3, h4⟩ := hsay hf
    refine .escaped h1 h2 h3 hin ?_ h4
    cases E.str
    · exact .inr rfl
    · exact .inl rfl
  exact (this.ran ht).mono fun _ _ h => ⟨trivial, hst.trans h.2⟩

theorem checkStrange_at {z : St} {c : WLC} {s : St} (hz : Pos E.cfg z o) (h : Step E.cfg o m') (hc : Ready c)
    (hs : Pos E.cfg o s) (hsay : T.full → ∀ n, c.point = .char n →
      ∃ r, between o s = Spec.byte '\\' :: r ∧ Spec.Escapes (r ++ s.rest) (.char n) c.escape s.rest) :
    QuietAt E.cfg T z (fun _ => True) (checkStrangeSyntax E c m'.loc) s := by
  have quiet : QuietAt E.cfg T z (fun _ => True) (Pure.pure ()) s := (Quiet.pure trivial) _ (hz.trans hs)
  unfold checkStrangeSyntax
  split
  · exact quiet
  split
  · split
    · exact quiet
    · obtain ⟨n, hn⟩ := strange_char (.inl ‹_›)
      refine strangeSyntax_at hz h hc ⟨n, hn⟩ hs fun hf => ?_
      obtain ⟨r, h1, h2⟩ := hsay hf n hn
      refine ⟨r, n, h1, h2, ?_, .inr rfl⟩
      rename_i hst _
      rw [hn] at hst
      simp only [isStrange, inR, Bool.or_eq_true, Bool.and_eq_true, decide_eq_true_eq, beq_iff_eq] at hst
      unfold Spec.Unusual; omega
  · split
    · split
      · exact quiet
      · obtain ⟨n, hn⟩ := strange_char (.inr ‹_›)
        refine strangeSyntax_at hz h hc ⟨n, hn⟩ hs fun hf => ?_
        obtain ⟨r, h1, h2⟩ := hsay hf n hn
        refine ⟨r, n, h1, h2, ?_, .inl rfl⟩
        rename_i hst _
        rw [hn] at hst
        simp only [isMBStrange, inR, Bool.or_eq_true, Bool.and_eq_true, decide_eq_true_eq, beq_iff_eq] at hst
        unfold Spec.Unusual; omega
    · exact quiet

theorem checkStrange_quiet {c : WLC} (h : Step E.cfg o m') (hc : Ready c) :
    Quiet E.cfg T.lo o (fun _ => True) (checkStrangeSyntax E c m'.loc) :=
  fun _ hs => checkStrange_at (.refl h.pos.wfz h.col) h hc hs False.elim

theorem unhandled_at {z : St} {f : Span → List Action} {s : St} (hz : Pos E.cfg z o) (h : Step E.cfg o m')
    (hs : Pos E.cfg o s) (hf : ∀ a ∈ f ⟨o.loc, s.loc⟩, Between E.cfg z a.span)
    (hsay : T.full → ∃ r, between o s = Spec.byte '\\' :: r ∧ Spec.NoEscape (r ++ s.rest) ∧
      ∀ a ∈ f ⟨o.loc, s.loc⟩, Spec.Mends (between o s) ⟨o.loc, s.loc⟩ a) :
    QuietAt E.cfg T z (fun _ => True) (unhandled m' f) s := by
  unfold unhandled
  refine Ran.quiet (((Quiet.previous (k := o.loc) h.prev).ran (hz.trans hs)).bind fun l t hl ht => Ran.here ?_)
  obtain ⟨rfl, hst⟩ := hl
  rw [← hst.loc]
  refine ((Quiet.spanOf hs).ran ht).bind fun sp u hu hpu => ?_
  obtain ⟨rfl, hu⟩ := hu
  have : Quiet E.cfg T z (fun _ => True) (emit (.issue ⟨.syn, .unhandledCharacter, .fatal, ⟨o.loc, s.loc⟩, 100, f ⟨o.loc, s.loc⟩⟩)) := by
    refine Quiet.emit ⟨⟨o, s, hz, hs, rfl⟩, hf, fun hT => ⟨o, s, hz, hs, rfl, ?_⟩⟩
    obtain ⟨r, h1, h2, h3⟩ := hsay hT
    exact .unhandled h1 h2 h3
  exact (this.ran hpu).mono fun _ _ h => ⟨trivial, hst.trans (hu.trans h.2)⟩

theorem between_self {z : St} {s : St} (hz : Pos E.cfg z o) (hs : Pos E.cfg o s) : Between E.cfg z ⟨o.loc, s.loc⟩ :=
  ⟨o, s, hz, hs, rfl⟩

theorem malformedDigits_at {z s d : St} {i : List Char} (hz : Pos E.cfg z o) (h : Step E.cfg o m') (hs : Pos E.cfg o s)
    (hsay : T.full → ∃ r, between o s = Spec.byte '\\' :: r ∧ Spec.NoEscape (r ++ s.rest) ∧
      txt i ++ between d s = Spec.byte '\\' :: between o s) :
    QuietAt E.cfg T z (fun _ => True) (malformedDigits E m' d i) s := by
  have hp := hz.trans hs
  unfold malformedDigits
  split
  swap
  · exact Quiet.pure trivial s hp
  have key : QuietAt E.cfg T z (fun _ => True) (unhandled m' fun sp => [.replace sp (txt i ++ between d s)]) s := by
    refine unhandled_at hz h hs (fun a ha => ?_) fun hT => ?_
    · simp only [List.mem_singleton] at ha; subst ha; exact between_self hz hs
    · obtain ⟨r, h1, h2, h3⟩ := hsay hT
      refine ⟨r, h1, h2, fun a ha => ?_⟩
      simp only [List.mem_singleton] at ha; subst ha
      rw [h3]; exact .doubled
  obtain ⟨a, t, es, h1, g⟩ := key
  exact ⟨a, t, [] ++ es, bind_ok rfl h1, g⟩

theorem malformedDigits_quiet {d : St} {i : List Char} (h : Step E.cfg o m') :
    Quiet E.cfg T.lo o (fun _ => True) (malformedDigits E m' d i) :=
  fun _ hs => malformedDigits_at (.refl h.pos.wfz h.col) h hs False.elim

/-! ### Digits -/

theorem keeps_pure {α} {a : α} : Keeps (Pure.pure a) := fun s b t h => by cases h; rfl
theorem keeps_panic {α} {p : Site} : Keeps (CodeParser.M.panic p : CodeParser.M α) := fun s b t h => by cases h

theorem keeps_bind {α β} {m : CodeParser.M α} {f : α → CodeParser.M β} (h : Keeps m) (hf : ∀ a, Keeps (f a)) : Keeps (m >>= f) := by
  intro s b t ht
  have : CodeParser.M.bind m f s = .ok (b, t) := ht
  unfold CodeParser.M.bind at this
  rcases hm : m s with e | ⟨a, u⟩ <;> rw [hm] at this
  · cases this
  · rw [hf a _ _ _ this]; exact h _ _ _ hm

theorem keeps_byteAt {buf : List UInt8} {i : Nat} : Keeps (byteAt buf i) := by
  unfold byteAt
  cases buf[i]? with
  | none => exact keeps_panic
  | some b => exact keeps_pure

theorem keeps_assertStart {m : St} {p : Nat → Bool} : Keeps (assertStart m p) := by
  unfold assertStart
  split
  · split
    · exact keeps_pure
    · exact keeps_panic
  · exact keeps_panic

theorem keeps_digitsValue {base : Nat} {buf : List UInt8} (n : Nat) : Keeps (digitsValue base buf n) := by
  induction n with
  | zero => exact keeps_pure
  | succ n ih => unfold digitsValue; exact keeps_bind ih fun _ => keeps_bind keeps_byteAt fun _ => keeps_pure

theorem keeps_fromU32 {n : Nat} : Keeps (fromU32 n) := by
  unfold fromU32
  split
  · exact keeps_pure
  · exact keeps_panic

variable {z : St}

theorem assertStart_lift {m m' : St} (h : SameAt m m') {p : Nat → Bool} :
    Sim E.cfg T never z Eq (assertStart m p) (M.lift (assertStart m' p)) :=
  Sim.lift (assertStart_sim h p) keeps_assertStart keeps_assertStart

theorem digitsValue_lift {base : Nat} {buf : List UInt8} {n : Nat} :
    Sim E.cfg T never z Eq (digitsValue base buf n) (M.lift (digitsValue base buf n)) :=
  Sim.lift (digitsValue_sim base buf n) (keeps_digitsValue n) (keeps_digitsValue n)

theorem fromU32_lift {n : Nat} : Sim E.cfg T never z Eq (fromU32 n) (M.lift (fromU32 n)) :=
  Sim.lift (fromU32_sim n) keeps_fromU32 keeps_fromU32

theorem src_simE : Sim E.cfg T never z Eq (CodeParser.src E.cfg) (src E) := src_sim.mono fun _ _ h => h.1
theorem peek_simE : Sim E.cfg T never z Eq (CodeParser.peekSrc E.cfg) (peekSrc E) := peekSrc_sim.mono fun _ _ h => h.1

theorem digitRun_sim' (p : CP → Bool) (n : Nat) : Sim E.cfg T never z Eq (CodeParser.digitRun E.cfg p n) (digitRun E p n) := by
  induction n with
  | zero => exact Sim.pure rfl
  | succ n ih =>
    unfold CodeParser.digitRun digitRun
    refine peek_simE.bindE fun _ => Sim.ite (fun _ => src_simE.bindE fun _ => ih) fun _ => Sim.pure rfl

/-- Back to the mark, a backslash. -/
theorem decay {m m' : St} (h : Marks E.cfg z m m') : Sim E.cfg T never z Eq
    (do CodeParser.M.seek m; pure backslash) (do M.seek m'; pure backslash) :=
  (Sim.seek h).bindE fun _ => Sim.pure rfl

theorem handle4Hex_sim' {m m' : St} (hm : SameAt m m') (h : Step E.cfg o m') :
    Sim E.cfg T.lo never o Eq (CodeParser.handle4Hex E.cfg m) (handle4Hex E m') := by
  unfold CodeParser.handle4Hex handle4Hex
  refine (assertStart_lift hm).bindE fun _ => Sim.mark.bind fun a a' ha => (digitRun_sim' _ _).bindE fun _ => ?_
  rw [ha.1.rest]
  refine Sim.ite (fun _ => ?_) (fun _ => ?_)
  · refine digitsValue_lift.bindE fun _ => fromU32_lift.bindE fun _ => ?_
    exact (checkStrange_quiet h (ready_number (by simp))).sim fun _ _ => Sim.pure rfl
  · exact (malformedDigits_quiet h).sim fun _ _ => decay ⟨hm, h.pos⟩

theorem handle2Hex_sim' {m m' : St} (hm : SameAt m m') (h : Step E.cfg o m') :
    Sim E.cfg T.lo never o Eq (CodeParser.handle2Hex E.cfg m) (handle2Hex E m') := by
  unfold CodeParser.handle2Hex handle2Hex
  refine (assertStart_lift hm).bindE fun _ => Sim.mark.bind fun a a' ha => (digitRun_sim' _ _).bindE fun _ => ?_
  rw [ha.1.rest]
  refine Sim.ite (fun _ => ?_) (fun _ => ?_)
  · refine digitsValue_lift.bindE fun _ => ?_
    exact (checkStrange_quiet h (ready_number (by simp))).sim fun _ _ => Sim.pure rfl
  · exact (malformedDigits_quiet h).sim fun _ _ => decay ⟨hm, h.pos⟩

theorem handleOctal_sim' {m m' : St} (hm : SameAt m m') (h : Step E.cfg o m') :
    Sim E.cfg T.lo never o Eq (CodeParser.handleOctal E.cfg m) (handleOctal E m') := by
  unfold CodeParser.handleOctal handleOctal
  refine (assertStart_lift hm).bindE fun _ => (digitRun_sim' _ _).bindE fun _ => ?_
  rw [hm.rest]
  refine Sim.ite (fun _ => ?_) (fun _ => ?_)
  · refine digitsValue_lift.bindE fun _ => fromU32_lift.bindE fun _ => ?_
    exact (checkStrange_quiet h (ready_number (by simp))).sim fun _ _ => Sim.pure rfl
  · exact (malformedDigits_quiet h).sim fun _ _ => decay ⟨hm, h.pos⟩

theorem handle6Hex_sim' {m m' : St} (hm : SameAt m m') (h : Step E.cfg o m') :
    Sim E.cfg T.lo never o Eq (CodeParser.handle6Hex E.cfg m) (handle6Hex E m') := by
  unfold CodeParser.handle6Hex handle6Hex
  refine (assertStart_lift hm).bindE fun _ => Sim.mark.bind fun a a' ha => (digitRun_sim' _ _).bindE fun _ => ?_
  rw [ha.1.rest]
  refine Sim.ite (fun _ => ?_) (fun _ => ?_)
  · refine digitsValue_lift.bindE fun _ => Sim.ite (fun _ => decay ⟨hm, h.pos⟩) fun _ => fromU32_lift.bindE fun _ => ?_
    exact (checkStrange_quiet h (ready_number (by simp))).sim fun _ _ => Sim.pure rfl
  · exact (malformedDigits_quiet h).sim fun _ _ => decay ⟨hm, h.pos⟩

end
end CodeParser.Chk
