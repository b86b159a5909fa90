import Verif.Proofs.Check3
import Verif.Props.LongNames
/-!
Helper lemmas about long names and characters read with issues.
-/
namespace CodeParser.Chk
open CodeParser (Bad Path WF SameAt MSim R)
open Spec (IsScalar)

section
variable {E : Env} {T : Want} {o z : St}

/-! ### Long names -/

theorem longNameTail_sim' : Sim E.cfg T never z Eq (CodeParser.longNameTail E.cfg) (longNameTail E) := by
  unfold CodeParser.longNameTail longNameTail
  refine Sim.loopE fun _ => peek_simE.bindE fun _ => Sim.ite (fun _ => src_simE.bindE fun _ => Sim.inl) fun _ => Sim.inr

theorem longNameScan_sim' {c : CP} : Sim E.cfg T never z Eq (CodeParser.longNameScan E.cfg c) (longNameScan E c) := by
  unfold CodeParser.longNameScan longNameScan
  refine Sim.ite (fun _ => src_simE.bindE fun _ => longNameTail_sim') fun _ => Sim.ite (fun _ => ?_) fun _ => Sim.pure rfl
  exact src_simE.bindE fun _ => peek_simE.bindE fun _ => Sim.pure rfl

theorem longNameScan_true {cfg : Cfg} {c : CP} {s t : St} (hs : WF s) (h : CodeParser.longNameScan cfg c s = .ok (true, t)) :
    ∃ r, t.rest = Spec.byte ']' :: r := by
  unfold CodeParser.longNameScan at h
  by_cases hu : c.isUpper = true
  · rw [if_pos hu] at h
    have h1 : CodeParser.longNameTail cfg (nextSource cfg s).2 = .ok (true, t) := h
    have h2 := longNameTail_spec (cfg := cfg) (E := fun _ => True) (WF_nextSource (cfg := cfg) hs)
    unfold wp at h2
    rw [h1] at h2
    exact h2.2.1 rfl
  · rw [if_neg hu] at h
    by_cases hc : c = ch ']'
    · rw [if_pos hc] at h; cases h
    · rw [if_neg hc] at h; cases h

theorem Near.wf {s s' : St} (h : Near s s') (hw : WF s') : WF s := by
  unfold WF at *; rw [h.same.rest, h.same.eof]; exact hw

theorem named_iff {name : List UInt8} : (longnameToCodepoint name).isSome = true ↔ Spec.Named name := by
  rw [Option.isSome_iff_exists]
  constructor
  · rintro ⟨p, hp⟩
    obtain ⟨n, h1, h2⟩ := Props.C14_longname.mp hp
    exact ⟨n, p, h2, h1⟩
  · rintro ⟨n, p, h2, h1⟩
    exact ⟨p, Props.C14_longname.mpr ⟨n, h1, h2⟩⟩

theorem malformedLongName_at {m' d s : St} {c : CP} (hz : Pos E.cfg z o) (h : Step E.cfg o m') (hs : Pos E.cfg o s)
    (hsay : T.full → between o s = Spec.byte '\\' :: Spec.byte '[' :: between d s ∧
      Spec.NoEscape (Spec.byte '[' :: between d s ++ s.rest)) :
    QuietAt E.cfg T z (fun _ => True) (malformedLongName E m' d c) s := by
  unfold malformedLongName
  split
  swap
  · exact Quiet.pure trivial s (hz.trans hs)
  have key : QuietAt E.cfg T z (fun _ => True) (
      if c.isUpper then
        unhandled m' fun _ => if (longnameToCodepoint (between d s)).isSome then [.insert (spanAt s.loc) (txt [']'])] else []
      else unhandled m' fun sp => [.replace sp (txt ['\\', '\\', '['] ++ between d s)]) s := by
    split
    · refine unhandled_at hz h hs (fun a ha => ?_) fun hT => ⟨_, (hsay hT).1, (hsay hT).2, fun a ha => ?_⟩
      · split at ha
        · simp only [List.mem_singleton] at ha; subst ha; exact .at (hz.trans hs)
        · cases ha
      · split at ha
        · rename_i hn
          simp only [List.mem_singleton] at ha; subst ha
          exact .closed (named_iff.mp hn) (hsay hT).1
        · cases ha
    · refine unhandled_at hz h hs (fun a ha => ?_) fun hT => ⟨_, (hsay hT).1, (hsay hT).2, fun a ha => ?_⟩
      · simp only [List.mem_singleton] at ha; subst ha; exact between_self hz hs
      · simp only [List.mem_singleton] at ha; subst ha
        rw [(hsay hT).1]
        exact .doubled
  obtain ⟨a, t, es, h1, g⟩ := key
  exact ⟨a, t, [] ++ ([] ++ es), bind_ok rfl (bind_ok rfl h1), g⟩

theorem txt_ascii {cs : List Char} (h : ∀ c ∈ cs, c.toNat < 128) : txt cs = Spec.bytes cs := by
  induction cs with
  | nil => rfl
  | cons c cs ih =>
    have hc : String.utf8EncodeChar c = [Spec.byte c] := by
      unfold String.utf8EncodeChar Spec.byte
      simp only [enc_val]
      rw [if_pos (by have := h c (by simp); omega)]
    show String.utf8EncodeChar c ++ txt cs = Spec.byte c :: Spec.bytes cs
    rw [hc, ih fun c hc => h c (by simp [hc])]
    rfl

theorem closest_mem {d : List Char → Nat} {t : List (CP × List Char)} {n : List Char} (h : closest d t = some n) :
    ∃ e ∈ t, e.2 = n := by
  induction t generalizing n with
  | nil => cases h
  | cons e es ih =>
    unfold closest at h
    split at h
    · exact ⟨e, by simp, Option.some.inj h⟩
    · rename_i m hm
      split at h
      · exact ⟨e, by simp, Option.some.inj h⟩
      · obtain ⟨e', h1, h2⟩ := ih hm
        exact ⟨e', by simp [h1], h2.trans (Option.some.inj h)⟩

theorem suggestion_named {name : List UInt8} {i : List Char} {sp : Span} : ∀ a ∈ suggestion E name i sp,
    ∃ n, Spec.Named n ∧ a = .replace sp (txt i ++ (n ++ [Spec.byte ']'])) := by
  intro a ha
  unfold suggestion at ha
  split at ha
  · cases ha
  · rename_i hne
    simp only [List.mem_singleton] at ha
    refine ⟨E.suggest name, ?_, by rw [ha, List.append_assoc]; rfl⟩
    unfold Env.suggest at hne ⊢
    split at hne
    · exact absurd rfl hne
    · rename_i n hn
      split at hne
      · rename_i hd
        simp only [if_pos hd]
        obtain ⟨e, he, hen⟩ := closest_mem hn
        have h1 := List.all_eq_true.mp Props.codePointNames_ok e he
        simp only [Bool.and_eq_true, beq_iff_eq] at h1
        refine named_iff.mp ?_
        rw [← hen, show txt e.2 = Spec.bytes e.2 from txt_ascii (Props.names_ascii e he), h1.1]
        rfl
      · exact absurd rfl hne

theorem suggestion_span {name : List UInt8} {i : List Char} {sp : Span} : ∀ a ∈ suggestion E name i sp, a.span = sp := by
  intro a ha
  unfold suggestion at ha
  split at ha
  · cases ha
  · simp only [List.mem_singleton] at ha; subst ha; rfl

theorem unknownLongName_at {m' s t : St} {name : List UInt8} (hz : Pos E.cfg z o) (h : Step E.cfg o m') (hs : Pos E.cfg o s)
    (ht : Step E.cfg s t) (hscan : E.scan = true → Step E.cfg z o)
    (hsay : T.full → ¬ Spec.Named name ∧ between o t = Spec.byte '\\' :: Spec.byte '[' :: (name ++ [Spec.byte ']']) ∧
      (E.scan = false → Spec.NoEscape (Spec.byte '[' :: (name ++ [Spec.byte ']']) ++ t.rest)) ∧
      (E.scan = true → between z t = Spec.byte '\\' :: between o t)) :
    QuietAt E.cfg T z (fun _ => True) (unknownLongName E m' name) s := by
  have hp := hz.trans hs
  unfold unknownLongName
  split
  swap
  · exact Quiet.pure trivial s hp
  refine QuietAt.here ?_
  have : Quiet E.cfg T z (fun _ => True) (do
      let start ← previous m'.loc
      let stop := Loc.next s.loc
      if E.scan then
        let start ← previous start
        let sp ← spanOf start stop
        emit (.issue ⟨.syn, .unrecognizedLongName, .error, sp, 75, suggestion E name ['\\', '\\', '['] sp⟩)
      else
        let sp ← spanOf start stop
        emit (.issue ⟨.syn, .unhandledCharacter, .fatal, sp, 100, suggestion E name ['\\', '['] sp⟩)) := by
    refine (Quiet.previous (k := o.loc) h.prev).bind fun l hl => ?_
    subst hl
    refine Quiet.ite (fun hsc => ?_) fun hsc => ?_
    · refine (Quiet.previous (k := z.loc) (hscan hsc).prev).bind fun l hl => ?_
      subst hl
      have hzt := hp.trans ht.pos
      rw [← ht.loc]
      refine (Quiet.spanOf hzt).bind fun sp hsp => ?_
      subst hsp
      refine Quiet.emit (issue_placed (.refl hzt.wfz (hscan hsc).col) hzt rfl suggestion_span fun hT => ?_)
      obtain ⟨h1, h2, -, h4⟩ := hsay hT
      refine .unrecognized (by rw [h4 hsc, h2]) h1 fun a ha => ?_
      obtain ⟨n, hn, rfl⟩ := suggestion_named a ha
      exact ⟨n, hn, rfl⟩
    · have hot := hs.trans ht.pos
      rw [← ht.loc]
      refine (Quiet.spanOf hot).bind fun sp hsp => ?_
      subst hsp
      refine Quiet.emit (issue_placed hz hot rfl suggestion_span fun hT => ?_)
      obtain ⟨h1, h2, h3, -⟩ := hsay hT
      refine .unhandled h2 (h3 (by simpa using hsc)) fun a ha => ?_
      obtain ⟨n, hn, rfl⟩ := suggestion_named a ha
      exact .named h2 h1 hn
  exact this s hp

theorem step_byte {s : St} {b : UInt8} {r : List UInt8} (hs : Pos E.cfg z s) (hr : s.rest = b :: r) (h1 : b.toNat < 128)
    (h2 : 14 ≤ b.toNat) : Step E.cfg s (nextSource E.cfg s).2 := by
  refine step_of hs ?_
  rw [ns_byte hs.wf hr h1 (by omega)]
  exact locUpd_char (by omega) (by omega) (by omega) _

/-- A first part at a later base. -/
theorem Out.bindUp {α α' β β' : Type} {cfg : Cfg} {ra : α → α' → Prop} {rb : β → β' → Prop} {D : β → St → Fail → Prop} {s s' : St}
    {m : CodeParser.M α} {m' : M α'} {f : α → CodeParser.M β} {f' : α' → M β'} (hz : Pos cfg z o)
    (h : Out cfg T never o ra (m s) (m' s'))
    (hf : ∀ a t a' t' es, m s = .ok (a, t) → m' s' = .ok (a', t', es) → ra a a' → Near t t' → Pos cfg o t' →
      Out cfg T D z rb (f a t) (f' a' t')) : Out cfg T D z rb ((m >>= f) s) ((m' >>= f') s') := by
  refine (h.up hz).bind fun a t a' t' es h1 h2 h3 h4 _ => ?_
  have : Pos cfg o t' := by rw [h1, h2] at h; exact h.2.2.1
  exact hf a t a' t' es h1 h2 h3 h4 this

theorem when_at {cfg : Cfg} {b : Bool} {m : M Unit} {s : St} (hp : Pos cfg z s)
    (h : b = true → QuietAt cfg T z (fun _ => True) m s) : QuietAt cfg T z (fun _ => True) (M.when b m) s := by
  unfold M.when
  cases b with
  | true => exact h rfl
  | false => exact Quiet.pure trivial s hp

theorem handleLongName_out {m m' s s' : St} (hz : Pos E.cfg z o) (hm : SameAt m m') (h : Step E.cfg o m')
    (hscan : E.scan = true → Step E.cfg z o) (hs : Near s s') (hp : Pos E.cfg o s') :
    Out E.cfg T.lo never z Eq (CodeParser.handleLongName E.cfg m s) (handleLongName E m' s') := by
  unfold CodeParser.handleLongName handleLongName
  have hmk : Marks E.cfg z m m' := ⟨hm, hz.trans h.pos⟩
  refine Out.bindUp hz (assertStart_lift hm s s' hs hp) fun _ s1 _ s1' _ _ _ _ hs1 hp1 => ?_
  refine Out.bindUp hz (Sim.mark (T := T.lo) s1 s1' hs1 hp1) fun a s2 a' s2' _ _ _ ha hs2 hp2 => ?_
  refine Out.bindUp hz (peek_simE (T := T.lo) s2 s2' hs2 hp2) fun c s3 c' s3' _ _ _ hc hs3 hp3 => ?_
  subst hc
  refine Out.bindUp hz (longNameScan_sim' (T := T.lo) s3 s3' hs3 hp3) fun w s4 w' s4' _ hscn _ hw hs4 hp4 => ?_
  subst hw
  cases w with
  | false =>
    exact (malformedLongName_at (T := T.lo) hz h hp4 False.elim).out hs4 fun _ t' _ hs hp => decay hmk s4 t' hs hp
  | true =>
    obtain ⟨r, hr⟩ := longNameScan_true (hs3.wf hp3.wf) hscn
    have hst : Step E.cfg s4' (nextSource E.cfg s4').2 :=
      step_byte hp4 (hs4.same.rest ▸ hr) (by decide) (by decide)
    refine Out.bindUp hz (Sim.mark (T := T.lo) s4 s4' hs4 hp4) fun b s5 b' s5' _ h5 h5' hb hs5 hp5 => ?_
    cases h5; cases h5'
    have : between a s4 = between a' s4' := by unfold between; rw [ha.1.rest, hb.1.rest]
    simp only [this]
    cases hn : longnameToCodepoint (between a' s4') with
    | none =>
      exact (unknownLongName_at (T := T.lo) hz h hp4 hst hscan False.elim).out hs4 fun _ t' _ hs hp => decay hmk s4 t' hs hp
    | some p =>
      simp only
      refine Out.bindUp hz (src_simE (T := T.lo) s4 s4' hs4 hp4) fun c s6 c' s6' _ _ _ _ hs6 hp6 => ?_
      refine (when_at (hz.trans hp6) fun _ => checkStrange_at (T := T.lo) hz h (ready_named hn) hp6 False.elim).out hs6 fun _ t' _ hs hp => ?_
      exact Sim.pure rfl s6 t' hs hp

/-! ### A backslash behind a backslash -/

theorem skippedName_ran {s : St} {c : CP} (hp : Pos E.cfg z s) (hc : c = ch ']' → s.eof = false) :
    Ran E.cfg T z s (skippedName E c) (fun w t => w = true → t.eof = false) := by
  unfold skippedName
  refine Ran.loop (fun c s => c = ch ']' → s.eof = false) (fun c s => s.rest.length + if c = .eof then 0 else 1) hc hp
    (by split <;> omega) ?_
  intro c s hc hp
  by_cases ha : c.isAlphaOrDigitSrc E.cfg = true
  · rw [if_pos ha]
    have hne : c ≠ .eof := by rintro rfl; cases ha
    refine (Ran.src hp).bind fun c' t h ht => Ran.pure ht ?_
    obtain ⟨rfl, h⟩ := h
    refine ⟨fun he => ?_, ?_⟩
    · obtain ⟨b, r, -, -, -, h1⟩ := ns_char hp.wf he (by decide)
      rw [← h.eof, h1]
    · rw [if_neg hne, ← h.rest]
      by_cases hr : s.rest = []
      · rw [nextSource_nil hr]; simp [hr]
      · have := ns_len (cfg := E.cfg) hp.wf hr
        split <;> omega
  · rw [if_neg ha]
    refine Ran.pure hp fun h => hc ?_
    simpa using h

theorem surrogate_square {r : List UInt8} : ¬ Spec.SurrogateEscape (Spec.byte '[' :: r) := by
  intro h
  generalize hl : Spec.byte '[' :: r = l at h
  cases h with
  | hex4 => exact absurd (List.cons.inj hl).1 (by decide)
  | hex6 => exact absurd (List.cons.inj hl).1 (by decide)

/-- The base reads a long name without a panic. -/
theorem longName_ok {cfg : Cfg} {m s : St} (hm : WF m) (hc : (nextSource cfg m).1 = ch '[') (hs : SameAt (nextSource cfg m).2 s) :
    ∃ c t, CodeParser.handleLongName cfg m s = .ok (c, t) ∧ (s.flag ≠ none → t.flag ≠ none) := by
  obtain ⟨b, r, h1, h2, -, h3⟩ := ns_char hm hc (by decide)
  have hb : b = Spec.byte '[' := UInt8.toNat_inj.mp (h2.trans (by decide))
  subst hb
  have hm2 : WF { m with flag := s.flag } := hm
  have e : (nextSource cfg { m with flag := s.flag }).2 = s := by
    rw [ns_byte (s := { m with flag := s.flag }) hm2 h1 (by decide) (fun h => absurd h (by decide))]
    rw [h3] at hs
    exact St.ext' hs.rest (by rw [h2]; exact hs.loc) hs.eof rfl
  have := handleLongName_spec (cfg := cfg) hm2 h1 (R_nextSource (cfg := cfg) hm2) (by rw [e, ← hs.rest, h3])
  rw [e] at this
  unfold wp at this
  have e2 : CodeParser.handleLongName cfg { m with flag := s.flag } s = CodeParser.handleLongName cfg m s := rfl
  rw [e2] at this
  rcases hx : CodeParser.handleLongName cfg m s with e | ⟨a, t⟩ <;> rw [hx] at this
  · have h4 := this.2
    rw [h1] at h4; exact (surrogate_square h4).elim
  · exact ⟨_, _, rfl, this.1.keep⟩

/-- A first part at a later base. -/
theorem Ran.bindUp {α β : Type} {cfg : Cfg} {m : M α} {f : α → M β} {s : St} {Q : α → St → Prop} {P : β → St → Prop}
    (hz : Pos cfg z o) (h : Ran cfg T o s m Q) (hf : ∀ a t, Q a t → Pos cfg o t → Ran cfg T z t (f a) P) :
    Ran cfg T z s (m >>= f) P := by
  obtain ⟨a, t, es, h1, h2, h3, h4, h5⟩ := h
  exact Ran.bind (Q := fun b u => Q b u ∧ Pos cfg o u) ⟨a, t, es, h1, ⟨h2, h4⟩, h3, hz.trans h4, fun e he => (h5 e he).up hz⟩
    fun b u hb _ => hf b u hb.1 hb.2

theorem lookForLongName_ran {m' s0 : St} (hz : Step E.cfg z o) (h : Step E.cfg o m') (h0 : SameAt m' s0) (hp : Pos E.cfg o s0) :
    Ran E.cfg T.lo z s0 (lookForLongName E m') (fun _ _ => True) := by
  unfold lookForLongName
  have up : ∀ {t : St}, Pos E.cfg o t → Pos E.cfg z t := fun h => hz.pos.trans h
  refine Ran.bindUp hz.pos (Ran.src hp) fun c s1 h1 hp1 => ?_
  obtain ⟨rfl, h1⟩ := h1
  have hsrc := MSim.src E.cfg m' s0 h0
  have he1 : (nextSource E.cfg m').1 = (nextSource E.cfg s0).1 := hsrc.1
  have he2 : SameAt (nextSource E.cfg m').2 (nextSource E.cfg s0).2 := hsrc.2
  rw [← he1]
  replace h1 := he2.trans h1
  by_cases hc : (nextSource E.cfg m').1 = ch '['
  swap
  · rw [if_neg hc]; exact Ran.pure (up hp1) trivial
  rw [if_pos hc]
  obtain ⟨b, r, hb1, hb2, -, hb3⟩ := ns_char h.pos.wf hc (by decide)
  refine Ran.bindUp hz.pos (Ran.mark hp1) fun s2 s2' hs2 _ => ?_
  obtain ⟨e1, e2⟩ := hs2
  rw [e1, e2]
  refine Ran.bindUp hz.pos (Ran.src hp1) fun c s3 h3 hp3 => ?_
  by_cases hu : c.isUpper = true
  swap
  · rw [if_neg hu]; exact Ran.pure (up hp3) trivial
  rw [if_pos hu]
  refine Ran.bindUp hz.pos (Ran.src hp3) fun c s4 h4 hp4 => ?_
  obtain ⟨rfl, h4⟩ := h4
  refine Ran.bindUp hz.pos (skippedName_ran hp4 fun he => ?_) fun w s5 h5 hp5 => ?_
  · obtain ⟨b, r, -, -, -, h⟩ := ns_char hp3.wf he (by decide)
    rw [← h4.eof, h]
  cases w with
  | false => exact Ran.pure (up hp5) trivial
  | true =>
    rw [if_pos rfl]
    have heof : s5.eof = false := h5 rfl
    have hsame : SameAt s1 { s5 with rest := s1.rest, loc := s1.loc } :=
      ⟨rfl, rfl, by rw [heof, ← h1.eof, hb3]⟩
    have hp7 : Pos E.cfg o { s5 with rest := s1.rest, loc := s1.loc } := by
      have := hp1.seek hp5
      rwa [show s5.seek s1 = { s5 with rest := s1.rest, loc := s1.loc } from by
        unfold St.seek; congr 1; rw [heof, ← h1.eof, hb3]] at this
    have g : Ran E.cfg T.lo z s5 (goBack s1) (fun _ t => t = { s5 with rest := s1.rest, loc := s1.loc }) :=
      ⟨(), _, [], rfl, rfl, id, up hp7, fun _ h => by cases h⟩
    refine g.bind fun _ s6 h6 _ => ?_
    subst h6
    obtain ⟨c, t, hok, hfl⟩ := longName_ok h.pos.wf hc (h1.trans hsame)
    have := handleLongName_out (E := { E with enable := true, scan := true }) (T := T) hz.pos (SameAt.refl m') h (fun _ => hz) (Near.refl _) hp7
    simp only at this
    rw [hok] at this
    rcases hy : handleLongName { E with enable := true, scan := true } m' { s5 with rest := s1.rest, loc := s1.loc } with e | ⟨a', t', es⟩ <;> rw [hy] at this
    · exact this.elim
    · have g : Ran E.cfg T.lo z { s5 with rest := s1.rest, loc := s1.loc } (handleLongName { E with enable := true, scan := true } m') (fun _ _ => True) :=
        ⟨a', t', es, hy, trivial, fun h => this.2.1.flag (hfl h), this.2.2⟩
      exact g.bind fun _ _ _ hp => Ran.pure hp trivial

theorem escapedBackslash_at {s : St} (hz : Step E.cfg z o) (h : Step E.cfg o s) :
    QuietAt E.cfg T.lo z (fun _ => True) (escapedBackslash E) s := by
  have hp := hz.pos.trans h.pos
  unfold escapedBackslash
  split
  swap
  · exact Quiet.pure trivial s hp
  refine Ran.quiet ((Ran.mark hp).bind fun m t hm _ => ?_)
  obtain ⟨rfl, rfl⟩ := hm
  refine (lookForLongName_ran hz h (.refl _) h.pos).bind fun _ u _ hu => ?_
  exact (Ran.seek hp hu).mono fun _ _ h => ⟨trivial, h⟩

/-! ### Other escapes -/

theorem escapedName_ran {s : St} (hp : Pos E.cfg z s) : Ran E.cfg T z s (escapedName E) (fun _ _ => True) := by
  unfold escapedName
  refine Ran.loop (fun _ _ => True) (fun _ s => s.rest.length) trivial hp (by omega) ?_
  intro _ s _ hp
  refine (Ran.peek hp).bind fun c t h ht => ?_
  obtain ⟨rfl, h⟩ := h
  split
  · rename_i ha
    have hne : s.rest ≠ [] := fun hr => by rw [nextSource_nil hr] at ha; cases ha
    refine (Ran.src ht).bind fun _ u hu hpu => Ran.pure hpu ⟨trivial, ?_⟩
    rw [← hu.2.rest, h.rest]
    exact ns_len ht.wf (by rw [← h.rest]; exact hne)
  · split
    · exact (Ran.src ht).bind fun _ u hu hpu => Ran.pure hpu trivial
    · exact Ran.pure ht trivial

theorem QuietAt.ran {α : Type} {cfg : Cfg} {m : M α} {ra : α → Prop} {s : St} (h : QuietAt cfg T z ra m s) :
    Ran cfg T z s m (fun a t => ra a ∧ SameAt s t) := by
  obtain ⟨a, t, es, h1, h2, h3, h4⟩ := h
  exact ⟨a, t, es, h1, ⟨h2, h3.same⟩, h3.flag, h4⟩

theorem SrcOK.graphical {c : CP} (h : SrcOK c) (h1 : c ≠ .eof) (h2 : c.isMBUnsafe = false) :
    (WLC.graphical ⟨c, .none⟩).isSome = true := by
  rcases h with h | h | h | ⟨n, h, hn⟩
  · exact absurd h h1
  · cases c <;> first | (cases h; done) | (cases h2; done)
  · subst h; decide
  · subst h; exact graphical_char hn

theorem unhandledIssue_ran {m' s : St} {c : CP} (h : Step E.cfg o m') (hp : Pos E.cfg o s) (hc : SrcOK c) :
    Ran E.cfg T.lo o s (unhandledIssue E m' c) (fun _ _ => True) := by
  have ho : Pos E.cfg o o := .refl h.pos.wfz h.col
  have hu : c.isUpper = true → (WLC.graphical ⟨c, .none⟩).isSome = true := fun h =>
    hc.graphical (by rintro rfl; cases h) (by cases c <;> first | rfl | cases h)
  have hx : c.isHex = true → (WLC.graphical ⟨c, .none⟩).isSome = true := fun h =>
    hc.graphical (by rintro rfl; cases h) (by cases c <;> first | rfl | cases h)
  unfold unhandledIssue
  refine ((Quiet.previous (k := o.loc) h.prev).ran hp).bind fun l t hl ht => Ran.here ?_
  obtain ⟨rfl, hst⟩ := hl
  rw [← hst.loc]
  split
  · rename_i hc
    unfold escapedUpper
    refine (escapedName_ran ht).bind fun w u _ hu' => (Ran.text hu').bind fun name v hv hpv => ?_
    split
    · refine Ran.mono (QuietAt.ran (unhandled_at ho h hpv (fun a ha => ?_) False.elim)) fun _ _ _ => trivial
      simp only [List.mem_singleton] at ha; subst ha
      show Between _ _ (spanAt (Loc.next o.loc))
      rw [← h.loc]
      exact .at h.pos
    · refine Ran.mono (Quiet.ran (ra := fun _ => True) hpv ((Quiet.shown (hu hc)).bind fun _ _ => (Quiet.spanOf hp).bind fun sp hsp => ?_)) fun _ _ _ => trivial
      subst hsp
      refine Quiet.emit (issue_placed ho hp rfl ?_ False.elim)
      intro a ha
      simp only at ha
      split at ha
      · simp only [List.mem_cons, List.not_mem_nil, or_false] at ha
        rcases ha with rfl | rfl <;> rfl
      · simp only [List.mem_cons, List.not_mem_nil, or_false] at ha
        subst ha; rfl
  · split
    · rename_i hc
      refine ((Quiet.shown (hx hc)).ran ht).bind fun g u _ hpu => ?_
      refine Ran.mono (QuietAt.ran (unhandled_at ho h hpu (fun a ha => ?_) False.elim)) fun _ _ _ => trivial
      simp only [List.mem_singleton] at ha; subst ha
      exact between_self ho hpu
    · split
      · exact Ran.pure ht trivial
      · split
        · exact Ran.pure ht trivial
        · rename_i h3 h4
          refine ((Quiet.shown (hc.graphical h3 (by simpa using h4))).ran ht).bind fun g u _ hpu => ?_
          refine Ran.mono (QuietAt.ran (unhandled_at ho h hpu (fun a ha => ?_) False.elim)) fun _ _ _ => trivial
          split at ha
          · cases ha
          · simp only [List.mem_singleton] at ha; subst ha
            exact between_self ho hpu

theorem unhandledEscape_out {m m' s s' : St} (hm : SameAt m m') (h : Step E.cfg o m') (hs : Near s s') (hp : Pos E.cfg o s') :
    Out E.cfg T.lo never o Eq ((do CodeParser.M.seek m; pure backslash : CodeParser.M WLC) s) (unhandledEscape E m' s') := by
  have e : unhandledEscape E m' = (do
      let c ← peekSrc E
      let _ ← src E
      M.when (E.check && E.enable) (unhandledIssue E m' c)) >>= fun _ => M.seek m' >>= fun _ => pure backslash := by
    unfold unhandledEscape
    rw [M.assoc]
    congr 1; funext c
    rw [M.assoc]
  rw [e]
  refine Ran.seekOut (Q := fun _ _ => True) ?_ hs ⟨hm, h.pos⟩ (Sim.pure rfl)
  refine (Ran.peek hp).bind fun c t hc ht => (Ran.src ht).bind fun _ u _ hu => ?_
  refine Ran.when hu (fun _ => unhandledIssue_ran h hu ?_) fun _ => trivial
  rw [hc.1]; exact srcOK hp.wf

theorem simpleIssue_at {m' s : St} {p : CP} (h : Step E.cfg o m') (hs : Pos E.cfg o s) (hb : p = .metaBackslash → Step E.cfg m' s) :
    QuietAt E.cfg T.lo o (fun _ => True) (simpleIssue E m' p) s := by
  unfold simpleIssue
  split
  · exact escapedBackslash_at h (hb ‹_›)
  split
  swap
  · exact Quiet.pure trivial s hs
  rename_i hp
  have hp : (WLC.graphical ⟨p, .single⟩).isSome = true := by
    simp only [Bool.and_eq_true, Bool.or_eq_true, beq_iff_eq] at hp
    rcases hp.2 with ((h | h) | h) | h <;> subst h <;> decide
  refine Ran.quiet (((Quiet.shown hp).ran hs).bind fun _ t1 h1 hp1 => ?_)
  refine ((Quiet.previous (k := o.loc) h.prev).ran hp1).bind fun l t hl ht => Ran.here ?_
  obtain ⟨rfl, hst⟩ := hl
  rw [← hst.loc, ← h1.2.loc]
  have ho : Pos E.cfg o o := .refl h.pos.wfz h.col
  refine ((Quiet.spanOf hs).ran ht).bind fun sp u hu hpu => ?_
  obtain ⟨rfl, hu⟩ := hu
  exact ((Quiet.emit (issue_placed (T := T.lo) ho hs rfl (fun a ha => by cases ha) False.elim)).ran hpu).mono
    fun _ _ h => ⟨trivial, h1.2.trans (hst.trans (hu.trans h.2))⟩

/-! ### Characters -/

theorem mem_simple {c : CP} (h : simpleEscape c = some .metaBackslash) : c = ch '\\' := by
  apply Classical.byContradiction
  intro hc
  have e : ∀ {b : Prop} [Decidable b] {x : CP} {y : Option CP}, x ≠ .metaBackslash → (if b then some x else y) = some .metaBackslash →
      y = some .metaBackslash := by
    intro b _ x y hx h
    split at h
    · cases h; exact absurd rfl hx
    · exact h
  unfold simpleEscape at h
  replace h := e (by simp) h
  replace h := e (by simp) h
  replace h := e (by simp) h
  rw [if_neg hc] at h
  iterate 21 replace h := e (by simp) h
  cases h

theorem src_ok {cfg : Cfg} {s t : St} {c : CP} (h : CodeParser.src cfg s = .ok (c, t)) :
    c = (nextSource cfg s).1 ∧ t = (nextSource cfg s).2 := by
  have : Except.ok (nextSource cfg s) = (Except.ok (c, t) : Except Err (CP × St)) := h
  injection this with this
  rw [this]; exact ⟨rfl, rfl⟩

theorem peek_ok {cfg : Cfg} {s t : St} {c : CP} (h : CodeParser.peekSrc cfg s = .ok (c, t)) :
    c = (nextSource cfg s).1 ∧ SameAt s t := by
  have : Except.ok (peekSource cfg s) = (Except.ok (c, t) : Except Err (CP × St)) := h
  injection this with this
  have e : (nextSource cfg s).1 = (peekSource cfg s).1 := rfl
  refine ⟨by rw [e, this], ?_⟩
  have e : t = (peekSource cfg s).2 := by rw [this]
  rw [e]; exact ⟨rfl, rfl, rfl⟩

theorem nextEscape_out {s s' : St} (hE : E.scan = false) (h : Step E.cfg o s') (hs : Near s s') :
    Out E.cfg T.lo never o Eq (CodeParser.nextEscape E.cfg s s) (nextEscape E s' s') := by
  unfold CodeParser.nextEscape nextEscape
  refine Out.bindUp h.pos (peek_simE (T := T.lo) s s' hs h.pos.self) fun c s1 c' s1' _ hc _ hcc hs1 hp1 => ?_
  subst hcc
  obtain ⟨e1, e2⟩ := peek_ok hc
  cases hse : simpleEscape c with
  | some p =>
    simp only
    refine Out.bindUp h.pos (src_simE (T := T.lo) s1 s1' hs1 hp1) fun d s2 d' s2' _ hd _ _ hs2 hp2 => ?_
    refine (simpleIssue_at h (h.pos.trans hp2) fun hpb => ?_).out hs2 fun _ t _ hs hp => Sim.pure rfl s2 t hs hp
    subst hpb
    obtain ⟨e3, e4⟩ := src_ok hd
    have h6 := MSim.src E.cfg s s1 e2
    have e5 : (nextSource E.cfg s).1 = (nextSource E.cfg s1).1 := h6.1
    refine ⟨hp2, h.pos.col, ?_⟩
    rw [← hs2.same.loc, e4, Props.loc_step E.cfg s1 (hs1.wf hp1.wf), ← e5, ← e1, mem_simple hse,
      locUpd_char (by decide) (by decide) (by decide), increment_next, ← e2.loc, hs.same.loc]
  | none =>
    simp only
    by_cases h1 : c = ch '['
    · rw [if_pos h1, if_pos h1]
      exact (src_simE (T := T.lo) s1 s1' hs1 (h.pos.trans hp1)).bind fun d s2 d' s2' _ _ _ _ hs2 hp2 =>
        handleLongName_out (.refl h.pos.wfz h.col) hs.same h (fun h => by rw [hE] at h; cases h) hs2 hp2
    rw [if_neg h1, if_neg h1]
    refine (Sim.ite (z := o) (T := T.lo) (D := never) (fun _ => src_simE.bindE fun _ => handle4Hex_sim' hs.same h) fun _ =>
      Sim.ite (fun _ => src_simE.bindE fun _ => handle2Hex_sim' hs.same h) fun _ =>
      Sim.ite (fun _ => src_simE.bindE fun _ => handle6Hex_sim' hs.same h) fun _ =>
      Sim.ite (fun _ => src_simE.bindE fun _ => handleOctal_sim' hs.same h) fun _ =>
      fun _ _ hs1 hp => unhandledEscape_out hs.same h hs1 hp) s1 s1' hs1 (h.pos.trans hp1)

theorem nextWL_eq (hE : E.scan = false) : Sim E.cfg T.lo never z Eq (CodeParser.nextWL E.cfg) (nextWL E) := by
  intro s s' hs hp
  refine Out.up hp ?_
  unfold CodeParser.nextWL nextWL
  refine (src_simE (T := T.lo) s s' hs hp.self).bind fun c t c' t' _ hc _ hcc ht hpt => ?_
  subst hcc
  obtain ⟨e1, e2⟩ := src_ok hc
  by_cases h : c ≠ ch '\\'
  · rw [if_pos h, if_pos h]; exact Sim.pure rfl t t' ht hpt
  · rw [if_neg h, if_neg h]
    refine (Sim.mark (T := T.lo) t t' ht hpt).bind fun m u m' u' _ h1 h2 hm hu hpu => ?_
    cases h1; cases h2
    have hst : Step E.cfg s' t' := ⟨hpt, hp.col, by
      rw [← ht.same.loc, e2, Props.loc_step E.cfg s (hs.wf hp.wf), ← e1, not_not.mp h,
        locUpd_char (by decide) (by decide) (by decide), increment_next, hs.same.loc]⟩
    exact nextEscape_out hE hst ht

/-- The same character, which can be formatted. -/
def Read (a a' : WLC) : Prop := a = a' ∧ Ready a

theorem nextWL_sim' (hE : E.scan = false) : Sim E.cfg T.lo never z Read (CodeParser.nextWL E.cfg) (nextWL E) := by
  intro s s' hs hp
  have := nextWL_eq (T := T) hE s s' hs hp
  rcases hm : CodeParser.nextWL E.cfg s with e | ⟨a, t⟩ <;> rcases hm' : nextWL E s' with e' | ⟨a', t', es⟩ <;> rw [hm, hm'] at this
  · exact this
  · exact this
  · exact this
  · exact ⟨⟨this.1, ready_read (hs.wf hp.wf) hm⟩, this.2⟩

end
end CodeParser.Chk
