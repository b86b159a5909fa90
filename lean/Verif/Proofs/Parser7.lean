import Verif.Proofs.Parser6
/-!
The parser: the loop over the top-level expressions (helper lemmas).
-/
namespace CodeParser
open Spec Cst

theorem handleFirstLine_eof {cfg : Cfg} {f : FirstLine} {s : St} (he : s.eof = false) :
    wp (EE s.rest) (handleFirstLine cfg f) s (fun _ t => R cfg s t ∧ t.eof = false) := by
  have hs := WF_of_eof he
  have sk : ∀ {k : Tok} {u : St}, k.kind ≠ .EndOfFile → (k.skipSt u).eof = false := by
    intro k u h
    show (k.kind == .EndOfFile) = false
    simpa using h
  have body : wp (EE s.rest) (handleFirstLine cfg .check) s (fun _ t => R cfg s t ∧ t.eof = false) := by
    unfold handleFirstLine
    refine wp_call (peekTokenWith_wp hs) (fun _ h => h) fun k u hp => ?_
    refine wp_ite (fun _ => wp_pure ⟨hp.reach, by rw [← hp.same.eof]; exact he⟩) (fun hk => wp_skip ?_)
    have hk : k.kind = .Hash := by simpa using hk
    have e1 : (k.skipSt u).eof = false := sk (by rw [hk]; decide)
    refine wp_call (peekTokenWith_wp hp.skip.wf) (fun _ h => h.of_R hs hp.skip) fun k2 u2 hp2 => ?_
    have r2 := R.trans hs hp.skip hp2.reach
    refine wp_ite (fun _ => wp_pure ⟨r2, by rw [← hp2.same.eof]; exact e1⟩) (fun hk2 => wp_skip ?_)
    have hk2 : k2.kind = .Bang := by simpa using hk2
    have r3 := R.trans hs hp.skip hp2.skip
    refine wp_loop (fun _ t => R cfg s t ∧ t.eof = false) (fun _ t => t.rest.length) ⟨r3, sk (by rw [hk2]; decide)⟩ (by omega) ?_
    rintro _ t ⟨hR, ht⟩
    refine wp_call (peekTokenWith_wp hR.wf) (fun _ h => h.of_R hs hR) fun k3 u3 hp3 => ?_
    refine wp_ite (fun _ => wp_pure ⟨R.trans hs hR hp3.reach, by rw [← hp3.same.eof]; exact ht⟩) (fun hne => ?_)
    refine wp_ite (fun _ => wp_skip (wp_pure ⟨R.trans hs hR hp3.skip, sk hne⟩)) (fun _ => ?_)
    refine wp_skip (wp_pure ⟨⟨R.trans hs hR hp3.skip, sk hne⟩, ?_⟩)
    show k3.after.length < t.rest.length
    have := hp3.len
    have := List.length_pos_iff.mpr (hp3.more hne)
    omega
  cases f with
  | notScript => exact wp_pure ⟨R.refl hs, he⟩
  | check => exact body
  | script => exact body

section
variable {U : Setup} {F : Fr} {C C' : List (Nat × Nat)} {G G' : List Closer} {X Y Z : List Cst} {s s' s1 s2 : PS}
  {k t o t0 : Tok} {ts us vs ws : List Tok} {n l x r : Cst} {p q : Nat}

/-- The trees at top level. -/
def Top (c : Cst) : Prop := Operand c ∨ c.isTrivia = true

theorem On.join {r : List UInt8} {l : Loc} (h : On U ⟨[], r, l⟩ C G [] Z s)
    (h' : On U ⟨[], s.st.rest, s.st.loc⟩ C' G [] Y s') : On U ⟨[], r, l⟩ C' G [] (Z ++ Y) s' := by
  refine ⟨h'.reach, h'.eof, h'.stack, h'.ctxs, h'.groups, ?_, ?_, h.newlines.append h'.newlines⟩
  · intro c hc
    rcases List.mem_append.mp (List.nil_append (Z ++ Y) ▸ hc) with hc | hc
    · exact h.trees c (by simpa using hc)
    · exact h'.trees c (by simpa using hc)
  · obtain ⟨ks, h1, h2, hu⟩ := h.spans
    obtain ⟨js, h3, h4, -⟩ := h'.spans
    refine ⟨ks ++ js, ?_, h2.append h4, hu⟩
    simpa using h1.append h3

theorem assertQuiescent_wp {E : Err → Prop} (h : On U F [] [] X Z s) :
    wpP E assertQuiescent s (fun _ s' => s' = s) := by
  unfold wpP assertQuiescent
  rw [h.ctxs, h.groups]
  exact rfl

theorem parseItem_wp {r : List UInt8} {l : Loc} (h : On U ⟨[], r, l⟩ [] [] [] Z s)
    (hr : Ready U.env.cfg false s.st t) (hne : t.kind ≠ .EndOfFile) :
    wpP U.E (parseItem U.env t) s (fun c s' => On U ⟨[], r, l⟩ [] [] [] (Z ++ [c]) s' ∧ Top c ∧ s'.len < s.len) := by
  refine wpP_ite (fun ht => ?_) (fun ht => wpP_ite (fun hc => ?_) (fun hc => ?_))
  · refine wpP_call (skipP_wp h hr.toHere hne (hr.at hne)) ?_
    rintro _ s1 ⟨h1, e1⟩
    exact wpP_pure ⟨h1, Or.inr ht, len_skip_lt hr hne e1⟩
  · have h0 : On U ⟨[], s.st.rest, s.st.loc⟩ [] [] [] [] s :=
      ⟨h.reach, h.eof, h.stack, h.ctxs, h.groups, by simp, ⟨[], .of_eq rfl, .nil, s.st, h.reach, rfl, rfl⟩, NLs.nil⟩
    refine wpP_call (toplevelCloser_wp h0 hr hc) ?_
    rintro _ s1 ⟨h1, hl⟩
    refine wpP_call (popNode_wp h1) ?_
    rintro c s2 ⟨rfl, h2, e2⟩
    refine wpP_call (assertQuiescent_wp h2) ?_
    rintro _ _ rfl
    refine wpP_pure ⟨h.join h2, Or.inl ?_, by unfold PS.len at *; rw [e2]; exact hl⟩
    exact operandKind_iff.mpr (show operandKind .Error_UnexpectedCloser = true by decide)
  · have h0 : On U ⟨[], s.st.rest, s.st.loc⟩ [] [] [] [] s :=
      ⟨h.reach, h.eof, h.stack, h.ctxs, h.groups, by simp, ⟨[], .of_eq rfl, .nil, s.st, h.reach, rfl, rfl⟩, NLs.nil⟩
    refine wpP_get ?_
    have hm : meas (.prefix t) s < 8 * s.st.rest.length + 8 := by
      have := rank_le (.prefix t)
      unfold meas PS.len
      omega
    refine wpP_call (run_wp _ (.prefix t) ⟨[], s.st.rest, s.st.loc⟩ [] [] [] s ⟨rfl, h0, hr, by simpa using ht⟩ hm) ?_
    rintro _ s1 ⟨n, hd, he⟩
    have hl := he.strict0 rfl (by simpa using hc) hne
    refine wpP_call (popNode_wp (X := []) hd.on) ?_
    rintro c s2 ⟨rfl, h2, e2⟩
    refine wpP_call (assertQuiescent_wp h2) ?_
    rintro _ _ rfl
    exact wpP_pure ⟨h.join h2, Or.inl hd.operand, by unfold PS.len at *; rw [e2]; exact hl⟩

/-- What the loop over the top-level expressions gives. -/
structure Parsed (U : Setup) (r : List UInt8) (l : Loc) (cs : List Cst) (s : PS) : Prop where
  on : On U ⟨[], r, l⟩ [] [] [] cs s
  top : ∀ c ∈ cs, Top c
  tail : ∃ c, c.point = .eof ∧ NextB s.st.rest c []
  done : ∃ v, R U.env.cfg U.s0 v ∧ v.rest = [] ∧ v.flag = s.st.flag

theorem parseLoopN_wp {r : List UInt8} {l : Loc} : ∀ (n : Nat) (cs : List Cst) (s : PS), On U ⟨[], r, l⟩ [] [] [] cs s →
    (∀ c ∈ cs, Top c) → s.len < n → wpP U.E (parseLoopN U.env n cs) s (fun cs' s' => Parsed U r l cs' s')
  | 0, _, _, _, _, h => absurd h (Nat.not_lt_zero _)
  | n + 1, cs, s, h, ht, hn => by
    refine wpP_call (Q := fun k s' => On U ⟨[], r, l⟩ [] [] [] cs s' ∧ SameAt s.st s'.st ∧ Ready U.env.cfg false s'.st k ∧
      (k.kind = .EndOfFile → (∃ c, c.point = .eof ∧ NextB s'.st.rest c []) ∧
        ∃ v, R U.env.cfg U.s0 v ∧ v.rest = [] ∧ v.flag = s'.st.flag)) ?_ ?_
    · show wpP U.E (P.lift (peekToken U.env.cfg (!s.groups.isEmpty))) s _
      rw [h.groups]
      refine wpP_lift (wp_mono (wp_eq (peekTokenWith_wp h.wf)) (fun _ h => h) ?_) (fun e => U_EE h)
      rintro k u ⟨hp, he⟩
      exact ⟨h.same hp.reach hp.same, hp.same, Ready.of_peek h.wf hp he, fun hk => ⟨by
        show ∃ c, c.point = .eof ∧ NextB u.rest c []
        rw [← hp.same.rest]
        exact (hp.eof hk).2, _, R.trans U.wf0 h.reach hp.skip, (hp.eof hk).1, rfl⟩⟩
    rintro t s1 ⟨h1, hs1, hr, hE⟩
    have hl1 := SameAt.len hs1
    refine wpP_ite (fun hk => wpP_pure ⟨h1, ht, (hE hk).1, (hE hk).2⟩) (fun hne => ?_)
    refine wpP_call (parseItem_wp h1 hr hne) ?_
    rintro c s2 ⟨h2, hT, hl2⟩
    refine parseLoopN_wp n _ s2 h2 ?_ (by omega)
    intro c' hc'
    rcases List.mem_append.mp hc' with hc' | hc'
    · exact ht c' hc'
    · rw [List.mem_singleton.mp hc']; exact hT

/-- What parsing gives. -/
theorem doParse_wp {conv : Conv} {f : FirstLine} {bs : List UInt8} (h0 : U.s0 = St.init conv bs) :
    match doParse U.env conv f bs with
    | .error e => U.E e
    | .ok (cs, s) => ∃ u, R U.env.cfg (St.init conv bs) u ∧ (f = .notScript → u = St.init conv bs) ∧ Parsed U u.rest u.loc cs s := by
  have hw := WF_init conv bs
  have key : wpP U.E (do P.lift (handleFirstLine U.env.cfg f); parseLoop U.env : P (List Cst)) ⟨St.init conv bs, [], [], []⟩
      (fun cs s => ∃ u, R U.env.cfg (St.init conv bs) u ∧ (f = .notScript → u = St.init conv bs) ∧ Parsed U u.rest u.loc cs s) := by
    refine wpP_call (Q := fun _ s => R U.env.cfg (St.init conv bs) s.st ∧ s.st.eof = false ∧
      (f = .notScript → s.st = St.init conv bs) ∧ s.groups = [] ∧ s.ctxs = [] ∧ s.stack = []) ?_ ?_
    · refine wpP_lift (wp_mono (wp_eq (handleFirstLine_eof (cfg := U.env.cfg) (f := f) (s := St.init conv bs) rfl)) (fun _ h => h) ?_) ?_
      · rintro _ u ⟨⟨hR, he⟩, hq⟩
        refine ⟨hR, he, ?_, rfl, rfl, rfl⟩
        rintro rfl
        have : (Except.ok ((), St.init conv bs) : Except Err (Unit × St)) = Except.ok ((), u) := hq
        cases this
        rfl
      · intro e he
        refine Or.inl ?_
        rw [h0]
        exact he
    · rintro _ s ⟨hR, he, hf, hg, hc, hk⟩
      have h1 : On U ⟨[], s.st.rest, s.st.loc⟩ [] [] [] [] s :=
        ⟨by rw [h0]; exact hR, he, hk, hc, hg, by simp, ⟨[], .of_eq rfl, .nil, s.st, by rw [h0]; exact hR, rfl, rfl⟩, NLs.nil⟩
      refine wpP_mono (Q := fun cs s' => Parsed U s.st.rest s.st.loc cs s') ?_ ?_
      · exact parseLoopN_wp _ [] s h1 (by simp) (by unfold PS.len; omega)
      · rintro cs s' hp
        exact ⟨s.st, hR, hf, hp⟩
  unfold wpP at key
  unfold doParse
  revert key
  generalize (do P.lift (handleFirstLine U.env.cfg f); parseLoop U.env : P (List Cst)) ⟨St.init conv bs, [], [], []⟩ = q
  intro key
  cases q with
  | error e => exact key
  | ok p => exact key

end
end CodeParser
