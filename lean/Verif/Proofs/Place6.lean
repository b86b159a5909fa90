import Verif.Proofs.Place5
import Verif.Proofs.Recover6
/-!
What comes before does not influence reading: resuming at a boundary (helper lemmas).
-/
namespace CodeParser.Place
open Spec Cst

/-! ### The loop over the top-level expressions -/

theorem bind_ok {α β} {m : P α} {f : α → P β} {s : PS} {r : β × PS} (h : (m >>= f) s = .ok r) :
    ∃ a t, m s = .ok (a, t) ∧ f a t = .ok r := by
  have h : P.bind m f s = .ok r := h
  unfold P.bind at h
  rcases hm : m s with e | ⟨a, t⟩ <;> rw [hm] at h
  · cases h
  · exact ⟨a, t, rfl, h⟩

theorem bind_eq {α β} {m : P α} {f : α → P β} {s t : PS} {a : α} (h : m s = .ok (a, t)) : (m >>= f) s = f a t := by
  show P.bind m f s = f a t
  unfold P.bind
  rw [h]

section
variable {env : PEnv}

/-- One round of the loop. -/
theorem parseLoopN_step {n : Nat} {cs : List Cst} {s : PS} {r : List Cst × PS} (h : parseLoopN env (n + 1) cs s = .ok r) :
    ∃ t s1, peekP env s = .ok (t, s1) ∧ ((t.kind = .EndOfFile ∧ r = (cs, s1)) ∨
      ∃ c s2, t.kind ≠ .EndOfFile ∧ parseItem env t s1 = .ok (c, s2) ∧ parseLoopN env n (cs ++ [c]) s2 = .ok r) := by
  unfold parseLoopN at h
  obtain ⟨t, s1, h1, h⟩ := bind_ok h
  refine ⟨t, s1, h1, ?_⟩
  by_cases hk : t.kind = .EndOfFile
  · rw [if_pos hk] at h; cases h; exact Or.inl ⟨hk, rfl⟩
  · rw [if_neg hk] at h
    obtain ⟨c, s2, h2, h⟩ := bind_ok h
    exact Or.inr ⟨c, s2, hk, h2, h⟩

theorem parseLoopN_end {n : Nat} {cs : List Cst} {s s1 : PS} {t : Tok} (h1 : peekP env s = .ok (t, s1))
    (hk : t.kind = .EndOfFile) : parseLoopN env (n + 1) cs s = .ok (cs, s1) := by
  unfold parseLoopN
  rw [bind_eq h1, if_pos hk]
  rfl

theorem parseLoopN_round {n : Nat} {cs : List Cst} {s s1 s2 : PS} {t : Tok} {c : Cst} (h1 : peekP env s = .ok (t, s1))
    (hk : t.kind ≠ .EndOfFile) (h2 : parseItem env t s1 = .ok (c, s2)) :
    parseLoopN env (n + 1) cs s = parseLoopN env n (cs ++ [c]) s2 := by
  conv => lhs; unfold parseLoopN
  rw [bind_eq h1, if_neg hk, bind_eq h2]

theorem parseLoopN_more (m : Nat) : ∀ {n : Nat} {cs : List Cst} {s : PS} {r : List Cst × PS}, parseLoopN env n cs s = .ok r →
    parseLoopN env (n + m) cs s = .ok r
  | 0, _, _, _, h => by cases h
  | n + 1, cs, s, r, h => by
    rw [Nat.add_right_comm]
    obtain ⟨t, s1, h1, ⟨hk, rfl⟩ | ⟨c, s2, hk, h2, h3⟩⟩ := parseLoopN_step h
    · exact parseLoopN_end h1 hk
    · rw [parseLoopN_round h1 hk h2]; exact parseLoopN_more m h3

/-- What was read before is kept, and does not matter. -/
theorem parseLoopN_acc : ∀ {n : Nat} {cs : List Cst} {s s' : PS} {r : List Cst}, parseLoopN env n cs s = .ok (r, s') →
    ∃ ds, r = cs ++ ds ∧ ∀ bs, parseLoopN env n bs s = .ok (bs ++ ds, s')
  | 0, _, _, _, _, h => by cases h
  | n + 1, cs, s, s', r, h => by
    obtain ⟨t, s1, h1, ⟨hk, h2⟩ | ⟨c, s2, hk, h2, h3⟩⟩ := parseLoopN_step h
    · cases h2
      exact ⟨[], by simp, fun bs => by rw [List.append_nil]; exact parseLoopN_end h1 hk⟩
    · obtain ⟨ds, h4, h5⟩ := parseLoopN_acc h3
      refine ⟨c :: ds, by rw [h4]; simp, fun bs => ?_⟩
      rw [parseLoopN_round h1 hk h2, h5]
      simp
end

/-- The loop, cut after some of the trees. -/
theorem parseLoopN_cut {U : Setup} {r0 : List UInt8} {l0 : Loc} {es : List Cst} {s' : PS} : ∀ (ds : List Cst) {n : Nat} {cs : List Cst} {s : PS},
    On U ⟨[], r0, l0⟩ [] [] [] cs s → parseLoopN U.env n cs s = .ok (cs ++ (ds ++ es), s') →
    ∃ m t, On U ⟨[], r0, l0⟩ [] [] [] (cs ++ ds) t ∧ parseLoopN U.env m (cs ++ ds) t = .ok (cs ++ (ds ++ es), s')
  | [], n, cs, s, h, hp => ⟨n, s, by simpa using h, by simpa using hp⟩
  | d :: ds, 0, cs, s, h, hp => by cases hp
  | d :: ds, n + 1, cs, s, h, hp => by
    obtain ⟨t, s1, h1, ⟨hk, h2⟩ | ⟨c, s2, hk, h2, h3⟩⟩ := parseLoopN_step hp
    · have := congrArg (fun p => p.1.length) h2
      simp at this
    · have hpk : wpP U.E (peekP U.env) s (fun k s' => On U ⟨[], r0, l0⟩ [] [] [] cs s' ∧ Ready U.env.cfg false s'.st k) := by
        show wpP U.E (P.lift (peekToken U.env.cfg (!s.groups.isEmpty))) s _
        rw [h.groups]
        refine wpP_lift (wp_mono (wp_eq (peekTokenWith_wp h.wf)) (fun _ h => h) ?_) (fun e => U_EE h)
        rintro k u ⟨hp, he⟩
        exact ⟨h.same hp.reach hp.same, Ready.of_peek h.wf hp he⟩
      unfold wpP at hpk
      rw [h1] at hpk
      obtain ⟨on1, hr⟩ := hpk
      have hit := parseItem_wp on1 hr hk
      unfold wpP at hit
      rw [h2] at hit
      obtain ⟨xs, h4, -⟩ := parseLoopN_acc h3
      have hc : c = d := by
        have : d :: (ds ++ es) = c :: xs := by
          apply List.append_cancel_left (as := cs)
          simpa using h4
        exact (List.cons.inj this).1.symm
      subst hc
      obtain ⟨m, t', h5, h6⟩ := parseLoopN_cut ds (n := n) (cs := cs ++ [c]) hit.1 (by simpa using h3)
      exact ⟨m, t', by simpa using h5, by simpa using h6⟩

/-- Changes of tokens that keep the kind, and the text unless the token misses its end. -/
def Keeping (f : Tok → Tok) : Prop := ∀ t, Kept t (f t)

mutual
theorem mapTok_same {f f' : Tok → Tok} (hf : Keeping f) (hf' : Keeping f') : ∀ (c : Cst) {c' : Cst}, SameTree c c' →
    SameTree (mapTok f c) (mapTok f' c')
  | .tok t, c', h => by
    cases h with
    | tok h => exact .tok (kept_same h (hf _) (hf' _))
  | .node k cs, c', h => by
    cases h with
    | node h => exact .node (mapToks_same hf hf' cs h)
    | missing => exact .missing
  | .call hd m op b, c', h => by
    cases h with
    | call h1 h2 => exact .call (mapToks_same hf hf' hd h1) (mapToks_same hf hf' b h2)
    | callMissing h1 => exact .callMissing (mapToks_same hf hf' hd h1)
  | .callAgg .., _, h => by cases h
  | .box .., _, h => by cases h
  | .code _, _, h => by cases h
theorem mapToks_same {f f' : Tok → Tok} (hf : Keeping f) (hf' : Keeping f') : ∀ (cs : List Cst) {cs' : List Cst},
    List.Forall₂ SameTree cs cs' → List.Forall₂ SameTree (mapToks f cs) (mapToks f' cs')
  | [], _, h => by cases h; exact .nil
  | c :: cs, _, h => by
    cases h with
    | cons h1 h2 => exact .cons (mapTok_same hf hf' c h1) (mapToks_same hf hf' cs h2)
end

theorem mapToks_cut {f : Tok → Tok} : ∀ {cs ds es : List Cst}, mapToks f cs = ds ++ es →
    ∃ a b, cs = a ++ b ∧ mapToks f a = ds ∧ mapToks f b = es
  | cs, [], es, h => ⟨[], cs, rfl, by unfold mapToks; rfl, by simpa using h⟩
  | [], d :: ds, es, h => by unfold mapToks at h; cases h
  | c :: cs, d :: ds, es, h => by
    unfold mapToks at h
    obtain ⟨a, b, h1, h2, h3⟩ := mapToks_cut (List.cons.inj h).2
    exact ⟨c :: a, b, by rw [h1]; rfl, by unfold mapToks; rw [h2, (List.cons.inj h).1], h3⟩

theorem keeping_of {cfg : Cfg} {conv first bs r cs f ks u s} (o : Outcome cfg conv first bs r cs f ks u s) : Keeping f :=
  fun t => ⟨o.kind t, fun h => by rw [o.same t (by rw [← h, ← isUnterminated_eq]; rfl)]⟩

/-- Parsing the rest of a text gives the rest of the trees. -/
theorem parse_rest {cfg cfg' : Cfg} (hu : cfg.uniAlnum = cfg'.uniAlnum) {conv conv' : Conv} {pre suf : List UInt8}
    {r r' : ParseResult} {ds es : List Cst} (h : parseBytesCst cfg conv .notScript (pre ++ suf) = .ok r)
    (he : r.unsafeEncoding = none) (hs : r.syntax' = ds ++ es) (hp : (leavesL ds).flatMap Tok.text = pre)
    (hc : completeL ds = true) (ht : ∀ t ∈ leavesL ds, unterminated t.kind = false)
    (h' : parseBytesCst cfg' conv' .notScript suf = .ok r') :
    List.Forall₂ SameTree es r'.syntax' ∧ r'.unsafeEncoding = none := by
  obtain ⟨cs, f, ks, u, s, o⟩ := parse_ok h
  obtain ⟨cs', f', ks', u', s', o'⟩ := parse_ok h'
  obtain ⟨as, bs, rfl, ha, hb⟩ := mapToks_cut (o.eq.symm.trans hs)
  have hrun : parseLoopN ⟨cfg, recoverGroup cfg (pre ++ suf)⟩ ((pre ++ suf).length + 1) [] ⟨St.init conv (pre ++ suf), [], [], []⟩ =
      .ok (as ++ bs, s) := o.run
  have hrun' : parseLoopN ⟨cfg', recoverGroup cfg' suf⟩ (suf.length + 1) [] ⟨St.init conv' suf, [], [], []⟩ = .ok (cs', s') := o'.run
  have on0 : On (realSetup cfg conv (pre ++ suf)) ⟨[], pre ++ suf, (St.init conv (pre ++ suf)).loc⟩ [] [] [] []
      ⟨St.init conv (pre ++ suf), [], [], []⟩ :=
    ⟨R.refl (WF_init _ _), rfl, rfl, rfl, rfl, by simp, ⟨[], .of_eq rfl, .nil, _, R.refl (WF_init _ _), rfl, rfl⟩, NLs.nil⟩
  obtain ⟨m, t, hon, hcut⟩ := parseLoopN_cut (U := realSetup cfg conv (pre ++ suf)) as (es := bs) (s' := s) on0 hrun
  simp only [List.nil_append] at hon hcut
  -- the position after `as`
  have hrest : t.st.rest = suf := by
    obtain ⟨js, h1, h2, -⟩ := hon.spans
    have h3 : leavesL as = js := h1.all (Or.inr (by
      rw [List.nil_append]
      rw [← ha, completeL_map] at hc; exact hc))
    have h4 : leavesL ds = leavesL as := by
      rw [← ha, leavesL_map] at ht ⊢
      have : (leavesL as).map f = (leavesL as).map id := by
        refine List.map_congr_left (fun t htm => o.same t ?_)
        have := ht (f t) (List.mem_map_of_mem htm)
        rw [o.kind t, ← isUnterminated_eq] at this
        exact this
      rw [this, List.map_id]
    have h5 := h2.text
    rw [← h3, ← h4, hp] at h5
    exact List.append_cancel_left h5
  obtain ⟨xs, hx, hacc⟩ := parseLoopN_acc hcut
  have hx := List.append_cancel_left hx
  subst hx
  have hrun1 := hacc []
  rw [List.nil_append] at hrun1
  have hflag : t.st.flag = none := by
    let V : Setup := { realSetup cfg conv (pre ++ suf) with
      s0 := t.st
      wf0 := hon.wf
      fix := fun op cs cs' h1 h2 ⟨ks, u, v, a, b, c, hu, hv⟩ h4 =>
        (realSetup cfg conv (pre ++ suf)).fix op cs cs' h1 h2
          ⟨ks, u, v, a, b, c, R.trans (WF_init _ _) hon.reach hu, R.trans (WF_init _ _) hon.reach hv⟩ h4 }
    have onV : On V ⟨[], t.st.rest, t.st.loc⟩ [] [] [] [] t :=
      ⟨R.refl hon.wf, hon.eof, hon.stack, hon.ctxs, hon.groups, by simp, ⟨[], .of_eq rfl, .nil, _, R.refl hon.wf, rfl, rfl⟩, NLs.nil⟩
    have e1 := parseLoopN_more (t.len + 1) hrun1
    have hw := parseLoopN_wp (U := V) (m + (t.len + 1)) [] t onV (by simp) (by omega)
    unfold wpP at hw
    rw [e1] at hw
    have hf : s.st.flag = none := by rw [← o.flag, he]
    exact Classical.byContradiction fun hne => hw.on.reach.keep hne hf
  have hal : SameP t ⟨St.init conv' suf, [], [], []⟩ := ⟨⟨hrest, hon.eof, hflag⟩, hon.groups, hon.ctxs, by
    rw [hon.stack]; exact .nil⟩
  have key : List.Forall₂ SameTree bs cs' ∧ SameP s s' := by
    have e1 := parseLoopN_more (suf.length + 1) hrun1
    have e2 := parseLoopN_more m hrun'
    rw [Nat.add_comm _ m] at e2
    generalize recoverGroup cfg' suf = rcv' at e2
    rw [wide_eq hu] at e2
    exact parseLoopN_sim _ .nil _ _ hal _ _ _ _ e1 e2
  refine ⟨?_, ?_⟩
  · rw [← hb, o'.eq]
    exact mapToks_same (keeping_of o) (keeping_of o') _ key.1
  · rw [o'.flag, ← key.2.st.flag, ← o.flag, he]

/-! ### The loop over the tokens -/

section
variable {cfg : Cfg}

/-- The body of the loop. -/
def tokBody (cfg : Cfg) (ts : List Tok) : M (List Tok ⊕ List Tok) := do
  let t ← peekToken cfg false
  if t.kind = .EndOfFile then pure (.inr ts.reverse)
  else do
    t.skip
    pure (.inl (t :: ts))

theorem tokenLoop_eq (s : St) : tokenLoop cfg s = M.loopN (tokBody cfg) (s.rest.length + 2) [] s := rfl

theorem tokBody_end {ts : List Tok} {s u : St} {k : Tok} (h : peekToken cfg false s = .ok (k, u)) (hk : k.kind = .EndOfFile) :
    tokBody cfg ts s = .ok (.inr ts.reverse, u) := by
  show M.bind (peekToken cfg false) _ s = _
  unfold M.bind
  rw [h]
  simp only
  rw [if_pos hk]
  rfl

theorem tokBody_more {ts : List Tok} {s u : St} {k : Tok} (h : peekToken cfg false s = .ok (k, u)) (hk : k.kind ≠ .EndOfFile) :
    tokBody cfg ts s = .ok (.inl (k :: ts), k.skipSt u) := by
  show M.bind (peekToken cfg false) _ s = _
  unfold M.bind
  rw [h]
  simp only
  rw [if_neg hk]
  rfl

theorem tokLoop_step {n : Nat} {ts : List Tok} {s : St} {r : List Tok × St} (h : M.loopN (tokBody cfg) (n + 1) ts s = .ok r) :
    ∃ k u, peekToken cfg false s = .ok (k, u) ∧ ((k.kind = .EndOfFile ∧ r = (ts.reverse, u)) ∨
      (k.kind ≠ .EndOfFile ∧ M.loopN (tokBody cfg) n (k :: ts) (k.skipSt u) = .ok r)) := by
  rcases hp : peekToken cfg false s with e | ⟨k, u⟩
  · have : tokBody cfg ts s = .error e := by
      show M.bind (peekToken cfg false) _ s = _
      unfold M.bind
      rw [hp]
    unfold M.loopN at h
    rw [this] at h
    cases h
  · refine ⟨k, u, rfl, ?_⟩
    unfold M.loopN at h
    by_cases hk : k.kind = .EndOfFile
    · rw [tokBody_end hp hk] at h; cases h; exact Or.inl ⟨hk, rfl⟩
    · rw [tokBody_more hp hk] at h; exact Or.inr ⟨hk, h⟩

theorem tokLoop_end {n : Nat} {ts : List Tok} {s u : St} {k : Tok} (h : peekToken cfg false s = .ok (k, u))
    (hk : k.kind = .EndOfFile) : M.loopN (tokBody cfg) (n + 1) ts s = .ok (ts.reverse, u) := by
  unfold M.loopN; rw [tokBody_end h hk]

theorem tokLoop_round {n : Nat} {ts : List Tok} {s u : St} {k : Tok} (h : peekToken cfg false s = .ok (k, u))
    (hk : k.kind ≠ .EndOfFile) :
    M.loopN (tokBody cfg) (n + 1) ts s = M.loopN (tokBody cfg) n (k :: ts) (k.skipSt u) := by
  conv => lhs; unfold M.loopN
  rw [tokBody_more h hk]

theorem tokLoop_more (m : Nat) : ∀ {n : Nat} {ts : List Tok} {s : St} {r : List Tok × St}, M.loopN (tokBody cfg) n ts s = .ok r →
    M.loopN (tokBody cfg) (n + m) ts s = .ok r
  | 0, _, _, _, h => by cases h
  | n + 1, ts, s, r, h => by
    rw [Nat.add_right_comm]
    obtain ⟨k, u, h1, ⟨hk, rfl⟩ | ⟨hk, h2⟩⟩ := tokLoop_step h
    · exact tokLoop_end h1 hk
    · rw [tokLoop_round h1 hk]; exact tokLoop_more m h2

theorem tokLoop_err (m : Nat) {e : Err} (hne : e ≠ .fuel) : ∀ {n : Nat} {ts : List Tok} {s : St},
    M.loopN (tokBody cfg) n ts s = .error e → M.loopN (tokBody cfg) (n + m) ts s = .error e
  | 0, _, _, h => by cases h; exact absurd rfl hne
  | n + 1, ts, s, h => by
    rw [Nat.add_right_comm]
    unfold M.loopN at h ⊢
    rcases hb : tokBody cfg ts s with e' | ⟨ts' | a, u⟩ <;> rw [hb] at h
    · cases h; rfl
    · exact tokLoop_err m hne h
    · cases h

theorem tokLoop_acc : ∀ {n : Nat} {ts : List Tok} {s s' : St} {r : List Tok}, M.loopN (tokBody cfg) n ts s = .ok (r, s') →
    ∃ ds, r = ts.reverse ++ ds ∧ ∀ us, M.loopN (tokBody cfg) n us s = .ok (us.reverse ++ ds, s')
  | 0, _, _, _, _, h => by cases h
  | n + 1, ts, s, s', r, h => by
    obtain ⟨k, u, h1, ⟨hk, h2⟩ | ⟨hk, h2⟩⟩ := tokLoop_step h
    · cases h2
      exact ⟨[], by simp, fun us => by rw [List.append_nil]; exact tokLoop_end h1 hk⟩
    · obtain ⟨ds, h4, h5⟩ := tokLoop_acc h2
      refine ⟨k :: ds, by rw [h4]; simp, fun us => ?_⟩
      rw [tokLoop_round h1 hk, h5]
      simp

theorem tokLoop_cut {s0 : St} (h0 : WF s0) {es : List Tok} {s' : St} : ∀ (ds : List Tok) {n : Nat} {ts : List Tok} {s : St},
    R cfg s0 s → s.eof = false → M.loopN (tokBody cfg) n ts s = .ok (ts.reverse ++ (ds ++ es), s') →
    ∃ m t, R cfg s0 t ∧ t.eof = false ∧ s.rest = ds.flatMap Tok.text ++ t.rest ∧
      M.loopN (tokBody cfg) m (ds.reverse ++ ts) t = .ok (ts.reverse ++ (ds ++ es), s')
  | [], n, ts, s, h, he, hp => ⟨n, s, h, he, by simp, by simpa using hp⟩
  | d :: ds, 0, ts, s, h, he, hp => by cases hp
  | d :: ds, n + 1, ts, s, h, he, hp => by
    obtain ⟨k, u, h1, ⟨hk, h2⟩ | ⟨hk, h2⟩⟩ := tokLoop_step hp
    · have := congrArg (fun p => p.1.length) h2
      simp at this
    · have hpk := peekTokenWith_wp (cfg := cfg) (pol := Pol.top) (g := false) h.wf
      unfold wp at hpk
      have h1' : peekTokenWith cfg Pol.top false s = .ok (k, u) := h1
      rw [h1'] at hpk
      obtain ⟨xs, h4, -⟩ := tokLoop_acc h2
      have hc : k = d := by
        have : d :: (ds ++ es) = k :: xs := by
          apply List.append_cancel_left (as := ts.reverse)
          simpa using h4
        exact (List.cons.inj this).1.symm
      subst hc
      have he1 : (k.skipSt u).eof = false := by
        show (k.kind == .EndOfFile) = false
        simpa using hk
      obtain ⟨m, t', h5, h6, h7, h8⟩ := tokLoop_cut h0 ds (n := n) (ts := k :: ts) (R.trans h0 h hpk.skip) he1 (by simpa using h2)
      refine ⟨m, t', h5, h6, ?_, by simpa using h8⟩
      have h7 : k.after = _ := h7
      rw [← hpk.split, h7]
      simp

/-- Tokenizing the rest of a text gives the rest of the tokens. -/
theorem tokens_rest {cfg' : Cfg} (hu : cfg.uniAlnum = cfg'.uniAlnum) {conv conv' : Conv} {pre suf : List UInt8} {s : St}
    {ds es : List Tok} (h : tokens cfg conv .notScript (pre ++ suf) = .ok (ds ++ es, s)) (hf : s.flag = none)
    (hp : ds.flatMap Tok.text = pre) :
    Same (List.Forall₂ SameTok) (.ok (es, s)) (tokens cfg' conv' .notScript suf) := by
  have h1 : M.loopN (tokBody cfg) ((pre ++ suf).length + 2) [] (St.init conv (pre ++ suf)) = .ok (ds ++ es, s) := h
  obtain ⟨m, t, hR, he, hr, h2⟩ := tokLoop_cut (WF_init _ _) ds (es := es) (R.refl (WF_init _ _)) rfl h1
  simp only [List.reverse_nil, List.nil_append, List.append_nil] at h2
  obtain ⟨xs, hx, hacc⟩ := tokLoop_acc h2
  rw [List.reverse_reverse] at hx
  have hx := List.append_cancel_left hx
  subst hx
  have h3 := hacc []
  simp only [List.reverse_nil, List.nil_append] at h3
  have hrest : t.rest = suf := by
    have hr : pre ++ suf = _ := hr
    rw [hp] at hr
    exact (List.append_cancel_left hr).symm
  have h4 : tokenLoop cfg t = .ok (es, s) := by
    have hw := tokenLoop_wp (cfg := cfg) hR.wf
    rw [tokenLoop_eq]
    rcases hq : M.loopN (tokBody cfg) (t.rest.length + 2) [] t with e | p
    · unfold wp at hw
      rw [tokenLoop_eq, hq] at hw
      have a := tokLoop_err m (by have hw : EE _ e := hw; rintro rfl; exact absurd hw.1 (by simp)) hq
      have b := tokLoop_more (t.rest.length + 2) h3
      rw [Nat.add_comm, b] at a
      cases a
    · have a := tokLoop_more m hq
      have b := tokLoop_more (t.rest.length + 2) h3
      rw [Nat.add_comm, b] at a
      exact a.symm
  have hfl : t.flag = none := by
    have hw := tokenLoop_wp (cfg := cfg) hR.wf
    unfold wp at hw
    rw [h4] at hw
    exact Classical.byContradiction fun hne => hw.reach.keep hne hf
  rw [wide_eq hu, ← h4]
  exact tokenLoop_sim t (St.init conv' suf) ⟨hrest, he, hfl⟩

theorem fixToks_kept {isNew : List Char → Except Err Bool} {input : List Char} : ∀ {ts us : List Tok},
    fixToks cfg isNew input ts = .ok us → List.Forall₂ Kept ts us
  | [], us, h => by cases h; exact .nil
  | t :: ts, us, h => by
    unfold fixToks at h
    rcases ha : (if t.unterminated then fixTok cfg isNew input t else .ok t) with e | u <;> rw [ha] at h
    · cases h
    simp only at h
    rcases hc : fixToks cfg isNew input ts with e | v <;> rw [hc] at h
    · cases h
    cases h
    exact .cons (fix_kept ha) (fixToks_kept hc)

theorem kept_refl : ∀ ts : List Tok, List.Forall₂ Kept ts ts
  | [] => .nil
  | _ :: ts => .cons ⟨rfl, fun _ => rfl⟩ (kept_refl ts)

/-- What `tokenize_bytes` does after the loop. -/
theorem tokenize_ok {conv : Conv} {f : FirstLine} {bs : List UInt8} {r : Except Unsafe (List Tok)}
    (h : tokenizeBytes cfg conv f bs = .ok r) : ∃ ts s, tokens cfg conv f bs = .ok (ts, s) ∧
      ((∃ e, s.flag = some e ∧ r = .error e) ∨ ∃ us, s.flag = none ∧ r = .ok us ∧ List.Forall₂ Kept ts us) := by
  unfold tokenizeBytes tokenizeBytesWith at h
  rcases hd : tokens cfg conv f bs with e | ⟨ts, s⟩ <;> rw [hd] at h
  · cases h
  refine ⟨ts, s, rfl, ?_⟩
  simp only at h
  rcases hfl : s.flag with _ | e <;> rw [hfl] at h
  · refine Or.inr ?_
    rcases hf : fromUtf8 bs with _ | input <;> rw [hf] at h
    · cases h; exact ⟨_, rfl, rfl, kept_refl _⟩
    · simp only at h
      rcases ha : fixToks cfg (isStatement cfg) input ts with e | u <;> rw [ha] at h
      · cases h
      cases h
      exact ⟨_, rfl, rfl, fixToks_kept ha⟩
  · cases h; exact Or.inl ⟨e, rfl, rfl⟩

theorem kept_cut : ∀ {ds es ts : List Tok}, List.Forall₂ Kept ts (ds ++ es) → (∀ t ∈ ds, unterminated t.kind = false) →
    ∃ as bs, ts = as ++ bs ∧ as.flatMap Tok.text = ds.flatMap Tok.text ∧ List.Forall₂ Kept bs es
  | [], es, ts, h, _ => ⟨[], ts, rfl, rfl, h⟩
  | d :: ds, es, [], h, _ => by cases h
  | d :: ds, es, t :: ts, h, hd => by
    cases h with
    | cons h1 h2 =>
      obtain ⟨as, bs, rfl, e1, e2⟩ := kept_cut h2 (fun t h => hd t (List.mem_cons_of_mem _ h))
      refine ⟨t :: as, bs, rfl, ?_, e2⟩
      have := h1.2 (by rw [← h1.1]; exact hd d List.mem_cons_self)
      simp only [List.flatMap_cons, e1, this]

theorem kept_sames : ∀ {ts us ts' us' : List Tok}, List.Forall₂ Kept ts us → List.Forall₂ Kept ts' us' →
    List.Forall₂ SameTok ts ts' → List.Forall₂ SameToken us us'
  | [], _, _, _, h1, h2, h3 => by cases h1; cases h3; cases h2; exact .nil
  | _ :: _, _, _, _, h1, h2, h3 => by
    cases h1 with
    | cons a1 b1 =>
      cases h3 with
      | cons a3 b3 =>
        cases h2 with
        | cons a2 b2 => exact .cons (kept_same a3.weak a1 a2) (kept_sames b1 b2 b3)

theorem tokenize_rest {cfg' : Cfg} (hu : cfg.uniAlnum = cfg'.uniAlnum) {conv conv' : Conv} {pre suf : List UInt8}
    {ds es : List Tok} (h : tokenizeBytes cfg conv .notScript (pre ++ suf) = .ok (.ok (ds ++ es)))
    (hp : ds.flatMap Tok.text = pre) (ht : ∀ t ∈ ds, unterminated t.kind = false) {r' : Except Unsafe (List Tok)}
    (h' : tokenizeBytes cfg' conv' .notScript suf = .ok r') :
    ∃ es', r' = .ok es' ∧ List.Forall₂ SameToken es es' := by
  obtain ⟨ts, s, h1, ⟨e, h2, h3⟩ | ⟨us, h2, h3, h4⟩⟩ := tokenize_ok h
  · cases h3
  cases h3
  obtain ⟨as, bs, rfl, h5, h6⟩ := kept_cut h4 ht
  have key := tokens_rest hu (conv' := conv') h1 h2 (h5.trans hp)
  obtain ⟨ts', s', h1', hr⟩ := tokenize_ok h'
  rw [h1'] at key
  obtain ⟨k1, k2⟩ := key
  have hf : s'.flag = none := by rw [← k2.flag, h2]
  rcases hr with ⟨e, h7, -⟩ | ⟨us', -, rfl, h8⟩
  · rw [hf] at h7; cases h7
  · exact ⟨us', rfl, kept_sames h6 h8 k1⟩
end

end CodeParser.Place
