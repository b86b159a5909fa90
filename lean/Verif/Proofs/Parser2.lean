import Verif.Proofs.Parser1
import Verif.Spec.Newline
/-!
The parser: the state between two steps, and what the builder's operations do to it (helper
lemmas).
-/
namespace CodeParser
open Spec Cst

/-! ### Trees -/

theorem leavesL_append {X Y : List Cst} : leavesL (X ++ Y) = leavesL X ++ leavesL Y := by
  induction X with
  | nil => rfl
  | cons c X ih => simp [leavesL, ih]

theorem leavesL_tt {ts : List Tok} : leavesL (tt ts) = ts := by
  induction ts with
  | nil => rfl
  | cons t ts ih =>
    show leaves (.tok t) ++ leavesL (tt ts) = t :: ts
    rw [ih]; rfl

theorem completeL_append {X Y : List Cst} : completeL (X ++ Y) = (completeL X && completeL Y) := by
  induction X with
  | nil => rfl
  | cons c X ih => simp [completeL, ih, Bool.and_assoc]

theorem completeL_node {k : NodeKind} {X : List Cst} (h : completeL [.node k X] = true) : completeL X = true := by
  cases k <;> simp_all [completeL, complete]

theorem tt_append {ts us : List Tok} : tt (ts ++ us) = tt ts ++ tt us := by simp [tt]

/-! ### Line ends -/

/-- The kind of line end is the one for inside (`g`) or outside of groups. -/
def NLTok (g : Bool) (k : TK) : Prop := (k = .ToplevelNewline → g = false) ∧ (k = .InternalNewline → g = true)

/-- The line ends of trees read inside (`g`) or outside of groups. -/
structure NLs (g : Bool) (L : List Cst) : Prop where
  inner : ∀ ks ∈ bracketsL L, NoToplevel ks
  grouped : g = true → NoToplevel (leavesL L)
  outer : g = false → ∀ t ∈ outsideL L, t.kind ≠ .InternalNewline

theorem Spec.NoToplevel.of {ks : List Tok} (h : ∀ t ∈ ks, t.kind ≠ .ToplevelNewline) : NoToplevel ks := by
  intro a t b he hk
  exact absurd hk (h t (by rw [he]; simp))

theorem Spec.NoToplevel.append {ks js : List Tok} (h : NoToplevel ks) (h' : NoToplevel js) : NoToplevel (ks ++ js) := by
  intro a t b he hk
  rcases List.append_eq_append_iff.mp he with ⟨c, h1, h2⟩ | ⟨c, h1, h2⟩
  · obtain ⟨t', h3, h4⟩ := h' c t b h2 hk
    exact ⟨t', by rw [h1]; exact List.mem_append_right _ h3, h4⟩
  · cases c with
    | nil =>
      rw [List.append_nil] at h1
      obtain ⟨t', h3, -⟩ := h' [] t b h2.symm hk
      cases h3
    | cons x c =>
      simp only [List.cons_append, List.cons.injEq] at h2
      obtain ⟨rfl, -⟩ := h2
      exact h a t c h1 hk

theorem Spec.NoToplevel.prefix {ks js : List Tok} (h : NoToplevel ks) (hp : js <+: ks) : NoToplevel js := by
  obtain ⟨c, rfl⟩ := hp
  intro a t b he hk
  exact h a t (b ++ c) (by rw [he]; simp) hk

theorem Spec.NoToplevel.file {ks ts : List Tok} (h : NoToplevel ks) (hf : ∃ t ∈ ks, isFileOp t.kind = true) : NoToplevel (ks ++ ts) := by
  intro a t b he hk
  rcases List.append_eq_append_iff.mp he with ⟨c, h1, h2⟩ | ⟨c, h1, h2⟩
  · obtain ⟨t', h3, h4⟩ := hf
    exact ⟨t', by rw [h1]; exact List.mem_append_left _ h3, h4⟩
  · cases c with
    | nil =>
      rw [List.append_nil] at h1
      rw [← h1]
      exact hf
    | cons x c =>
      simp only [List.cons_append, List.cons.injEq] at h2
      obtain ⟨rfl, -⟩ := h2
      exact h a t c h1 hk

theorem bracketsL_append {X Y : List Cst} : bracketsL (X ++ Y) = bracketsL X ++ bracketsL Y := by
  induction X with
  | nil => rfl
  | cons c X ih => simp [bracketsL, ih]

theorem outsideL_append {X Y : List Cst} : outsideL (X ++ Y) = outsideL X ++ outsideL Y := by
  induction X with
  | nil => rfl
  | cons c X ih => simp [outsideL, ih]

theorem bracketsL_tt {ts : List Tok} : bracketsL (tt ts) = [] := by
  induction ts with
  | nil => rfl
  | cons t ts ih => show brackets (.tok t) ++ bracketsL (tt ts) = []; rw [ih]; rfl

theorem outsideL_tt {ts : List Tok} : outsideL (tt ts) = ts := by
  induction ts with
  | nil => rfl
  | cons t ts ih => show outside (.tok t) ++ outsideL (tt ts) = _; rw [ih]; rfl

theorem NLs.nil {g : Bool} : NLs g [] :=
  ⟨fun _ h => (by cases h), fun _ => .of fun _ h => (by cases h), fun _ _ h => (by cases h)⟩

theorem NLs.append {g : Bool} {X Y : List Cst} (h : NLs g X) (h' : NLs g Y) : NLs g (X ++ Y) := by
  refine ⟨fun t ht => ?_, fun hg => ?_, fun hg t ht => ?_⟩
  · rw [bracketsL_append] at ht
    exact (List.mem_append.mp ht).elim (h.inner t) (h'.inner t)
  · rw [leavesL_append]
    exact (h.grouped hg).append (h'.grouped hg)
  · rw [outsideL_append] at ht
    exact (List.mem_append.mp ht).elim (h.outer hg t) (h'.outer hg t)

theorem NLs.tt {g : Bool} {ts : List Tok} (h : ∀ t ∈ ts, NLTok g t.kind) : NLs g (tt ts) := by
  refine ⟨fun t ht => ?_, fun hg => .of fun t ht hk => ?_, fun hg t ht hk => ?_⟩
  · rw [bracketsL_tt] at ht; cases ht
  · rw [leavesL_tt] at ht
    have := (h t ht).1 hk
    rw [hg] at this; cases this
  · rw [outsideL_tt] at ht
    have := (h t ht).2 hk
    rw [hg] at this; cases this

theorem NLs.tok {g : Bool} {k : Tok} (h : NLTok g k.kind) : NLs g [.tok k] :=
  NLs.tt (ts := [k]) (by simpa using h)

/-- Behind an operator followed by the name of a file line ends are always top-level. -/
theorem NLs.file {g : Bool} {X : List Cst} {ts : List Tok} (h : NLs g X) (hf : ∃ t ∈ leavesL X, isFileOp t.kind = true)
    (ht : ∀ t ∈ ts, t.kind ≠ .InternalNewline) : NLs g (X ++ Spec.tt ts) := by
  refine ⟨fun t hm => ?_, fun hg => ?_, fun hg t hm => ?_⟩
  · rw [bracketsL_append, bracketsL_tt, List.append_nil] at hm
    exact h.inner t hm
  · rw [leavesL_append, leavesL_tt]
    exact (h.grouped hg).file hf
  · rw [outsideL_append, outsideL_tt] at hm
    exact (List.mem_append.mp hm).elim (h.outer hg t) (ht t)

/-- The nodes with brackets. -/
def NodeKind.bracket : NodeKind → Bool
  | .group _ | .groupMissingCloser _ | .groupMissingOpener _ => true
  | _ => false

theorem NLs.node {g : Bool} {k : NodeKind} {X : List Cst} (h : NLs g X) (hk : k.bracket = false) : NLs g [.node k X] := by
  have e1 : bracketsL [.node k X] = bracketsL X := by cases k <;> first | (cases hk; done) | simp [bracketsL, brackets]
  have e2 : outsideL [.node k X] = outsideL X := by cases k <;> first | (cases hk; done) | simp [outsideL, outside]
  have e3 : leavesL [.node k X] = leavesL X := by simp [leavesL, leaves]
  exact ⟨by rw [e1]; exact h.inner, by rw [e3]; exact h.grouped, by rw [e2]; exact h.outer⟩

theorem NLs.bracket {g : Bool} {k : NodeKind} {X : List Cst} (h : NoToplevel (leavesL X)) (hb : ∀ ks ∈ bracketsL X, NoToplevel ks)
    (hk : k.bracket = true) : NLs g [.node k X] := by
  have e1 : bracketsL [.node k X] = leavesL X :: bracketsL X := by cases k <;> first | (cases hk; done) | simp [bracketsL, brackets]
  have e2 : outsideL [.node k X] = [] := by cases k <;> first | (cases hk; done) | simp [outsideL, outside]
  have e3 : leavesL [.node k X] = leavesL X := by simp [leavesL, leaves]
  exact ⟨by rw [e1]; exact fun ks hm => (List.mem_cons.mp hm).elim (fun h' => h' ▸ h) (hb ks), by rw [e3]; exact fun _ => h,
    by rw [e2]; exact fun _ _ h => by cases h⟩

theorem NLs.call {g : Bool} {k : NodeKind} {X Y : List Cst} {b : Bool} {op : CallOp} (h : NLs g (X ++ [.node k Y]))
    (hk : k.bracket = true) : NLs g [.call X b op Y] := by
  have e1 : bracketsL (X ++ [.node k Y]) = bracketsL [.call X b op Y] := by
    rw [bracketsL_append]; cases k <;> first | (cases hk; done) | simp [bracketsL, brackets]
  have e2 : outsideL (X ++ [.node k Y]) = outsideL [.call X b op Y] := by
    rw [outsideL_append]; cases k <;> first | (cases hk; done) | simp [outsideL, outside]
  have e3 : leavesL (X ++ [.node k Y]) = leavesL [.call X b op Y] := by
    rw [leavesL_append]; simp [leavesL, leaves]
  exact ⟨by rw [← e1]; exact h.inner, by rw [← e3]; exact h.grouped, by rw [← e2]; exact h.outer⟩

/-- A tree without brackets in place of its tokens. -/
theorem NLs.replace {g : Bool} {X Y Z : List Cst} (h : NLs g (X ++ Y)) (h1 : bracketsL Z = []) (h2 : leavesL Z = leavesL Y)
    (h3 : outsideL Z = outsideL Y) : NLs g (X ++ Z) := by
  refine ⟨fun ks hm => h.inner ks ?_, fun hg => ?_, fun hg t hm => h.outer hg t ?_⟩
  · rw [bracketsL_append, h1, List.append_nil] at hm
    rw [bracketsL_append]
    exact List.mem_append_left _ hm
  · have := h.grouped hg
    rw [leavesL_append] at this ⊢
    rw [h2]; exact this
  · rw [outsideL_append] at hm ⊢
    rw [← h3]; exact hm

theorem NLTok.of_KOK {g : Bool} {k : TK} (h : KOK (Pol.top.inside g) k = true) : NLTok g k := by
  unfold NLTok
  cases g
  · exact ⟨fun _ => rfl, fun hk => by subst hk; revert h; decide⟩
  · exact ⟨fun hk => (by subst hk; revert h; decide), fun _ => rfl⟩

theorem Ready.newline {cfg : Cfg} {g : Bool} {s : St} {k : Tok} (h : Ready cfg g s k) (he : k.kind ≠ .EndOfFile) : NLTok g k.kind :=
  .of_KOK (h.kind.resolve_left he)

/-- A token that can stand where it does. -/
structure TokAt (g : Bool) (k : Tok) : Prop extends TokOK k where
  newline : NLTok g k.kind

theorem Ready.at {cfg : Cfg} {g : Bool} {s : St} {k : Tok} (h : Ready cfg g s k) (he : k.kind ≠ .EndOfFile) : TokAt g k :=
  ⟨h.ok he, h.newline he⟩

theorem NLTok.of_not {g : Bool} {k : TK} (h : ¬ isNewline k) : NLTok g k :=
  ⟨fun hk => absurd (Or.inl hk) h, fun hk => absurd (Or.inr hk) h⟩

theorem NLTok.invented {g : Bool} {k : TK} (h : invented k = true) : NLTok g k :=
  .of_not (by rintro (rfl | rfl) <;> revert h <;> decide)

/-! ### The state -/

/-- The tokens of the trees `cs` come, in this order, from the text between two positions
reachable from `s0`, and the first of them stands at the first position. -/
def Source (cfg : Cfg) (s0 : St) (cs : List Cst) : Prop :=
  ∃ ks u v, (leavesL cs).Sublist ks ∧ (leavesL cs).head? = ks.head? ∧ Lies cfg u.rest u.loc ks v.rest v.loc ∧
    R cfg s0 u ∧ R cfg s0 v

/-- What a parse is about: the parameters, the state at the beginning, and what is known
about the children of a group without closer. -/
structure Setup where
  env : PEnv
  s0 : St
  wf0 : WF s0
  ρ : GroupOp → List Cst → Prop
  raw : ∀ op cs, OpenGroupShape op cs → ρ op cs
  ne : ∀ op cs, ρ op cs → cs ≠ []
  fix : ∀ op cs cs', OpenGroupShape op cs → (∀ c ∈ cs, TreeOK ρ c) → Source env.cfg s0 cs → env.recover op cs = .ok cs' →
    ρ op cs' ∧ (∀ c ∈ cs', TreeOK ρ c) ∧ leavesL cs' <+: leavesL cs ∧ (leavesL cs').head? = (leavesL cs).head? ∧
      ∀ ks ∈ bracketsL cs', ks ∈ bracketsL cs

/-- The errors a parse can end in: an escape of a surrogate, or one of the recovery of an
unterminated group. -/
def Setup.E (U : Setup) (e : Err) : Prop :=
  EE U.s0.rest e ∨ ∃ op cs, OpenGroupShape op cs ∧ (∀ c ∈ cs, TreeOK U.ρ c) ∧ Source U.env.cfg U.s0 cs ∧
    U.env.recover op cs = .error e

/-- The recovery of unterminated groups keeps all tokens. -/
def Setup.Lossless (U : Setup) : Prop :=
  ∀ op cs cs', U.env.recover op cs = .ok cs' → leavesL cs' = leavesL cs

/-- The tokens of `X` are among `ks`, start with the same one, and are all of them unless the
recovery of an unterminated group lost some. -/
structure Has (U : Setup) (X : List Cst) (ks : List Tok) : Prop where
  sub : (leavesL X).Sublist ks
  head : (leavesL X).head? = ks.head?
  all : (U.Lossless ∨ completeL X = true) → leavesL X = ks

/-- The trees `X` lie between the bytes `r` at location `l` and the position of `s`. -/
def Spans (U : Setup) (X : List Cst) (r : List UInt8) (l : Loc) (s : St) : Prop :=
  ∃ ks, Has U X ks ∧ Lies U.env.cfg r l ks s.rest s.loc ∧ ∃ u, R U.env.cfg U.s0 u ∧ u.rest = r ∧ u.loc = l

/-- Where a computation began: the stack below and the position. -/
structure Fr where
  S : List Cst
  r : List UInt8
  l : Loc

/-- The policy for newlines inside of the groups `G`. -/
def gin (G : List Closer) : Bool := !G.isEmpty

/-- The parser has contexts `C` and groups `G`, has pushed `X` since the frame `F`, and has
read `Z` besides. -/
structure On (U : Setup) (F : Fr) (C : List (Nat × Nat)) (G : List Closer) (X Z : List Cst) (s : PS) : Prop where
  reach : R U.env.cfg U.s0 s.st
  eof : s.st.eof = false
  stack : s.stack = X.reverse ++ F.S
  ctxs : s.ctxs = C
  groups : s.groups = G
  trees : ∀ c ∈ X ++ Z, TreeOK U.ρ c
  spans : Spans U (X ++ Z) F.r F.l s.st
  newlines : NLs (gin G) (X ++ Z)

section
variable {U : Setup} {F : Fr} {C C' : List (Nat × Nat)} {G G' : List Closer} {X Y Z : List Cst} {s s' : PS}
  {k t : Tok} {ts : List Tok}

theorem Has.append {ks js : List Tok} (h : Has U X ks) (h' : Has U Y js) : Has U (X ++ Y) (ks ++ js) := by
  refine ⟨?_, ?_, fun hc => ?_⟩
  · rw [leavesL_append]; exact h.sub.append h'.sub
  · rw [leavesL_append, List.head?_append, List.head?_append, h.head, h'.head]
  · rw [leavesL_append]
    have hc1 : U.Lossless ∨ completeL X = true := hc.imp id (fun h => by rw [completeL_append] at h; simp at h; exact h.1)
    have hc2 : U.Lossless ∨ completeL Y = true := hc.imp id (fun h => by rw [completeL_append] at h; simp at h; exact h.2)
    rw [h.all hc1, h'.all hc2]

theorem Has.of_eq {ks : List Tok} (h : leavesL X = ks) : Has U X ks := by
  subst h; exact ⟨.refl _, rfl, fun _ => rfl⟩

theorem Has.tt : Has U (tt ts) ts := .of_eq leavesL_tt

theorem Spans.snoc (h : Spans U X r l s.st) (hk : Here U.env.cfg s.st k) :
    Spans U (X ++ [.tok k]) r l (k.skipSt s.st) := by
  obtain ⟨ks, h1, h2, hu⟩ := h
  exact ⟨ks ++ [k], h1.append (Has.tt (ts := [k])), h2.snoc hk.split hk.start hk.moves, hu⟩

theorem Spans.congr {u v : St} (h : Spans U X r l u) (hs : SameAt u v) : Spans U X r l v := by
  obtain ⟨ks, h1, h2, hu⟩ := h
  exact ⟨ks, h1, by rw [← hs.rest, ← hs.loc]; exact h2, hu⟩

theorem Spans.hollow (h : Spans U X r l s.st) (f : TK) (hk : Here U.env.cfg s.st k) :
    Spans U (X ++ [.tok (k.atStart f)]) r l s.st := by
  obtain ⟨ks, h1, h2, hu⟩ := h
  exact ⟨ks ++ [k.atStart f], h1.append (Has.tt (ts := [_])), h2.empty rfl hk.split hk.start hk.start, hu⟩

theorem On.wf (h : On U F C G X Z s) : WF s.st := h.reach.wf

theorem On.sub (h : On U F C G X [] s) : On U ⟨X.reverse ++ F.S, s.st.rest, s.st.loc⟩ C G [] [] s :=
  ⟨h.reach, h.eof, h.stack, h.ctxs, h.groups, by simp, ⟨[], .of_eq rfl, .nil, s.st, h.reach, rfl, rfl⟩, NLs.nil⟩

theorem On.glue (h : On U F C G X [] s) (h' : On U ⟨X.reverse ++ F.S, s.st.rest, s.st.loc⟩ C' G Y Z s') :
    On U F C' G (X ++ Y) Z s' := by
  refine ⟨h'.reach, h'.eof, by rw [h'.stack]; simp, h'.ctxs, h'.groups, ?_, ?_, ?_⟩
  · intro c hc
    have h1 := h.trees c
    have h2 := h'.trees c
    simp at hc h1 h2
    rcases hc with hc | hc | hc
    · exact h1 hc
    · exact h2 (Or.inl hc)
    · exact h2 (Or.inr hc)
  · obtain ⟨ks, h1, h2, hu⟩ := h.spans
    obtain ⟨js, h3, h4, -⟩ := h'.spans
    rw [List.append_nil] at h1
    exact ⟨ks ++ js, by rw [List.append_assoc]; exact h1.append h3, h2.append h4, hu⟩
  · have := h.newlines
    rw [List.append_nil] at this
    rw [List.append_assoc]
    exact this.append h'.newlines

theorem On.same {u : St} (h : On U F C G X Z s) (hR : R U.env.cfg s.st u) (hs : SameAt s.st u) :
    On U F C G X Z { s with st := u } :=
  ⟨R.trans U.wf0 h.reach hR, by rw [← hs.eof]; exact h.eof, h.stack, h.ctxs, h.groups, h.trees, h.spans.congr hs, h.newlines⟩

/-- Going back to an earlier position. -/
theorem On.back {Z' : List Cst} (h : On U F C G X Z s) (h' : On U F C' G X Z' s')
    (hR : R U.env.cfg s.st s'.st) {u : St} (hu : u = s'.st.seek s.st) :
    On U F C' G X Z { s' with st := u } := by
  subst hu
  exact ⟨R.seek U.wf0 h.reach hR, h.eof, h'.stack, h'.ctxs, h'.groups, h.trees, h.spans.congr ⟨rfl, rfl, rfl⟩, h.newlines⟩

/-! ### Tokens -/

theorem TokOK.atStart {f : TK} (hf : invented f = true) : TokOK (k.atStart f) :=
  ⟨fun _ => ⟨rfl, rfl⟩, fun h => by (rw [show (k.atStart f).kind = f from rfl, hf] at h; cases h),
    fun h => (by rcases h with h | h <;> cases h), invented_spare _ hf⟩

theorem Here.atStart {f : TK} {u : St} (h : Here cfg u k) (he : u.eof = false) (hf : f ≠ .EndOfFile) (hw : WF u) :
    Here cfg u (k.atStart f) := by
  refine ⟨h.split, h.start, ?_, by show Moves cfg [] _ k.start k.start; exact moves_nil⟩
  have : (k.atStart f).skipSt u = u := by
    show ({ rest := k.text ++ k.after, loc := k.start, eof := f == .EndOfFile, flag := u.flag } : St) = u
    rw [h.split, h.start]
    have : (f == .EndOfFile) = u.eof := by rw [he]; simp [hf]
    rw [this]
  rw [this]; exact R.refl hw

theorem Here.at {f : TK} {u : St} (h : Here cfg u k) : k.text ++ k.after = u.rest := h.split

theorem U_EE {e : Err} (h : On U F C G X Z s) (he : EE s.st.rest e) : U.E e :=
  Or.inl (he.of_R U.wf0 h.reach)

theorem peekP_wp (h : On U F C G X Z s) : wpP U.E (peekP U.env) s (fun k s' => On U F C G X Z s' ∧
    SameAt s.st s'.st ∧ R U.env.cfg s.st s'.st ∧ Ready U.env.cfg (gin G) s'.st k) := by
  show wpP U.E (P.lift (peekToken U.env.cfg (!s.groups.isEmpty))) s _
  rw [h.groups]
  refine wpP_lift (wp_mono (peekToken_wp h.wf) (fun _ h => h) ?_) (fun e => U_EE h)
  rintro k t ⟨hR, hs, hr, -⟩
  exact ⟨h.same hR hs, hs, hR, hr⟩

theorem peekWithP_wp {pol : Pol} (h : On U F C G X Z s) : wpP U.E (peekWithP U.env pol) s (fun k s' => On U F C G X Z s' ∧
    SameAt s.st s'.st ∧ R U.env.cfg s.st s'.st ∧ Here U.env.cfg s'.st k ∧ (k.kind ≠ .EndOfFile → TokOK k)) := by
  show wpP U.E (P.lift (peekTokenWith U.env.cfg pol (!s.groups.isEmpty))) s _
  rw [h.groups]
  refine wpP_lift (wp_mono (wp_eq (peekTokenWith_wp h.wf)) (fun _ h => h) ?_) (fun e => U_EE h)
  rintro k t ⟨hp, heq⟩
  exact ⟨h.same hp.reach hp.same, hp.same, hp.reach, ⟨hp.split.trans hp.same.rest, hp.start.trans hp.same.loc,
    R_skip h.wf hp.skip hp.same id, hp.moves h.wf⟩,
    fun hne => TokOK.real (KOK_real (hp.kind.resolve_left hne)) (hp.more hne) hp.split (peek_line h.wf heq)⟩

theorem peekTagP_wp (h : On U F C G X Z s) : wpP U.E (P.lift (peekTokenTag U.env.cfg)) s (fun k s' => On U F C G X Z s' ∧
    SameAt s.st s'.st ∧ Here U.env.cfg s'.st k ∧ k.kind.tagKind = true ∧ k.kind ≠ .EndOfFile ∧ TokOK k) := by
  refine wpP_lift (wp_mono (peekTokenTag_wp h.wf h.eof) (fun _ h => h) ?_) (fun e => U_EE h)
  rintro k t hp
  exact ⟨h.same hp.reach hp.same, hp.same, ⟨hp.split.trans hp.same.rest, hp.start.trans hp.same.loc,
    R_skip h.wf hp.skip hp.same id, hp.moves h.wf⟩, hp.kind, hp.notEof, hp.hollow⟩

theorem On.skip (h : On U F C G X Z s) (hk : Here U.env.cfg s.st k) (hne : k.kind ≠ .EndOfFile) (ho : TokAt (gin G) k) :
    On U F C G X (Z ++ [.tok k]) { s with st := k.skipSt s.st } := by
  refine ⟨R.trans U.wf0 h.reach hk.skip, ?_, h.stack, h.ctxs, h.groups, ?_, ?_, ?_⟩
  · show (k.kind == .EndOfFile) = false
    simpa using hne
  · intro c hc
    have := h.trees c
    simp at hc this
    rcases hc with hc | hc | rfl
    · exact this (Or.inl hc)
    · exact this (Or.inr hc)
    · exact .tok ho.toTokOK
  · rw [← List.append_assoc]; exact h.spans.snoc hk
  · rw [← List.append_assoc]; exact h.newlines.append (.tok ho.newline)

theorem skipP_wp {E : Err → Prop} (h : On U F C G X Z s) (hk : Here U.env.cfg s.st k) (hne : k.kind ≠ .EndOfFile) (ho : TokAt (gin G) k) :
    wpP E (skipP k) s (fun _ s' => On U F C G X (Z ++ [.tok k]) s' ∧ s'.st = k.skipSt s.st) :=
  ⟨h.skip hk hne ho, rfl⟩

/-- Putting the first of the trees read on the stack. -/
theorem On.push {c : Cst} (h : On U F C G X (c :: Z) s) : On U F C G (X ++ [c]) Z { s with stack := c :: s.stack } :=
  ⟨h.reach, h.eof, by simp [h.stack], h.ctxs, h.groups, by simpa using h.trees, by simpa using h.spans, by simpa using h.newlines⟩

theorem On.pushTrivia (h : On U F C G X (tt ts ++ Z) s) :
    On U F C G (X ++ tt ts) Z { s with stack := (ts.map Cst.tok).reverse ++ s.stack } :=
  ⟨h.reach, h.eof, by simp [h.stack, tt], h.ctxs, h.groups, by simpa using h.trees, by simpa using h.spans, by simpa using h.newlines⟩

theorem pushTrivia_wp {E : Err → Prop} (h : On U F C G X (tt ts ++ Z) s) :
    wpP E (pushTrivia ts) s (fun _ s' => On U F C G (X ++ tt ts) Z s' ∧ s'.st = s.st) := ⟨h.pushTrivia, rfl⟩

theorem pushTrivia_wp' {E : Err → Prop} (h : On U F C G X (tt ts) s) :
    wpP E (pushTrivia ts) s (fun _ s' => On U F C G (X ++ tt ts) [] s' ∧ s'.st = s.st) :=
  pushTrivia_wp (by rw [List.append_nil]; exact h)

/-- Pushing an empty token. -/
theorem pushHollow_wp {E : Err → Prop} (f : TK) (hf : invented f = true) (h : On U F C G X [] s) (hk : Here U.env.cfg s.st k) :
    wpP E (pushTok (k.atStart f)) s (fun _ s' => On U F C G (X ++ [.tok (k.atStart f)]) [] s' ∧ s'.st = s.st) := by
  refine ⟨⟨h.reach, h.eof, by simp [h.stack], h.ctxs, h.groups, ?_, ?_, ?_⟩, rfl⟩
  · intro c hc
    have := h.trees c
    simp at hc this
    rcases hc with hc | rfl
    · exact this hc
    · exact .tok (TokOK.atStart hf)
  · have := h.spans.hollow f hk
    simpa using this
  · have := h.newlines.append (NLs.tok (k := k.atStart f) (NLTok.invented hf))
    simpa using this

theorem pushTokP_wp {E : Err → Prop} (h : On U F C G X (.tok k :: Z) s) :
    wpP E (pushTok k) s (fun _ s' => On U F C G (X ++ [.tok k]) Z s' ∧ s'.st = s.st) := ⟨h.push, rfl⟩

theorem pushNext_wp {E : Err → Prop} (h : On U F C G X [] s) (hk : Here U.env.cfg s.st k) (hne : k.kind ≠ .EndOfFile)
    (ho : TokAt (gin G) k) :
    wpP E (pushNext k) s (fun _ s' => On U F C G (X ++ [.tok k]) [] s' ∧ s'.st = k.skipSt s.st) := by
  have := (h.skip hk hne ho)
  exact ⟨this.push, rfl⟩

theorem commitNext_wp {E : Err → Prop} (h : On U F C G X (tt ts) s) (hk : Here U.env.cfg s.st k) (hne : k.kind ≠ .EndOfFile)
    (ho : TokAt (gin G) k) :
    wpP E (commitNext ts k) s (fun _ s' => On U F C G (X ++ (tt ts ++ [.tok k])) [] s' ∧ s'.st = k.skipSt s.st) := by
  refine wpP_call (pushTrivia_wp' h) fun _ s1 ⟨h1, e1⟩ => ?_
  refine wpP_mono (pushNext_wp h1 (by rw [e1]; exact hk) hne ho) fun _ s2 ⟨h2, e2⟩ => ?_
  rw [List.append_assoc] at h2
  exact ⟨h2, by rw [e2, e1]⟩

/-- Pushing a node made of what has been read, the groups becoming `G`. -/
theorem pushNodeG_wp {E : Err → Prop} {c : Cst} {G0 : List Closer} (h : On U F C G0 X Z s) (hc : TreeOK U.ρ c)
    (hl : leavesL [c] = leavesL Z) (hm : completeL [c] = true → completeL Z = true)
    (hN : NLs (gin G0) (X ++ Z) → NLs (gin G) (X ++ [c])) :
    wpP E (pushNode c) { s with groups := G } (fun _ s' => On U F C G (X ++ [c]) [] s' ∧ s'.st = s.st) := by
  refine ⟨⟨h.reach, h.eof, by simp [h.stack], h.ctxs, rfl, ?_, ?_, by simpa using hN h.newlines⟩, rfl⟩
  · intro c' hc'
    have := h.trees c'
    simp at hc' this
    rcases hc' with h' | rfl
    · exact this (Or.inl h')
    · exact hc
  · obtain ⟨ks, h1, h2, hu⟩ := h.spans
    have e : leavesL (X ++ [c] ++ []) = leavesL (X ++ Z) := by rw [List.append_nil, leavesL_append, hl, ← leavesL_append]
    refine ⟨ks, ⟨by rw [e]; exact h1.sub, by rw [e]; exact h1.head, fun hq => ?_⟩, h2, hu⟩
    rw [e]
    refine h1.all (hq.imp id fun hq => ?_)
    rw [List.append_nil, completeL_append] at hq
    simp at hq
    rw [completeL_append, hq.1, hm hq.2]; rfl

/-- Pushing a node made of what has been read. -/
theorem pushNode_wp {E : Err → Prop} {c : Cst} (h : On U F C G X Z s) (hc : TreeOK U.ρ c)
    (hl : leavesL [c] = leavesL Z) (hm : completeL [c] = true → completeL Z = true)
    (hN : NLs (gin G) (X ++ Z) → NLs (gin G) (X ++ [c])) :
    wpP E (pushNode c) s (fun _ s' => On U F C G (X ++ [c]) [] s' ∧ s'.st = s.st) := by
  have e : ({ s with groups := G } : PS) = s := by rw [← h.groups]
  have := pushNodeG_wp (E := E) (G := G) h hc hl hm hN
  rwa [e] at this

/-! ### Eating trivia -/

theorem eatP_wp {p : TK → Bool} {m : P (List Tok × Tok)}
    (hm : m s = P.lift (eatM U.env.cfg (!s.groups.isEmpty) p) s) (hp : p .EndOfFile = false) (h : On U F C G X Z s) :
    wpP U.E m s (fun r s' => On U F C G X (Z ++ tt r.1) s' ∧ Ate U.env.cfg (gin G) p s.st r.1 r.2 s'.st) := by
  have : wpP U.E (P.lift (eatM U.env.cfg (!s.groups.isEmpty) p)) s (fun r s' => On U F C G X (Z ++ tt r.1) s' ∧
      Ate U.env.cfg (gin G) p s.st r.1 r.2 s'.st) := by
    rw [h.groups]
    refine wpP_lift (wp_mono (eatM_wp h.eof hp) (fun _ h => h) ?_) (fun e => U_EE h)
    rintro ⟨ks, k⟩ t ha
    refine ⟨⟨R.trans U.wf0 h.reach ha.reach, ha.eof, h.stack, h.ctxs, h.groups, ?_, ?_, ?_⟩, ha⟩
    rotate_right
    · rw [← List.append_assoc]
      exact h.newlines.append (.tt fun k' hk' => .of_KOK (ha.all k' hk').2.1)
    · intro c hc
      have := h.trees c
      simp [tt] at hc this
      rcases hc with hc | hc | ⟨k', hk', rfl⟩
      · exact this (Or.inl hc)
      · exact this (Or.inr hc)
      · exact .tok (ha.all k' hk').2.2
    · obtain ⟨js, h1, h2, hu⟩ := h.spans
      rw [← List.append_assoc]
      exact ⟨js ++ ks, h1.append Has.tt, h2.append ha.lies, hu⟩
  unfold wpP at *
  rw [hm]; exact this

theorem currentToken_wp (h : On U F C G X Z s) :
    wpP U.E (currentToken U.env) s (fun r s' => On U F C G X (Z ++ tt r.1) s' ∧
      Ate U.env.cfg (gin G) TK.isTrivia s.st r.1 r.2 s'.st) := eatP_wp rfl (by decide) h

theorem currentTokenNTN_wp (h : On U F C G X Z s) :
    wpP U.E (currentTokenNTN U.env) s (fun r s' => On U F C G X (Z ++ tt r.1) s' ∧
      Ate U.env.cfg (gin G) TK.isTriviaButNotToplevelNewline s.st r.1 r.2 s'.st) := eatP_wp rfl (by decide) h

theorem Ate.trivia {p : TK → Bool} {g : Bool} {u v : St} (h : Ate cfg g p u ts t v)
    (hp : ∀ k, p k = true → k.isTrivia = true) : Tr ts := fun k hk => hp _ (h.all k hk).1

theorem eatTrivia_wp (h : On U F C G X [] s) :
    wpP U.E (eatTrivia U.env) s (fun t s' => ∃ ts, On U F C G (X ++ tt ts) [] s' ∧
      Ate U.env.cfg (gin G) TK.isTrivia s.st ts t s'.st) := by
  refine wpP_call (currentToken_wp h) ?_
  rintro ⟨ts, t⟩ s1 ⟨h1, ha⟩
  refine wpP_call (pushTrivia_wp' h1) fun _ s2 ⟨h2, e2⟩ => wpP_pure ⟨ts, h2, ?_⟩
  rw [e2]; exact ha

theorem eatTriviaNTN_wp (h : On U F C G X [] s) :
    wpP U.E (eatTriviaNTN U.env) s (fun t s' => ∃ ts, On U F C G (X ++ tt ts) [] s' ∧
      Ate U.env.cfg (gin G) TK.isTriviaButNotToplevelNewline s.st ts t s'.st) := by
  refine wpP_call (currentTokenNTN_wp h) ?_
  rintro ⟨ts, t⟩ s1 ⟨h1, ha⟩
  refine wpP_call (pushTrivia_wp' h1) fun _ s2 ⟨h2, e2⟩ => wpP_pure ⟨ts, h2, ?_⟩
  rw [e2]; exact ha

theorem trivia_not_invented : ∀ k : TK, k.isTrivia = true → invented k = false :=
  Props.forall_of_all (by decide +kernel)

theorem eatTriviaFile_wp (h : On U F C G X [] s) (hf : ∃ t ∈ leavesL X, isFileOp t.kind = true) :
    wpP U.E (eatTriviaFile U.env) s (fun t s' => ∃ ts, On U F C G (X ++ tt ts) [] s' ∧
      AteFile U.env.cfg s.st ts t s'.st) := by
  refine wpP_call (Q := fun r s' => On U F C G X (tt r.1) s' ∧ AteFile U.env.cfg s.st r.1 r.2 s'.st) ?_ ?_
  · refine wpP_lift (wp_mono (eatFileM_wp h.eof) (fun _ h => h) ?_) (fun e => U_EE h)
    rintro ⟨ks, k⟩ t ha
    refine ⟨⟨R.trans U.wf0 h.reach ha.reach, ha.eof, h.stack, h.ctxs, h.groups, ?_, ?_, ?_⟩, ha⟩
    rotate_right
    · have := h.newlines
      rw [List.append_nil] at this
      exact this.file hf fun k' hk' => (ha.all k' hk').2.2
    · intro c hc
      have := h.trees c
      simp [tt] at hc this
      rcases hc with hc | ⟨k', hk', rfl⟩
      · exact this hc
      · exact .tok (ha.all k' hk').2.1
    · obtain ⟨js, h1, h2, hu⟩ := h.spans
      rw [List.append_nil] at h1
      exact ⟨js ++ ks, h1.append Has.tt, h2.append ha.lies, hu⟩
  · rintro ⟨ts, t⟩ s1 ⟨h1, ha⟩
    refine wpP_call (pushTrivia_wp' h1) fun _ s2 ⟨h2, e2⟩ => wpP_pure ⟨ts, h2, ?_⟩
    rw [e2]; exact ha

theorem reset_wp {E : Err → Prop} {Z' : List Cst} (h : On U F C G X Z s) (h' : On U F C' G X Z' s')
    (hR : R U.env.cfg s.st s'.st) (h1 : k.text ++ k.after = s.st.rest) (h2 : k.start = s.st.loc) :
    wpP E (P.lift k.reset) s' (fun _ s'' => On U F C' G X Z s'' ∧ SameAt s.st s''.st) := by
  have e : ({ s'.st with rest := k.text ++ k.after, loc := k.start } : St) = s'.st.seek s.st := by
    unfold St.seek; rw [h1, h2, h.eof, ← h'.eof]
  exact ⟨On.back h h' hR e, ⟨h1.symm, h2.symm, h.eof.trans h'.eof.symm⟩⟩

theorem triviaReset_wp {E : Err → Prop} {p : TK → Bool} {g : Bool} (h : On U F C G X Z s)
    (h' : On U F C' G X (Z ++ tt ts) s') (ha : Ate U.env.cfg g p s.st ts t s'.st) :
    wpP E (triviaReset ts) s' (fun _ s'' => On U F C' G X Z s'' ∧ SameAt s.st s''.st) := by
  cases ts with
  | nil => exact ⟨by simpa [tt] using h', ha.eats.same h.wf⟩
  | cons k ts =>
    have := ha.lies.head
    exact reset_wp h h' ha.reach this.1 this.2

/-! ### Contexts, groups and nodes -/

theorem pushContext_wp {E : Err → Prop} {c : Cst} (p : Nat) (h : On U F C G [c] Z s) :
    wpP E (pushContext p) s (fun _ s' => On U F ((p, F.S.length) :: C) G [c] Z s' ∧ s'.st = s.st) := by
  obtain ⟨st, gs, cs, sk⟩ := s
  obtain rfl : sk = c :: F.S := h.stack
  exact ⟨⟨h.reach, h.eof, rfl, by show _ :: cs = _; rw [show cs = C from h.ctxs], h.groups, h.trees, h.spans, h.newlines⟩, rfl⟩

theorem setPrecedence_wp {E : Err → Prop} {i q : Nat} (p : Nat) (h : On U F ((q, i) :: C) G X Z s) :
    wpP E (setPrecedence p) s (fun _ s' => On U F ((p, i) :: C) G X Z s' ∧ s'.st = s.st) := by
  obtain ⟨st, gs, cs, sk⟩ := s
  obtain rfl : cs = (q, i) :: C := h.ctxs
  exact ⟨⟨h.reach, h.eof, h.stack, rfl, h.groups, h.trees, h.spans, h.newlines⟩, rfl⟩

theorem pushGroup_wp {E : Err → Prop} (c : Closer) (h : On U F C G [] [] s) :
    wpP E (pushGroup c) s (fun _ s' => On U F C (c :: G) [] [] s' ∧ s'.st = s.st) := by
  exact ⟨⟨h.reach, h.eof, h.stack, h.ctxs, by show _ :: s.groups = _; rw [h.groups], h.trees, h.spans, NLs.nil⟩, rfl⟩

theorem popContext_wp {E : Err → Prop} {i q : Nat} (h : On U F ((q, i) :: C) G X Z s) :
    wpP E popContext s (fun j s' => j = i ∧ On U F C G X Z s' ∧ s'.st = s.st) := by
  obtain ⟨st, gs, cs, sk⟩ := s
  obtain rfl : cs = (q, i) :: C := h.ctxs
  exact ⟨rfl, ⟨h.reach, h.eof, h.stack, rfl, h.groups, h.trees, h.spans, h.newlines⟩, rfl⟩

theorem drainStack_wp {E : Err → Prop} (h : On U F C G X Z s) :
    wpP E (drainStack F.S.length) s (fun cs s' => cs = X ∧ On U F C G [] (X ++ Z) s' ∧ s'.st = s.st) := by
  obtain ⟨st, gs, cs, sk⟩ := s
  obtain rfl : sk = X.reverse ++ F.S := h.stack
  unfold wpP drainStack
  rw [if_pos (by simp)]
  refine ⟨?_, ⟨h.reach, h.eof, ?_, h.ctxs, h.groups, by simpa using h.trees, by simpa using h.spans, by simpa using h.newlines⟩, rfl⟩
  · show ((X.reverse ++ F.S).take ((X.reverse ++ F.S).length - F.S.length)).reverse = X
    rw [List.length_append, Nat.add_sub_cancel, List.take_left]; simp
  · show (X.reverse ++ F.S).drop ((X.reverse ++ F.S).length - F.S.length) = _
    rw [List.length_append, Nat.add_sub_cancel, List.drop_left]; simp

theorem leavesL_node {k : NodeKind} : leavesL [.node k X] = leavesL X := by
  simp [leavesL, leaves]

theorem mkNode_wp {E : Err → Prop} {k : NodeKind} (h : On U F C G [] X s) (hn : NodeOK U.ρ k X) (hx : X ≠ [])
    (hb : k.bracket = false) :
    wpP E (mkNode k X) s (fun _ s' => On U F C G [.node k X] [] s' ∧ s'.st = s.st) := by
  unfold mkNode
  rw [if_neg (by simpa using hx)]
  exact pushNode_wp h (.node hn (by simpa using h.trees)) leavesL_node completeL_node (fun hN => NLs.node hN hb)

theorem reduceNode_wp {E : Err → Prop} {p : Nat} {k : NodeKind} (h : On U F ((p, F.S.length) :: C) G X [] s)
    (hn : NodeOK U.ρ k X) (hx : X ≠ []) (hb : k.bracket = false := by rfl) :
    wpP E (reduceNode k) s (fun _ s' => On U F C G [.node k X] [] s' ∧ s'.st = s.st) := by
  refine wpP_call (popContext_wp h) ?_
  rintro i s1 ⟨rfl, h1, e1⟩
  refine wpP_call (drainStack_wp h1) ?_
  rintro cs s2 ⟨rfl, h2, e2⟩
  rw [List.append_nil] at h2
  refine wpP_mono (mkNode_wp h2 hn hx hb) ?_
  rintro _ s3 ⟨h3, e3⟩
  exact ⟨h3, by rw [e3, e2, e1]⟩

/-- Leaving a group. -/
theorem closeGroup_wp {E : Err → Prop} {α : Type} {p : Nat} {c : Closer} {f : List Cst → P α} {Q : α → PS → Prop}
    (h : On U F ((p, F.S.length) :: C) (c :: G) X [] s)
    (hf : ∀ s3, On U F C (c :: G) [] X s3 → s3.st = s.st → wpP E (f X) { s3 with groups := G } Q) :
    wpP E (do let i ← popContext; popGroup; let cs ← drainStack i; f cs) s Q := by
  obtain ⟨st, gs, ct, sk⟩ := s
  obtain rfl : gs = c :: G := h.groups
  obtain rfl : ct = (p, F.S.length) :: C := h.ctxs
  obtain rfl : sk = X.reverse ++ F.S := h.stack
  have hd : drainStack F.S.length ⟨st, G, C, X.reverse ++ F.S⟩ = .ok (X, ⟨st, G, C, F.S⟩) := by
    unfold drainStack
    rw [if_pos (by simp)]
    simp only [List.length_append, Nat.add_sub_cancel, List.take_left, List.drop_left, List.reverse_reverse]
  have he : (do let i ← popContext; popGroup; let cs ← drainStack i; f cs : P α) ⟨st, c :: G, (p, F.S.length) :: C, X.reverse ++ F.S⟩ =
      f X ⟨st, G, C, F.S⟩ := by
    show P.bind (drainStack F.S.length) f ⟨st, G, C, X.reverse ++ F.S⟩ = _
    unfold P.bind
    rw [hd]
  have := hf ⟨st, c :: G, C, F.S⟩ ⟨h.reach, h.eof, rfl, rfl, rfl, by simpa using h.trees, by simpa using h.spans,
    by simpa using h.newlines⟩ rfl
  unfold wpP at this ⊢
  rw [he]
  exact this

theorem reduceGroup_wp {E : Err → Prop} {p : Nat} {c : Closer} {k : NodeKind}
    (h : On U F ((p, F.S.length) :: C) (c :: G) X [] s)
    (hn : NodeOK U.ρ k X) (hx : X ≠ []) (hb : k.bracket = true := by rfl) :
    wpP E (reduceGroup k) s (fun _ s' => On U F C G [.node k X] [] s' ∧ s'.st = s.st) := by
  refine closeGroup_wp h fun s3 h3 e3 => ?_
  unfold mkNode
  rw [if_neg (by simpa using hx), ← e3]
  exact pushNodeG_wp h3 (.node hn (by simpa using h3.trees)) leavesL_node completeL_node
    (fun hN => NLs.bracket (hN.grouped rfl) hN.inner hb)

theorem reduceUnterminated_wp {p : Nat} {c : Closer} {op : GroupOp}
    (h : On U F ((p, F.S.length) :: C) (c :: G) X [] s) (hg : OpenGroupShape op X) :
    wpP U.E (reduceUnterminated U.env op) s (fun _ s' => ∃ cs, U.ρ op cs ∧
      On U F C G [.node (.groupMissingCloser op) cs] [] s' ∧ s'.st = s.st) := by
  refine closeGroup_wp h fun s3 h3 e3 => ?_
  have ht : ∀ c ∈ X, TreeOK U.ρ c := by simpa using h3.trees
  have hsrc : Source U.env.cfg U.s0 X := by
    obtain ⟨ks, k1, k2, u, hu, e4, e5⟩ := h3.spans
    exact ⟨ks, u, s3.st, k1.sub, k1.head, by rw [e4, e5]; exact k2, hu, h3.reach⟩
  refine wpP_call (Q := fun cs' s' => s' = { s3 with groups := G } ∧ U.env.recover op X = .ok cs') ?_ ?_
  · unfold wpP recoverP
    cases hr : U.env.recover op X with
    | error e => exact Or.inr ⟨op, X, hg, ht, hsrc, hr⟩
    | ok cs' => exact ⟨rfl, rfl⟩
  · rintro cs' s4 ⟨rfl, hr⟩
    obtain ⟨hρ, ht', hpre, hhd, hbr⟩ := U.fix op X cs' hg ht hsrc hr
    have hsub := hpre.sublist
    refine ⟨cs', hρ, ⟨h3.reach, h3.eof, by show _ :: s3.stack = _; rw [h3.stack]; rfl, h3.ctxs, rfl, ?_, ?_, ?_⟩, e3⟩
    · simp; exact .node (.missing hρ) ht'
    · obtain ⟨ks, k1, k2, hu⟩ := h3.spans
      refine ⟨ks, ⟨?_, ?_, fun hq => ?_⟩, k2, hu⟩
      · rw [List.append_nil, leavesL_node]; exact hsub.trans k1.sub
      · rw [List.append_nil, leavesL_node, hhd]; exact k1.head
      rcases hq with hq | hq
      · rw [List.append_nil, leavesL_node, hq op X cs' hr]
        exact k1.all (Or.inl hq)
      · simp [completeL, complete] at hq
    · exact NLs.bracket ((h3.newlines.grouped rfl).prefix hpre) (fun ks hm => h3.newlines.inner ks (hbr ks hm)) rfl

theorem popNode_wp {E : Err → Prop} {c : Cst} (h : On U F C G (X ++ [c]) Z s) :
    wpP E popNode s (fun c' s' => c' = c ∧ On U F C G X (c :: Z) s' ∧ s'.st = s.st) := by
  obtain ⟨st, gs, cs, sk⟩ := s
  obtain rfl : sk = (X ++ [c]).reverse ++ F.S := h.stack
  unfold wpP popNode
  simp only [List.reverse_append, List.reverse_cons, List.reverse_nil, List.nil_append, List.cons_append]
  exact ⟨trivial, ⟨h.reach, h.eof, rfl, h.ctxs, h.groups, by simpa using h.trees, by simpa using h.spans, by simpa using h.newlines⟩, trivial⟩

/-- A group, or a group without closer. -/
inductive GroupLike (U : Setup) (op : GroupOp) : Cst → Prop
  | group {cs} : GroupShape op cs → GroupLike U op (.node (.group op) cs)
  | missing {cs} : U.ρ op cs → GroupLike U op (.node (.groupMissingCloser op) cs)

/-- The call made of a head and a group. -/
def callOf (cop : CallOp) (head : List Cst) : Cst → Cst
  | .node (.group _) cs => .call head false cop cs
  | .node _ cs => .call head true cop cs
  | c => c

theorem tree_children {ρ : GroupOp → List Cst → Prop} {k : NodeKind} {cs : List Cst} (h : TreeOK ρ (.node k cs)) :
    ∀ c ∈ cs, TreeOK ρ c := by
  cases h with
  | node _ h => exact h

theorem reduceCall_wp {E : Err → Prop} {p : Nat} {op : GroupOp} {cop : CallOp} {l n : Cst}
    (h : On U F ((p, F.S.length) :: C) G (l :: tt ts ++ [n]) [] s) (hg : GroupLike U op n) (hop : op.toCall = some cop)
    (hl : Operand l) (hts : Tr ts) (hy : Yields l ts (some Prec.CALL)) :
    wpP E reduceCall s (fun _ s' => On U F C G [callOf cop (l :: tt ts) n] [] s' ∧ s'.st = s.st) := by
  refine wpP_call (popContext_wp h) ?_
  rintro i s1 ⟨rfl, h1, e1⟩
  refine wpP_call (popNode_wp h1) ?_
  rintro c s2 ⟨rfl, h2, e2⟩
  refine wpP_call (drainStack_wp h2) ?_
  rintro cs s3 ⟨rfl, h3, e3⟩
  have ht : ∀ c' ∈ l :: tt ts, TreeOK U.ρ c' := fun c' hc' => h3.trees c' (by simp at hc' ⊢; tauto)
  have hn : TreeOK U.ρ c := h3.trees c (by simp)
  cases hg with
  | group hs =>
    unfold mkCall
    simp only [hop]
    refine wpP_mono (pushNode_wp h3 (.call (.group hl hts hy hop hs) ht (tree_children hn)) ?_ ?_ ?_) ?_
    · rw [leavesL_append]; simp [leavesL, leaves]
    · rw [completeL_append]; simp [completeL, complete]
    · exact fun hN => NLs.call hN rfl
    · rintro _ s4 ⟨h4, e4⟩
      exact ⟨h4, by rw [e4, e3, e2, e1]⟩
  | missing hs =>
    unfold mkCall
    simp only [hop]
    refine wpP_mono (pushNode_wp h3 (.call (.missing hl hts hy hop hs) ht (tree_children hn)) ?_ ?_ ?_) ?_
    · rw [leavesL_append]; simp [leavesL, leaves]
    · simp [completeL, complete]
    · exact fun hN => NLs.call hN rfl
    · rintro _ s4 ⟨h4, e4⟩
      exact ⟨h4, by rw [e4, e3, e2, e1]⟩

end
end CodeParser
