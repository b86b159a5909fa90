import Verif.Model.Parser
import Verif.Spec.Tree
import Verif.Proofs.Token5
import Verif.Proofs.TokenText
import Verif.Props.TokenKind
/-!
The parser: weakest preconditions, positions, peeking and eating tokens (helper lemmas).
-/
namespace CodeParser
open Spec

/-! ### Weakest preconditions -/

/-- The computation `m`, run in `s`, ends in a result satisfying `Q` or in an error
satisfying `E`. -/
def wpP {α} (E : Err → Prop) (m : P α) (s : PS) (Q : α → PS → Prop) : Prop :=
  match m s with
  | .ok (a, t) => Q a t
  | .error e => E e

section
variable {α β : Type} {E : Err → Prop} {s : PS}

theorem wpP_pure {a : α} {Q : α → PS → Prop} (h : Q a s) : wpP E (Pure.pure a : P α) s Q := h

theorem wpP_bind {m : P α} {f : α → P β} {Q : β → PS → Prop}
    (h : wpP E m s (fun a t => wpP E (f a) t Q)) : wpP E (m >>= f) s Q := by
  unfold wpP at *
  show match P.bind m f s with | .ok (a, t) => Q a t | .error e => E e
  unfold P.bind
  cases hm : m s with
  | error e => simpa [hm] using h
  | ok p => obtain ⟨a, t⟩ := p; simpa [hm] using h

theorem wpP_mono {m : P α} {Q Q' : α → PS → Prop}
    (h : wpP E m s Q) (hQ : ∀ a t, Q a t → Q' a t) : wpP E m s Q' := by
  unfold wpP at *
  cases hm : m s with
  | error e => simpa only [hm] using h
  | ok p => obtain ⟨a, t⟩ := p; simp only [hm] at h; exact hQ a t h

theorem wpP_call {m : P α} {f : α → P β} {Q : α → PS → Prop} {Q' : β → PS → Prop}
    (h : wpP E m s Q) (hQ : ∀ a t, Q a t → wpP E (f a) t Q') : wpP E (m >>= f) s Q' :=
  wpP_bind (wpP_mono h hQ)

theorem wpP_ite {c : Prop} [Decidable c] {x y : P α} {Q : α → PS → Prop}
    (h1 : c → wpP E x s Q) (h2 : ¬ c → wpP E y s Q) : wpP E (if c then x else y) s Q := by
  by_cases h : c
  · rw [if_pos h]; exact h1 h
  · rw [if_neg h]; exact h2 h

theorem wpP_lift {E' : Err → Prop} {m : M α} {Q : α → PS → Prop}
    (h : wp E' m s.st (fun a t => Q a { s with st := t })) (hE : ∀ e, E' e → E e) :
    wpP E (P.lift m) s Q := by
  unfold wpP wp P.lift at *
  cases hm : m s.st with
  | error e => rw [hm] at h; exact hE e h
  | ok p => rw [hm] at h; exact h

theorem wpP_get {f : PS → P β} {Q : β → PS → Prop} (h : wpP E (f s) s Q) :
    wpP E (P.get >>= f) s Q := wpP_bind h

end

/-! ### Positions -/

/-- The tokens `ks` (some of them empty) lie one behind the other, from the bytes `r` at
location `l` to the bytes `r'` at location `l'`. -/
inductive Lies (cfg : Cfg) : List UInt8 → Loc → List Tok → List UInt8 → Loc → Prop
  | nil {r l} : Lies cfg r l [] r l
  | cons {k : Tok} {ks r' l'} : Moves cfg k.text k.after k.start k.stop →
      Lies cfg k.after k.stop ks r' l' → Lies cfg (k.text ++ k.after) k.start (k :: ks) r' l'

section
variable {cfg : Cfg} {r r' r'' : List UInt8} {l l' l'' : Loc} {ks js : List Tok}

theorem Lies.append (h : Lies cfg r l ks r' l') (h' : Lies cfg r' l' js r'' l'') :
    Lies cfg r l (ks ++ js) r'' l'' := by
  induction h with
  | nil => exact h'
  | cons a _ ih => exact .cons a (ih h')

theorem Lies.snoc {k : Tok} (h : Lies cfg r l ks r' l') (h1 : k.text ++ k.after = r') (h2 : k.start = l')
    (h3 : Moves cfg k.text k.after k.start k.stop) : Lies cfg r l (ks ++ [k]) k.after k.stop :=
  h.append (by subst h1; subst h2; exact .cons h3 .nil)

theorem Lies.split (h : Lies cfg r l (ks ++ js) r'' l'') :
    ∃ r' l', Lies cfg r l ks r' l' ∧ Lies cfg r' l' js r'' l'' := by
  induction ks generalizing r l with
  | nil => exact ⟨_, _, .nil, h⟩
  | cons k ks ih =>
    generalize hq : (k :: ks) ++ js = q at h
    cases h with
    | nil => cases hq
    | @cons k' _ _ _ a b =>
      obtain ⟨rfl, rfl⟩ := List.cons.inj hq
      obtain ⟨r1, l1, h1, h2⟩ := ih b
      exact ⟨r1, l1, .cons a h1, h2⟩

theorem Lies.text (h : Lies cfg r l ks r' l') : ks.flatMap Tok.text ++ r' = r := by
  induction h with
  | nil => rfl
  | cons _ _ ih => simp [ih]

theorem Lies.head {k : Tok} (h : Lies cfg r l (k :: ks) r' l') : k.text ++ k.after = r ∧ k.start = l := by
  cases h with
  | cons => exact ⟨rfl, rfl⟩

theorem Lies.adjacent (h : Lies cfg r l ks r' l') :
    ∀ i (hi : i + 1 < ks.length), ks[i + 1].start = ks[i].stop := by
  induction h with
  | nil => simp
  | @cons k ks _ _ _ hl ih =>
    intro i hi
    cases i with
    | zero =>
      obtain ⟨k', ks', rfl⟩ : ∃ k' ks', ks = k' :: ks' := by
        cases ks with
        | nil => simp at hi
        | cons k' ks' => exact ⟨_, _, rfl⟩
      exact hl.head.2
    | succ i => exact ih i (by simpa using hi)

theorem Lies.moves (h : Lies cfg r l ks r' l') :
    ∀ k ∈ ks, Moves cfg k.text k.after k.start k.stop := by
  induction h with
  | nil => simp
  | cons hm _ ih =>
    intro k hk
    rcases List.mem_cons.mp hk with rfl | hk
    · exact hm
    · exact ih k hk

theorem moves_nil : Moves cfg [] r l l := ⟨0, by simp [readN]⟩

theorem Lies.empty {k : Tok} (h : Lies cfg r l ks r' l') (h0 : k.text = []) (h1 : k.after = r')
    (h2 : k.start = l') (h3 : k.stop = l') : Lies cfg r l (ks ++ [k]) r' l' := by
  have hm : Moves cfg k.text k.after k.start k.stop := by
    rw [h0, h2, h3]; exact moves_nil
  have := h.snoc (k := k) (by rw [h0, h1]; rfl) h2 hm
  rwa [h1, h3] at this

theorem Lies.kind {k : Tok} (f : TK) (h : Lies cfg r l (ks ++ [k]) r' l') :
    Lies cfg r l (ks ++ [k.at f]) r' l' := by
  obtain ⟨r1, l1, h1, h2⟩ := h.split
  refine h1.append ?_
  generalize hq : [k] = q at h2
  cases h2 with
  | nil => cases hq
  | cons a b =>
    obtain ⟨rfl, rfl⟩ := List.cons.inj hq
    exact .cons (k := k.at f) a b

end

/-! ### Peeking -/

section
variable {cfg : Cfg} {g : Bool} {s t u v : St} {k : Tok}

theorem peekTokenWith_sim {pol : Pol} : MSim Eq (peekTokenWith cfg pol g) (peekTokenWith cfg pol g) := by
  unfold peekTokenWith
  refine MSim.mark.bind fun m m' hm => ?_
  refine nextToken_sim.bindE fun k => ?_
  exact (MSim.seek hm).bindE fun _ => MSim.pure rfl

theorem peekTokenFile_sim : MSim Eq (peekTokenFile cfg) (peekTokenFile cfg) := by
  unfold peekTokenFile
  refine MSim.mark.bind fun m m' hm => ?_
  refine nextTokenFile_sim.bindE fun k => ?_
  exact (MSim.seek hm).bindE fun _ => MSim.pure rfl

theorem MSim.ok2 {α} {m : M α} {a a' : α} (h : MSim Eq m m) (hs : SameAt s t)
    (h1 : m s = .ok (a, u)) (h2 : m t = .ok (a', v)) : a = a' ∧ SameAt u v := by
  have := h s t hs
  rw [h1, h2] at this
  exact this

/-- The token at the position of `s` is `k`. -/
def PeekAt (cfg : Cfg) (g : Bool) (s : St) (k : Tok) : Prop :=
  ∃ u v, SameAt u s ∧ peekToken cfg g u = .ok (k, v)

theorem PeekAt.congr (h : PeekAt cfg g s k) (hs : SameAt s t) : PeekAt cfg g t k := by
  obtain ⟨u, v, h1, h2⟩ := h
  exact ⟨u, v, h1.trans hs, h2⟩

theorem PeekAt.unique {k' : Tok} (h : PeekAt cfg g s k) (h' : PeekAt cfg g s k') : k = k' := by
  obtain ⟨u, v, h1, h2⟩ := h
  obtain ⟨u', v', h1', h2'⟩ := h'
  exact (MSim.ok2 peekTokenWith_sim (h1.trans h1'.symm) h2 h2').1

/-- The token `k` lies at the position of `s`, and the encoding flag of `s` accounts for
having looked at it. -/
structure Here (cfg : Cfg) (s : St) (k : Tok) : Prop where
  split : k.text ++ k.after = s.rest
  start : k.start = s.loc
  skip : R cfg s (k.skipSt s)
  moves : Moves cfg k.text k.after k.start k.stop

theorem peek_line {pol : Pol} (hs : WF s) (h : peekTokenWith cfg pol g s = .ok (k, t)) (hn : onNewline s.rest) :
    isNewline k.kind := by
  obtain ⟨u, hu, -⟩ := nextToken_newline (cfg := cfg) (pol := pol.inside g) hs hn
  unfold peekTokenWith at h
  rw [bind_ok (rfl : M.mark s = .ok (s, s)),
    bind_ok (show nextToken cfg { pol with toplevel := pol.toplevel && !g } s = _ from hu)] at h
  cases h
  show isNewline (Pol.newline _)
  unfold Pol.newline
  split
  · exact Or.inl rfl
  · exact Or.inr rfl

/-- The token read at the position of `s` is `k`, and the encoding flag of `s` accounts for
having looked at it. -/
structure Ready (cfg : Cfg) (g : Bool) (s : St) (k : Tok) : Prop extends Here cfg s k where
  peek : PeekAt cfg g s k
  kind : k.kind = .EndOfFile ∨ KOK (Pol.top.inside g) k.kind = true
  more : k.kind ≠ .EndOfFile → k.text ≠ []
  line : onNewline s.rest → isNewline k.kind

theorem WF_of_eof (h : s.eof = false) : WF s := fun h' => by rw [h] at h'; cases h'

theorem R_skip (hs : WF s) (h : R cfg s (k.skipSt t)) (hst : SameAt s u) (hf : t.flag ≠ none → u.flag ≠ none) :
    R cfg u (k.skipSt u) := by
  obtain ⟨cs, hp, hu⟩ := h.path
  have hw : WF u := by unfold WF at *; rw [← hst.rest, ← hst.eof]; exact hs
  exact ⟨h.wf, ⟨cs, (hp.congr_left hs hw hst.rest.symm hst.loc.symm).congr_right rfl rfl,
    fun h => hf (hu h)⟩, fun h => h, fun h => Or.inl h⟩

theorem Ready.congr (h : Ready cfg g s k) (hw : WF s) (hs : SameAt s t) (hf : s.flag ≠ none → t.flag ≠ none) :
    Ready cfg g t k :=
  ⟨⟨h.split.trans hs.rest, h.start.trans hs.loc, R_skip hw h.skip hs hf, h.moves⟩, h.peek.congr hs, h.kind, h.more, by rw [← hs.rest]; exact h.line⟩

theorem Ready.of_peek (hs : WF s) (h : PeekPost cfg (Pol.top.inside g) s k t)
    (hp : peekToken cfg g s = .ok (k, t)) : Ready cfg g t k :=
  ⟨⟨h.split.trans h.same.rest, h.start.trans h.same.loc, R_skip hs h.skip h.same id, h.moves hs⟩,
    ⟨s, t, h.same, hp⟩, h.kind, h.more, by rw [← h.same.rest]; exact peek_line hs hp⟩

theorem peekToken_wp (hs : WF s) : wp (EE s.rest) (peekToken cfg g) s
    (fun k t => R cfg s t ∧ SameAt s t ∧ Ready cfg g t k ∧ peekToken cfg g s = .ok (k, t)) := by
  refine wp_mono (wp_eq (peekTokenWith_wp hs)) (fun _ h => h) ?_
  rintro k t ⟨h, he⟩
  exact ⟨h.reach, h.same, Ready.of_peek hs h he, he⟩

/-- The kinds of tokens in the source, other than the end of the file. -/
def TK.real (k : TK) : Bool := k.fromSource || k == .ToplevelNewline || k == .InternalNewline

theorem KOK_real {pol : Pol} {k : TK} (hk : KOK pol k = true) : k.real = true := by
  unfold KOK at hk
  unfold TK.real
  cases h1 : k.fromSource <;> simp [h1] at hk ⊢
  cases h2 : pol.toplevel <;> simp [h2] at hk <;> simp [hk]

theorem real_invented : ∀ k : TK, k.real = true → invented k = false :=
  Props.forall_of_all (by decide +kernel)

theorem real_spare : ∀ k : TK, k.real = true → spare k = false :=
  Props.forall_of_all (by decide +kernel)

theorem TokOK.real (h : k.kind.real = true) (hm : k.text ≠ []) (hr : k.text ++ r = s.rest)
    (hl : onNewline s.rest → isNewline k.kind) : TokOK k :=
  ⟨fun h' => by (rw [real_invented _ h] at h'; cases h'), fun _ => hm,
    fun h => hl (by rw [← hr]; exact onNewline_append h), real_spare _ h⟩

theorem Ready.real (h : Ready cfg g s k) (he : k.kind ≠ .EndOfFile) : k.kind.real = true :=
  KOK_real (h.kind.resolve_left he)

theorem Ready.ok (h : Ready cfg g s k) (he : k.kind ≠ .EndOfFile) : TokOK k :=
  TokOK.real (h.real he) (h.more he) h.split h.line

/-- The tokens satisfying `p` at the position of `s` are `ks`, and `k` is the token behind. -/
inductive Eats (cfg : Cfg) (g : Bool) (p : TK → Bool) : St → List Tok → Tok → St → Prop
  | stop {u v : St} {t : Tok} : peekToken cfg g u = .ok (t, v) → p t.kind = false → Eats cfg g p u [] t v
  | more {u v w : St} {k t : Tok} {ks : List Tok} : peekToken cfg g u = .ok (k, v) → p k.kind = true →
      Eats cfg g p (k.skipSt v) ks t w → Eats cfg g p u (k :: ks) t w

theorem Eats.unique {p : TK → Bool} {ks ks' : List Tok} {k' : Tok} (h : Eats cfg g p s ks k u)
    (h' : Eats cfg g p t ks' k' v) (hs : SameAt s t) : ks = ks' ∧ k = k' ∧ SameAt u v := by
  induction h generalizing t ks' with
  | stop h1 h2 =>
    cases h' with
    | stop h1' _ => exact ⟨rfl, MSim.ok2 peekTokenWith_sim hs h1 h1'⟩
    | more h1' h2' _ =>
      have := (MSim.ok2 peekTokenWith_sim hs h1 h1').1
      rw [this, h2'] at h2; cases h2
  | more h1 h2 _ ih =>
    cases h' with
    | stop h1' h2' =>
      have := (MSim.ok2 peekTokenWith_sim hs h1 h1').1
      rw [this, h2'] at h2; cases h2
    | more h1' h2' h3' =>
      obtain ⟨rfl, hv⟩ := MSim.ok2 peekTokenWith_sim hs h1 h1'
      obtain ⟨rfl, rfl, h⟩ := ih h3' ⟨rfl, rfl, rfl⟩
      exact ⟨rfl, rfl, h⟩

theorem isNTN_trivia : ∀ k : TK, k.isTriviaButNotToplevelNewline = true → k.isTrivia = true :=
  Props.forall_of_all (by decide +kernel)

theorem real_NTN : ∀ k : TK, k.real = true → k.isTrivia = true → k ≠ .ToplevelNewline →
    k.isTriviaButNotToplevelNewline = true :=
  Props.forall_of_all (by decide +kernel)

theorem isTrivia_NTN {pol : Pol} {k : TK} (hk : KOK pol k = true) (h : k.isTrivia = true)
    (hn : k ≠ .ToplevelNewline) : k.isTriviaButNotToplevelNewline = true :=
  real_NTN k (KOK_real hk) h hn

/-- Without newlines among them, the tokens eaten are the same whether or not newlines
are eaten. -/
theorem Eats.ntn {ks : List Tok} (h : Eats cfg g TK.isTrivia s ks k u)
    (hn : ∀ t ∈ ks, t.kind ≠ .ToplevelNewline ∧ KOK (Pol.top.inside g) t.kind = true) :
    Eats cfg g TK.isTriviaButNotToplevelNewline s ks k u := by
  induction h with
  | stop h1 h2 =>
    refine .stop h1 ?_
    by_contra h
    have := isNTN_trivia _ (by simpa using h)
    rw [h2] at this; cases this
  | more h1 h2 _ ih =>
    have := hn _ (List.mem_cons_self ..)
    exact .more h1 (isTrivia_NTN this.2 h2 this.1) (ih fun t ht => hn t (by simp [ht]))

theorem Eats.trivia {ks : List Tok} (h : Eats cfg g TK.isTriviaButNotToplevelNewline s ks k u) (hk : k.kind.isTrivia = false) :
    Eats cfg g TK.isTrivia s ks k u := by
  induction h with
  | stop h1 h2 => exact .stop h1 hk
  | more h1 h2 _ ih => exact .more h1 (isNTN_trivia _ h2) (ih hk)

/-- What eating tokens gives. -/
structure Ate (cfg : Cfg) (g : Bool) (p : TK → Bool) (s : St) (ks : List Tok) (k : Tok) (t : St) : Prop where
  reach : R cfg s t
  eof : t.eof = false
  lies : Lies cfg s.rest s.loc ks t.rest t.loc
  all : ∀ k ∈ ks, p k.kind = true ∧ KOK (Pol.top.inside g) k.kind = true ∧ TokOK k
  stop : p k.kind = false
  ready : Ready cfg g t k
  eats : Eats cfg g p s ks k t

theorem eatM_wp {p : TK → Bool} (he : s.eof = false) (hp : p .EndOfFile = false) :
    wp (EE s.rest) (eatM cfg g p) s (fun r t => Ate cfg g p s r.1 r.2 t) := by
  have hs := WF_of_eof he
  unfold eatM
  refine wp_loop (fun ks t => R cfg s t ∧ t.eof = false ∧ Lies cfg s.rest s.loc ks t.rest t.loc ∧
      (∀ k ∈ ks, p k.kind = true ∧ KOK (Pol.top.inside g) k.kind = true ∧ TokOK k) ∧
      ∀ js k u, Eats cfg g p t js k u → Eats cfg g p s (ks ++ js) k u) (fun _ t => t.rest.length)
    ⟨R.refl hs, he, .nil, by simp, fun _ _ _ h => h⟩ (by omega) ?_
  rintro ks t ⟨hR, ht, hL, hA, hE⟩
  refine wp_call (peekToken_wp hR.wf) (fun _ h => h.of_R hs hR) ?_
  rintro k u ⟨hRu, hsu, hrd, heq⟩
  refine wp_ite (fun hk => ?_) (fun hk => ?_)
  · have hne : k.kind ≠ .EndOfFile := by rintro h; rw [h, hp] at hk; cases hk
    have hlen : k.after.length < t.rest.length := by
      have := congrArg List.length hrd.split
      have := List.length_pos_iff.mpr (hrd.more hne)
      rw [hsu.rest]; simp at *; omega
    refine wp_skip (wp_pure ⟨⟨R.trans hs (R.trans hs hR hRu) hrd.skip, ?_, ?_, ?_, ?_⟩, hlen⟩)
    · show (k.kind == .EndOfFile) = false
      simpa using hne
    · exact hL.snoc (hrd.split.trans hsu.rest.symm) (hrd.start.trans hsu.loc.symm) hrd.moves
    · intro k' hk'
      rcases List.mem_append.mp hk' with h | h
      · exact hA k' h
      · obtain rfl := List.mem_singleton.mp h
        exact ⟨hk, hrd.kind.resolve_left hne, hrd.ok hne⟩
    · intro js k' w h
      rw [List.append_assoc]
      exact hE _ _ _ (.more heq hk h)
  · have hk : p k.kind = false := by simpa using hk
    refine wp_pure ⟨R.trans hs hR hRu, by rw [← hsu.eof]; exact ht, ?_, hA, hk, hrd, ?_⟩
    · rw [← hsu.rest, ← hsu.loc]; exact hL
    · have := hE [] k u (.stop heq hk)
      simpa using this

theorem Eats.same (h : Eats cfg g p s [] k t) (hs : WF s) : SameAt s t := by
  cases h with
  | stop h1 _ =>
    have := peekToken_wp (cfg := cfg) (g := g) hs
    unfold wp at this
    rw [h1] at this
    exact this.2.1

/-- What eating white space before a file name gives. -/
structure AteFile (cfg : Cfg) (s : St) (ks : List Tok) (k : Tok) (t : St) : Prop where
  reach : R cfg s t
  eof : t.eof = false
  lies : Lies cfg s.rest s.loc ks t.rest t.loc
  all : ∀ k ∈ ks, k.kind.isTrivia = true ∧ TokOK k ∧ k.kind ≠ .InternalNewline
  here : Here cfg t k
  kind : isFile k.kind = true
  hollow : TokOK k

theorem eatFileM_wp (he : s.eof = false) :
    wp (EE s.rest) (eatFileM cfg) s (fun r t => AteFile cfg s r.1 r.2 t) := by
  have hs := WF_of_eof he
  unfold eatFileM
  refine wp_loop (fun ks t => R cfg s t ∧ t.eof = false ∧ Lies cfg s.rest s.loc ks t.rest t.loc ∧
      (∀ k ∈ ks, k.kind.isTrivia = true ∧ TokOK k ∧ k.kind ≠ .InternalNewline)) (fun _ t => t.rest.length)
    ⟨R.refl hs, he, .nil, by simp⟩ (by omega) ?_
  rintro ks t ⟨hR, ht, hL, hA⟩
  refine wp_call (peekTokenFile_wp hR.wf ht) (fun _ h => h.of_R hs hR) ?_
  rintro k u hrd
  have hsu := hrd.same
  refine wp_ite (fun hk => ?_) (fun hk => ?_)
  · have hlen : k.after.length < t.rest.length := by
      have := congrArg List.length hrd.split
      have := List.length_pos_iff.mpr (hrd.notEmpty hk)
      simp at *; omega
    refine wp_skip (wp_pure ⟨⟨R.trans hs hR hrd.skip, ?_, ?_, ?_⟩, hlen⟩)
    · show (k.kind == .EndOfFile) = false
      simpa using hrd.notEof
    · exact hL.snoc hrd.split hrd.start (hrd.moves hR.wf)
    · intro k' hk'
      rcases List.mem_append.mp hk' with h | h
      · exact hA k' h
      · obtain rfl := List.mem_singleton.mp h
        refine ⟨hk, hrd.hollow, fun hq => ?_⟩
        have := hrd.kind
        rw [hq] at this
        revert this
        decide
  · refine wp_pure ⟨R.trans hs hR hrd.reach, by rw [← hsu.eof]; exact ht, ?_, hA, ⟨hrd.split.trans hsu.rest,
      hrd.start.trans hsu.loc, R_skip hR.wf hrd.skip hsu id, hrd.moves hR.wf⟩, ?_, hrd.hollow⟩
    · rw [← hsu.rest, ← hsu.loc]; exact hL
    · have h1 := hrd.kind
      revert h1 hk
      generalize k.kind = q
      revert q
      exact Props.forall_of_all (by decide +kernel)

end
end CodeParser
