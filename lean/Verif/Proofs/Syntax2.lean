import Verif.Proofs.Syntax1
/-!
The steps of the parser on a text whose lexemes are known (helper lemmas).
-/
namespace CodeParser.Syn
open CodeParser Spec Props

/-- The only error is a lack of fuel, which `C27_terminates` excludes. -/
def F (e : Err) : Prop := e = .fuel

/-! ### Trees without blanks -/

theorem plain_isTrivia (c : Cst) : (plain c).isTrivia = c.isTrivia := by
  cases c <;> rfl

theorem plains_append (a b : List Cst) : plains (a ++ b) = plains a ++ plains b := by
  induction a with
  | nil => rfl
  | cons c a ih =>
    show (if c.isTrivia = true then plains (a ++ b) else plain c :: plains (a ++ b)) =
      (if c.isTrivia = true then plains a else plain c :: plains a) ++ plains b
    rw [ih]
    split <;> rfl

theorem plains_tt {ts : List Tok} (h : Tr ts) : plains (tt ts) = [] := by
  induction ts with
  | nil => rfl
  | cons t ts ih =>
    show (if t.kind.isTrivia = true then plains (tt ts) else _) = []
    rw [if_pos (h t (by simp))]
    exact ih fun x hx => h x (by simp [hx])

theorem plains_one {c : Cst} (h : c.isTrivia = false) : plains [c] = [plain c] := by
  unfold plains plains
  rw [if_neg (by simp [h])]

/-- A tree that stands for `d`, which is not a blank. -/
def Shows (c d : Cst) : Prop := plain c = d ∧ d.isTrivia = false

theorem Shows.one {c d : Cst} (h : Shows c d) : plains [c] = [d] := by
  rw [plains_one (by rw [← plain_isTrivia, h.1]; exact h.2), h.1]

theorem Is.one {x : Tok} {l : Lexeme} {ks : List Lexeme} (h : Is x l ks) (hl : l.1.isTrivia = false) :
    plains [.tok x] = [leaf l] := by
  rw [plains_one (by show x.kind.isTrivia = false; rw [h.kind]; exact hl)]
  show [leaf (x.kind, x.text)] = _
  rw [h.kind, h.text]

/-! ### Single steps -/

section
variable {env : PEnv} {n : Nat} {g : Bool} {st : St} {G : List Closer} {C : List (Nat × Nat)} {S : List Cst} {s : PS}
  {rest ks ws : List Lexeme} {x : Tok} {ts : List Tok} {α : Type} {f : Unit → P α} {Q : α → PS → Prop} {Q1 : Unit → PS → Prop}

theorem do_pushNode {c : Cst} (h : wpP F (f ()) ⟨st, G, C, c :: S⟩ Q) : wpP F (pushNode c >>= f) ⟨st, G, C, S⟩ Q := wpP_bind h

theorem do_pushNext (h : wpP F (f ()) ⟨x.skipSt st, G, C, .tok x :: S⟩ Q) : wpP F (pushNext x >>= f) ⟨st, G, C, S⟩ Q := wpP_bind h

theorem do_skip (h : wpP F (f ()) ⟨x.skipSt st, G, C, S⟩ Q) : wpP F (skipP x >>= f) ⟨st, G, C, S⟩ Q := wpP_bind h

theorem do_pushTrivia (h : wpP F (f ()) ⟨st, G, C, (tt ts).reverse ++ S⟩ Q) : wpP F (pushTrivia ts >>= f) ⟨st, G, C, S⟩ Q := wpP_bind h

theorem do_commitNext (h : wpP F (f ()) ⟨x.skipSt st, G, C, .tok x :: ((tt ts).reverse ++ S)⟩ Q) :
    wpP F (commitNext ts x >>= f) ⟨st, G, C, S⟩ Q := wpP_bind h

theorem do_pushContext {p : Nat} {c : Cst} (h : wpP F (f ()) ⟨st, G, (p, S.length) :: C, c :: S⟩ Q) :
    wpP F (pushContext p >>= f) ⟨st, G, C, c :: S⟩ Q := wpP_bind h

theorem do_setPrecedence {p q i : Nat} (h : wpP F (f ()) ⟨st, G, (p, i) :: C, S⟩ Q) :
    wpP F (setPrecedence p >>= f) ⟨st, G, (q, i) :: C, S⟩ Q := wpP_bind h

theorem do_pushGroup {c : Closer} (h : wpP F (f ()) ⟨st, c :: G, C, S⟩ Q) : wpP F (pushGroup c >>= f) ⟨st, G, C, S⟩ Q := wpP_bind h

theorem wpP_ok {m : P α} {a : α} {t : PS} (h : m s = .ok (a, t)) (hQ : Q a t) : wpP F m s Q := by
  unfold wpP; rw [h]; exact hQ

theorem drain_eq {A : List Cst} : drainStack S.length ⟨st, G, C, A ++ S⟩ = .ok (A.reverse, ⟨st, G, C, S⟩) := by
  unfold drainStack
  simp

theorem do_reduceNode {k : NodeKind} {p : Nat} {A : List Cst} (hA : A ≠ [])
    (h : wpP F (f ()) ⟨st, G, C, .node k A.reverse :: S⟩ Q) :
    wpP F (reduceNode k >>= f) ⟨st, G, (p, S.length) :: C, A ++ S⟩ Q := by
  refine wpP_bind ?_
  unfold reduceNode
  refine wpP_bind ?_
  show wpP F _ ⟨st, G, C, A ++ S⟩ _
  refine wpP_bind (wpP_ok drain_eq ?_)
  unfold mkNode
  rw [if_neg (by simpa using hA)]
  exact h

theorem reduceNode_end {k : NodeKind} {p : Nat} {A : List Cst} (hA : A ≠ [])
    (h : Q1 () ⟨st, G, C, .node k A.reverse :: S⟩) :
    wpP F (reduceNode k) ⟨st, G, (p, S.length) :: C, A ++ S⟩ Q1 := by
  unfold reduceNode
  refine wpP_bind ?_
  show wpP F _ ⟨st, G, C, A ++ S⟩ _
  refine wpP_bind (wpP_ok drain_eq ?_)
  unfold mkNode
  rw [if_neg (by simpa using hA)]
  exact h

theorem do_reduceGroup {k : NodeKind} {c : Closer} {p : Nat} {A : List Cst} (hA : A ≠ [])
    (h : wpP F (f ()) ⟨st, G, C, .node k A.reverse :: S⟩ Q) :
    wpP F (reduceGroup k >>= f) ⟨st, c :: G, (p, S.length) :: C, A ++ S⟩ Q := by
  refine wpP_bind ?_
  unfold reduceGroup
  refine wpP_bind ?_
  show wpP F _ ⟨st, c :: G, C, A ++ S⟩ _
  refine wpP_bind ?_
  show wpP F _ ⟨st, G, C, A ++ S⟩ _
  refine wpP_bind (wpP_ok drain_eq ?_)
  unfold mkNode
  rw [if_neg (by simpa using hA)]
  exact h

theorem do_reduceCall {op : GroupOp} {op' : CallOp} {p : Nat} {A cs : List Cst} (hop : op.toCall = some op')
    (h : wpP F (f ()) ⟨st, G, C, .call A.reverse false op' cs :: S⟩ Q) :
    wpP F (reduceCall >>= f) ⟨st, G, (p, S.length) :: C, .node (.group op) cs :: (A ++ S)⟩ Q := by
  refine wpP_bind ?_
  unfold reduceCall
  refine wpP_bind ?_
  show wpP F _ ⟨st, G, C, .node (.group op) cs :: (A ++ S)⟩ _
  refine wpP_bind ?_
  show wpP F _ ⟨st, G, C, A ++ S⟩ _
  refine wpP_bind (wpP_ok drain_eq ?_)
  unfold mkCall
  simp only [hop]
  exact h

theorem do_triviaReset {t : St} (ht : t.eof = false) (hback : resetTo ts t.rest = st.rest) (hst : At st ks)
    (h : ∀ u, At u ks → wpP F (f ()) ⟨u, G, C, S⟩ Q) : wpP F (triviaReset ts >>= f) ⟨t, G, C, S⟩ Q := by
  refine wpP_bind ?_
  cases ts with
  | nil => exact h t (hst.congr hback (ht.trans hst.eof.symm))
  | cons x ts => exact h { t with rest := x.text ++ x.after, loc := x.start } (hst.congr hback (ht.trans hst.eof.symm))

theorem triviaReset_end {t : St} (ht : t.eof = false) (hback : resetTo ts t.rest = st.rest) (hst : At st ks)
    (h : ∀ u, At u ks → Q1 () ⟨u, G, C, S⟩) : wpP F (triviaReset ts) ⟨t, G, C, S⟩ Q1 := by
  cases ts with
  | nil => exact h t (hst.congr hback (ht.trans hst.eof.symm))
  | cons x ts => exact h { t with rest := x.text ++ x.after, loc := x.start } (hst.congr hback (ht.trans hst.eof.symm))

/-! ### Looking at tokens -/

theorem do_peek {f : Tok → P α} (h : At st ks)
    (hQ : ∀ x t, Sees (!G.isEmpty) x ks → At t ks → wpP F (f x) ⟨t, G, C, S⟩ Q) :
    wpP F (peekP env >>= f) ⟨st, G, C, S⟩ Q := by
  refine wpP_bind ?_
  have : wpP F (P.lift (peekToken env.cfg (!G.isEmpty))) ⟨st, G, C, S⟩ (fun a t => wpP F (f a) t Q) :=
    wpP_lift (E' := fun _ => False) (wp_mono (peek_at h) (fun _ h => h) fun x t hx => hQ x t hx.1 hx.2.1) (fun _ h => h.elim)
  exact this

theorem do_peekWith {f : Tok → P α} {pol : Pol} {R : Tok → St → Prop}
    (h : ∀ g, wp (fun _ => False) (peekTokenWith env.cfg pol g) st R)
    (hQ : ∀ x t, R x t → wpP F (f x) ⟨t, G, C, S⟩ Q) : wpP F (peekWithP env pol >>= f) ⟨st, G, C, S⟩ Q := by
  refine wpP_bind ?_
  have : wpP F (P.lift (peekTokenWith env.cfg pol (!G.isEmpty))) ⟨st, G, C, S⟩ (fun a t => wpP F (f a) t Q) :=
    wpP_lift (E' := fun _ => False) (wp_mono (h _) (fun _ h => h) fun x t hx => hQ x t hx) (fun _ h => h.elim)
  exact this

theorem do_current {f : List Tok × Tok → P α} (h : At st (ws ++ ks)) (hws : Blank true ws) (hks : Solid true ks)
    (hQ : ∀ ts x t, Eaten (!G.isEmpty) st ks ts x t → wpP F (f (ts, x)) ⟨t, G, C, S⟩ Q) :
    wpP F (currentToken env >>= f) ⟨st, G, C, S⟩ Q := by
  refine wpP_bind ?_
  have hk := lexes_kind h.lex
  have : wpP F (P.lift (eatM env.cfg (!G.isEmpty) TK.isTrivia)) ⟨st, G, C, S⟩ (fun a t => wpP F (f a) t Q) := by
    refine wpP_lift (E' := fun _ => False) (wp_mono (eat_at h (fun _ h => h) ?_ ?_) (fun _ h => h)
      fun r t hx => hQ r.1 r.2 t hx) (fun _ h => h.elim)
    · intro l hl
      rw [kindIn_trivia _ _ (hk l (by simp [hl]))]
      exact hws l hl
    · rintro l ks' rfl
      rw [kindIn_trivia _ _ (hk l (by simp))]
      exact hks _ _ rfl
  exact this

theorem do_currentNTN {f : List Tok × Tok → P α} (h : At st (ws ++ ks)) (hws : Blank (!G.isEmpty) ws)
    (hks : Solid (!G.isEmpty) ks)
    (hQ : ∀ ts x t, Eaten (!G.isEmpty) st ks ts x t → wpP F (f (ts, x)) ⟨t, G, C, S⟩ Q) :
    wpP F (currentTokenNTN env >>= f) ⟨st, G, C, S⟩ Q := by
  refine wpP_bind ?_
  have hk := lexes_kind h.lex
  have : wpP F (P.lift (eatM env.cfg (!G.isEmpty) TK.isTriviaButNotToplevelNewline)) ⟨st, G, C, S⟩ (fun a t => wpP F (f a) t Q) := by
    refine wpP_lift (E' := fun _ => False) (wp_mono (eat_at h isNTN_trivia ?_ ?_) (fun _ h => h)
      fun r t hx => hQ r.1 r.2 t hx) (fun _ h => h.elim)
    · intro l hl
      rw [kindIn_NTN _ _ (hk l (by simp [hl]))]
      exact hws l hl
    · rintro l ks' rfl
      rw [kindIn_NTN _ _ (hk l (by simp))]
      exact hks _ _ rfl
  exact this

theorem do_eatTrivia {f : Tok → P α} (h : At st (ws ++ ks)) (hws : Blank true ws) (hks : Solid true ks)
    (hQ : ∀ ts x t, Eaten (!G.isEmpty) st ks ts x t → wpP F (f x) ⟨t, G, C, (tt ts).reverse ++ S⟩ Q) :
    wpP F (eatTrivia env >>= f) ⟨st, G, C, S⟩ Q := by
  refine wpP_bind ?_
  unfold eatTrivia
  exact do_current h hws hks fun ts x t hx => hQ ts x t hx

theorem do_eatTriviaNTN {f : Tok → P α} (h : At st (ws ++ ks)) (hws : Blank (!G.isEmpty) ws) (hks : Solid (!G.isEmpty) ks)
    (hQ : ∀ ts x t, Eaten (!G.isEmpty) st ks ts x t → wpP F (f x) ⟨t, G, C, (tt ts).reverse ++ S⟩ Q) :
    wpP F (eatTriviaNTN env >>= f) ⟨st, G, C, S⟩ Q := by
  refine wpP_bind ?_
  unfold eatTriviaNTN
  exact do_currentNTN h hws hks fun ts x t hx => hQ ts x t hx

/-! ### Climbing -/

theorem run_zero {j : Job} : wpP F (run env 0 j) s Q1 := rfl

theorem colon_table : ∀ k : TK, k.infixParselet = .colon → k = .Colon := forall_of_all (by decide +kernel)

theorem infixPrec_ok {f : Nat → P α} {k : TK} {p : Nat} (hk : follows k = some p) (hi : k.infixParselet ≠ .implicitTimes)
    (hc : k = .Colon → checkPatternPrec s.ctxs = true) (h : wpP F (f p) s Q) : wpP F (infixPrec k >>= f) s Q := by
  refine wpP_bind ?_
  unfold follows at hk
  unfold wpP infixPrec
  cases hp : k.infixParselet <;> rw [hp] at hk <;> simp only [Option.some.injEq, reduceCtorEq] at hk
  case implicitTimes => exact absurd hp hi
  case colon =>
    subst hk
    dsimp only
    rw [if_pos (hc (colon_table k hp))]
    exact h
  all_goals subst hk; exact h

/-- The precedence of a `:` that ends no pattern. -/
theorem infixPrec_colon {f : Nat → P α} (hc : checkPatternPrec s.ctxs = false) (h : wpP F (f Prec.HIGHEST) s Q) :
    wpP F (infixPrec .Colon >>= f) s Q := by
  refine wpP_bind (wpP_ok (a := Prec.HIGHEST) (t := s) ?_ h)
  show Except.ok (if checkPatternPrec s.ctxs = true then Prec.FAKE_OPTIONALCOLON else Prec.HIGHEST, s) = _
  rw [hc]
  rfl

/-- The token a climb sees: a multiplication in front of an operand. -/
def climbTok (x : Tok) : Tok := if x.kind.infixParselet = .implicitTimes then x.atStart .Fake_ImplicitTimes else x

/-- There is a tree, and the last one is not written with `;;`. -/
def NoSpan (S : List Cst) : Prop := ∃ c, S.find? (fun c => !c.isTrivia) = some c ∧ isSpan c = false

theorem semiSemi_table : ∀ k : TK, k.infixParselet = .semiSemi → k = .SemiSemi := forall_of_all (by decide +kernel)

theorem do_implicit {f : Tok → P α} {p : Nat} (hk : follows x.kind = some p) (hs : x.kind = .SemiSemi → NoSpan s.stack)
    (h : wpP F (f (climbTok x)) s Q) : wpP F (processImplicitTimes x >>= f) s Q := by
  refine wpP_bind ?_
  unfold follows at hk
  unfold climbTok at h
  unfold wpP processImplicitTimes
  cases hp : x.kind.infixParselet <;> rw [hp] at hk h <;> simp only [reduceCtorEq] at hk
  case implicitTimes => exact h
  case semiSemi =>
    obtain ⟨c, h1, h2⟩ := hs (semiSemi_table _ hp)
    simp only [topNodeIsSpan, h1, h2]
    exact h
  all_goals exact h

/-- The same if the last tree may be written with `;;`. -/
theorem do_implicit_any {f : Tok → P α} {p : Nat} (hk : follows x.kind = some p) (hs : ∃ c, s.stack.find? (fun c => !c.isTrivia) = some c)
    (h : wpP F (f (climbTok x)) s Q) (h' : x.kind = .SemiSemi → wpP F (f (x.atStart .Fake_ImplicitTimes)) s Q) :
    wpP F (processImplicitTimes x >>= f) s Q := by
  obtain ⟨c, h1⟩ := hs
  cases h2 : isSpan c with
  | false => exact do_implicit hk (fun _ => ⟨c, h1, h2⟩) h
  | true =>
    by_cases hx : x.kind = .SemiSemi
    · refine wpP_bind ?_
      unfold wpP processImplicitTimes
      rw [hx, show TK.infixParselet .SemiSemi = .semiSemi by decide]
      simp only [topNodeIsSpan, h1, h2]
      exact h' hx
    · exact do_implicit hk (fun e => absurd e hx) h

theorem noSpan_cons {c : Cst} (h : isSpan c = false) (ht : c.isTrivia = false) : NoSpan (c :: S) :=
  ⟨c, by rw [List.find?_cons_of_pos (by simp [ht])], h⟩

theorem isSpan_plain (c : Cst) : isSpan (plain c) = isSpan c := by
  cases c with
  | node k cs =>
    show isSpan (.node k (plains cs)) = _
    cases k <;> first | rfl | (rename_i op; cases op <;> rfl)
  | _ => rfl

theorem Shows.noSpan {c d : Cst} (h : Shows c d) (hd : isSpan d = false) : NoSpan (c :: S) :=
  noSpan_cons (by rw [← isSpan_plain, h.1, hd]) (by rw [← plain_isTrivia, h.1]; exact h.2)

theorem Shows.first {c d : Cst} (h : Shows c d) : (c :: S).find? (fun c => !c.isTrivia) = some c := by
  have : c.isTrivia = false := by rw [← plain_isTrivia, h.1]; exact h.2
  rw [List.find?_cons_of_pos (by simp [this])]

theorem climbTok_follows {p : Nat} (hk : follows x.kind = some p) :
    follows (climbTok x).kind = some p ∧ (climbTok x).kind.infixParselet ≠ .implicitTimes := by
  unfold climbTok
  by_cases h : x.kind.infixParselet = .implicitTimes
  · rw [if_pos h]
    unfold follows at hk
    rw [h] at hk
    exact ⟨hk, show TK.infixParselet .Fake_ImplicitTimes ≠ _ by decide⟩
  · rw [if_neg h]
    exact ⟨hk, h⟩

theorem climbTok_colon (h : (climbTok x).kind = .Colon) : x.kind = .Colon := by
  unfold climbTok at h
  split at h
  · cases h
  · exact h

theorem Sees.kind (h : Sees g x ks) (hs : Solid g ks) : x.kind = nextKind g ks := by
  cases h with
  | eof h => exact h
  | @lexeme l ks h _ =>
    rw [nextKind_solid hs, h.kind]
    show kindIn g l.1 = l.1
    have := hs _ _ rfl
    cases g with
    | false => exact kindIn_false
    | true =>
      refine kindIn_other fun e => ?_
      rw [e] at this; cases this

theorem climb_stop {p : Nat} (h : Past (!G.isEmpty) st rest) (hf : follows (nextKind (!G.isEmpty) rest) = some p)
    (hc : nextKind (!G.isEmpty) rest = .Colon → checkPatternPrec C = true)
    (hsp : nextKind (!G.isEmpty) rest = .SemiSemi → NoSpan S)
    (hp : precGreater (PS.topPrec ⟨st, G, C, S⟩) p = true) (hQ : ∀ t, Past (!G.isEmpty) t rest → Q1 () ⟨t, G, C, S⟩) :
    wpP F (run env n .climb) ⟨st, G, C, S⟩ Q1 := by
  cases n with
  | zero => exact run_zero
  | succ n =>
  obtain ⟨v, rest, rfl, hv, h⟩ := h
  rw [nextKind_blank hv] at hf hc hsp
  obtain ⟨ws, ks, rfl, hws, hks⟩ := split_blank (!G.isEmpty) rest
  rw [nextKind_blank hws] at hf hc hsp
  show wpP F (climb env _) _ _
  unfold climb
  refine do_currentNTN h hws hks fun ts x t he => ?_
  have hx : follows x.kind = some p := by rw [he.sees.kind hks]; exact hf
  refine do_implicit hx (fun e => hsp (by rw [← he.sees.kind hks]; exact e)) ?_
  unfold climbRest
  refine infixPrec_ok (climbTok_follows hx).1 (climbTok_follows hx).2 (fun h => hc ?_) ?_
  · rw [← he.sees.kind hks]
    exact climbTok_colon h
  refine wpP_get ?_
  rw [if_pos (show precGreater (PS.topPrec ⟨t, G, C, S⟩) p = true from hp)]
  exact triviaReset_end he.at'.eof he.back h fun t ht => hQ t ⟨v, _, rfl, hv, ht⟩

/-- The token that is parsed as an operator, when the lexemes `ks` are ahead. -/
inductive Op (y : Tok) : Lexeme → List Lexeme → List Lexeme → Prop
  | shown {o ks} : Is y o ks → o.1.infixParselet ≠ .implicitTimes → Op y o (o :: ks) ks
  | silent {l ks} : Is y implicitTimes (l :: ks) → l.1.infixParselet = .implicitTimes → Op y implicitTimes (l :: ks) (l :: ks)

theorem climb_go {o : Lexeme} {p : Nat} {c : Cst} (h : Past (!G.isEmpty) st (ws ++ o :: ks)) (hws : Blank (!G.isEmpty) ws)
    (ho : Solid true (o :: ks)) (hf : follows o.1 = some p) (hc : o.1 ≠ .Colon) (hsp : o.1 = .SemiSemi → NoSpan (c :: S))
    (hp : ¬ precGreater (PS.topPrec ⟨st, G, C, c :: S⟩) p = true)
    (hQ : ∀ m t ts y, Tr ts → (o.1.infixParselet ≠ .implicitTimes → Is y o ks) →
      (o.1.infixParselet = .implicitTimes → Is y implicitTimes (o :: ks)) →
      wpP F (run env m (.infix y)) ⟨t, G, (p, S.length) :: C, (tt ts).reverse ++ c :: S⟩ Q1) :
    wpP F (run env n .climb) ⟨st, G, C, c :: S⟩ Q1 := by
  cases n with
  | zero => exact run_zero
  | succ n =>
  show wpP F (climb env _) _ _
  unfold climb
  obtain ⟨v, w, rfl, h'⟩ := h.split (solid_mono ho)
  refine do_currentNTN h' hws.suffix (solid_mono ho) fun ts x t he => ?_
  have hk := he.sees.kind (solid_mono ho)
  rw [nextKind_solid (solid_mono ho)] at hk
  have hx : follows x.kind = some p := by rw [hk]; exact hf
  refine do_implicit hx (fun e => hsp (by rw [← hk]; exact e)) ?_
  unfold climbRest
  refine infixPrec_ok (climbTok_follows hx).1 (climbTok_follows hx).2 (fun h => absurd (hk.symm.trans (climbTok_colon h)) hc) ?_
  refine wpP_get ?_
  rw [if_neg (show ¬ precGreater (PS.topPrec ⟨t, G, C, c :: S⟩) p = true from hp)]
  refine do_pushContext (do_pushTrivia (hQ n t ts (climbTok x) he.trivia ?_ ?_))
  · intro hi
    unfold climbTok
    rw [if_neg (by rw [hk]; exact hi)]
    cases he.sees with
    | lexeme h2 h3 =>
      exact ⟨hk, h2.text, h2.lex⟩
  · intro hi
    unfold climbTok
    rw [if_pos (by rw [hk]; exact hi)]
    exact ⟨rfl, rfl,
      by show LexesTo (x.text ++ x.after) _; rw [he.here]; exact he.at'.lex⟩

/-- A `:` behind a name or pattern. -/
theorem climb_colon {o : Lexeme} {c : Cst} (h : Past (!G.isEmpty) st (ws ++ o :: ks)) (hws : Blank (!G.isEmpty) ws)
    (ho : o.1 = .Colon) (hc : checkPatternPrec C = false)
    (hp : ¬ precGreater (PS.topPrec ⟨st, G, C, c :: S⟩) Prec.HIGHEST = true)
    (hQ : ∀ m t ts y, Tr ts → Is y o ks →
      wpP F (run env m (.infix y)) ⟨t, G, (Prec.HIGHEST, S.length) :: C, (tt ts).reverse ++ c :: S⟩ Q1) :
    wpP F (run env n .climb) ⟨st, G, C, c :: S⟩ Q1 := by
  cases n with
  | zero => exact run_zero
  | succ n =>
  have hs : Solid true (o :: ks) := by rintro _ _ ⟨⟩; rw [ho]; rfl
  show wpP F (climb env _) _ _
  unfold climb
  obtain ⟨v, w, rfl, h'⟩ := h.split (solid_mono hs)
  refine do_currentNTN h' hws.suffix (solid_mono hs) fun ts x t he => ?_
  have hk := he.sees.kind (solid_mono hs)
  rw [nextKind_solid (solid_mono hs), ho] at hk
  have hx : follows x.kind = some Prec.FAKE_OPTIONALCOLON := by rw [hk]; rfl
  refine do_implicit hx (fun e => by rw [hk] at e; cases e) ?_
  have hct : climbTok x = x := by unfold climbTok; rw [if_neg (by rw [hk]; decide)]
  rw [hct]
  unfold climbRest
  rw [hk]
  refine infixPrec_colon hc ?_
  refine wpP_get ?_
  rw [if_neg (show ¬ precGreater (PS.topPrec ⟨t, G, C, c :: S⟩) Prec.HIGHEST = true from hp)]
  refine do_pushContext (do_pushTrivia (hQ n t ts x he.trivia ?_))
  cases he.sees with
  | lexeme h2 h3 => exact ⟨hk.trans ho.symm, h2.text, h2.lex⟩

end
end CodeParser.Syn
