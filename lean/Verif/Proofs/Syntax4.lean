import Verif.Proofs.Syntax3
/-!
Sequences of operators in the parser, on a text whose lexemes are known (helper lemmas).
-/
namespace CodeParser.Syn
open CodeParser Spec Props

/-- The loop that parses a sequence of operators. -/
def loopJob (op : InfixOp) : Job := if op = .Times then .timesLoop else .infixLoop op

/-- The precedence of the innermost context. -/
def top : List (Nat × Nat) → Nat
  | [] => 0
  | (p, _) :: _ => p

theorem topPrec_eq {st : St} {G : List Closer} {C : List (Nat × Nat)} {S : List Cst} : PS.topPrec ⟨st, G, C, S⟩ = top C := by
  cases C <;> rfl

section
variable {env : PEnv} {n : Nat} {g : Bool} {st : St} {G : List Closer} {C : List (Nat × Nat)} {S : List Cst}
  {rest ks ws : List Lexeme} {x y : Tok} {ts : List Tok} {rec : Job → P Unit} {Q : Unit → PS → Prop} {o : Lexeme}
  {p : Nat} {op : InfixOp}

theorem visible_solid {l : Lexeme} (h : Visible l.1) : Solid true (l :: ks) := by
  rintro _ _ ⟨⟩; exact h.blank

/-! ### The operator after an operand -/

/-- An operator that is written is not the multiplication by juxtaposition. -/
theorem not_fake (h : At st (ws ++ o :: ks)) : o.1 ≠ .Fake_ImplicitTimes := by
  intro e
  have := lexes_kind h.lex o (by simp)
  rw [e] at this
  cases this

theorem sep_climb {sep : List Lexeme} {c : Cst} {l : Lexeme} (h : Past (!G.isEmpty) st (sep ++ l :: ks)) (hsep : Sep (!G.isEmpty) o sep) (hl : startKind l.1 = true)
    (ho : infixOf o.1 = some (p, op)) (hi : o = implicitTimes → l.1.infixParselet = .implicitTimes)
    (hp : ¬ precGreater (top C) p = true)
    (hQ : ∀ m t ts y w, Tr ts → Blank true w → Is y o (w ++ l :: ks) →
      wpP F (run env m (.infix y)) ⟨t, G, (p, S.length) :: C, (tt ts).reverse ++ c :: S⟩ Q) :
    wpP F (run env n .climb) ⟨st, G, C, c :: S⟩ Q := by
  have hb := (infix_behind ho).1
  cases hsep with
  | @shown _ w w' hne hw hw' =>
    rw [List.append_assoc, List.cons_append] at h
    refine climb_go h hw (visible_solid hb.visible) hb.follows hb.notColon (fun e => absurd e hb.notSpan) (by rw [topPrec_eq]; exact hp) fun m t ts y hts hy _ => ?_
    exact hQ m t ts y w' hts hw' (hy hb.notImplicit)
  | silent hw =>
    have hl' := start_visible hl
    have hi := hi rfl
    have hf : follows l.1 = some p := by
      have : infixOf implicitTimes.1 = some (Prec.STAR, .Times) := rfl
      rw [this] at ho
      cases ho
      unfold follows; rw [hi]
    refine climb_go h hw (visible_solid hl') hf (start_table _ hl).2.2.2.2.2 (fun e => by rw [e] at hi; cases hi) (by rw [topPrec_eq]; exact hp) fun m t ts y hts _ hy => ?_
    exact hQ m t ts y [] hts (by intro _ h; simp at h) (hy hi)

theorem infixOp_of {k : TK} (h : infixOf k = some (p, op)) : k.infixOp = .infix op := by
  unfold infixOf at h
  unfold TK.infixOp
  cases hk : k.infixParselet <;> rw [hk] at h <;> simp_all

theorem infixOp_ne {k : TK} (hop : op ≠ .CodeParser_InternalInvalid) (h : (infixOf k).map Prod.snd ≠ some op) :
    k.infixOp ≠ .infix op := by
  unfold infixOf at h
  unfold TK.infixOp
  have hop' : ¬ InfixOp.CodeParser_InternalInvalid = op := fun h => hop h.symm
  cases hk : k.infixParselet <;> rw [hk] at h <;> simp_all

theorem infixOp_infix {k : TK} (h : infixOf k = some (p, op)) (hop : op ≠ .Times) : k.infixParselet = .infix p op := by
  unfold infixOf at h
  cases hk : k.infixParselet <;> rw [hk] at h <;> simp_all

/-- Parsing an operator of a sequence: its operand, then the others. -/
theorem run_infix {m : Nat} (hy : infixOf y.kind = some (p, op))
    (h : wpP F (operand env (run env m) >>= fun _ => run env m (loopJob op)) ⟨y.skipSt st, G, C, .tok y :: S⟩ Q) :
    wpP F (run env (m + 1) (.infix y)) ⟨st, G, C, S⟩ Q := by
  show wpP F (parseInfix env (run env m) y) _ _
  unfold loopJob at h
  unfold parseInfix
  rcases (infix_behind hy).2.2.2 with hk | hk
  · rw [hk]
    have : op = .Times := by
      unfold infixOf at hy; rw [hk] at hy; simp at hy; exact hy.2.symm
    rw [if_pos this] at h
    exact do_pushNext h
  · rw [infixOp_infix hy hk]
    rw [if_neg hk] at h
    exact do_pushNext h

theorem do_commit_loop {m : Nat} (h : wpP F (operand env (run env m) >>= fun _ => run env m (loopJob op))
      ⟨y.skipSt st, G, C, .tok y :: ((tt ts).reverse ++ S)⟩ Q) :
    wpP F (commitNext ts y >>= fun _ => operand env (run env m) >>= fun _ => run env m (loopJob op)) ⟨st, G, C, S⟩ Q :=
  do_commitNext h

/-- One more round of a sequence. -/
theorem sep_loop {sep : List Lexeme} {l : Lexeme} {m : Nat} (h : Past (!G.isEmpty) st (sep ++ l :: ks)) (hsep : Sep (!G.isEmpty) o sep) (hl : startKind l.1 = true)
    (ho : infixOf o.1 = some (p, op)) (hi : o = implicitTimes → l.1.infixParselet = .implicitTimes)
    (hQ : ∀ t ts y w, Tr ts → Blank true w → Is y o (w ++ l :: ks) →
      wpP F (operand env (run env m) >>= fun _ => run env m (loopJob op)) ⟨y.skipSt t, G, C, .tok y :: ((tt ts).reverse ++ S)⟩ Q) :
    wpP F (run env (m + 1) (loopJob op)) ⟨st, G, C, S⟩ Q := by
  obtain ⟨hb, -, hinv, hcase⟩ := infix_behind ho
  have hlv := start_visible hl
  by_cases hT : op = .Times
  · subst hT
    have hparse : o.1.infixParselet = .times := by
      rcases hcase with h | h
      · exact h
      · exact absurd rfl h
    show wpP F (timesLoop env (run env m)) _ _
    unfold timesLoop
    refine wpP_bind ?_
    unfold timesToken
    cases hsep with
    | @shown _ w w' hne hw hw' =>
      rw [List.append_assoc, List.cons_append] at h
      obtain ⟨v, w, rfl, h2⟩ := h.split (solid_mono (visible_solid hb.visible))
      replace h := h2
      refine do_current h hw.suffix.mono (visible_solid hb.visible) fun ts y t he => ?_
      have hy := he.sees.is hb.visible.newline
      have hf : follows y.kind = some p := by rw [hy.kind]; exact hb.follows
      refine do_implicit hf (fun e => absurd (hy.kind.symm.trans e) hb.notSpan) ?_
      have hct : climbTok y = y := by
        unfold climbTok; rw [if_neg]; rw [hy.kind, hparse]; decide
      rw [hct, if_neg (by rw [hy.kind]; exact not_fake h)]
      refine wpP_pure ?_
      show wpP F (if y.kind.infixOp ≠ .infix .Times then _ else _) _ _
      rw [if_neg (by rw [hy.kind, infixOp_of ho]; simp)]
      exact do_commitNext (hQ t ts y w' he.trivia hw' hy)
    | silent hw =>
      have hi := hi rfl
      obtain ⟨v, w, rfl, h2⟩ := h.split (solid_mono (visible_solid hlv))
      replace h := h2
      refine do_current h hw.suffix.mono (visible_solid hlv) fun ts y t he => ?_
      have hy := he.sees.is hlv.newline
      have hf : follows y.kind = some Prec.STAR := by rw [hy.kind]; unfold follows; rw [hi]
      refine do_implicit hf (fun e => by rw [hy.kind.symm.trans e] at hi; cases hi) ?_
      have hct : climbTok y = y.atStart .Fake_ImplicitTimes := by
        unfold climbTok; rw [if_pos]; rw [hy.kind, hi]
      rw [hct, if_pos (show (Tok.atStart TK.Fake_ImplicitTimes y).kind = .Fake_ImplicitTimes from rfl)]
      refine do_triviaReset he.at'.eof he.back h fun u hu => ?_
      refine do_currentNTN hu hw.suffix (solid_mono (visible_solid hlv)) fun ts2 y2 t2 he2 => ?_
      have hy2 := he2.sees.is hlv.newline
      have hf2 : follows y2.kind = some Prec.STAR := by rw [hy2.kind]; unfold follows; rw [hi]
      refine do_implicit hf2 (fun e => by rw [hy2.kind.symm.trans e] at hi; cases hi) ?_
      have hct2 : climbTok y2 = y2.atStart .Fake_ImplicitTimes := by
        unfold climbTok; rw [if_pos]; rw [hy2.kind, hi]
      rw [hct2]
      refine wpP_pure ?_
      show wpP F (if TK.infixOp .Fake_ImplicitTimes ≠ .infix .Times then _ else _) _ _
      rw [if_neg (by decide)]
      refine do_commitNext (hQ t2 ts2 _ [] he2.trivia (by intro _ h; simp at h) ?_)
      exact ⟨rfl, rfl,
        by show LexesTo (y2.text ++ y2.after) _; rw [he2.here]; exact he2.at'.lex⟩
  · have hj : loopJob op = .infixLoop op := by unfold loopJob; rw [if_neg hT]
    rw [hj]
    show wpP F (infixLoop env (run env m) op) _ _
    unfold infixLoop
    cases hsep with
    | @shown _ w w' hne hw hw' =>
      rw [List.append_assoc, List.cons_append] at h
      obtain ⟨v, w, rfl, h2⟩ := h.split (solid_mono (visible_solid hb.visible))
      replace h := h2
      refine do_current h hw.suffix.mono (visible_solid hb.visible) fun ts y t he => ?_
      have hy := he.sees.is hb.visible.newline
      show wpP F (if y.kind.infixOp ≠ .infix op then _ else _) _ _
      rw [if_neg (by rw [hy.kind, infixOp_of ho]; simp)]
      have := hQ t ts y w' he.trivia hw' hy
      rw [hj] at this
      exact do_commitNext this
    | silent hw =>
      have : infixOf implicitTimes.1 = some (Prec.STAR, .Times) := rfl
      rw [this] at ho
      cases ho
      exact absurd rfl hT

theorem nextKind_split {g : Bool} {ws ks : List Lexeme} (hw : Blank g ws) : nextKind g (ws ++ ks) = nextKind g ks := nextKind_blank hw

theorem Stops.past {R : List Edge} {w : List Lexeme} (h : Stops g R (w ++ rest)) (hw : Blank g w) : Stops g R rest := by
  obtain ⟨h1, h2, h3, h4⟩ := h
  rw [nextKind_blank hw] at h1 h3
  rw [nextKind_blank hw.mono] at h2 h4
  exact ⟨h1, h2, h3, h4⟩

/-- The end of a sequence. -/
theorem loop_end {m : Nat} {R : List Edge} (h : Past (!G.isEmpty) st rest) (hs : Stops (!G.isEmpty) R rest) (he : .operand p (some op) ∈ R)
    (hop : op ≠ .CodeParser_InternalInvalid)
    (hS : ∃ c, S.find? (fun c => !c.isTrivia) = some c) (hsp : nextKind (!G.isEmpty) rest = .SemiSemi → NoSpan S)
    (hQ : ∀ t, Past (!G.isEmpty) t rest → wpP F (reduceClimb (run env m) (.infix op)) ⟨t, G, C, S⟩ Q) :
    wpP F (run env (m + 1) (loopJob op)) ⟨st, G, C, S⟩ Q := by
  obtain ⟨v, rest, rfl, hv, h⟩ := h
  have hQ : ∀ t, At t rest → wpP F (reduceClimb (run env m) (.infix op)) ⟨t, G, C, S⟩ Q := fun t ht => hQ t ⟨v, rest, rfl, hv, ht⟩
  replace hs := hs.past hv
  rw [nextKind_blank hv] at hsp
  have hgo : (infixOf (nextKind true rest)).map Prod.snd ≠ some op := fun h => hs.goes _ he op rfl (infixOf_again h)
  obtain ⟨w, ks, hsplit, hw, hk⟩ := split_blank true rest
  have hnext : nextKind true rest = nextKind true ks := by rw [hsplit, nextKind_blank hw]
  have hne := infixOp_ne hop hgo
  by_cases hT : op = .Times
  · subst hT
    show wpP F (timesLoop env (run env m)) _ _
    unfold timesLoop
    refine wpP_bind ?_
    unfold timesToken
    have h' := h
    rw [hsplit] at h'
    refine do_current h' hw hk fun ts y t he => ?_
    have hyk : y.kind = nextKind true rest := by
      rw [hnext]
      have := he.sees
      cases ks with
      | nil => cases this with | eof h => exact h
      | cons l ks =>
        rw [nextKind_solid hk]
        exact (this.is fun e => by have := hk _ _ rfl; rw [e] at this; cases this).kind
    obtain ⟨q', hq'⟩ := hs.beyond
    have fin : ∀ (ts : List Tok) (z : Tok) (t u : St), z.kind.infixOp ≠ .infix .Times → t.eof = false → At u rest →
        resetTo ts t.rest = u.rest →
        wpP F (if z.kind.infixOp ≠ .infix .Times then triviaReset ts >>= fun _ => reduceClimb (run env m) (.infix .Times)
          else commitNext ts z >>= fun _ => operand env (run env m) >>= fun _ => run env m .timesLoop) ⟨t, G, C, S⟩ Q := by
      intro ts z t u hz ht hu hb
      rw [if_pos hz]
      exact do_triviaReset ht hb hu hQ
    have fake : ∀ z : Tok, z.kind = .Fake_ImplicitTimes →
        wpP F (if z.kind = .Fake_ImplicitTimes then triviaReset ts >>= fun _ => currentTokenNTN env >>= fun p =>
            processImplicitTimes p.2 >>= fun t2 => pure (p.1, t2) else pure (ts, z)) ⟨t, G, C, S⟩
          (fun a s => wpP F ((fun a : List Tok × Tok => if a.2.kind.infixOp ≠ .infix .Times then
              triviaReset a.1 >>= fun _ => reduceClimb (run env m) (.infix .Times)
            else commitNext a.1 a.2 >>= fun _ => operand env (run env m) >>= fun _ => run env m .timesLoop) a) s Q) := by
      intro z hz
      rw [if_pos hz]
      refine do_triviaReset he.at'.eof (he.back) h fun u hu => ?_
      obtain ⟨w2, ks2, hsplit2, hw2, hk2⟩ := split_blank (!G.isEmpty) rest
      have hu' := hu
      rw [hsplit2] at hu'
      refine do_currentNTN hu' hw2 hk2 fun ts2 y2 t2 he2 => ?_
      have hy2k : y2.kind = nextKind (!G.isEmpty) rest := by
        rw [he2.sees.kind hk2, hsplit2, nextKind_blank hw2]
      obtain ⟨q, hq, -⟩ := hs.follows
      refine do_implicit (by rw [hy2k]; exact hq) (fun e => hsp (hy2k.symm.trans e)) ?_
      refine wpP_pure ?_
      have hkept : continues (nextKind (!G.isEmpty) rest) ≠ some .Times := (show Edge.Kept _ (.operand p (some .Times)) from hs.kept _ ‹_›).2.1 _ rfl
      have hni : y2.kind.infixParselet ≠ .implicitTimes := by
        intro hc
        rw [← hy2k] at hkept
        unfold continues at hkept
        rw [hc] at hkept
        exact hkept rfl
      have hct : climbTok y2 = y2 := by unfold climbTok; rw [if_neg hni]
      rw [hct]
      refine fin ts2 y2 t2 u ?_ he2.at'.eof hu he2.back
      refine infixOp_ne hop fun hc => ?_
      rw [← hy2k] at hkept
      exact hkept (infixOf_continues hc)
    refine do_implicit_any (by rw [hyk]; exact hq') hS ?_ (fun _ => fake _ rfl)
    by_cases hki : (climbTok y).kind = .Fake_ImplicitTimes
    · exact fake _ hki
    · rw [if_neg hki]
      refine wpP_pure ?_
      have hct : climbTok y = y := by
        unfold climbTok
        split
        · rename_i hc
          unfold climbTok at hki
          rw [if_pos hc] at hki
          exact absurd rfl hki
        · rfl
      rw [hct]
      exact fin ts y t st (by rw [hyk]; exact hne) he.at'.eof h he.back
  · have hj : loopJob op = .infixLoop op := by unfold loopJob; rw [if_neg hT]
    rw [hj]
    show wpP F (infixLoop env (run env m) op) _ _
    unfold infixLoop
    have h' := h
    rw [hsplit] at h'
    refine do_current h' hw hk fun ts y t he => ?_
    have hyk : y.kind = nextKind true rest := by
      rw [hnext]
      have := he.sees
      cases ks with
      | nil => cases this with | eof h => exact h
      | cons l ks =>
        rw [nextKind_solid hk]
        exact (this.is fun e => by have := hk _ _ rfl; rw [e] at this; cases this).kind
    show wpP F (if y.kind.infixOp ≠ .infix op then _ else _) _ _
    rw [if_pos (by rw [hyk]; exact hne)]
    exact do_triviaReset he.at'.eof he.back h hQ

end
end CodeParser.Syn
