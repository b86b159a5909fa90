import Verif.Proofs.Syntax5
/-!
Every written expression is parsed as the tree it stands for: semicolons, operators with three
operands, and the induction over all expressions (helper lemmas).
-/
namespace CodeParser.Syn
open CodeParser Spec Props

/-- The same as `ParsesTail` for semicolons, from behind the first one. -/
def ParsesSemis (env : PEnv) (g : Bool) (t : Semis) (ks : List Lexeme) : Prop :=
  ∃ w o kl, ks = w ++ o :: kl ∧ Blank g w ∧ o.1 = .Semi ∧
    ∀ (m : Nat) (st : St) (G : List Closer) (C : List (Nat × Nat)) (S A : List Cst) (y : Tok) (rest : List Lexeme) (Q : Unit → PS → Prop),
      (!G.isEmpty) = g → Is y o (kl ++ rest) → Stops g t.right rest → Apart (o :: kl) rest →
      (∀ m u A', A' ≠ [] → plains A'.reverse = plains A.reverse ++ t.csts → Past g u rest →
        wpP F (reduceClimb (run env m) (.infix .CompoundExpression)) ⟨u, G, (Prec.SEMI, S.length) :: C, A' ++ S⟩ Q) →
      wpP F (semiOperand env (run env m)) ⟨y.skipSt st, G, (Prec.SEMI, S.length) :: C, .tok y :: (A ++ S)⟩ Q

section
variable {env : PEnv} {n : Nat} {g : Bool} {st : St} {G : List Closer} {C : List (Nat × Nat)} {S : List Cst}
  {rest ks ws : List Lexeme} {x y : Tok} {ts : List Tok} {Q : Unit → PS → Prop}

/-! ### Semicolons -/

theorem null_plain {z : Tok} : plains [Cst.tok (z.atStart .Fake_ImplicitNull)] = [leaf implicitNull] := by
  rw [plains_one (c := .tok (z.atStart .Fake_ImplicitNull)) (show TK.isTrivia .Fake_ImplicitNull = false by decide)]
  rfl

theorem semi_eof {o : Lexeme} (ho : o.1 = .Semi) : Visible o.1 := by rw [ho]; exact semi_behind.visible

/-- One more semicolon. -/
theorem semi_loop {t : Semis} {kt : List Lexeme} {A : List Cst} (h : ParsesSemis env g t kt)
    (hG : (!G.isEmpty) = g) (hst : Past g st (kt ++ rest)) (hstop : Stops g t.right rest)
    (hap : Apart kt rest)
    (hQ : ∀ m u A', A' ≠ [] → plains A'.reverse = plains A.reverse ++ t.csts → Past g u rest →
      wpP F (reduceClimb (run env m) (.infix .CompoundExpression)) ⟨u, G, (Prec.SEMI, S.length) :: C, A' ++ S⟩ Q) :
    wpP F (run env n .semiLoop) ⟨st, G, (Prec.SEMI, S.length) :: C, A ++ S⟩ Q := by
  cases n with
  | zero => exact run_zero
  | succ n =>
  obtain ⟨w, o, kl, rfl, hw, ho, h5⟩ := h
  subst hG
  have hv := semi_eof ho
  show wpP F (semiLoop env (run env n)) _ _
  unfold semiLoop
  rw [List.append_assoc, List.cons_append] at hst
  obtain ⟨v, w', rfl, hst'⟩ := hst.split (solid_mono (visible_solid hv))
  refine do_current hst' hw.suffix.mono (visible_solid hv) fun ts y t he => ?_
  have hy := he.sees.is hv.newline
  show wpP F (if y.kind = .Semi then _ else _) _ _
  rw [if_pos (by rw [hy.kind]; exact ho)]
  refine do_commitNext ?_
  have e : (tt ts).reverse ++ (A ++ S) = ((tt ts).reverse ++ A) ++ S := by simp
  rw [e]
  refine h5 n t G C S _ y rest Q rfl hy hstop (Apart.right hap (by simp)) fun m u A' hA' he' hu => hQ m u A' hA' ?_ hu
  rw [he']
  simp [plains_append, plains_tt he.trivia]

/-- No semicolon follows. -/
theorem semi_end {A : List Cst} (hG : (!G.isEmpty) = g) (hst : Past g st rest) (hn : nextKind true rest ≠ .Semi)
    (hQ : ∀ m u, Past g u rest →
      wpP F (reduceClimb (run env m) (.infix .CompoundExpression)) ⟨u, G, C, A⟩ Q) :
    wpP F (run env n .semiLoop) ⟨st, G, C, A⟩ Q := by
  cases n with
  | zero => exact run_zero
  | succ n =>
  subst hG
  obtain ⟨v, rest, rfl, hv, h⟩ := hst
  rw [nextKind_blank hv.mono] at hn
  show wpP F (semiLoop env (run env n)) _ _
  unfold semiLoop
  obtain ⟨w, ks, hsplit, hw, hk⟩ := split_blank true rest
  have h' := h
  rw [hsplit] at h'
  refine do_current h' hw hk fun ts y t he => ?_
  have hyk : y.kind = nextKind true rest := by
    rw [hsplit, nextKind_blank hw]
    have := he.sees
    cases ks with
    | nil => cases this with | eof h => exact h
    | cons l ks =>
      rw [nextKind_solid hk]
      exact (this.is fun e => by have := hk _ _ rfl; rw [e] at this; cases this).kind
  show wpP F (if y.kind = .Semi then _ else _) _ _
  rw [if_neg (by rw [hyk]; exact hn)]
  exact do_triviaReset he.at'.eof he.back h fun u hu => hQ n u ⟨v, rest, rfl, hv, hu⟩

theorem stop_parses {o : Lexeme} {w : List Lexeme} (ho : o.1 = .Semi) (hw : Blank g w) : ParsesSemis env g (.stop o) (w ++ [o]) := by
  refine ⟨w, o, [], rfl, hw, ho, ?_⟩
  intro m st G C S A y rest Q hG hy hstop hap hQ
  subst hG
  have hv := semi_eof ho
  unfold semiOperand
  obtain ⟨v, ks, rfl, hvb, hk⟩ := split_blank (!G.isEmpty) rest
  refine do_eatTriviaNTN (ws := v) (ks := ks) (hy.skip hv.eof) hvb hk fun ts z t he => ?_
  have hz : z.kind = nextKind (!G.isEmpty) (v ++ ks) := by rw [he.sees.kind hk, nextKind_blank hvb]
  obtain ⟨h1, h2⟩ : nextKind (!G.isEmpty) (v ++ ks) ≠ .Semi ∧ (nextKind (!G.isEmpty) (v ++ ks)).isPossibleBeginning = false :=
    hstop.kept .semi (by simp [Semis.right])
  rw [if_neg (by rw [hz]; exact h1), if_neg (by rw [hz, h2]; decide)]
  refine do_pushNode ?_
  have e : Cst.tok (z.atStart .Fake_ImplicitNull) :: ((tt ts).reverse ++ Cst.tok y :: (A ++ S)) =
      (Cst.tok (z.atStart .Fake_ImplicitNull) :: ((tt ts).reverse ++ Cst.tok y :: A)) ++ S := by simp
  rw [e]
  refine hQ m t _ (by simp) ?_ ⟨v, ks, rfl, hvb, he.at'⟩
  have e2 : (Cst.tok (z.atStart .Fake_ImplicitNull) :: ((tt ts).reverse ++ Cst.tok y :: A)).reverse =
      A.reverse ++ [.tok y] ++ tt ts ++ [Cst.tok (z.atStart .Fake_ImplicitNull)] := by simp
  rw [e2]
  simp only [plains_append, plains_tt he.trivia, plains_leaf hy hv, null_plain]
  show _ = _ ++ [leaf o, leaf implicitNull]
  simp

/-- An operand behind a semicolon. -/
theorem semi_operand {m : Nat} {f : Form} {o : Lexeme} {k' w kf : List Lexeme} {A : List Cst} {q : Nat} (hG : (!G.isEmpty) = g)
    (hy : Is y o (w ++ (kf ++ k'))) (ho : o.1 = .Semi) (hw : Blank g w) (hf : Writes g f kf) (hfb : f.first.1.isPossibleBeginning = true)
    (hfk : f.KeptAfter Prec.SEMI) (hstop : Stops g f.right k') (hap : Apart kf k')
    (hq : follows (nextKind g k') = some q) (hp : TighterOrLeft Prec.SEMI q) (hnc : nextKind g k' ≠ .Colon) (ih : Parses env g f kf)
    (hQ : ∀ t A', A' ≠ [] → plains A'.reverse = plains A.reverse ++ [leaf o, f.cst] → Past g t k' →
      wpP F (run env m .semiLoop) ⟨t, G, (Prec.SEMI, S.length) :: C, A' ++ S⟩ Q) :
    wpP F (semiOperand env (run env m)) ⟨y.skipSt st, G, (Prec.SEMI, S.length) :: C, .tok y :: (A ++ S)⟩ Q := by
  subst hG
  have hv := semi_eof ho
  unfold semiOperand
  refine do_eatTriviaNTN (hy.skip hv.eof) hw (solid_mono (solid_first hf)) fun ts z t he => ?_
  obtain ⟨hz, hzk⟩ := sees_first hf he.sees
  rw [if_neg (by rw [hzk]; intro e; have := (start_table _ (writes_first hf).2).2.2.2.2.1; simp_all), if_pos (by rw [hzk]; exact hfb)]
  refine wpP_bind ?_
  refine ih m t G ((Prec.SEMI, S.length) :: C) _ z k' _ rfl hz hfk hstop (.zero (by decide) hnc) hap fun m' t cr hcr ht => ?_
  refine climb_stop ht hq (fun h => absurd h hnc) (fun e => hstop.noSpan hcr e) (by rw [topPrec_eq]; exact greater_iff.mpr hp) fun t ht => ?_
  have e : cr :: ((tt ts).reverse ++ Cst.tok y :: (A ++ S)) = (cr :: ((tt ts).reverse ++ Cst.tok y :: A)) ++ S := by simp
  rw [e]
  refine hQ _ _ (by simp) ?_ ht
  have e2 : (cr :: ((tt ts).reverse ++ Cst.tok y :: A)).reverse = A.reverse ++ [.tok y] ++ tt ts ++ [cr] := by simp
  rw [e2]
  simp only [plains_append, plains_tt he.trivia, hcr.one, plains_leaf hy hv]
  simp

theorem lastSemi_parses {o : Lexeme} {f : Form} {w w' kf : List Lexeme} (ho : o.1 = .Semi) (hw : Blank g w) (hw' : Blank g w')
    (hf : Writes g f kf) (hfb : f.first.1.isPossibleBeginning = true) (hfk : f.KeptAfter Prec.SEMI) (ih : Parses env g f kf) :
    ParsesSemis env g (.last o f) (w ++ o :: (w' ++ kf)) := by
  refine ⟨w, o, w' ++ kf, rfl, hw, ho, ?_⟩
  intro m st G C S A y rest Q hG hy hstop hap hQ
  have hmem : Edge.operand Prec.SEMI (some .CompoundExpression) ∈ (Semis.last o f).right := by simp [Semis.right]
  obtain ⟨⟨q, hq1, hq2⟩, -, hq3⟩ := hstop.kept _ hmem
  have hgo : ∀ op, some InfixOp.CompoundExpression = some op → again (nextKind true rest) ≠ some op := hstop.goes _ hmem
  refine semi_operand hG (k' := rest) (by simpa using hy) ho hw' hf hfb hfk
    (hstop.sub fun e he => by show e ∈ _ :: _; exact List.mem_cons_of_mem _ he) (apart_last1 hf hap) hq1 hq2
    (fun h => absurd (hq3 h) (by decide)) ih ?_
  intro t A' hA' he ht
  exact semi_end hG ht (fun e => hgo _ rfl (by rw [e]; rfl)) fun m u hu => hQ m u A' hA' he hu

theorem semis_next {t : Semis} {kt : List Lexeme} (h : Spec.Steps g t kt) : ∃ w o tl, kt = w ++ o :: tl ∧ Blank g w ∧ o.1 = .Semi := by
  cases h with
  | stop h1 h2 => exact ⟨_, _, _, rfl, h2, h1⟩
  | last h1 h2 _ _ => exact ⟨_, _, _, rfl, h2, h1⟩
  | skip h1 h2 _ => exact ⟨_, _, _, rfl, h2, h1⟩
  | more h1 h2 _ _ _ => exact ⟨_, _, _, rfl, h2, h1⟩

theorem skipSemi_parses {o : Lexeme} {t : Semis} {w kt : List Lexeme} (ho : o.1 = .Semi) (hw : Blank g w) (ht : Spec.Steps g t kt)
    (ih : ParsesSemis env g t kt) : ParsesSemis env g (.skip o t) (w ++ o :: kt) := by
  refine ⟨w, o, kt, rfl, hw, ho, ?_⟩
  intro m st G C S A y rest Q hG hy hstop hap hQ
  subst hG
  have hv := semi_eof ho
  obtain ⟨w2, o2, tl, hkt, hw2, ho2⟩ := semis_next ht
  have hv2 := semi_eof ho2
  have hy' : Is y o (w2 ++ o2 :: (tl ++ rest)) := by rw [hkt] at hy; simpa using hy
  unfold semiOperand
  refine do_eatTriviaNTN (hy'.skip hv.eof) hw2 (solid_mono (visible_solid hv2)) fun ts z t he => ?_
  have hz := he.sees.is hv2.newline
  rw [if_pos (by rw [hz.kind]; exact ho2)]
  refine do_pushNode ?_
  have e : Cst.tok (z.atStart .Fake_ImplicitNull) :: ((tt ts).reverse ++ Cst.tok y :: (A ++ S)) =
      (Cst.tok (z.atStart .Fake_ImplicitNull) :: ((tt ts).reverse ++ Cst.tok y :: A)) ++ S := by simp
  rw [e]
  refine semi_loop ih rfl ⟨w2, o2 :: (tl ++ rest), by rw [hkt]; simp, hw2, he.at'⟩ hstop
    (Apart.right (a := [o]) hap (by rw [hkt]; simp)) fun m u A' hA' he' hu => hQ m u A' hA' ?_ hu
  rw [he']
  have e2 : (Cst.tok (z.atStart .Fake_ImplicitNull) :: ((tt ts).reverse ++ Cst.tok y :: A)).reverse =
      A.reverse ++ [.tok y] ++ tt ts ++ [Cst.tok (z.atStart .Fake_ImplicitNull)] := by simp
  rw [e2]
  simp only [plains_append, plains_tt he.trivia, plains_leaf hy hv, null_plain]
  show _ = _ ++ (leaf o :: leaf implicitNull :: Semis.csts _)
  simp

theorem moreSemi_parses {o : Lexeme} {f : Form} {t : Semis} {w w' kf kt : List Lexeme} (ho : o.1 = .Semi) (hw : Blank g w) (hw' : Blank g w')
    (hf : Writes g f kf) (ht : Spec.Steps g t kt) (hfb : f.first.1.isPossibleBeginning = true) (hfk : f.KeptAfter Prec.SEMI)
    (hfk' : f.KeptBefore .Semi) (ih : Parses env g f kf) (iht : ParsesSemis env g t kt) :
    ParsesSemis env g (.more o f t) (w ++ o :: (w' ++ (kf ++ kt))) := by
  refine ⟨w, o, w' ++ (kf ++ kt), rfl, hw, ho, ?_⟩
  intro m st G C S A y rest Q hG hy hstop hap hQ
  obtain ⟨w2, o2, tl, hkt, hw2, ho2⟩ := semis_next ht
  have hv2 := semi_eof ho2
  have hkt' : kt ++ rest = w2 ++ o2 :: (tl ++ rest) := by rw [hkt]; simp
  have hnk : nextKind g (kt ++ rest) = .Semi := by
    rw [hkt', nextKind_blank hw2, nextKind_solid (solid_mono (visible_solid hv2)), ho2]
  refine semi_operand hG (k' := kt ++ rest) (by simpa using hy) ho hw' hf hfb hfk ?_ ?_ (q := Prec.SEMI) (by rw [hnk]; rfl)
    (by unfold TighterOrLeft; decide) (by rw [hnk]; decide) ih ?_
  · rw [hkt']
    exact stops_before hw2 hv2 (by rw [ho2]; exact semi_behind.follows) (by decide) (by rw [ho2]; exact hfk')
  · rw [hkt']
    exact apart_before hw2 (by rw [ho2]; rfl)
  intro u A' hA' he hu
  refine semi_loop iht hG hu hstop (Apart.right (a := o :: (w' ++ kf)) (by simpa using hap) (by rw [hkt]; simp))
    fun m u A'' hA'' he'' hu => hQ m u A'' hA'' ?_ hu
  rw [he'', he]
  show _ = _ ++ (leaf o :: f.cst :: t.csts)
  simp

theorem semi_parses {f : Form} {t : Semis} {kf kt : List Lexeme} (ht : Spec.Steps g t kt) (hfb : f.KeptBefore .Semi)
    (ihf : Parses env g f kf) (iht : ParsesSemis env g t kt) : Parses env g (.semi f t) (kf ++ kt) := by
  intro n st G C S x rest Q hG hx hfit hstop hcol hap hQ
  subst hG
  obtain ⟨hfl, hfop⟩ := keptAfter_cons (f := f) (q := Prec.SEMI) rfl hfit
  obtain ⟨w, o, kl, rfl, hw, ho, h5⟩ := iht
  have hb : Behind o.1 Prec.SEMI := by rw [ho]; exact semi_behind
  refine ihf n st G C S x (w ++ o :: (kl ++ rest)) Q rfl (by simpa using hx) hfl
    (stops_before hw hb.visible hb.follows hb.high (by rw [ho]; exact hfb)) (hcol.before (fun h => by simp [Form.colon, h]) hw hb.visible hb.notColon)
    (apart_before hw hb.apart) fun m u c hc hu => ?_
  refine climb_go hu hw (visible_solid hb.visible) hb.follows hb.notColon (fun e => absurd e hb.notSpan) (by rw [topPrec_eq, not_greater_iff]; exact hfop)
    fun m t1 ts y hts hy _ => ?_
  have hy := hy hb.notImplicit
  cases m with
  | zero => exact run_zero
  | succ m =>
  show wpP F (parseInfix env (run env m) y) _ _
  unfold parseInfix
  rw [hy.kind, ho]
  show wpP F (semiInfix env (run env m) y) _ _
  unfold semiInfix
  refine do_pushNext ?_
  have e : (tt ts).reverse ++ c :: S = ((tt ts).reverse ++ [c]) ++ S := by simp
  rw [e]
  refine h5 m t1 G C S _ y rest Q rfl hy hstop (Apart.right (a := kf ++ w) (by simpa using hap) (by simp)) fun m' u A' hA' he hu => ?_
  unfold reduceClimb
  refine do_reduceNode hA' (hQ _ _ _ ⟨?_, rfl⟩ hu)
  show Cst.node _ (plains _) = Cst.node _ (f.cst :: t.csts)
  rw [he]
  simp [plains_then hc hts]

/-! ### Three operands -/

/-- The operand between two operators. -/
theorem mid_operand {k : Unit → P Unit} {m : Form} {o e : Lexeme} {p p' i : Nat} {v km w k2 : List Lexeme} (hG : (!G.isEmpty) = g)
    (hy : Is y o (v ++ (km ++ (w ++ e :: k2)))) (ho : o.1 ≠ .EndOfFile) (hv : Blank true v) (hm : Writes g m km) (hmk : m.KeptAfter p)
    (hw : Blank g w) (hb : Behind e.1 p') (hmb : m.KeptBefore e.1) (hp : TighterOrLeft p p')
    (hcol : m.colon = true → checkPatternPrec ((p, i) :: C) = false) (ih : Parses env g m km)
    (hQ : ∀ t ts c w2, Tr ts → Shows c m.cst → Blank true w2 → At t (w2 ++ e :: k2) →
      wpP F (k ()) ⟨t, G, (p, i) :: C, c :: ((tt ts).reverse ++ S)⟩ Q) :
    wpP F (operand env (run env n) >>= k) ⟨y.skipSt st, G, (p, i) :: C, S⟩ Q := by
  subst hG
  refine do_operand hy ho hv hm fun t ts z hts hz => ?_
  refine wpP_bind ?_
  have hnk : nextKind (!G.isEmpty) (w ++ e :: k2) = e.1 := by
    rw [nextKind_blank hw, nextKind_solid (solid_mono (visible_solid hb.visible))]
  refine ih n t G ((p, i) :: C) _ z (w ++ e :: k2) _ rfl hz hmk (stops_before hw hb.visible hb.follows hb.high hmb)
    ⟨hcol, fun h => absurd (hnk.symm.trans h) hb.notColon⟩ (apart_before hw hb.apart) fun m' t c hc ht => ?_
  refine climb_stop ht (p := p') ?_ (fun h => absurd (hnk.symm.trans h) hb.notColon) (fun e => absurd (hnk.symm.trans e) hb.notSpan) (by rw [topPrec_eq]; exact greater_iff.mpr hp) fun t ht => ?_
  · rw [hnk]
    exact hb.follows
  obtain ⟨v1, v2, rfl, ht'⟩ := ht.split (solid_mono (visible_solid hb.visible))
  exact hQ t ts c v2 hts hc hw.suffix.mono ht'

/-- The last of three operands. -/
theorem end_operand {n : Nat} {op : TernaryOp} {r : Form} {kr : List Lexeme} {p : Nat} {A : List Cst} {z : Tok} (hG : (!G.isEmpty) = g)
    (hz : Reads z (kr ++ rest)) (hrk : r.KeptAfter p) (hstop : Stops g (.operand p none :: r.right) rest)
    (hcol : Colons ((p, S.length) :: C) r.colon (nextKind g rest)) (hap : Apart kr rest)
    (ih : Parses env g r kr)
    (hQ : ∀ m t c, Shows c r.cst → Past g t rest → wpP F (run env m .climb) ⟨t, G, C, .node (.ternary op) (c :: A).reverse :: S⟩ Q) :
    wpP F (run env n (.prefix z) >>= fun _ => reduceClimb (run env n) (.ternary op)) ⟨st, G, (p, S.length) :: C, A ++ S⟩ Q := by
  subst hG
  refine wpP_bind ?_
  refine ih n st G ((p, S.length) :: C) _ z rest _ rfl hz hrk (hstop.sub fun e he => List.mem_cons_of_mem _ he) hcol hap fun m' t cr hcr ht => ?_
  obtain ⟨⟨q, hq1, hq2⟩, -⟩ := hstop.kept (.operand p none) (by simp)
  refine climb_stop ht hq1 hcol.opened (fun e => (hstop.sub fun e he => List.mem_cons_of_mem _ he : Stops _ _ _).noSpan hcr e) (by rw [topPrec_eq]; exact greater_iff.mpr hq2) fun t ht => ?_
  unfold reduceClimb
  rw [← List.cons_append]
  exact do_reduceNode (by simp) (hQ _ _ _ hcr ht)

theorem ternary_parses {l m r : Form} {o : Ternary} {kl km kr v v' w w' : List Lexeme} (hv : Blank g v) (hv' : Blank true v')
    (hm : Writes g m km) (hw : Blank g w) (hw' : Blank true w') (hr : Writes g r kr)
    (hlk : l.KeptBefore o.first.1) (hmk : m.KeptAfter o.prec) (hmb : m.KeptBefore o.second.1) (hrk : r.KeptAfter o.prec')
    (ihl : Parses env g l kl) (ihm : Parses env g m km) (ihr : Parses env g r kr) :
    Parses env g (.ternary l o m r) (kl ++ (v ++ o.first :: (v' ++ (km ++ (w ++ o.second :: (w' ++ kr)))))) := by
  intro n st G C S x rest Q hG hx hfit hstop hcol hap hQ
  subst hG
  obtain ⟨hb, hb', hpp⟩ := ternary_behind o.known
  obtain ⟨hfl, hfo⟩ := keptAfter_cons (f := l) (q := o.prec) rfl hfit
  have hap' : Apart kr rest :=
    Apart.right (a := kl ++ (v ++ o.first :: (v' ++ (km ++ (w ++ o.second :: w'))))) (by simpa using hap) (writes_ne hr)
  refine ihl n st G C S x (v ++ o.first :: (v' ++ (km ++ (w ++ o.second :: (w' ++ (kr ++ rest)))))) Q rfl (by simpa using hx) hfl
    (stops_before hv hb.visible hb.follows hb.high hlk) (hcol.before (fun h => by simp [Form.colon, h]) hv hb.visible hb.notColon)
    (apart_before hv hb.apart) fun m1 t c hc ht => ?_
  have hcm' : m.colon = true → checkPatternPrec ((o.prec, S.length) :: C) = false :=
    (Colons.operand (i := S.length) (hcol.left (k' := .EndOfFile) id (by decide)) hb.notPattern
      (fun h1 h2 => by simp [Form.colon, h1, h2]) (fun h => by cases h)).closed
  have hcr' : Colons ((o.prec', S.length) :: C) r.colon (nextKind (!G.isEmpty) rest) :=
    hcol.operand hb'.notPattern (fun h1 h2 => by simp [Form.colon, h1, h2]) (hstop.kept (.operand o.prec' none) (by simp [Form.right])).2.2
  refine climb_go ht hv (visible_solid hb.visible) hb.follows hb.notColon (fun e => absurd e hb.notSpan) (by rw [topPrec_eq, not_greater_iff]; exact hfo)
    fun m1 t ts y hts hy _ => ?_
  have hy := hy hb.notImplicit
  cases m1 with
  | zero => exact run_zero
  | succ m1 =>
  show wpP F (parseInfix env (run env m1) y) _ _
  unfold parseInfix
  rw [hy.kind]
  have fin : ∀ (ts2 ts3 ts4 : List Tok) (y2 : Tok) (cm cr : Cst) (t : St) (m2 : Nat), Tr ts2 → Tr ts3 → Tr ts4 → Is y2 o.second (w' ++ (kr ++ rest)) →
      Shows cm m.cst → Shows cr r.cst → Past (!G.isEmpty) t rest →
      wpP F (run env m2 .climb) ⟨t, G, C, .node (.ternary o.op) (cr :: ((tt ts4).reverse ++ .tok y2 :: ((tt ts3).reverse ++ cm :: ((tt ts2).reverse ++
        .tok y :: ((tt ts).reverse ++ [c]))))).reverse :: S⟩ Q := by
    intro ts2 ts3 ts4 y2 cm cr t m2 h2 h3 h4 hy2 hcm hcr ht
    refine hQ _ _ _ ⟨?_, rfl⟩ ht
    show Cst.node _ (plains _) = Cst.node _ _
    have e2 : (cr :: ((tt ts4).reverse ++ .tok y2 :: ((tt ts3).reverse ++ cm :: ((tt ts2).reverse ++
        .tok y :: ((tt ts).reverse ++ [c]))))).reverse = [c] ++ tt ts ++ [.tok y] ++ tt ts2 ++ [cm] ++ tt ts3 ++ [.tok y2] ++ tt ts4 ++ [cr] := by simp
    rw [e2]
    simp only [plains_append, plains_tt hts, plains_tt h2, plains_tt h3, plains_tt h4, hc.one, hcm.one, hcr.one, plains_leaf hy hb.visible,
      plains_leaf hy2 hb'.visible]
    simp
  have pair : ∀ (ts2 ts3 ts4 : List Tok) (y2 : Tok) (cm : Cst), (tt ts4).reverse ++ Cst.tok y2 :: ((tt ts3).reverse ++ (cm :: ((tt ts2).reverse ++
        Cst.tok y :: ((tt ts).reverse ++ c :: S)))) = ((tt ts4).reverse ++ Cst.tok y2 :: ((tt ts3).reverse ++ cm :: ((tt ts2).reverse ++
        Cst.tok y :: ((tt ts).reverse ++ [c])))) ++ S := by intros; simp
  have hstop' : Stops (!G.isEmpty) (.operand o.prec' none :: r.right) rest := hstop
  obtain ⟨o1, o2, p, p', op, hk⟩ := o
  dsimp only at *
  unfold ternaryOf at hk
  split at hk
  · rename_i h1 h2
    cases hk
    rw [h1]
    show wpP F (tildeInfix env (run env m1) y) _ _
    unfold tildeInfix
    refine do_pushNext ?_
    refine mid_operand rfl hy hb.visible.eof hv' hm hmk hw hb' hmb hpp hcm' ihm fun t ts2 cm w2 h2' hcm hw2 ht => ?_
    unfold tildeRest
    refine do_current ht hw2 (visible_solid hb'.visible) fun ts3 y2 t he => ?_
    have hy2 := he.sees.is hb'.visible.newline
    show wpP F (if y2.kind = .Tilde then _ else _) _ _
    rw [if_pos (by rw [hy2.kind]; exact h2)]
    refine do_commitNext (do_operand hy2 hb'.visible.eof hw' hr fun t ts4 z h4 hz => ?_)
    rw [pair]
    exact end_operand rfl hz hrk hstop' hcr' hap' ihr fun m2 t cr hcr ht => fin ts2 ts3 ts4 y2 cm cr t m2 h2' he.trivia h4 hy2 hcm hcr ht
  · rename_i h1 h2
    cases hk
    rw [h1]
    show wpP F (slashColonInfix env (run env m1) y) _ _
    unfold slashColonInfix
    refine do_pushNext ?_
    refine mid_operand rfl hy hb.visible.eof hv' hm hmk hw hb' hmb hpp hcm' ihm fun t ts2 cm w2 h2' hcm hw2 ht => ?_
    unfold slashColonRest
    refine do_current ht hw2 (visible_solid hb'.visible) fun ts3 y2 t he => ?_
    have hy2 := he.sees.is hb'.visible.newline
    show wpP F (if y2.kind = .Equal then _ else _) _ _
    rw [if_pos (by rw [hy2.kind]; exact h2)]
    refine do_setPrecedence (do_commitNext ?_)
    unfold equalRest
    refine do_eatTrivia (hy2.skip hb'.visible.eof) hw' (solid_first hr) fun ts4 z t he4 => ?_
    obtain ⟨hz, hzk⟩ := sees_first hr he4.sees
    rw [if_neg (by rw [hzk]; exact (start_table _ (writes_first hr).2).2.2.2.1)]
    rw [pair]
    exact end_operand rfl hz hrk hstop' hcr' hap' ihr fun m2 t cr hcr ht => fin ts2 ts3 ts4 y2 cm cr t m2 h2' he.trivia he4.trivia hy2 hcm hcr ht
  · rename_i h1 h2
    cases hk
    rw [h1]
    show wpP F (slashColonInfix env (run env m1) y) _ _
    unfold slashColonInfix
    refine do_pushNext ?_
    refine mid_operand rfl hy hb.visible.eof hv' hm hmk hw hb' hmb hpp hcm' ihm fun t ts2 cm w2 h2' hcm hw2 ht => ?_
    unfold slashColonRest
    refine do_current ht hw2 (visible_solid hb'.visible) fun ts3 y2 t he => ?_
    have hy2 := he.sees.is hb'.visible.newline
    show wpP F (if y2.kind = .Equal then _ else _) _ _
    rw [if_neg (by rw [hy2.kind, h2]; decide), if_pos (by rw [hy2.kind]; exact h2)]
    refine do_setPrecedence (do_commitNext (do_operand hy2 hb'.visible.eof hw' hr fun t ts4 z h4 hz => ?_))
    rw [pair]
    exact end_operand rfl hz hrk hstop' hcr' hap' ihr fun m2 t cr hcr ht => fin ts2 ts3 ts4 y2 cm cr t m2 h2' he.trivia h4 hy2 hcm hcr ht
  · cases hk

/-! ### `a =.` -/

/-- The dot of `=.`, and the end. -/
theorem dot_end {n : Nat} {e d : Lexeme} {w : List Lexeme} {unset set : NodeKind} {p : Nat} {A : List Cst} (hy : Is y e (w ++ d :: rest))
    (he : e.1 = .Equal) (hw : Blank true w) (hd : d.1 = .Dot)
    (hQ : ∀ m u (A' : List Cst), plains A'.reverse = plains A.reverse ++ [leaf e, leaf d] → At u rest →
      wpP F (run env m .climb) ⟨u, G, C, .node unset A'.reverse :: S⟩ Q) :
    wpP F (equalRest env (run env n) unset set) ⟨y.skipSt st, G, (p, S.length) :: C, .tok y :: (A ++ S)⟩ Q := by
  have hev : Visible e.1 := by rw [he]; exact equal_behind.visible
  have hdv : Visible d.1 := by rw [hd]; exact visible_iff.mp (by decide)
  unfold equalRest
  refine do_eatTrivia (hy.skip hev.eof) hw (visible_solid hdv) fun ts z t he => ?_
  have hz := he.sees.is hdv.newline
  rw [if_pos (by rw [hz.kind]; exact hd)]
  refine do_pushNext ?_
  unfold reduceClimb
  have e1 : Cst.tok z :: ((tt ts).reverse ++ Cst.tok y :: (A ++ S)) = (Cst.tok z :: ((tt ts).reverse ++ Cst.tok y :: A)) ++ S := by simp
  rw [e1]
  refine do_reduceNode (by simp) (hQ _ _ _ ?_ (hz.skip hdv.eof))
  have e2 : (Cst.tok z :: ((tt ts).reverse ++ Cst.tok y :: A)).reverse = A.reverse ++ [.tok y] ++ tt ts ++ [.tok z] := by simp
  rw [e2]
  simp only [plains_append, plains_tt he.trivia, plains_leaf hy hev, plains_leaf hz hdv]
  simp

theorem unset_parses {f : Form} {e d : Lexeme} {kf w w' : List Lexeme} (he : e.1 = .Equal) (hd : d.1 = .Dot) (hw : Blank g w)
    (hw' : Blank true w') (hfk : f.KeptBefore .Equal) (ih : Parses env g f kf) :
    Parses env g (.unset f e d) (kf ++ (w ++ e :: (w' ++ [d]))) := by
  intro n st G C S x rest Q hG hx hfit hstop hcol hap hQ
  subst hG
  have hb : Behind e.1 Prec.EQUAL := by rw [he]; exact equal_behind
  obtain ⟨hfl, hfo⟩ := keptAfter_cons (f := f) (q := Prec.EQUAL) rfl hfit
  refine ih n st G C S x (w ++ e :: (w' ++ d :: rest)) Q rfl (by simpa using hx) hfl
    (stops_before hw hb.visible hb.follows hb.high (by rw [he]; exact hfk)) (hcol.before (fun h => by simp [Form.colon, h]) hw hb.visible hb.notColon)
    (apart_before hw hb.apart) fun m t c hc ht => ?_
  refine climb_go ht hw (visible_solid hb.visible) hb.follows hb.notColon (fun e => absurd e hb.notSpan) (by rw [topPrec_eq, not_greater_iff]; exact hfo)
    fun m t ts y hts hy _ => ?_
  have hy := hy hb.notImplicit
  cases m with
  | zero => exact run_zero
  | succ m =>
  show wpP F (parseInfix env (run env m) y) _ _
  unfold parseInfix
  rw [hy.kind, he]
  show wpP F (equalInfix env (run env m) y) _ _
  unfold equalInfix
  refine do_pushNext ?_
  have e1 : (tt ts).reverse ++ c :: S = ((tt ts).reverse ++ [c]) ++ S := by simp
  rw [e1]
  refine dot_end hy he hw' hd fun m u A' hA hu => hQ _ _ _ ⟨?_, rfl⟩ hu.past
  show Cst.node _ (plains _) = Cst.node _ _
  rw [hA]
  simp [plains_then hc hts]

theorem tagUnset_parses {l m : Form} {o e d : Lexeme} {kl km v v' w w' : List Lexeme} (ho : o.1 = .SlashColon) (he : e.1 = .Equal)
    (hd : d.1 = .Dot) (hv : Blank g v) (hv' : Blank true v') (hm : Writes g m km) (hw : Blank g w) (hw' : Blank true w')
    (hlk : l.KeptBefore .SlashColon) (hmk : m.KeptAfter Prec.SLASHCOLON) (hmb : m.KeptBefore .Equal)
    (ihl : Parses env g l kl) (ihm : Parses env g m km) :
    Parses env g (.tagUnset l o m e d) (kl ++ (v ++ o :: (v' ++ (km ++ (w ++ e :: (w' ++ [d])))))) := by
  intro n st G C S x rest Q hG hx hfit hstop hcol hap hQ
  subst hG
  have hb : Behind o.1 Prec.SLASHCOLON := by rw [ho]; exact slashColon_behind
  have hb' : Behind e.1 Prec.EQUAL := by rw [he]; exact equal_behind
  obtain ⟨hfl, hfo⟩ := keptAfter_cons (f := l) (q := Prec.SLASHCOLON) rfl hfit
  refine ihl n st G C S x (v ++ o :: (v' ++ (km ++ (w ++ e :: (w' ++ d :: rest))))) Q rfl (by simpa using hx) hfl
    (stops_before hv hb.visible hb.follows hb.high (by rw [ho]; exact hlk)) (hcol.before (fun h => by simp [Form.colon, h]) hv hb.visible hb.notColon)
    (apart_before hv hb.apart) fun m1 t c hc ht => ?_
  refine climb_go ht hv (visible_solid hb.visible) hb.follows hb.notColon (fun e => absurd e hb.notSpan) (by rw [topPrec_eq, not_greater_iff]; exact hfo)
    fun m1 t ts y hts hy _ => ?_
  have hy := hy hb.notImplicit
  cases m1 with
  | zero => exact run_zero
  | succ m1 =>
  show wpP F (parseInfix env (run env m1) y) _ _
  unfold parseInfix
  rw [hy.kind, ho]
  show wpP F (slashColonInfix env (run env m1) y) _ _
  unfold slashColonInfix
  refine do_pushNext ?_
  refine mid_operand rfl hy hb.visible.eof hv' hm hmk hw hb' (by rw [he]; exact hmb) (by unfold TighterOrLeft; decide)
    (fun _ => pattern_below (by decide)) ihm
    fun t ts2 cm w2 h2' hcm hw2 ht => ?_
  unfold slashColonRest
  refine do_current ht hw2 (visible_solid hb'.visible) fun ts3 y2 t he3 => ?_
  have hy2 := he3.sees.is hb'.visible.newline
  show wpP F (if y2.kind = .Equal then _ else _) _ _
  rw [if_pos (by rw [hy2.kind]; exact he)]
  refine do_setPrecedence (do_commitNext ?_)
  have e1 : (tt ts3).reverse ++ (cm :: ((tt ts2).reverse ++ Cst.tok y :: ((tt ts).reverse ++ c :: S))) =
      ((tt ts3).reverse ++ cm :: ((tt ts2).reverse ++ Cst.tok y :: ((tt ts).reverse ++ [c]))) ++ S := by simp
  rw [e1]
  refine dot_end hy2 he hw' hd fun m u A' hA hu => hQ _ _ _ ⟨?_, rfl⟩ hu.past
  show Cst.node _ (plains _) = Cst.node _ _
  rw [hA]
  have e2 : ((tt ts3).reverse ++ cm :: ((tt ts2).reverse ++ Cst.tok y :: ((tt ts).reverse ++ [c]))).reverse =
      [c] ++ tt ts ++ [.tok y] ++ tt ts2 ++ [cm] ++ tt ts3 := by simp
  rw [e2]
  simp only [plains_append, plains_tt hts, plains_tt h2', plains_tt he3.trivia, hc.one, hcm.one, plains_leaf hy hb.visible]
  simp

/-! ### Colons -/

theorem lhs_plain {c : Cst} : colonLhsOf c = colonLhsOf (plain c) := by
  cases c with
  | node k cs => cases k <;> rfl
  | _ => rfl

theorem do_checkColonLhs {α : Type} {Q : α → PS → Prop} {f : ColonLHS → P α} {c : Cst} {l : ColonLHS} (hc : c.isTrivia = false) (hts : Tr ts)
    (hl : colonLhsOf c = .ok l) (h : wpP F (f l) ⟨st, G, C, (tt ts).reverse ++ c :: S⟩ Q) :
    wpP F (checkColonLhs >>= f) ⟨st, G, C, (tt ts).reverse ++ c :: S⟩ Q := by
  refine wpP_bind (wpP_ok (a := l) (t := ⟨st, G, C, (tt ts).reverse ++ c :: S⟩) ?_ h)
  have e : ((tt ts).reverse ++ c :: S).find? (fun c => !c.isTrivia) = some c := by
    rw [List.find?_append, List.find?_eq_none.mpr, List.find?_cons_of_pos (by simp [hc])]
    · rfl
    · intro d hd
      obtain ⟨t, ht, rfl⟩ := List.mem_map.mp (List.mem_reverse.mp hd)
      simpa [Cst.isTrivia] using hts t ht
  unfold checkColonLhs
  dsimp only
  rw [e]
  dsimp only
  rw [hl]

/-- The two uses of `:`. -/
def Use (l : ColonLHS) (p : Nat) (op : BinaryOp) : Prop :=
  (l = .pattern ∧ p = Prec.FAKE_PATTERNCOLON ∧ op = .Pattern) ∨ (l = .optional ∧ p = Prec.FAKE_OPTIONALCOLON ∧ op = .Optional)

/-- A `:` behind a name or pattern, and its operand. -/
theorem colon_parses {n : Nat} {l : ColonLHS} {p q : Nat} {op : BinaryOp} {c d : Cst} {o : Lexeme} {r : Form} {w w' kr : List Lexeme}
    (hu : Use l p op) (hG : (!G.isEmpty) = g) (hst : Past g st (w ++ o :: (w' ++ (kr ++ rest)))) (hw : Blank g w) (ho : o.1 = .Colon)
    (hC : checkPatternPrec C = false) (hfit : TighterOrRight Prec.HIGHEST (top C))
    (hc : Shows c d) (hl : colonLhsOf d = .ok l) (hw' : Blank true w') (hr : Writes g r kr) (hrk : r.KeptAfter p)
    (hstop : Stops g r.right rest) (hcol : Colons ((p, S.length) :: C) r.colon (nextKind g rest)) (hap : Apart kr rest)
    (hq : follows (nextKind g rest) = some q) (hpq : TighterOrLeft p q) (ih : Parses env g r kr)
    (hQ : ∀ m t c', Shows c' (.node (.binary op) [d, leaf o, r.cst]) → Past g t rest → wpP F (run env m .climb) ⟨t, G, C, c' :: S⟩ Q) :
    wpP F (run env n .climb) ⟨st, G, C, c :: S⟩ Q := by
  subst hG
  have hv : Visible o.1 := by rw [ho]; exact visible_iff.mp (by decide)
  refine climb_colon hst hw ho hC (by rw [topPrec_eq, not_greater_iff]; exact hfit) fun m t ts y hts hy => ?_
  cases m with
  | zero => exact run_zero
  | succ m =>
  show wpP F (parseInfix env (run env m) y) _ _
  unfold parseInfix
  rw [hy.kind, ho]
  show wpP F (colonInfix env (run env m) y) _ _
  unfold colonInfix
  refine do_checkColonLhs (by rw [← plain_isTrivia, hc.1]; exact hc.2) hts (by rw [lhs_plain, hc.1]; exact hl) (do_pushNext ?_)
  refine do_eatTrivia (hy.skip hv.eof) hw' (solid_first hr) fun ts2 z t he => ?_
  obtain ⟨hz, -⟩ := sees_first hr he.sees
  have fin : wpP F (setPrecedence p >>= fun _ => run env m (.prefix z) >>= fun _ => reduceClimb (run env m) (.binary op))
      ⟨t, G, (Prec.HIGHEST, S.length) :: C, (tt ts2).reverse ++ Cst.tok y :: ((tt ts).reverse ++ c :: S)⟩ Q := by
    refine do_setPrecedence (wpP_bind ?_)
    refine ih m t G ((p, S.length) :: C) _ z rest _ rfl hz hrk hstop hcol hap fun m' t cr hcr ht => ?_
    refine climb_stop ht hq hcol.opened (fun e => hstop.noSpan hcr e) (by rw [topPrec_eq]; exact greater_iff.mpr hpq) fun t ht => ?_
    unfold reduceClimb
    have e : cr :: ((tt ts2).reverse ++ Cst.tok y :: ((tt ts).reverse ++ c :: S)) =
        (cr :: ((tt ts2).reverse ++ Cst.tok y :: ((tt ts).reverse ++ [c]))) ++ S := by simp
    rw [e]
    refine do_reduceNode (by simp) (hQ _ _ _ ⟨?_, rfl⟩ ht)
    show Cst.node _ (plains _) = Cst.node _ _
    have e2 : (cr :: ((tt ts2).reverse ++ Cst.tok y :: ((tt ts).reverse ++ [c]))).reverse =
        [c] ++ tt ts ++ [.tok y] ++ tt ts2 ++ [cr] := by simp
    rw [e2]
    simp only [plains_append, plains_tt hts, plains_tt he.trivia, hc.one, hcr.one, plains_leaf hy hv]
    simp
  rcases hu with ⟨rfl, rfl, rfl⟩ | ⟨rfl, rfl, rfl⟩
  · exact fin
  · exact fin

theorem keptAfter_nil {x : Lexeme} {p : Nat} : (Form.atom x).KeptAfter p := by intro q hq; cases hq

/-- `x : p`, whatever follows. -/
theorem pattern_core {q n : Nat} {x o : Lexeme} {r : Form} {w w' kr : List Lexeme} {z : Tok} (hG : (!G.isEmpty) = g) (hx : x.1 = .Symbol)
    (ho : o.1 = .Colon) (hw : Blank g w) (hw' : Blank true w') (hr : Writes g r kr) (hrk : r.KeptAfter Prec.FAKE_PATTERNCOLON)
    (hrc : r.colon = false) (hz : Reads z (x :: (w ++ o :: (w' ++ (kr ++ rest))))) (hC : checkPatternPrec C = false)
    (hfit : TighterOrRight Prec.HIGHEST (top C)) (hstop : Stops g r.right rest) (hap : Apart kr rest)
    (hq : follows (nextKind g rest) = some q) (hpq : TighterOrLeft Prec.FAKE_PATTERNCOLON q) (ih : Parses env g r kr)
    (hQ : ∀ m t c', Shows c' (Form.pattern x o r).cst → Past g t rest → wpP F (run env m .climb) ⟨t, G, C, c' :: S⟩ Q) :
    wpP F (run env n (.prefix z)) ⟨st, G, C, S⟩ Q := by
  refine atom_parses (env := env) (x := x) (by rw [hx]; rfl) n st G C S z (w ++ o :: (w' ++ (kr ++ rest))) Q hG (by simpa using hz)
    (apart_before hw (by rw [ho]; rfl)) fun m t c hc ht => ?_
  exact colon_parses (Or.inl ⟨rfl, rfl, rfl⟩) hG ht hw ho hC hfit hc (by show colonLhsOf (leaf x) = _; unfold leaf colonLhsOf; rw [hx])
    hw' hr hrk hstop ⟨fun h => (by simp [hrc] at h), fun _ => pattern_at⟩ hap hq hpq ih hQ

theorem pattern_parses {x o : Lexeme} {r : Form} {w w' kr : List Lexeme} (hx : x.1 = .Symbol) (ho : o.1 = .Colon) (hw : Blank g w)
    (hw' : Blank true w') (hr : Writes g r kr) (hrk : r.KeptAfter Prec.FAKE_PATTERNCOLON) (hrc : r.colon = false) (ih : Parses env g r kr) :
    Parses env g (.pattern x o r) (x :: (w ++ o :: (w' ++ kr))) := by
  intro n st G C S z rest Q hG hz hfit hstop hcol hap hQ
  obtain ⟨⟨q, hq1, hq2⟩, -⟩ := hstop.kept (.operand Prec.FAKE_PATTERNCOLON none) (by simp [Form.right])
  exact pattern_core hG hx ho hw hw' hr hrk hrc (by simpa using hz) (hcol.closed rfl) (hfit _ (by simp [Form.left]))
    (hstop.sub fun e he => List.mem_cons_of_mem _ he) (Apart.right (a := x :: (w ++ o :: w')) (by simpa using hap) (writes_ne hr)) hq1 hq2 ih hQ

theorem optional_lhs {l : Form} (h : l.isPattern = true) : colonLhsOf l.cst = .ok .optional := by
  have hb : ∀ {k : TK}, (blankOf k).isSome = true → k = .Under ∨ k = .UnderUnder ∨ k = .UnderUnderUnder := by
    intro k h
    unfold blankOf at h
    split at h <;> simp_all
  cases l with
  | atom x =>
    show colonLhsOf (leaf x) = _
    unfold leaf colonLhsOf
    rcases hb h with h | h | h <;> rw [h]
  | compound c =>
    cases c with
    | blank u h op hk hh =>
      show colonLhsOf (.node (.compound op) _) = _
      unfold blankOf at hk
      split at hk <;> cases hk <;> rfl
    | named x u op hk hh =>
      show colonLhsOf (.node (.compound op) _) = _
      rcases hb h with h | h | h <;> rw [h] at hk <;> cases hk <;> rfl
    | typed x u h op op' hk hk' hx hh =>
      show colonLhsOf (.node (.compound op') _) = _
      have := hb (k := u.1) (by rw [hk]; rfl)
      rcases this with h | h | h <;> rw [h] at hk' <;> cases hk' <;> rfl
    | slot => cases h
    | slotName => cases h
  | pattern x o r => rfl
  | _ => cases h

theorem optional_parses {l r : Form} {o : Lexeme} {kl w w' kr : List Lexeme} (ho : o.1 = .Colon) (hl : Writes g l kl) (hw : Blank g w)
    (hw' : Blank true w') (hr : Writes g r kr) (hlp : l.isPattern = true) (hlg : l.Grouped) (hlk : l.KeptBefore .Colon)
    (hrk : r.KeptAfter Prec.FAKE_OPTIONALCOLON)
    (ihl : ∀ x o r k, l = .pattern x o r → Writes g r k → Parses env g r k) (ihr : Parses env g r kr) :
    Parses env g (.optional l o r) (kl ++ (w ++ o :: (w' ++ kr))) := by
  intro n st G C S z rest Q hG hz hfit hstop hcol hap hQ
  have hC := hcol.closed rfl
  obtain ⟨hfl, hfh⟩ := keptAfter_cons (f := l) (q := Prec.HIGHEST) rfl hfit
  obtain ⟨⟨q, hq1, hq2⟩, -, hq3⟩ := hstop.kept (.operand Prec.FAKE_OPTIONALCOLON none) (by simp [Form.right])
  have hnc : nextKind g rest ≠ .Colon := fun h => absurd (hq3 h) (by decide)
  have hv : Visible o.1 := by rw [ho]; exact visible_iff.mp (by decide)
  have fin : ∀ m t c, Shows c l.cst → Past g t (w ++ o :: (w' ++ (kr ++ rest))) → wpP F (run env m .climb) ⟨t, G, C, c :: S⟩ Q := by
    intro m t c hc ht
    exact colon_parses (Or.inr ⟨rfl, rfl, rfl⟩) hG ht hw ho hC hfh hc (optional_lhs hlp) hw' hr hrk
      (hstop.sub fun e he => List.mem_cons_of_mem _ he) (.zero (by decide) hnc) (apart_last hr hap) hq1 hq2 ihr hQ
  have hz' : Reads z (kl ++ (w ++ o :: (w' ++ (kr ++ rest)))) := by simpa using hz
  have hap' : Apart kl (w ++ o :: (w' ++ (kr ++ rest))) := apart_before hw (by rw [ho]; rfl)
  cases l with
  | atom x => cases hl with | atom h => exact atom_parses h n st G C S z _ Q hG hz' hap' fin
  | compound c => cases hl with | compound => exact compound_parses n st G C S z _ Q hG hz' hap' fin
  | pattern x o2 r2 =>
    cases hl with
    | @pattern _ _ _ _ v v' k2 h1 h2 h3 h4 h5 =>
      have hnk : nextKind g (w ++ o :: (w' ++ (kr ++ rest))) = .Colon := by
        rw [nextKind_blank hw, nextKind_solid (solid_mono (visible_solid hv)), ho]
      refine pattern_core hG h1 h2 h3 h4 h5 hlg.2.1 hlg.2.2 (rest := w ++ o :: (w' ++ (kr ++ rest))) (by simpa using hz') hC hfh
        (stops_before (f := r2) hw hv (by rw [ho]; rfl) (by decide) ?_) (apart_before hw (by rw [ho]; rfl))
        (q := Prec.FAKE_OPTIONALCOLON) (by rw [hnk]; rfl) (by unfold TighterOrLeft; decide) (ihl _ _ _ _ rfl h5) fin
      rw [ho]
      exact fun e he => hlk e (List.mem_cons_of_mem _ he)
  | _ => cases hlp

/-! ### Spans -/

theorem semiSemi_facts : Visible .SemiSemi ∧ follows .SemiSemi = some Prec.SEMISEMI ∧ Prec.SEMISEMI < 189 ∧ TK.SemiSemi ≠ .Colon ∧
    joinee .SemiSemi = false ∧ TK.infixParselet .SemiSemi ≠ .implicitTimes ∧ TK.isPossibleBeginning .SemiSemi = true ∧
    TighterOrLeft Prec.SEMISEMI Prec.SEMISEMI ∧ Prec.SEMISEMI ≠ Prec.FAKE_PATTERNCOLON ∧ Prec.FAKE_PATTERNCOLON ≤ Prec.SEMISEMI :=
  ⟨visible_iff.mp (by decide), rfl, by decide, by decide, rfl, by decide, rfl, Or.inr ⟨rfl, rfl⟩, by decide, by decide⟩

/-- What is behind a `;;` is parsed, and what the `;;` has in front of it is `A`. -/
def ParsesReach (env : PEnv) (g : Bool) (e : Reach) (ke : List Lexeme) : Prop :=
  ∀ (m : Nat) (st : St) (G : List Closer) (C : List (Nat × Nat)) (S A : List Cst) (y : Tok) (o : Lexeme) (rest : List Lexeme) (Q : Unit → PS → Prop),
    (!G.isEmpty) = g → o.1 = .SemiSemi → Is y o (ke ++ rest) → Stops g e.right rest →
    Colons ((Prec.SEMISEMI, S.length) :: C) e.colon (nextKind g rest) → Apart (o :: ke) rest →
    (∀ m u (A' : List Cst), plains A'.reverse = plains A.reverse ++ leaf o :: e.csts → Past g u rest →
      wpP F (run env m .climb) ⟨u, G, C, .node e.kind A'.reverse :: S⟩ Q) →
    wpP F (semiSemiInfix env (run env m) y) ⟨st, G, (Prec.SEMISEMI, S.length) :: C, A ++ S⟩ Q

/-- An operand of a `;;`. -/
theorem span_operand {k : Unit → P Unit} {f : Form} {kf k' : List Lexeme} {i q : Nat} {z : Tok} (hG : (!G.isEmpty) = g)
    (hz : Reads z (kf ++ k')) (hfk : f.KeptAfter Prec.SEMISEMI) (hstop : Stops g f.right k')
    (hcol : Colons ((Prec.SEMISEMI, i) :: C) f.colon (nextKind g k')) (hap : Apart kf k')
    (hq : follows (nextKind g k') = some q) (hp : TighterOrLeft Prec.SEMISEMI q) (ih : Parses env g f kf)
    (hQ : ∀ t c, Shows c f.cst → Past g t k' → wpP F (k ()) ⟨t, G, (Prec.SEMISEMI, i) :: C, c :: S⟩ Q) :
    wpP F (run env n (.prefix z) >>= k) ⟨st, G, (Prec.SEMISEMI, i) :: C, S⟩ Q := by
  subst hG
  refine wpP_bind ?_
  refine ih n st G ((Prec.SEMISEMI, i) :: C) _ z k' _ rfl hz hfk hstop hcol hap fun m' t cr hcr ht => ?_
  exact climb_stop ht hq hcol.opened (fun e => hstop.noSpan hcr e) (by rw [topPrec_eq]; exact greater_iff.mpr hp) fun t ht => hQ t cr hcr ht

theorem all_plain {z : Tok} : plains [Cst.tok (z.atStart .Fake_ImplicitAll)] = [leaf implicitAll] := by
  rw [plains_one (c := .tok (z.atStart .Fake_ImplicitAll)) (show TK.isTrivia .Fake_ImplicitAll = false by decide)]
  rfl

theorem one_plain {z : Tok} : plains [Cst.tok (z.atStart .Fake_ImplicitOne)] = [leaf implicitOne] := by
  rw [plains_one (c := .tok (z.atStart .Fake_ImplicitOne)) (show TK.isTrivia .Fake_ImplicitOne = false by decide)]
  rfl

theorem reachAll_parses : ParsesReach env g .all [] := by
  intro m st G C S A y o rest Q hG ho hy hstop hcol hap hQ
  subst hG
  have hv : Visible o.1 := by rw [ho]; exact semiSemi_facts.1
  unfold semiSemiInfix
  refine do_pushNext ?_
  obtain ⟨v, ks, rfl, hvb, hk⟩ := split_blank (!G.isEmpty) rest
  refine do_eatTriviaNTN (ws := v) (ks := ks) (hy.skip hv.eof) hvb hk fun ts z t he => ?_
  have hz : z.kind = nextKind (!G.isEmpty) (v ++ ks) := by rw [he.sees.kind hk, nextKind_blank hvb]
  have h2 : (nextKind (!G.isEmpty) (v ++ ks)).isPossibleBeginning = false := hstop.kept .spanOpen (by simp [Reach.right])
  rw [if_pos (by rw [hz, h2]; decide)]
  refine do_pushNode ?_
  have e : Cst.tok (z.atStart .Fake_ImplicitAll) :: ((tt ts).reverse ++ Cst.tok y :: (A ++ S)) =
      (Cst.tok (z.atStart .Fake_ImplicitAll) :: ((tt ts).reverse ++ Cst.tok y :: A)) ++ S := by simp
  rw [e]
  unfold reduceClimb
  refine do_reduceNode (by simp) (hQ _ _ _ ?_ ⟨v, ks, rfl, hvb, he.at'⟩)
  have e2 : (Cst.tok (z.atStart .Fake_ImplicitAll) :: ((tt ts).reverse ++ Cst.tok y :: A)).reverse =
      A.reverse ++ [.tok y] ++ tt ts ++ [Cst.tok (z.atStart .Fake_ImplicitAll)] := by simp
  rw [e2]
  simp only [plains_append, plains_tt he.trivia, plains_leaf hy hv, all_plain]
  show _ = _ ++ [leaf o, leaf implicitAll]
  simp

theorem reachTo_parses {f : Form} {w kf : List Lexeme} (hw : Blank g w) (hf : Writes g f kf) (hfb : StartsOperand f.first.1)
    (hfk : f.KeptAfter Prec.SEMISEMI) (ih : Parses env g f kf) : ParsesReach env g (.to f) (w ++ kf) := by
  intro m st G C S A y o rest Q hG ho hy hstop hcol hap hQ
  subst hG
  have hv : Visible o.1 := by rw [ho]; exact semiSemi_facts.1
  unfold semiSemiInfix
  refine do_pushNext ?_
  refine do_eatTriviaNTN (ws := w) (ks := kf ++ rest) (by simpa using hy.skip hv.eof) hw (solid_mono (solid_first hf)) fun ts z t he => ?_
  obtain ⟨hz, hzk⟩ := sees_first hf he.sees
  rw [if_neg (by rw [hzk, hfb.1]; decide), if_pos (by rw [hzk]; exact hfb.2)]
  obtain ⟨⟨q, hq1, hq2⟩, -⟩ := hstop.kept (.operand Prec.SEMISEMI none) (by simp [Reach.right])
  have hne : nextKind (!G.isEmpty) rest ≠ .SemiSemi := hstop.kept .span (by simp [Reach.right])
  refine span_operand rfl hz hfk (hstop.sub fun e he => List.mem_cons_of_mem _ (List.mem_cons_of_mem _ he)) hcol (apart_last1 hf hap) hq1 hq2 ih
    fun t c hc ht => ?_
  obtain ⟨v, rest, rfl, hvb, ht⟩ := ht
  rw [nextKind_blank hvb] at hne
  unfold span2
  obtain ⟨v2, ks, hsplit, hvb2, hk⟩ := split_blank (!G.isEmpty) rest
  have ht' := ht
  rw [hsplit] at ht'
  refine do_currentNTN ht' hvb2 hk fun ts3 z3 t3 he3 => ?_
  have hz3 : z3.kind = nextKind (!G.isEmpty) rest := by rw [he3.sees.kind hk, hsplit, nextKind_blank hvb2]
  dsimp only
  rw [if_pos (by rw [hz3]; simp [hne])]
  refine do_triviaReset he3.at'.eof he3.back ht fun u hu => ?_
  have e : c :: ((tt ts).reverse ++ Cst.tok y :: (A ++ S)) = (c :: ((tt ts).reverse ++ Cst.tok y :: A)) ++ S := by simp
  rw [e]
  unfold reduceClimb
  refine do_reduceNode (by simp) (hQ _ _ _ ?_ ⟨v, rest, rfl, hvb, hu⟩)
  have e2 : (c :: ((tt ts).reverse ++ Cst.tok y :: A)).reverse = A.reverse ++ [.tok y] ++ tt ts ++ [c] := by simp
  rw [e2]
  simp only [plains_append, plains_tt he.trivia, plains_leaf hy hv, hc.one]
  show _ = _ ++ [leaf o, f.cst]
  simp

theorem reachAllStep_parses {o2 : Lexeme} {f : Form} {w w' kf : List Lexeme} (ho2 : o2.1 = .SemiSemi) (hw : Blank g w) (hw' : Blank g w')
    (hf : Writes g f kf) (hfb : StartsOperand f.first.1) (hfk : f.KeptAfter Prec.SEMISEMI) (ih : Parses env g f kf) :
    ParsesReach env g (.allStep o2 f) (w ++ o2 :: (w' ++ kf)) := by
  intro m st G C S A y o rest Q hG ho hy hstop hcol hap hQ
  subst hG
  have hv : Visible o.1 := by rw [ho]; exact semiSemi_facts.1
  have hv2 : Visible o2.1 := by rw [ho2]; exact semiSemi_facts.1
  unfold semiSemiInfix
  refine do_pushNext ?_
  refine do_eatTriviaNTN (ws := w) (ks := o2 :: (w' ++ (kf ++ rest))) (by simpa using hy.skip hv.eof) hw (solid_mono (visible_solid hv2))
    fun ts z t he => ?_
  have hz := he.sees.is hv2.newline
  have hzk : z.kind = .SemiSemi := hz.kind.trans ho2
  rw [if_neg (by rw [hzk]; decide), if_neg (by rw [hzk]; decide)]
  refine do_pushNode ?_
  unfold spanImplicit
  refine do_skip ?_
  refine do_currentNTN (hz.skip hv2.eof) hw' (solid_mono (solid_first hf)) fun ts4 z4 t4 he4 => ?_
  obtain ⟨hz4, hzk4⟩ := sees_first hf he4.sees
  dsimp only
  rw [if_neg (by rw [hzk4]; simp [hfb.1, hfb.2])]
  refine do_pushNode (do_pushTrivia ?_)
  have e : (tt ts4).reverse ++ Cst.tok z :: Cst.tok (z.atStart .Fake_ImplicitAll) :: ((tt ts).reverse ++ Cst.tok y :: (A ++ S)) =
      ((tt ts4).reverse ++ Cst.tok z :: Cst.tok (z.atStart .Fake_ImplicitAll) :: ((tt ts).reverse ++ Cst.tok y :: A)) ++ S := by simp
  rw [e]
  refine end_operand rfl hz4 hfk (hstop.sub fun e he => List.mem_cons_of_mem _ he) hcol
    (Apart.right (a := o :: (w ++ o2 :: w')) (by simpa using hap) (writes_ne hf)) ih fun m u c hc hu => hQ _ _ _ ?_ hu
  have e2 : (c :: ((tt ts4).reverse ++ Cst.tok z :: Cst.tok (z.atStart .Fake_ImplicitAll) :: ((tt ts).reverse ++ Cst.tok y :: A))).reverse =
      A.reverse ++ [.tok y] ++ tt ts ++ [Cst.tok (z.atStart .Fake_ImplicitAll)] ++ [.tok z] ++ tt ts4 ++ [c] := by simp
  rw [e2]
  simp only [plains_append, plains_tt he.trivia, plains_tt he4.trivia, plains_leaf hy hv, plains_leaf hz hv2, all_plain, hc.one]
  show _ = _ ++ [leaf o, leaf implicitAll, leaf o2, f.cst]
  simp

theorem reachStep_parses {f f' : Form} {o2 : Lexeme} {w v v' kf kf' : List Lexeme} (ho2 : o2.1 = .SemiSemi) (hw : Blank g w)
    (hf : Writes g f kf) (hvb : Blank g v) (hvb' : Blank g v') (hf' : Writes g f' kf') (hfb : StartsOperand f.first.1) (hfk : f.KeptAfter Prec.SEMISEMI)
    (hfs : f.KeptBefore .SemiSemi) (hfb' : StartsOperand f'.first.1) (hfk' : f'.KeptAfter Prec.SEMISEMI)
    (ih : Parses env g f kf) (ih' : Parses env g f' kf') : ParsesReach env g (.step f o2 f') (w ++ (kf ++ (v ++ o2 :: (v' ++ kf')))) := by
  intro m st G C S A y o rest Q hG ho hy hstop hcol hap hQ
  subst hG
  obtain ⟨hvs, hfol, hlt, hnc, hjo, -, hbeg, hleft, -⟩ := semiSemi_facts
  have hv : Visible o.1 := by rw [ho]; exact hvs
  have hv2 : Visible o2.1 := by rw [ho2]; exact hvs
  unfold semiSemiInfix
  refine do_pushNext ?_
  refine do_eatTriviaNTN (ws := w) (ks := kf ++ (v ++ o2 :: (v' ++ (kf' ++ rest)))) (by simpa using hy.skip hv.eof) hw
    (solid_mono (solid_first hf)) fun ts z t he => ?_
  obtain ⟨hz, hzk⟩ := sees_first hf he.sees
  rw [if_neg (by rw [hzk, hfb.1]; decide), if_pos (by rw [hzk]; exact hfb.2)]
  have hnk : nextKind (!G.isEmpty) (v ++ o2 :: (v' ++ (kf' ++ rest))) = .SemiSemi := by
    rw [nextKind_blank hvb, nextKind_solid (solid_mono (visible_solid hv2)), ho2]
  refine span_operand rfl hz hfk (stops_before hvb hv2 (by rw [ho2]; exact hfol) hlt (by rw [ho2]; exact hfs))
    (hcol.before (fun h => by simp [Reach.colon, h]) hvb hv2 (by rw [ho2]; exact hnc)) (apart_before hvb (by rw [ho2]; exact hjo))
    (by rw [hnk]; exact hfol) hleft ih fun t c hc ht => ?_
  obtain ⟨v1, v2, rfl, ht'⟩ := ht.split (solid_mono (visible_solid hv2))
  unfold span2
  refine do_currentNTN ht' hvb.suffix (solid_mono (visible_solid hv2)) fun ts3 z3 t3 he3 => ?_
  have hz3 := he3.sees.is hv2.newline
  have hzk3 : z3.kind = .SemiSemi := hz3.kind.trans ho2
  dsimp only
  rw [if_neg (by rw [hzk3]; decide)]
  unfold span3
  refine do_skip ?_
  refine do_currentNTN (hz3.skip hv2.eof) hvb' (solid_mono (solid_first hf')) fun ts4 z4 t4 he4 => ?_
  obtain ⟨hz4, hzk4⟩ := sees_first hf' he4.sees
  dsimp only
  rw [if_neg (by rw [hzk4]; simp [hfb'.1, hfb'.2])]
  refine do_pushTrivia (do_pushNode (do_pushTrivia ?_))
  have e : (tt ts4).reverse ++ Cst.tok z3 :: ((tt ts3).reverse ++ c :: ((tt ts).reverse ++ Cst.tok y :: (A ++ S))) =
      ((tt ts4).reverse ++ Cst.tok z3 :: ((tt ts3).reverse ++ c :: ((tt ts).reverse ++ Cst.tok y :: A))) ++ S := by simp
  rw [e]
  refine end_operand rfl hz4 hfk' (hstop.sub fun e he => List.mem_cons_of_mem _ he)
    ⟨fun h => hcol.closed (by simp [Reach.colon, h]), hcol.opened⟩
    (Apart.right (a := o :: (w ++ (kf ++ (v1 ++ v2 ++ o2 :: v')))) (by simpa using hap) (writes_ne hf')) ih' fun m u c' hc' hu => hQ _ _ _ ?_ hu
  have e2 : (c' :: ((tt ts4).reverse ++ Cst.tok z3 :: ((tt ts3).reverse ++ c :: ((tt ts).reverse ++ Cst.tok y :: A)))).reverse =
      A.reverse ++ [.tok y] ++ tt ts ++ [c] ++ tt ts3 ++ [.tok z3] ++ tt ts4 ++ [c'] := by simp
  rw [e2]
  simp only [plains_append, plains_tt he.trivia, plains_tt he3.trivia, plains_tt he4.trivia, plains_leaf hy hv, plains_leaf hz3 hv2, hc.one, hc'.one]
  show _ = _ ++ [leaf o, f.cst, leaf o2, f'.cst]
  simp

theorem span_parses {l : Form} {o : Lexeme} {e : Reach} {kl w ke : List Lexeme} (ho : o.1 = .SemiSemi) (hw : Blank g w)
    (hlk : l.KeptBefore .SemiSemi) (ihl : Parses env g l kl) (ihe : ParsesReach env g e ke) :
    Parses env g (.span l o e) (kl ++ (w ++ o :: ke)) := by
  intro n st G C S x rest Q hG hx hfit hstop hcol hap hQ
  subst hG
  obtain ⟨hvs, hfol, hlt, hnc, hjo, hni, hbeg, hleft, hnp, hle⟩ := semiSemi_facts
  have hv : Visible o.1 := by rw [ho]; exact hvs
  obtain ⟨hfl, hfo⟩ := keptAfter_cons (f := l) (q := Prec.SEMISEMI) rfl hfit
  have hlk' : l.KeptBefore o.1 := by rw [ho]; exact hlk
  refine ihl n st G C S x (w ++ o :: (ke ++ rest)) Q rfl (by simpa using hx) hfl
    (stops_before hw hv (by rw [ho]; exact hfol) hlt hlk') (hcol.before (fun h => by simp [Form.colon, h]) hw hv (by rw [ho]; exact hnc))
    (apart_before hw (by rw [ho]; exact hjo)) fun m t c hc ht => ?_
  refine climb_go ht hw (visible_solid hv) (by rw [ho]; exact hfol) (by rw [ho]; exact hnc) (fun _ => hc.noSpan (kept_noSpan hlk))
    (by rw [topPrec_eq, not_greater_iff]; exact hfo) fun m t ts y hts hy _ => ?_
  have hy := hy (by rw [ho]; exact hni)
  cases m with
  | zero => exact run_zero
  | succ m =>
  show wpP F (parseInfix env (run env m) y) _ _
  unfold parseInfix
  rw [hy.kind, ho]
  show wpP F (semiSemiInfix env (run env m) y) _ _
  have e1 : (tt ts).reverse ++ c :: S = ((tt ts).reverse ++ [c]) ++ S := by simp
  rw [e1]
  have hq3 : nextKind (!G.isEmpty) rest = .Colon → Prec.FAKE_PATTERNCOLON ≤ Prec.SEMISEMI := fun _ => hle
  refine ihe m t G C S _ y o rest Q rfl ho hy hstop (hcol.operand hnp (fun _ h => by simp [Form.colon, h]) hq3)
    (Apart.right (a := kl ++ w) (by simpa using hap) (by simp)) fun m u A' hA hu => hQ _ _ _ ⟨?_, ?_⟩ hu
  · show Cst.node _ (plains _) = Cst.node _ _
    rw [hA]
    simp [plains_then hc hts]
  · cases e <;> rfl

theorem spanFrom_parses {o : Lexeme} {e : Reach} {ke : List Lexeme} (ho : o.1 = .SemiSemi) (ihe : ParsesReach env g e ke) :
    Parses env g (.spanFrom o e) (o :: ke) := by
  intro n st G C S x rest Q hG hx hfit hstop hcol hap hQ
  subst hG
  obtain ⟨-, -, -, -, -, -, -, -, hnp, hle⟩ := semiSemi_facts
  cases n with
  | zero => exact run_zero
  | succ n =>
  obtain ⟨l, ks', he, hi⟩ := hx
  cases he
  show wpP F (parsePrefix env (run env n) x) _ _
  unfold parsePrefix
  rw [hi.kind, ho]
  show wpP F (semiSemiPrefix (run env n) x) _ _
  unfold semiSemiPrefix
  refine do_pushNode (do_pushContext ?_)
  cases n with
  | zero => exact run_zero
  | succ n =>
  show wpP F (parseInfix env (run env n) x) _ _
  unfold parseInfix
  rw [hi.kind, ho]
  show wpP F (semiSemiInfix env (run env n) x) _ _
  have e1 : Cst.tok (x.atStart .Fake_ImplicitOne) :: S = [Cst.tok (x.atStart .Fake_ImplicitOne)] ++ S := rfl
  rw [e1]
  refine ihe n st G C S _ x o rest Q rfl ho hi hstop (hcol.operand hnp (fun _ h => h) fun _ => hle) hap fun m u A' hA hu => hQ _ _ _ ⟨?_, ?_⟩ hu
  · show Cst.node _ (plains _) = Cst.node _ _
    rw [hA]
    show _ = Cst.node _ ([leaf implicitOne] ++ _)
    rw [List.reverse_singleton, one_plain]
  · cases e <;> rfl

end

/-! ### All expressions -/

set_option maxHeartbeats 800000 in
mutual
theorem form_parses {env : PEnv} : ∀ {f : Form} {g : Bool} {ks : List Lexeme}, Writes g f ks → f.Grouped → Parses env g f ks
  | .atom x, _, _, h, _ => by cases h with | atom h => exact (atom_parses h).parses
  | .compound c, _, _, h, _ => by cases h with | compound => exact compound_parses.parses
  | .group o b, _, _, h, hg => by cases h with | group h => exact group_parses (body_parses h hg)
  | .call f o b, _, _, h, hg => by
    cases h with
    | call h1 h2 h3 => exact call_parses h2 hg.2.1 (form_parses h1 hg.1) (body_parses h3 hg.2.2)
  | .binary l o r, _, _, h, hg => by
    cases h with
    | binary h1 h2 h3 h4 => exact binary_parses h1 h2 h3 h4 hg.2.1 hg.2.2.2 (form_parses h1 hg.1) (form_parses h4 hg.2.2.1)
  | .chain op p f t, _, _, h, hg => by
    cases h with
    | chain h1 h2 h3 => exact chain_parses h2 h3 hg.2.1 hg.2.2 (form_parses h1 hg.1) (tail_parses h2 hg.2.2)
  | .prefix o f, _, _, h, hg => by
    cases h with
    | «prefix» h1 h2 => exact prefix_parses h1 h2 hg.2 (form_parses h2 hg.1)
  | .postfix f o, _, _, h, hg => by
    cases h with
    | «postfix» h1 h2 => exact postfix_parses h2 hg.2 (form_parses h1 hg.1)
  | .semi f t, _, _, h, hg => by
    cases h with
    | semi h1 h2 => exact semi_parses h2 hg.2.1 (form_parses h1 hg.1) (semis_parses h2 hg.2.2)
  | .ternary l o m r, _, _, h, hg => by
    obtain ⟨g1, g2, g3, g4, g5, g6, g7⟩ := hg
    cases h with
    | ternary h1 h2 h3 h4 h5 h6 h7 =>
      exact ternary_parses h2 h3 h4 h5 h6 h7 g2 g4 g5 g7 (form_parses h1 g1) (form_parses h4 g3) (form_parses h7 g6)
  | .unset f e d, _, _, h, hg => by
    cases h with
    | unset h1 h2 h3 h4 h5 => exact unset_parses h1 h2 h4 h5 hg.2 (form_parses h3 hg.1)
  | .tagUnset l o m e d, _, _, h, hg => by
    obtain ⟨g1, g2, g3, g4, g5⟩ := hg
    cases h with
    | tagUnset h1 h2 h3 h4 h5 h6 h7 h8 h9 =>
      exact tagUnset_parses h1 h2 h3 h5 h6 h7 h8 h9 g2 g4 g5 (form_parses h4 g1) (form_parses h7 g3)
  | .pattern x o r, _, _, h, hg => by
    cases h with
    | pattern h1 h2 h3 h4 h5 => exact pattern_parses h1 h2 h3 h4 h5 hg.2.1 hg.2.2 (form_parses h5 hg.1)
  | .optional (.pattern x' o' r') o r, _, _, h, hg => by
    obtain ⟨g1, g2, g3, g4, g5⟩ := hg
    cases h with
    | optional h1 h2 h3 h4 h5 =>
      exact optional_parses h1 h2 h3 h4 h5 g1 g2 g3 g5 (fun _ _ _ _ e hw => by cases e; exact form_parses hw g2.1) (form_parses h5 g4)
  | .optional l o r, _, _, h, hg => by
    obtain ⟨g1, g2, g3, g4, g5⟩ := hg
    cases h with
    | optional h1 h2 h3 h4 h5 =>
      refine optional_parses h1 h2 h3 h4 h5 g1 g2 g3 g5 (fun x' o' r' k e hw => ?_) (form_parses h5 g4)
      subst e
      exact form_parses hw g2.1
  | .span l o e, _, _, h, hg => by
    cases h with
    | span h1 h2 h3 h4 => exact span_parses h1 h3 hg.2.1 (form_parses h2 hg.1) (reach_parses h4 hg.2.2)
  | .spanFrom o e, _, _, h, hg => by
    cases h with
    | spanFrom h1 h2 => exact spanFrom_parses h1 (reach_parses h2 hg)
theorem reach_parses {env : PEnv} : ∀ {e : Reach} {g : Bool} {ks : List Lexeme}, Reaches g e ks → e.Grouped → ParsesReach env g e ks
  | .all, _, _, h, _ => by cases h with | all => exact reachAll_parses
  | .to f, _, _, h, hg => by
    cases h with
    | «to» h1 h2 => exact reachTo_parses h1 h2 hg.1 hg.2.2 (form_parses h2 hg.2.1)
  | .step f o f', _, _, h, hg => by
    obtain ⟨g1, g2, g3, g4, g5, g6, g7⟩ := hg
    cases h with
    | step h1 h2 h3 h4 h5 h6 => exact reachStep_parses h1 h2 h3 h4 h5 h6 g1 g3 g4 g5 g7 (form_parses h3 g2) (form_parses h6 g6)
  | .allStep o f, _, _, h, hg => by
    cases h with
    | allStep h1 h2 h3 h4 => exact reachAllStep_parses h1 h2 h3 h4 hg.1 hg.2.2 (form_parses h4 hg.2.1)
theorem body_parses {env : PEnv} : ∀ {b : Body} {ks : List Lexeme}, Inside b ks → b.Grouped → ParsesBody env b ks
  | .empty, _, h, _ => by cases h with | empty h => exact empty_parses h
  | .one f, _, h, hg => by cases h with | one h1 h2 h3 => exact one_parses h1 h2 h3 hg (form_parses h2 hg)
  | .many f t, _, h, hg => by
    cases h with
    | many h1 h2 h3 h4 => exact many_parses rfl h1 h2 h4 hg.1 (form_parses h2 hg.1) (commas_parses h3 hg.2)
  | .gaps f t, _, h, hg => by
    cases h with
    | gaps h1 h2 h3 h4 => exact many_parses rfl h1 h2 h4 hg.1 (form_parses h2 hg.1) (gaps_parses h3 hg.2)
  | .gap t, _, h, hg => by
    cases h with
    | gap h1 h2 => exact gap_parses h2 (gaps_parses h1 hg)
theorem tail_parses {env : PEnv} {op : InfixOp} {p : Nat} : ∀ {t : Tail} {g : Bool} {ks : List Lexeme}, Rest g t ks → t.Grouped op p →
    ParsesTail env g op p t ks
  | .last o f, _, _, h, hg => by
    cases h with
    | last h1 h2 => exact last_parses h1 h2 hg.1 hg.2.1 hg.2.2.2 (form_parses h2 hg.2.2.1)
  | .more o f t, _, _, h, hg => by
    cases h with
    | more h1 h2 h3 h4 =>
      obtain ⟨g1, g2, g3, g4, g5, g6⟩ := hg
      exact more_parses h1 h2 h3 h4 g1 g2 g4 g5 g6 (form_parses h2 g3) (tail_parses h3 g6)
theorem commas_parses {env : PEnv} : ∀ {t : Tail} {ks : List Lexeme}, Rest true t ks → t.Commas → ParsesCommas env t.csts ks
  | .last o f, _, h, hg => by
    cases h with
    | last h1 h2 =>
      obtain ⟨w, w2, hw, hw2, rfl⟩ := sep_comma h1 hg.1
      have := lastComma_parses (env := env) hw hw2 h2 hg.1 hg.2 (form_parses h2 hg.2)
      simpa [Tail.csts] using this
  | .more o f t, _, h, hg => by
    cases h with
    | more h1 h2 h3 _ =>
      obtain ⟨w, w2, hw, hw2, rfl⟩ := sep_comma h1 hg.1
      have := moreComma_parses (env := env) hw hw2 h2 hg.1 hg.2.1 (form_parses h2 hg.2.1) (commas_parses h3 hg.2.2)
      simpa [Tail.csts] using this
theorem gaps_parses {env : PEnv} : ∀ {t : Gaps} {ks : List Lexeme}, Lists t ks → t.Grouped → ParsesCommas env t.csts ks
  | .stop o, _, h, _ => by cases h with | stop h1 h2 => exact stopComma_parses h2 h1
  | .last o f, _, h, hg => by
    cases h with
    | last h1 h2 h3 h4 => exact lastComma_parses h2 h3 h4 h1 hg (form_parses h4 hg)
  | .skip o t, _, h, hg => by
    cases h with
    | skip h1 h2 h3 => exact skipComma_parses h2 h1 (gaps_parses h3 hg)
  | .more o f t, _, h, hg => by
    cases h with
    | more h1 h2 h3 h4 h5 => exact moreComma_parses h2 h3 h4 h1 hg.1 (form_parses h4 hg.1) (gaps_parses h5 hg.2)
theorem semis_parses {env : PEnv} : ∀ {t : Semis} {g : Bool} {ks : List Lexeme}, Spec.Steps g t ks → t.Grouped → ParsesSemis env g t ks
  | .stop o, _, _, h, _ => by cases h with | stop h1 h2 => exact stop_parses h1 h2
  | .last o f, _, _, h, hg => by
    cases h with
    | last h1 h2 h3 h4 => exact lastSemi_parses h1 h2 h3 h4 hg.1 hg.2.2 (form_parses h4 hg.2.1)
  | .skip o t, _, _, h, hg => by
    cases h with
    | skip h1 h2 h3 => exact skipSemi_parses h1 h2 h3 (semis_parses h3 hg)
  | .more o f t, _, _, h, hg => by
    obtain ⟨g1, g2, g3, g4, g5⟩ := hg
    cases h with
    | more h1 h2 h3 h4 h5 => exact moreSemi_parses h1 h2 h3 h4 h5 g1 g3 g4 (form_parses h4 g2) (semis_parses h5 g5)
end

end CodeParser.Syn
