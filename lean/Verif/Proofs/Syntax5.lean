import Verif.Proofs.Syntax4
/-!
Every written expression is parsed as the tree it stands for (helper lemmas).
-/
namespace CodeParser.Syn
open CodeParser Spec Props

/-- Wherever the lexemes of the expression are, followed by something that lets it end, the parser
pushes its tree and goes on from what follows. -/
def Parses (env : PEnv) (g : Bool) (f : Form) (ks : List Lexeme) : Prop :=
  ∀ (n : Nat) (st : St) (G : List Closer) (C : List (Nat × Nat)) (S : List Cst) (x : Tok) (rest : List Lexeme) (Q : Unit → PS → Prop),
    (!G.isEmpty) = g → Reads x (ks ++ rest) → f.KeptAfter (top C) → Stops g f.right rest →
    Colons C f.colon (nextKind g rest) → Apart ks rest →
    (∀ m t c, Shows c f.cst → Past g t rest → wpP F (run env m .climb) ⟨t, G, C, c :: S⟩ Q) →
    wpP F (run env n (.prefix x)) ⟨st, G, C, S⟩ Q

/-- The same for the expressions that need not look at what follows. -/
def ParsesLeaf (env : PEnv) (g : Bool) (f : Form) (ks : List Lexeme) : Prop :=
  ∀ (n : Nat) (st : St) (G : List Closer) (C : List (Nat × Nat)) (S : List Cst) (x : Tok) (rest : List Lexeme) (Q : Unit → PS → Prop),
    (!G.isEmpty) = g → Reads x (ks ++ rest) → Apart ks rest →
    (∀ m t c, Shows c f.cst → Past g t rest → wpP F (run env m .climb) ⟨t, G, C, c :: S⟩ Q) →
    wpP F (run env n (.prefix x)) ⟨st, G, C, S⟩ Q

theorem ParsesLeaf.parses {env : PEnv} {g : Bool} {f : Form} {ks : List Lexeme} (h : ParsesLeaf env g f ks) : Parses env g f ks :=
  fun n st G C S x rest Q hG hx _ _ _ hap hQ => h n st G C S x rest Q hG hx hap hQ

/-- The same for the operators and operands of a sequence, from behind the first operator. -/
def ParsesTail (env : PEnv) (g : Bool) (op : InfixOp) (p : Nat) (t : Tail) (ks : List Lexeme) : Prop :=
  ∃ o sep l kl, ks = sep ++ l :: kl ∧ Sep g o sep ∧ startKind l.1 = true ∧ infixOf o.1 = some (p, op) ∧
    (o = implicitTimes → l.1.infixParselet = .implicitTimes) ∧
    ∀ (m : Nat) (st : St) (G : List Closer) (C : List (Nat × Nat)) (S A : List Cst) (y : Tok) (w rest : List Lexeme) (Q : Unit → PS → Prop),
      (!G.isEmpty) = g → Blank true w → Is y o (w ++ l :: (kl ++ rest)) → Stops g (.operand p (some op) :: t.right) rest →
      Colons ((p, S.length) :: C) t.colon (nextKind g rest) → Apart (l :: kl) rest →
      (∀ m u A', A' ≠ [] → plains A'.reverse = plains A.reverse ++ t.csts → Past g u rest →
        wpP F (reduceClimb (run env m) (.infix op)) ⟨u, G, (p, S.length) :: C, A' ++ S⟩ Q) →
      wpP F (operand env (run env m) >>= fun _ => run env m (loopJob op))
        ⟨y.skipSt st, G, (p, S.length) :: C, .tok y :: (A ++ S)⟩ Q

/-- The same for expressions with commas, from behind the first comma. -/
def ParsesCommas (env : PEnv) (cs : List Cst) (ks : List Lexeme) : Prop :=
  ∃ w l kl, ks = w ++ l :: kl ∧ Blank true w ∧ l.1 = .Comma ∧
    ∀ (m : Nat) (st : St) (G : List Closer) (C : List (Nat × Nat)) (S A : List Cst) (y : Tok) (w' : List Lexeme) (c : Lexeme)
      (rest : List Lexeme) (Q : Unit → PS → Prop),
      (!G.isEmpty) = true → Blank true w' → c.1.isCloser = true → Is y l (kl ++ (w' ++ c :: rest)) →
      (∀ u A', A' ≠ [] → plains A'.reverse = plains A.reverse ++ cs → Past true u (w' ++ c :: rest) →
        wpP F (reduceNode (.infix .CodeParser_Comma)) ⟨u, G, (Prec.COMMA, S.length) :: C, A' ++ S⟩ Q) →
      wpP F (commaOperand env (run env m) >>= fun _ => run env m .commaLoop)
        ⟨y.skipSt st, G, (Prec.COMMA, S.length) :: C, .tok y :: (A ++ S)⟩ Q

/-- The same for what is between brackets. -/
def ParsesBody (env : PEnv) (b : Body) (ks : List Lexeme) : Prop :=
  ∀ (n : Nat) (st : St) (G : List Closer) (C : List (Nat × Nat)) (S A : List Cst) (cl : Closer) (op : GroupOp) (c : Lexeme)
    (rest : List Lexeme) (Q : Unit → PS → Prop),
    At st (ks ++ c :: rest) → c.1.isCloser = true → tokenToCloser c.1 = cl →
    (∀ m u A', A' ≠ [] → plains A'.reverse = plains A.reverse ++ (b.csts ++ [leaf c]) → At u rest →
      wpP F (run env m .climb) ⟨u, G, C, .node (.group op) A'.reverse :: S⟩ Q) →
    wpP F (run env n (.groupLoop cl op)) ⟨st, cl :: G, (0, S.length) :: C, A ++ S⟩ Q

section
variable {env : PEnv} {n : Nat} {g : Bool} {st : St} {G : List Closer} {C : List (Nat × Nat)} {S : List Cst}
  {rest ks ws : List Lexeme} {x y : Tok} {ts : List Tok} {Q : Unit → PS → Prop}

theorem blank_nil : Blank g [] := by intro _ h; simp at h

theorem plains_leaf {l : Lexeme} (h : Is y l ks) (hl : Visible l.1) : plains [.tok y] = [leaf l] := h.one hl.trivia

theorem plains_then {c d : Cst} (hc : Shows c d) (h : Tr ts) : plains (c :: tt ts) = [d] := by
  have : c :: tt ts = [c] ++ tt ts := rfl
  rw [this, plains_append, hc.one, plains_tt h]
  simp

/-- The kind of the token ahead, when no lexeme of that kind is ahead. -/
theorem sees_ne {k : TK} (h : Sees g x rest) (hk : k ≠ .EndOfFile ∧ k ≠ .InternalNewline) (hh : ∀ l ∈ rest.head?, l.1 ≠ k) : x.kind ≠ k := by
  cases h with
  | eof h => rw [h]; exact hk.1.symm
  | @lexeme l ks h1 h2 =>
    have e : x.kind = kindIn g l.1 := h1.kind
    rw [e]
    unfold kindIn
    split
    · exact hk.2.symm
    · exact hh l rfl

section
variable {α : Type} {Q : α → PS → Prop} {f : Cst → P α} {bop : CompoundOp} {u h : Lexeme}

/-- `_`, alone -/
theorem do_under_plain (hx : Is x u rest) (hu : u.1 ≠ .EndOfFile) (hn : ∀ l ∈ rest.head?, l.1 ≠ .Symbol)
    (hQ : ∀ t, At t rest → wpP F (f (.tok x)) ⟨t, G, C, S⟩ Q) : wpP F (parseUnder env bop x >>= f) ⟨st, G, C, S⟩ Q := by
  refine wpP_bind ?_
  unfold parseUnder
  refine do_skip ?_
  have hsk := hx.skip hu (st := st)
  refine do_peek hsk fun z t hz ht => ?_
  have h1 := sees_ne hz (k := .Symbol) (by decide) hn
  have h2 := sees_ne hz (k := .Error_ExpectedLetterlike) (by decide) fun l hl e => by
    have := lexes_kind hsk.lex l (List.mem_of_mem_head? hl)
    rw [e] at this
    cases this
  rw [if_neg (by rintro (h | h); exacts [h1 h, h2 h])]
  exact wpP_pure (hQ t ht)

/-- `_h` -/
theorem do_under_head (hx : Is x u (h :: rest)) (hu : u.1 ≠ .EndOfFile) (hh : h.1 = .Symbol)
    (hQ : ∀ t y, Is y h rest → At t rest → wpP F (f (.node (.compound bop) [.tok x, .tok y])) ⟨t, G, C, S⟩ Q) :
    wpP F (parseUnder env bop x >>= f) ⟨st, G, C, S⟩ Q := by
  refine wpP_bind ?_
  unfold parseUnder
  refine do_skip (do_peek (hx.skip hu (st := st)) fun z t hz ht => ?_)
  have hi := hz.is (l := h) (by rw [hh]; decide)
  rw [if_pos (Or.inl (by rw [hi.kind, hh]))]
  exact do_skip (wpP_pure (hQ _ z hi (hi.skip (by rw [hh]; decide))))

end

/-- `#`, `##`, `%`, alone -/
theorem slot_plain {pol : Pol} {op : CompoundOp} {str : Bool} {u : Lexeme} (hx : Is x u rest) (hu : u.1 ≠ .EndOfFile)
    (hn : ∀ l ∈ rest.head?, numberKind l.1 = false) (hstr : str = true → ∀ l ∈ rest.head?, l.1 ≠ .Symbol ∧ l.1 ≠ .String)
    (hQ : ∀ t, At t rest → wpP F (run env n .climb) ⟨t, G, C, .tok x :: S⟩ Q) :
    wpP F (slotPrefix env (run env n) pol op str x) ⟨st, G, C, S⟩ Q := by
  unfold slotPrefix
  refine do_skip (do_peekWith (R := fun z t => At t rest ∧ ((rest = [] ∧ z.kind = .EndOfFile) ∨
    ∃ l ks', rest = l :: ks' ∧ ∃ g, Is z (kindWith pol g l.1, l.2) ks')) (fun g => ?_) fun z t hz => ?_)
  · refine wp_mono (peekWith_at (hx.skip hu (st := st)) fun _ => hn) (fun _ h => h) fun z t h => ⟨h.1, ?_⟩
    rcases h.2 with h | ⟨l, ks', e, h⟩
    · exact Or.inl h
    · exact Or.inr ⟨l, ks', e, g, h⟩
  obtain ⟨ht, hz⟩ := hz
  have key : ¬ (z.kind = .Integer ∨ (str = true ∧ z.kind = .String)) := by
    rcases hz with ⟨-, h⟩ | ⟨l, ks', rfl, g, h⟩
    · rw [h]; simp
    · have hl := hn l rfl
      have e : z.kind = kindWith pol g l.1 := h.kind
      rw [e]
      unfold kindWith
      split
      · unfold Pol.newline
        split <;> simp
      · split
        · rename_i h
          rintro (h' | ⟨h', -⟩)
          · cases h'
          · exact (hstr h' l rfl).1 h.1
        · rintro (h' | ⟨h', h''⟩)
          · rw [h'] at hl; cases hl
          · exact (hstr h' l rfl).2 h''
  rw [if_neg key]
  unfold pushClimb
  exact do_pushNode (hQ t ht)

theorem apart_one {a : Lexeme} (h : Apart [a] rest) : ∀ l ∈ rest.head?, joins a.1 l.1 = false := fun l hl => h a rfl l hl

theorem joins_number {a b : TK} (ha : a = .Hash ∨ a = .HashHash ∨ a = .Percent) (h : joins a b = false) : numberKind b = false := by
  cases hb : numberKind b with
  | false => rfl
  | true =>
    unfold numberKind at hb
    split at hb
    all_goals first | (rcases ha with rfl | rfl | rfl <;> cases h; done) | cases hb

theorem atom_parses {x : Lexeme} (hx : atomKind x.1 = true) : ParsesLeaf env g (.atom x) [x] := by
  intro n st G C S y rest Q hG hy hap hQ
  cases n with
  | zero => exact run_zero
  | succ n =>
  obtain ⟨l, ks', e, hi⟩ := hy
  cases e
  have hv := start_visible (k := x.1) (by unfold startKind; rw [hx]; rfl)
  have hc : Shows (.tok y) (Form.atom x).cst := ⟨by show leaf (y.kind, y.text) = leaf x; rw [hi.kind, hi.text], hv.trivia⟩
  show wpP F (parsePrefix env (run env n) y) _ _
  unfold parsePrefix
  rw [hi.kind]
  have hsk := hi.skip hv.eof (st := st)
  have leafCase : wpP F (leafPrefix (run env n) y) ⟨st, G, C, S⟩ Q := by
    unfold leafPrefix
    exact do_pushNext (hQ n _ _ hc hsk.past)
  have hj := apart_one hap
  have underCase : ∀ bop, (∀ b, joins x.1 b = false → b ≠ .Symbol) → wpP F (underPrefix env (run env n) bop y) ⟨st, G, C, S⟩ Q := by
    intro bop hb
    unfold underPrefix
    refine do_under_plain hi hv.eof (fun l hl => hb _ (hj l hl)) fun t ht => ?_
    unfold pushClimb
    exact do_pushNode (hQ n _ _ hc ht.past)
  have slotCase : ∀ pol op str, x.1 = .Hash ∨ x.1 = .HashHash ∨ x.1 = .Percent → (str = true → x.1 = .Hash) →
      wpP F (slotPrefix env (run env n) pol op str y) ⟨st, G, C, S⟩ Q := by
    intro pol op str h1 h2
    refine slot_plain hi hv.eof (fun l hl => joins_number h1 (hj l hl)) (fun hs l hl => ?_) fun t ht => hQ n _ _ hc ht.past
    have := hj l hl
    rw [h2 hs] at this
    constructor <;> (intro e; rw [e] at this; cases this)
  unfold atomKind at hx
  split at hx
  · rename_i h
    rw [h]
    show wpP F (symbolPrefix env (run env n) y) _ _
    unfold symbolPrefix
    refine do_skip (do_peek hsk fun z t hz ht => ?_)
    have hnu : ∀ k, joins .Symbol k = true → k ≠ .EndOfFile ∧ k ≠ .InternalNewline → z.kind ≠ k := by
      intro k hk h2
      refine sees_ne hz h2 fun l hl e => ?_
      have := hj l hl
      rw [h, e, hk] at this
      cases this
    unfold symbolRest
    split
    · rename_i h; exact absurd h (hnu _ rfl (by decide))
    · rename_i h; exact absurd h (hnu _ rfl (by decide))
    · rename_i h; exact absurd h (hnu _ rfl (by decide))
    · rename_i h; exact absurd h (hnu _ rfl (by decide))
    · unfold pushClimb
      exact do_pushNode (hQ n _ _ hc ht.past)
  · rename_i h; rw [h]; exact leafCase
  · rename_i h; rw [h]; exact leafCase
  · rename_i h; rw [h]; exact leafCase
  · rename_i h; rw [h]; exact leafCase
  · rename_i h; rw [h] at underCase ⊢; exact underCase _ (by rintro b h rfl; cases h)
  · rename_i h; rw [h] at underCase ⊢; exact underCase _ (by rintro b h rfl; cases h)
  · rename_i h; rw [h] at underCase ⊢; exact underCase _ (by rintro b h rfl; cases h)
  · rename_i h; rw [h]; exact leafCase
  · rename_i h; rw [h] at slotCase ⊢; exact slotCase _ _ _ (by simp) (by simp)
  · rename_i h; rw [h] at slotCase ⊢; exact slotCase _ _ _ (by simp) (by simp)
  · rename_i h; rw [h] at slotCase ⊢; exact slotCase _ _ _ (by simp) (by simp)
  · rename_i h; rw [h]; exact leafCase
  · cases hx

/-! ### Patterns and slots -/

theorem is_leaf {l : Lexeme} (h : Is y l ks) : plain (.tok y) = leaf l := by
  show leaf (y.kind, y.text) = leaf l
  rw [h.kind, h.text]

theorem plains_leaf' {l : Lexeme} (h : Is y l ks) (hl : Visible l.1) (cs : List Cst) : plains (.tok y :: cs) = leaf l :: plains cs := by
  have : Cst.tok y :: cs = [.tok y] ++ cs := rfl
  rw [this, plains_append, plains_leaf h hl]
  rfl

/-- `#1`, `##1`, `%1` -/
theorem slot_number {pol : Pol} {op : CompoundOp} {str : Bool} {s : Lexeme} {ds : List Char} (hpol : pol.intShort = true)
    (hx : Is x s ((.Integer, bytes ds) :: rest)) (hs : s.1 ≠ .EndOfFile) (hds : ∀ c ∈ ds, isDec c = true)
    (hQ : ∀ t z, Is z (.Integer, bytes ds) rest → At t rest →
      wpP F (run env n .climb) ⟨t, G, C, .node (.compound op) [.tok x, .tok z] :: S⟩ Q) :
    wpP F (slotPrefix env (run env n) pol op str x) ⟨st, G, C, S⟩ Q := by
  unfold slotPrefix
  refine do_skip (do_peekWith (R := fun z _ => Is z (.Integer, bytes ds) rest)
    (fun g => peekShort_at (hx.skip hs (st := st)) hds hpol) fun z t hz => ?_)
  rw [if_pos (Or.inl hz.kind)]
  unfold pushClimb
  exact do_skip (do_pushNode (hQ _ z hz (hz.skip (by simp))))

theorem compound_parses {c : Compound} : ParsesLeaf env g (.compound c) c.lexemes := by
  intro n st G C S y rest Q hG hy hap hQ
  cases n with
  | zero => exact run_zero
  | succ n =>
  obtain ⟨l, ks', e, hi⟩ := hy
  show wpP F (parsePrefix env (run env n) y) _ _
  unfold parsePrefix
  cases c with
  | blank u h op hk hh =>
    obtain ⟨rfl, rfl⟩ := List.cons.inj (e : u :: _ = l :: ks')
    have hv := start_visible (blankOf_start hk)
    have hp : ∃ b', u.1.prefixParselet = .under op b' := by
      unfold blankOf at hk
      split at hk <;> cases hk <;> (rename_i h; rw [h]; exact ⟨_, rfl⟩)
    obtain ⟨b', hp⟩ := hp
    rw [hi.kind, hp]
    show wpP F (underPrefix env (run env n) op y) _ _
    unfold underPrefix
    refine do_under_head hi hv.eof hh fun t z hz ht => ?_
    unfold pushClimb
    refine do_pushNode (hQ n _ _ ⟨?_, rfl⟩ ht.past)
    show Cst.node _ (plains _) = _
    rw [plains_leaf' hi hv, plains_leaf' hz (by rw [hh]; exact visible_iff.mp (by decide))]
    rfl
  | named x u op hk hx =>
    obtain ⟨rfl, rfl⟩ := List.cons.inj (e : x :: _ = l :: ks')
    have hv : Visible x.1 := by rw [hx]; exact visible_iff.mp (by decide)
    rw [hi.kind, hx]
    show wpP F (symbolPrefix env (run env n) y) _ _
    unfold symbolPrefix
    have hi : Is y x (u :: rest) := hi
    refine do_skip (do_peek (hi.skip hv.eof (st := st)) fun z t hz ht => ?_)
    have huv : Visible u.1 := by
      unfold patternOf at hk
      split at hk
      all_goals first | (rename_i h; rw [h]; exact visible_iff.mp (by decide)) | cases hk
    have hz := hz.is huv.newline
    have hj : ∀ l ∈ rest.head?, joins u.1 l.1 = false := fun l hl => hap u rfl l hl
    have hc : ∀ w, Shows (.node (.compound w) [.tok y, .tok z]) (.node (.compound w) [leaf x, leaf u]) := by
      intro w
      refine ⟨?_, rfl⟩
      show Cst.node _ (plains _) = _
      rw [plains_leaf' hi hv, plains_leaf' hz huv]
      rfl
    have key : ∀ bop, (∀ b, joins u.1 b = false → b ≠ .Symbol) → ∀ pbop, pbop = op →
        wpP F (symbolUnder env (run env n) y bop pbop z) ⟨t, G, C, S⟩ Q := by
      rintro bop hb pbop rfl
      unfold symbolUnder
      refine do_under_plain hz huv.eof (fun l hl => hb _ (hj l hl)) fun t ht => ?_
      unfold pushClimb
      exact do_pushNode (hQ n _ _ (hc _) ht.past)
    unfold symbolRest
    rw [hz.kind]
    unfold patternOf at hk
    split at hk <;> first | cases hk | skip
    · rename_i h; rw [h] at key ⊢; exact key _ (by rintro b h rfl; cases h) _ rfl
    · rename_i h; rw [h] at key ⊢; exact key _ (by rintro b h rfl; cases h) _ rfl
    · rename_i h; rw [h] at key ⊢; exact key _ (by rintro b h rfl; cases h) _ rfl
    · rename_i h
      rw [h]
      show wpP F (skipP z >>= fun _ => pushClimb _ _) _ _
      unfold pushClimb
      exact do_skip (do_pushNode (hQ n _ _ (hc _) (hz.skip huv.eof).past))
  | typed x u h op op' hk hk' hx hh =>
    obtain ⟨rfl, rfl⟩ := List.cons.inj (e : x :: _ = l :: ks')
    have hv : Visible x.1 := by rw [hx]; exact visible_iff.mp (by decide)
    have huv := start_visible (blankOf_start hk)
    rw [hi.kind, hx]
    show wpP F (symbolPrefix env (run env n) y) _ _
    unfold symbolPrefix
    have hi : Is y x (u :: h :: rest) := hi
    refine do_skip (do_peek (hi.skip hv.eof (st := st)) fun z t hz ht => ?_)
    have hz := hz.is huv.newline
    have key : wpP F (symbolUnder env (run env n) y op op' z) ⟨t, G, C, S⟩ Q := by
      unfold symbolUnder
      refine do_under_head hz huv.eof hh fun t v hv2 ht => ?_
      unfold pushClimb
      refine do_pushNode (hQ n _ _ ⟨?_, rfl⟩ ht.past)
      show Cst.node _ (plains _) = _
      rw [plains_leaf' hi hv]
      show Cst.node _ (leaf x :: [Cst.node _ (plains _)]) = _
      rw [plains_leaf' hz huv, plains_leaf' hv2 (by rw [hh]; exact visible_iff.mp (by decide))]
      rfl
    unfold symbolRest
    rw [hz.kind]
    unfold blankOf at hk
    unfold patternOf at hk'
    split at hk <;> first | cases hk | skip
    all_goals (rename_i h; rw [h] at hk' ⊢; cases hk'; exact key)
  | slot s m op hk hm hd =>
    obtain ⟨rfl, rfl⟩ := List.cons.inj (e : s :: _ = l :: ks')
    have hv := start_visible (slotOf_start hk)
    obtain ⟨ds, hd1, hd2⟩ := hd
    have e : m = (.Integer, bytes ds) := Prod.ext hm hd1
    subst e
    have hi : Is y s ((.Integer, bytes ds) :: rest) := hi
    rw [hi.kind]
    have fin : ∀ t z, Is z (.Integer, bytes ds) rest → At t rest →
        wpP F (run env n .climb) ⟨t, G, C, .node (.compound op) [.tok y, .tok z] :: S⟩ Q := by
      intro t z hz ht
      refine hQ n _ _ ⟨?_, rfl⟩ ht.past
      show Cst.node _ (plains _) = _
      rw [plains_leaf' hi hv, plains_leaf' hz (visible_iff.mp (show visible _ = true by dsimp only; decide))]
      rfl
    unfold slotOf at hk
    split at hk <;> first | cases hk | skip
    all_goals (rename_i h; rw [h]; exact slot_number rfl hi hv.eof hd2 fin)
  | slotName s m hk hm =>
    obtain ⟨rfl, rfl⟩ := List.cons.inj (e : s :: _ = l :: ks')
    have hv : Visible s.1 := by rw [hk]; exact visible_iff.mp (by decide)
    have hi : Is y s (m :: rest) := hi
    rw [hi.kind, hk]
    show wpP F (slotPrefix env (run env n) Pol.slot .Slot true y) _ _
    unfold slotPrefix
    refine do_skip (do_peekWith (R := fun z _ => Is z (.String, m.2) rest) (fun g => ?_) fun z t hz => ?_)
    · refine wp_mono (peekWith_at (hi.skip hv.eof (st := st)) fun _ l hl => ?_) (fun _ h => h) fun z t h => ?_
      · cases hl
        rcases hm with h | h <;> rw [h] <;> rfl
      · rcases h.2 with ⟨h, -⟩ | ⟨l, ks', e, h⟩
        · cases h
        · cases e
          have hk : kindWith Pol.slot g m.1 = .String := by rcases hm with h | h <;> rw [h] <;> rfl
          rw [hk] at h
          exact h
    rw [if_pos (Or.inr ⟨rfl, hz.kind⟩)]
    unfold pushClimb
    refine do_skip (do_pushNode (hQ n _ _ ⟨?_, rfl⟩ (hz.skip (by simp)).past))
    show Cst.node _ (plains _) = _
    rw [plains_leaf' hi hv, plains_leaf' hz (visible_iff.mp (show visible _ = true by dsimp only; decide))]
    rfl

/-- A token between operands, parsed as a binary operator. -/
theorem run_binary {m p : Nat} {op : BinaryOp} {o : Lexeme} {f : Form} (ho : binaryOf o.1 = some (p, op))
    (hy : Is y o (ws ++ (ks ++ rest))) (hws : Blank true ws) (hf : Writes g f ks)
    (hQ : ∀ t ts z, Tr ts → Reads z (ks ++ rest) →
      wpP F (run env m (.prefix z) >>= fun _ => reduceClimb (run env m) (.binary op)) ⟨t, G, C, (tt ts).reverse ++ .tok y :: S⟩ Q) :
    wpP F (run env (m + 1) (.infix y)) ⟨st, G, C, S⟩ Q := by
  have hv := (binary_behind ho).visible
  show wpP F (parseInfix env (run env m) y) _ _
  unfold parseInfix
  rw [hy.kind]
  have hb : ∀ op', op' = op → wpP F (binaryInfix env (run env m) op' y) ⟨st, G, C, S⟩ Q := by
    rintro op' rfl
    unfold binaryInfix
    exact do_pushNext (do_operand hy hv.eof hws hf hQ)
  unfold binaryOf at ho
  cases hk : o.1.infixParselet <;> rw [hk] at ho <;> simp only [Option.some.injEq, Prod.mk.injEq, reduceCtorEq] at ho
  case equal =>
    obtain ⟨-, rfl⟩ := ho
    show wpP F (equalInfix env (run env m) y) _ _
    unfold equalInfix
    refine do_pushNext ?_
    unfold equalRest
    refine do_eatTrivia (hy.skip hv.eof) hws (solid_first hf) fun ts z t he => ?_
    obtain ⟨h1, h2⟩ := sees_first hf he.sees
    rw [if_neg (by rw [h2]; exact (start_table _ (writes_first hf).2).2.2.2.1)]
    exact hQ t ts z he.trivia h1
  case colonEqual => exact hb _ ho.2
  case binary => exact hb _ ho.2

theorem apart_last {f : Form} {a b w : List Lexeme} {o : Lexeme} (hf : Writes g f ks) (h : Apart (a ++ (b ++ o :: (w ++ ks))) rest) :
    Apart ks rest :=
  Apart.right (a := a ++ (b ++ o :: w)) (by simpa using h) (writes_ne hf)

theorem apart_last1 {f : Form} {w : List Lexeme} {o : Lexeme} (hf : Writes g f ks) (h : Apart (o :: (w ++ ks)) rest) : Apart ks rest :=
  Apart.right (a := o :: w) (by simpa using h) (writes_ne hf)

theorem keptAfter_cons {f f' : Form} {q p : Nat} (h : f'.left = q :: f.left) (hk : f'.KeptAfter p) : f.KeptAfter p ∧ TighterOrRight q p := by
  refine ⟨fun x hx => hk x ?_, hk q ?_⟩ <;> rw [h] <;> simp [*]

theorem binary_parses {l r : Form} {o : Binary} {kl w w' kr : List Lexeme} (hl : Writes g l kl) (hw : Blank g w) (hw' : Blank true w')
    (hr : Writes g r kr) (hlk : l.KeptBefore o.lex.1) (hrk : r.KeptAfter o.prec) (ihl : Parses env g l kl) (ihr : Parses env g r kr) :
    Parses env g (.binary l o r) (kl ++ (w ++ o.lex :: (w' ++ kr))) := by
  intro n st G C S x rest Q hG hx hfit hstop hcol hap hQ
  subst hG
  have hb := binary_behind o.known
  obtain ⟨hfl, hfo⟩ := keptAfter_cons (f := l) (q := o.prec) rfl hfit
  refine ihl n st G C S x (w ++ o.lex :: (w' ++ (kr ++ rest))) Q rfl (by simpa using hx) hfl
    (stops_before hw hb.visible hb.follows hb.high hlk) (hcol.before (fun h => by simp [Form.colon, h]) hw hb.visible hb.notColon)
    (apart_before hw hb.apart) fun m t c hc ht => ?_
  refine climb_go ht hw (visible_solid hb.visible) hb.follows hb.notColon (fun e => absurd e hb.notSpan) (by rw [topPrec_eq, not_greater_iff]; exact hfo)
    fun m t ts y hts hy _ => ?_
  have hy := hy hb.notImplicit
  cases m with
  | zero => exact run_zero
  | succ m =>
  refine run_binary o.known hy hw' hr fun t ts2 z hts2 hz => ?_
  refine wpP_bind ?_
  obtain ⟨⟨q, hq1, hq2⟩, -, hq3⟩ := hstop.kept (.operand o.prec none) (by simp [Form.right])
  have hcr' : Colons ((o.prec, S.length) :: C) r.colon (nextKind (!G.isEmpty) rest) :=
    hcol.operand hb.notPattern (fun h1 h2 => by simp [Form.colon, h1, h2]) hq3
  refine ihr m t G ((o.prec, S.length) :: C) _ z rest _ rfl hz hrk (hstop.sub fun e he => List.mem_cons_of_mem _ he) hcr'
    (apart_last hr hap) fun m' t cr hcr ht => ?_
  refine climb_stop ht hq1 hcr'.opened (fun e => (hstop.sub fun e he => List.mem_cons_of_mem _ he : Stops _ _ _).noSpan hcr e) (by rw [topPrec_eq]; exact greater_iff.mpr hq2) fun t ht => ?_
  unfold reduceClimb
  have e : cr :: ((tt ts2).reverse ++ Cst.tok y :: ((tt ts).reverse ++ c :: S)) =
      (cr :: ((tt ts2).reverse ++ Cst.tok y :: ((tt ts).reverse ++ [c]))) ++ S := by simp
  rw [e]
  refine do_reduceNode (by simp) (hQ _ _ _ ⟨?_, rfl⟩ ht)
  show Cst.node _ (plains _) = Cst.node _ _
  have e2 : (cr :: ((tt ts2).reverse ++ Cst.tok y :: ((tt ts).reverse ++ [c]))).reverse =
      [c] ++ tt ts ++ [.tok y] ++ tt ts2 ++ [cr] := by simp
  rw [e2]
  simp only [plains_append, plains_tt hts, plains_tt hts2, hc.one, hcr.one, plains_leaf hy hb.visible]
  simp

theorem prefix_parses {f : Form} {o : Prefix} {w kf : List Lexeme} (hw : Blank true w) (hf : Writes g f kf) (hfk : f.KeptAfter o.prec)
    (ih : Parses env g f kf) : Parses env g (.prefix o f) (o.lex :: (w ++ kf)) := by
  intro n st G C S x rest Q hG hx hfit hstop hcol hap hQ
  subst hG
  cases n with
  | zero => exact run_zero
  | succ n =>
  obtain ⟨l, ks', e, hi⟩ := hx
  cases e
  have hi : Is x o.lex (w ++ (kf ++ rest)) := by simpa using hi
  have hv := start_visible (k := o.lex.1) (by unfold startKind; rw [o.known]; simp)
  show wpP F (parsePrefix env (run env n) x) _ _
  unfold parsePrefix
  rw [hi.kind]
  have hpre : o.lex.1.prefixParselet = .op o.prec o.op := by
    have := o.known
    unfold prefixOf at this
    split at this
    · cases this
    · cases this
    · rename_i hk _ _; cases this; assumption
    · cases this
  rw [hpre]
  show wpP F (opPrefix env (run env n) o.prec o.op x) _ _
  unfold opPrefix
  refine do_pushNext (do_pushContext ?_)
  refine do_operand hi hv.eof hw hf fun t ts z hts hz => ?_
  refine wpP_bind ?_
  obtain ⟨⟨q, hq1, hq2⟩, -, hq3⟩ := hstop.kept (.operand o.prec none) (by simp [Form.right])
  have hnp : o.prec ≠ Prec.FAKE_PATTERNCOLON := by
    have := prefix_table' o.lex.1
    rw [o.known] at this
    simp at this
    exact this.2
  have hcr' : Colons ((o.prec, S.length) :: C) f.colon (nextKind (!G.isEmpty) rest) :=
    hcol.operand hnp (fun h1 h2 => by simp [Form.colon, h1, h2]) hq3
  refine ih n t G ((o.prec, S.length) :: C) _ z rest _ rfl hz hfk (hstop.sub fun e he => List.mem_cons_of_mem _ he) hcr'
    (apart_last1 hf hap) fun m' t cr hcr ht => ?_
  refine climb_stop ht hq1 hcr'.opened (fun e => (hstop.sub fun e he => List.mem_cons_of_mem _ he : Stops _ _ _).noSpan hcr e) (by rw [topPrec_eq]; exact greater_iff.mpr hq2) fun t ht => ?_
  unfold reduceClimb
  have e : cr :: ((tt ts).reverse ++ Cst.tok x :: S) = (cr :: ((tt ts).reverse ++ [Cst.tok x])) ++ S := by simp
  rw [e]
  refine do_reduceNode (by simp) (hQ _ _ _ ⟨?_, rfl⟩ ht)
  show Cst.node _ (plains _) = Cst.node _ _
  have e2 : (cr :: ((tt ts).reverse ++ [Cst.tok x])).reverse = [.tok x] ++ tt ts ++ [cr] := by simp
  rw [e2]
  simp only [plains_append, plains_tt hts, hcr.one, plains_leaf hi hv]
  simp

theorem postfix_parses {f : Form} {o : Postfix} {w kf : List Lexeme} (hw : Blank g w) (hfk : f.KeptBefore o.lex.1)
    (ih : Parses env g f kf) : Parses env g (.postfix f o) (kf ++ (w ++ [o.lex])) := by
  intro n st G C S x rest Q hG hx hfit hstop hcol hap hQ
  subst hG
  have hb := postfix_behind o.known
  obtain ⟨hfl, hfo⟩ := keptAfter_cons (f := f) (q := o.prec) rfl hfit
  refine ih n st G C S x (w ++ o.lex :: rest) Q rfl (by simpa using hx) hfl
    (stops_before hw hb.visible hb.follows hb.high hfk) (hcol.before (fun h => by simp [Form.colon, h]) hw hb.visible hb.notColon)
    (apart_before hw hb.apart) fun m t c hc ht => ?_
  refine climb_go ht hw (visible_solid hb.visible) hb.follows hb.notColon (fun e => absurd e hb.notSpan) (by rw [topPrec_eq, not_greater_iff]; exact hfo)
    fun m t ts y hts hy _ => ?_
  have hy := hy hb.notImplicit
  cases m with
  | zero => exact run_zero
  | succ m =>
  show wpP F (parseInfix env (run env m) y) _ _
  unfold parseInfix
  have hpo : y.kind.infixParselet = .postfix o.prec o.op := by
    rw [hy.kind]
    have := o.known
    unfold postfixOf at this
    cases hk : o.lex.1.infixParselet <;> rw [hk] at this <;> simp_all
  rw [hpo]
  show wpP F (postfixInfix (run env m) o.op y) _ _
  unfold postfixInfix
  refine do_pushNext ?_
  unfold reduceClimb
  have e : Cst.tok y :: ((tt ts).reverse ++ c :: S) = (Cst.tok y :: ((tt ts).reverse ++ [c])) ++ S := by simp
  rw [e]
  refine do_reduceNode (by simp) (hQ _ _ _ ⟨?_, rfl⟩ (hy.skip hb.visible.eof).past)
  show Cst.node _ (plains _) = Cst.node _ _
  have e2 : (Cst.tok y :: ((tt ts).reverse ++ [c])).reverse = [c] ++ tt ts ++ [.tok y] := by simp
  rw [e2]
  simp only [plains_append, plains_tt hts, hc.one, plains_leaf hy hb.visible]
  simp

/-! ### Sequences -/

theorem rest_ne {t : Tail} {kt : List Lexeme} (h : Rest g t kt) : kt ≠ [] := by
  cases h with
  | last _ h => have := writes_ne h; simp [this]
  | more _ h _ _ => have := writes_ne h; simp [this]

/-- An operand of a sequence, behind its operator, and then the rest of the sequence. -/
theorem operand_loop {m p : Nat} {op : InfixOp} {f : Form} {o : Lexeme} {k' w kf : List Lexeme} {A : List Cst} {q : Nat} (hG : (!G.isEmpty) = g)
    (hy : Is y o (w ++ (kf ++ k'))) (ho : infixOf o.1 = some (p, op))
    (hw : Blank true w) (hf : Writes g f kf) (hfk : f.KeptAfter p) (hstop : Stops g f.right k')
    (hcol : Colons ((p, S.length) :: C) f.colon (nextKind g k')) (hap : Apart kf k')
    (hq : follows (nextKind g k') = some q) (hp : TighterOrLeft p q) (ih : Parses env g f kf)
    (hQ : ∀ m' t A', A' ≠ [] → plains A'.reverse = plains A.reverse ++ [leaf o, f.cst] →
      (∃ c, (A' ++ S).find? (fun c => !c.isTrivia) = some c) → (nextKind g k' = .SemiSemi → NoSpan (A' ++ S)) → Past g t k' →
      wpP F (run env m' (loopJob op)) ⟨t, G, (p, S.length) :: C, A' ++ S⟩ Q) :
    wpP F (operand env (run env m) >>= fun _ => run env m (loopJob op))
      ⟨y.skipSt st, G, (p, S.length) :: C, .tok y :: (A ++ S)⟩ Q := by
  subst hG
  have hv := (infix_behind ho).1.visible
  refine do_operand hy hv.eof hw hf fun t ts z hts hz => ?_
  refine wpP_bind ?_
  refine ih m t G ((p, S.length) :: C) _ z k' _ rfl hz hfk hstop hcol hap fun m' t cr hcr ht => ?_
  refine climb_stop ht hq hcol.opened (fun e => hstop.noSpan hcr e) (by rw [topPrec_eq]; exact greater_iff.mpr hp) fun t ht => ?_
  have e : cr :: ((tt ts).reverse ++ Cst.tok y :: (A ++ S)) = (cr :: ((tt ts).reverse ++ Cst.tok y :: A)) ++ S := by simp
  rw [e]
  refine hQ _ _ _ (by simp) ?_ ⟨cr, hcr.first⟩ (fun e => hstop.noSpan hcr e) ht
  have e2 : (cr :: ((tt ts).reverse ++ Cst.tok y :: A)).reverse = A.reverse ++ [.tok y] ++ tt ts ++ [cr] := by simp
  rw [e2]
  simp only [plains_append, plains_tt hts, hcr.one, plains_leaf hy hv]
  simp

theorem sep_blank {sep : List Lexeme} {o : Lexeme} {l : Lexeme} (hs : Sep g o sep) :
    ∃ w, Blank g w ∧ ((o ≠ implicitTimes ∧ ∃ tl, sep ++ l :: ks = w ++ o :: tl) ∨ (o = implicitTimes ∧ sep ++ l :: ks = w ++ l :: ks)) := by
  cases hs with
  | @shown _ w w' hne hw hw' => exact ⟨w, hw, Or.inl ⟨hne, w' ++ l :: ks, by simp⟩⟩
  | silent hw => exact ⟨_, hw, Or.inr ⟨rfl, rfl⟩⟩

/-- The first lexeme of what follows the operand of a sequence. -/
theorem next_tail {t : Tail} {op : InfixOp} {p : Nat} {kt : List Lexeme} (h : Rest g t kt) (ht : t.Grouped op p) :
    ∃ w tl l, Blank g w ∧ kt ++ rest = w ++ l :: tl ∧ l.1 = t.next ∧ Visible l.1 ∧ follows l.1 = some p ∧ p < 189 ∧ l.1 ≠ .Colon := by
  have key : ∀ {o : Lexeme} {f : Form} {sep kf k : List Lexeme}, Sep g o sep → Writes g f kf → infixOf o.1 = some (p, op) →
      (o = implicitTimes → f.first.1.infixParselet = .implicitTimes) →
      ∃ w tl l, Blank g w ∧ sep ++ (kf ++ k) = w ++ l :: tl ∧ l.1 = (if o = implicitTimes then f.first.1 else o.1) ∧
        Visible l.1 ∧ follows l.1 = some p ∧ p < 189 ∧ l.1 ≠ .Colon := by
    intro o f sep kf k hs hf ho hi
    have hb := (infix_behind ho).1
    obtain ⟨⟨tl, rfl⟩, hstart⟩ := writes_first hf
    obtain ⟨w, hw, ⟨hne, tl', e⟩ | ⟨he, e⟩⟩ := sep_blank (ks := tl ++ k) (l := f.first) hs
    · exact ⟨w, tl', o, hw, by rw [List.cons_append, e], by rw [if_neg hne], hb.visible, hb.follows, hb.high, hb.notColon⟩
    · refine ⟨w, tl ++ k, f.first, hw, by rw [List.cons_append, e], by rw [if_pos he], start_visible hstart, ?_, hb.high, (start_table _ hstart).2.2.2.2.2⟩
      have hi := hi he
      rw [he] at ho
      have : infixOf implicitTimes.1 = some (Prec.STAR, .Times) := rfl
      rw [this] at ho
      cases ho
      unfold follows; rw [hi]
  cases h with
  | @last _ o f ks kf hs hf =>
    obtain ⟨h1, h2, -, -⟩ := ht
    obtain ⟨w, tl, l, a, b, c⟩ := key (k := rest) hs hf h1 h2
    exact ⟨w, tl, l, a, by rw [← b]; simp, c⟩
  | @more _ o f t ks kf kt hs hf hr =>
    obtain ⟨h1, h2, -, -⟩ := ht
    obtain ⟨w, tl, l, a, b, c⟩ := key (k := kt ++ rest) hs hf h1 h2
    exact ⟨w, tl, l, a, by rw [← b]; simp, c⟩

theorem loop_tail {op : InfixOp} {p : Nat} {t : Tail} {kt : List Lexeme} {A : List Cst} (h : ParsesTail env g op p t kt)
    (hG : (!G.isEmpty) = g) (hst : Past g st (kt ++ rest)) (hstop : Stops g (.operand p (some op) :: t.right) rest)
    (hcol : Colons ((p, S.length) :: C) t.colon (nextKind g rest)) (hap : Apart kt rest)
    (hQ : ∀ m u A', A' ≠ [] → plains A'.reverse = plains A.reverse ++ t.csts → Past g u rest →
      wpP F (reduceClimb (run env m) (.infix op)) ⟨u, G, (p, S.length) :: C, A' ++ S⟩ Q) :
    wpP F (run env n (loopJob op)) ⟨st, G, (p, S.length) :: C, A ++ S⟩ Q := by
  cases n with
  | zero => exact run_zero
  | succ n =>
  obtain ⟨o, sep, l, kl, rfl, h1, h2, h3, h4, h5⟩ := h
  subst hG
  refine sep_loop (ks := kl ++ rest) (by simpa using hst) h1 h2 h3 h4 fun t ts y w hts hw hy => ?_
  have e : (tt ts).reverse ++ (A ++ S) = ((tt ts).reverse ++ A) ++ S := by simp
  rw [e]
  refine h5 n t G C S _ y w rest Q rfl hw hy hstop hcol (Apart.right hap (by simp)) fun m u A' hA' he hu => hQ m u A' hA' ?_ hu
  rw [he]
  simp [plains_append, plains_tt hts]

theorem last_parses {op : InfixOp} {p : Nat} {o : Lexeme} {f : Form} {sep kf : List Lexeme} (hs : Sep g o sep) (hf : Writes g f kf)
    (ho : infixOf o.1 = some (p, op)) (hi : o = implicitTimes → f.first.1.infixParselet = .implicitTimes) (hfk : f.KeptAfter p)
    (ih : Parses env g f kf) : ParsesTail env g op p (.last o f) (sep ++ kf) := by
  obtain ⟨⟨tl, rfl⟩, hstart⟩ := writes_first hf
  refine ⟨o, sep, f.first, tl, rfl, hs, hstart, ho, hi, ?_⟩
  intro m st G C S A y w rest Q hG hw hy hstop hcol hap hQ
  obtain ⟨⟨q, hq1, hq2⟩, -⟩ := hstop.kept (.operand p (some op)) (by simp)
  refine operand_loop hG (k' := rest) (by simpa using hy) ho hw hf hfk (hstop.sub fun e he => List.mem_cons_of_mem _ he) hcol hap hq1 hq2 ih ?_
  intro m' t A' hA' he hS hsp ht
  cases m' with
  | zero => exact run_zero
  | succ m' =>
  subst hG
  exact loop_end ht hstop List.mem_cons_self (infix_behind ho).2.2.1 hS hsp fun t ht => hQ m' t A' hA' he ht

theorem more_parses {op : InfixOp} {p : Nat} {o : Lexeme} {f : Form} {t : Tail} {sep kf kt : List Lexeme} (hs : Sep g o sep) (hf : Writes g f kf)
    (hr : Rest g t kt) (hkk : Apart kf kt) (ho : infixOf o.1 = some (p, op)) (hi : o = implicitTimes → f.first.1.infixParselet = .implicitTimes)
    (hfk : f.KeptAfter p) (hfb : f.KeptBefore t.next) (ht : t.Grouped op p)
    (ih : Parses env g f kf) (iht : ParsesTail env g op p t kt) : ParsesTail env g op p (.more o f t) (sep ++ (kf ++ kt)) := by
  obtain ⟨⟨tl, rfl⟩, hstart⟩ := writes_first hf
  refine ⟨o, sep, f.first, tl ++ kt, by simp, hs, hstart, ho, hi, ?_⟩
  intro m st G C S A y w rest Q hG hw hy hstop hcol hap hQ
  obtain ⟨w2, tl2, l2, hw2, e2, hn, hv, hfo, hp, hnc⟩ := next_tail (rest := rest) hr ht
  have hb := infix_behind ho
  have hst2 : Stops g f.right (kt ++ rest) := by
    rw [e2]
    exact stops_before hw2 hv hfo hp (by rw [hn]; exact hfb)
  have hnk : nextKind g (kt ++ rest) = l2.1 := by
    rw [e2, nextKind_blank hw2, nextKind_solid (solid_mono (visible_solid hv))]
  refine operand_loop hG (k' := kt ++ rest) (by simpa using hy) ho hw hf hfk hst2
    (hcol.left (fun h => by simp [Tail.colon, h]) (by rw [hnk]; exact hnc)) (Apart.more hkk (rest_ne hr)) (by rw [hnk]; exact hfo)
    (Or.inr ⟨rfl, hb.2.1⟩) ih ?_
  intro m' u A' hA' he _ _ hu
  refine loop_tail iht hG hu hstop ⟨fun h => hcol.closed (by simp [Tail.colon, h]), hcol.opened⟩ (Apart.right (a := f.first :: tl) hap (rest_ne hr)) fun m u A'' hA'' he'' hu => hQ m u A'' hA'' ?_ hu
  rw [he'', he]
  show _ = _ ++ (leaf o :: f.cst :: t.csts)
  simp

theorem chain_parses {op : InfixOp} {p : Nat} {f : Form} {t : Tail} {kf kt : List Lexeme} (hr : Rest g t kt) (hkk : Apart kf kt)
    (hfb : f.KeptBefore t.next) (ht : t.Grouped op p) (ihf : Parses env g f kf) (iht : ParsesTail env g op p t kt) :
    Parses env g (.chain op p f t) (kf ++ kt) := by
  intro n st G C S x rest Q hG hx hfit hstop hcol hap hQ
  subst hG
  obtain ⟨w2, tl2, l2, hw2, e2, hn, hv, hfo, hp, hnc⟩ := next_tail (rest := rest) hr ht
  obtain ⟨hfl, hfop⟩ := keptAfter_cons (f := f) (q := p) rfl hfit
  refine ihf n st G C S x (kt ++ rest) Q rfl (by simpa using hx) hfl ?_ ?_ (Apart.more hkk (rest_ne hr)) fun m u c hc hu => ?_
  · rw [e2]
    exact stops_before hw2 hv hfo hp (by rw [hn]; exact hfb)
  · rw [e2]
    exact hcol.before (fun h => by simp [Form.colon, h]) hw2 hv hnc
  obtain ⟨o, sep, l, kl, rfl, h1, h2, h3, h4, h5⟩ := iht
  refine sep_climb (ks := kl ++ rest) (by simpa using hu) h1 h2 h3 h4 (not_greater_iff.mpr hfop) fun m t' ts y w hts hw hy => ?_
  cases m with
  | zero => exact run_zero
  | succ m =>
  refine run_infix (by rw [hy.kind]; exact h3) ?_
  have e : (tt ts).reverse ++ c :: S = ((tt ts).reverse ++ [c]) ++ S := by simp
  rw [e]
  refine h5 m t' G C S _ y w rest Q rfl hw hy hstop
    (hcol.operand (infix_behind h3).1.notPattern (fun h1 h2 => by simp [Form.colon, h1, h2])
      (hstop.kept (.operand p (some op)) (by simp [Form.right])).2.2) (Apart.right (a := kf ++ sep) (by simpa using hap) (by simp)) fun m' u A' hA' he hu => ?_
  unfold reduceClimb
  refine do_reduceNode hA' (hQ _ _ _ ⟨?_, rfl⟩ hu)
  show Cst.node _ (plains _) = Cst.node _ (f.cst :: t.csts)
  rw [he]
  simp [plains_then hc hts]

/-! ### Brackets -/

mutual
theorem left_low : ∀ {f : Form}, f.Grouped → ∀ q ∈ f.left, 3 ≤ q
  | .atom _, _, _, hq => by simp [Form.left] at hq
  | .compound _, _, _, hq => by simp [Form.left] at hq
  | .group _ _, _, _, hq => by simp [Form.left] at hq
  | .prefix _ _, _, _, hq => by simp [Form.left] at hq
  | .call f o b, h, q, hq => by
    rcases List.mem_cons.mp (by simpa [Form.left] using hq) with rfl | hq
    · decide
    · exact left_low h.1 q hq
  | .binary l o r, h, q, hq => by
    rcases List.mem_cons.mp (by simpa [Form.left] using hq) with rfl | hq
    · exact (binary_behind o.known).low
    · exact left_low h.1 q hq
  | .chain op p f t, h, q, hq => by
    rcases List.mem_cons.mp (by simpa [Form.left] using hq) with rfl | hq
    · cases t with
      | last o f' => exact (infix_behind h.2.2.1).1.low
      | more o f' t => exact (infix_behind h.2.2.1).1.low
    · exact left_low h.1 q hq
  | .postfix f o, h, q, hq => by
    rcases List.mem_cons.mp (by simpa [Form.left] using hq) with rfl | hq
    · exact (postfix_behind o.known).low
    · exact left_low h.1 q hq
  | .semi f t, h, q, hq => by
    rcases List.mem_cons.mp (by simpa [Form.left] using hq) with rfl | hq
    · decide
    · exact left_low h.1 q hq
  | .ternary l o m r, h, q, hq => by
    rcases List.mem_cons.mp (by simpa [Form.left] using hq) with rfl | hq
    · exact (ternary_behind o.known).1.low
    · exact left_low h.1 q hq
  | .unset f e d, h, q, hq => by
    rcases List.mem_cons.mp (by simpa [Form.left] using hq) with rfl | hq
    · decide
    · exact left_low h.1 q hq
  | .tagUnset l o m e d, h, q, hq => by
    rcases List.mem_cons.mp (by simpa [Form.left] using hq) with rfl | hq
    · decide
    · exact left_low h.1 q hq
  | .pattern x o r, _, q, hq => by
    have : q = Prec.HIGHEST := by simpa [Form.left] using hq
    subst this; decide
  | .optional l o r, h, q, hq => by
    rcases List.mem_cons.mp (by simpa [Form.left] using hq) with rfl | hq
    · decide
    · exact left_low h.2.1 q hq
  | .span l o e, h, q, hq => by
    rcases List.mem_cons.mp (by simpa [Form.left] using hq) with rfl | hq
    · decide
    · exact left_low h.1 q hq
  | .spanFrom _ _, _, _, hq => by simp [Form.left] at hq
end

/-- The precedence of an operator is above that of commas. -/
def High : Edge → Prop
  | .operand p _ => 3 ≤ p
  | _ => True

mutual
theorem right_low : ∀ {f : Form}, f.Grouped → ∀ e ∈ f.right, High e
  | .atom _, _, _, hq => by simp [Form.right] at hq
  | .compound _, _, _, hq => by simp [Form.right] at hq
  | .group _ _, _, _, hq => by simp [Form.right] at hq
  | .call _ _ _, _, _, hq => by simp [Form.right] at hq
  | .postfix _ _, _, _, hq => by simp [Form.right] at hq
  | .unset _ _ _, _, _, hq => by simp [Form.right] at hq
  | .tagUnset _ _ _ _ _, _, _, hq => by simp [Form.right] at hq
  | .binary l o r, h, q, hq => by
    rcases List.mem_cons.mp (by simpa [Form.right] using hq) with rfl | hq
    · exact (binary_behind o.known).low
    · exact right_low h.2.2.1 q hq
  | .prefix o f, h, q, hq => by
    rcases List.mem_cons.mp (by simpa [Form.right] using hq) with rfl | hq
    · have := prefix_table' o.lex.1
      rw [o.known] at this
      simp at this
      exact this.1.1
    · exact right_low h.1 q hq
  | .chain op p f t, h, q, hq => by
    rcases List.mem_cons.mp (by simpa [Form.right] using hq) with rfl | hq
    · cases t with
      | last o f' => exact (infix_behind h.2.2.1).1.low
      | more o f' t => exact (infix_behind h.2.2.1).1.low
    · exact tail_low h.2.2 q hq
  | .semi f t, h, q, hq => semis_low h.2.2 q (by simpa [Form.right] using hq)
  | .ternary l o m r, h, q, hq => by
    rcases List.mem_cons.mp (by simpa [Form.right] using hq) with rfl | hq
    · exact (ternary_behind o.known).2.1.low
    · exact right_low h.2.2.2.2.2.1 q hq
  | .pattern x o r, h, q, hq => by
    rcases List.mem_cons.mp (by simpa [Form.right] using hq) with rfl | hq
    · show 3 ≤ Prec.FAKE_PATTERNCOLON; decide
    · exact right_low h.1 q hq
  | .optional l o r, h, q, hq => by
    rcases List.mem_cons.mp (by simpa [Form.right] using hq) with rfl | hq
    · show 3 ≤ Prec.FAKE_OPTIONALCOLON; decide
    · exact right_low h.2.2.2.1 q hq
  | .span l o e, h, q, hq => reach_low h.2.2 q (by simpa [Form.right] using hq)
  | .spanFrom o e, h, q, hq => reach_low (e := e) h q (by simpa [Form.right] using hq)
theorem reach_low : ∀ {e : Reach}, e.Grouped → ∀ d ∈ e.right, High d
  | .all, _, q, hq => by
    have : q = .spanOpen := by simpa [Reach.right] using hq
    subst this; trivial
  | .to f, h, q, hq => by
    rcases List.mem_cons.mp hq with rfl | hq
    · trivial
    rcases List.mem_cons.mp hq with rfl | hq
    · show 3 ≤ Prec.SEMISEMI; decide
    · exact right_low h.2.1 q hq
  | .step f o f', h, q, hq => by
    rcases List.mem_cons.mp hq with rfl | hq
    · trivial
    rcases List.mem_cons.mp hq with rfl | hq
    · show 3 ≤ Prec.SEMISEMI; decide
    · exact right_low h.2.2.2.2.2.1 q hq
  | .allStep o f, h, q, hq => by
    rcases List.mem_cons.mp hq with rfl | hq
    · trivial
    rcases List.mem_cons.mp hq with rfl | hq
    · show 3 ≤ Prec.SEMISEMI; decide
    · exact right_low h.2.1 q hq
theorem tail_low {op : InfixOp} {p : Nat} : ∀ {t : Tail}, t.Grouped op p → ∀ e ∈ t.right, High e
  | .last o f, h, q, hq => right_low h.2.2.1 q hq
  | .more o f t, h, q, hq => tail_low h.2.2.2.2.2 q hq
theorem semis_low : ∀ {t : Semis}, t.Grouped → ∀ e ∈ t.right, High e
  | .stop _, _, q, hq => by
    have : q = .semi := by simpa [Semis.right] using hq
    subst this; trivial
  | .last o f, h, q, hq => by
    rcases List.mem_cons.mp (by simpa [Semis.right] using hq) with rfl | hq
    · show 3 ≤ Prec.SEMI; decide
    · exact right_low h.2.1 q hq
  | .skip o t, h, q, hq => semis_low (t := t) h q (by simpa [Semis.right] using hq)
  | .more o f t, h, q, hq => semis_low h.2.2.2.2 q (by simpa [Semis.right] using hq)
end

theorem kept_low {f : Form} (h : f.Grouped) {p : Nat} (hp : p < 3) : f.KeptAfter p :=
  fun q hq => Or.inl (Nat.lt_of_lt_of_le hp (left_low h q hq))

theorem before_low {f : Form} (h : f.Grouped) {k : TK} {p : Nat} (hk : follows k = some p) (hp : p < 3) (hc : continues k = none)
    (hb : k ≠ .Semi ∧ k.isPossibleBeginning = false) (hn : k ≠ .Colon) : f.KeptBefore k := by
  intro e he
  cases e with
  | operand q a => exact ⟨⟨p, hk, Or.inl (Nat.lt_of_lt_of_le hp (right_low h _ he))⟩, fun op _ => by rw [hc]; simp, fun e => absurd e hn⟩
  | semi => exact hb
  | span => exact fun h => by rw [h] at hb; exact absurd hb.2 (by decide)
  | spanOpen => exact hb.2

theorem closer_visible {c : Lexeme} (h : c.1.isCloser = true) : Visible c.1 := visible_iff.mp (closer_table _ h).1

theorem stops_closer {f : Form} (h : f.Grouped) {w : List Lexeme} {c : Lexeme} (hw : Blank true w) (hc : c.1.isCloser = true) :
    Stops true f.right (w ++ c :: rest) := by
  obtain ⟨-, h2, h3, -, -, -, -, h4, h5⟩ := closer_table _ hc
  exact stops_before hw (closer_visible hc) h2 (by decide) (before_low h h2 (by decide) h3 h4 h5)

theorem stops_comma {f : Form} (h : f.Grouped) {w : List Lexeme} {c : Lexeme} (hw : Blank true w) (hc : c.1 = .Comma) :
    Stops true f.right (w ++ c :: rest) := by
  obtain ⟨h1, h2, h3, -, h4⟩ := comma_table
  exact stops_before hw (by rw [hc]; exact visible_iff.mp h1) (by rw [hc]; exact h2) (by decide)
    (by rw [hc]; exact before_low h h2 (by decide) h3 h4 (by decide))

theorem next_at {w : List Lexeme} {c : Lexeme} (hw : Blank true w) (hc : Visible c.1) : nextKind true (w ++ c :: rest) = c.1 := by
  rw [nextKind_blank hw, nextKind_solid (visible_solid hc)]

/-- An expression behind a comma, and what follows it. -/
theorem comma_operand {m : Nat} {f : Form} {o : Lexeme} {k' w kf : List Lexeme} {A : List Cst} (hG : (!G.isEmpty) = true)
    (hy : Is y o (w ++ (kf ++ k'))) (ho : o.1 = .Comma)
    (hw : Blank true w) (hf : Writes true f kf) (hfg : f.Grouped) (hstop : Stops true f.right k') (hap : Apart kf k')
    {q : Nat} (hq : follows (nextKind true k') = some q) (hq3 : q ≤ 2) (hnc : nextKind true k' ≠ .Colon) (ih : Parses env true f kf)
    (hQ : ∀ m' t A', A' ≠ [] → plains A'.reverse = plains A.reverse ++ [leaf o, f.cst] → Past true t k' →
      wpP F (run env m' .commaLoop) ⟨t, G, (Prec.COMMA, S.length) :: C, A' ++ S⟩ Q) :
    wpP F (commaOperand env (run env m) >>= fun _ => run env m .commaLoop)
      ⟨y.skipSt st, G, (Prec.COMMA, S.length) :: C, .tok y :: (A ++ S)⟩ Q := by
  have hv : Visible o.1 := by rw [ho]; exact visible_iff.mp comma_table.1
  refine wpP_bind ?_
  unfold commaOperand
  refine do_eatTrivia (hy.skip hv.eof) hw (solid_first hf) fun ts z t he => ?_
  obtain ⟨h1, h2⟩ := sees_first hf he.sees
  rw [if_neg (by rw [h2, (start_table _ (writes_first hf).2).2.2.1]; decide)]
  refine ih m t G ((Prec.COMMA, S.length) :: C) _ z k' _ hG h1 (kept_low hfg (show (2 : Nat) < 3 by decide)) hstop
    (.zero (by decide) hnc) hap fun m' t cr hcr ht => ?_
  refine climb_stop (by rw [hG]; exact ht) (by rw [hG]; exact hq) (fun h => absurd (by rw [hG] at h; exact h) hnc) (fun e => hstop.noSpan hcr (by rw [hG] at e; exact e)) (by rw [topPrec_eq]; refine greater_iff.mpr ?_; show TighterOrLeft 2 q; unfold TighterOrLeft; omega) fun t ht => ?_
  rw [hG] at ht
  have e : cr :: ((tt ts).reverse ++ Cst.tok y :: (A ++ S)) = (cr :: ((tt ts).reverse ++ Cst.tok y :: A)) ++ S := by simp
  rw [e]
  refine hQ _ _ _ (by simp) ?_ ht
  have e2 : (cr :: ((tt ts).reverse ++ Cst.tok y :: A)).reverse = A.reverse ++ [.tok y] ++ tt ts ++ [cr] := by simp
  rw [e2]
  simp only [plains_append, plains_tt he.trivia, hcr.one, plains_leaf hy hv]
  simp

theorem sep_comma {o : Lexeme} {sep : List Lexeme} (h : Sep true o sep) (ho : o.1 = .Comma) :
    ∃ w w', Blank true w ∧ Blank true w' ∧ sep = w ++ o :: w' := by
  cases h with
  | @shown _ w w' _ h1 h2 => exact ⟨w, w', h1, h2, rfl⟩
  | silent => cases ho

/-- The closing bracket behind the commas. -/
theorem comma_end {m : Nat} {w : List Lexeme} {c : Lexeme} {A : List Cst} (hc : c.1.isCloser = true) (hw : Blank true w)
    (ht : Past true st (w ++ c :: rest))
    (hQ : ∀ u, Past true u (w ++ c :: rest) → wpP F (reduceNode (.infix .CodeParser_Comma)) ⟨u, G, C, A⟩ Q) :
    wpP F (run env m .commaLoop) ⟨st, G, C, A⟩ Q := by
  cases m with
  | zero => exact run_zero
  | succ m =>
  have hcv := closer_visible hc
  show wpP F (commaLoop env (run env m)) _ _
  unfold commaLoop
  obtain ⟨v, w, rfl, ht'⟩ := ht.split (visible_solid hcv)
  refine do_current ht' hw.suffix (visible_solid hcv) fun ts x u hx => ?_
  have hi := hx.sees.is hcv.newline
  show wpP F (if x.kind.isComma = true then _ else _) _ _
  rw [if_neg (by rw [hi.kind, (closer_table _ hc).2.2.2.2.2.1]; decide)]
  exact do_triviaReset hx.at'.eof hx.back ht' fun u hu => hQ u ⟨v, w ++ c :: rest, by simp, fun x hx => hw x (by simp [hx]), hu⟩

/-- The next comma. -/
theorem comma_next {m : Nat} {cs : List Cst} {kt w : List Lexeme} {c : Lexeme} {A : List Cst} (h : ParsesCommas env cs kt)
    (hG : (!G.isEmpty) = true) (hw : Blank true w) (hc : c.1.isCloser = true) (hst : Past true st (kt ++ (w ++ c :: rest)))
    (hQ : ∀ u A', A' ≠ [] → plains A'.reverse = plains A.reverse ++ cs → Past true u (w ++ c :: rest) →
        wpP F (reduceNode (.infix .CodeParser_Comma)) ⟨u, G, (Prec.COMMA, S.length) :: C, A' ++ S⟩ Q) :
    wpP F (run env m .commaLoop) ⟨st, G, (Prec.COMMA, S.length) :: C, A ++ S⟩ Q := by
  obtain ⟨w3, o3, kl, rfl, hw3, ho3, h5⟩ := h
  have hv : Visible o3.1 := by rw [ho3]; exact visible_iff.mp comma_table.1
  cases m with
  | zero => exact run_zero
  | succ m =>
  show wpP F (commaLoop env (run env m)) _ _
  unfold commaLoop
  have hst : Past true st (w3 ++ o3 :: (kl ++ (w ++ c :: rest))) := by simpa using hst
  obtain ⟨v, w3, rfl, hu'⟩ := hst.split (visible_solid hv)
  refine do_current hu' hw3.suffix (visible_solid hv) fun ts x u hx => ?_
  have hi := hx.sees.is hv.newline
  show wpP F (if x.kind.isComma = true then _ else _) _ _
  rw [if_pos (by rw [hi.kind, ho3]; rfl)]
  refine do_commitNext ?_
  have e : (tt ts).reverse ++ (A ++ S) = ((tt ts).reverse ++ A) ++ S := by simp
  rw [e]
  refine h5 m u G C S _ x w c rest Q hG hw hc hi fun u A'' hA'' he'' hu => hQ u A'' hA'' ?_ hu
  rw [he'']
  simp [plains_append, plains_tt hx.trivia]

/-- The lexemes of commas begin with a comma. -/
theorem ParsesCommas.next {cs : List Cst} {kt : List Lexeme} (h : ParsesCommas env cs kt) :
    ∃ w o tl, kt = w ++ o :: tl ∧ Blank true w ∧ o.1 = .Comma ∧ Visible o.1 := by
  obtain ⟨w3, o3, kl, rfl, hw3, ho3, -⟩ := h
  exact ⟨w3, o3, kl, rfl, hw3, ho3, by rw [ho3]; exact visible_iff.mp comma_table.1⟩

theorem lastComma_parses {o : Lexeme} {f : Form} {w w2 kf : List Lexeme} (hw : Blank true w) (hw2 : Blank true w2) (hf : Writes true f kf)
    (ho : o.1 = .Comma) (hfg : f.Grouped) (ih : Parses env true f kf) :
    ParsesCommas env [leaf o, f.cst] (w ++ o :: (w2 ++ kf)) := by
  refine ⟨w, o, w2 ++ kf, by simp, hw, ho, ?_⟩
  intro m st G C S A y w' c rest Q hG hw' hc hy hQ
  have hcv := closer_visible hc
  obtain ⟨-, hc2, -, -, -, hc6, hc7, -, hc8⟩ := closer_table _ hc
  refine comma_operand hG (k' := w' ++ c :: rest) (by simpa using hy) ho hw2 hf hfg (stops_closer hfg hw' hc) (apart_before hw' hc7)
    (by rw [next_at hw' hcv]; exact hc2) (by decide) (by rw [next_at hw' hcv]; exact hc8) ih ?_
  intro m' t A' hA' he ht
  exact comma_end hc hw' ht fun u hu => hQ u A' hA' he hu

theorem moreComma_parses {o : Lexeme} {f : Form} {cs : List Cst} {w w2 kf kt : List Lexeme} (hw : Blank true w) (hw2 : Blank true w2)
    (hf : Writes true f kf) (ho : o.1 = .Comma) (hfg : f.Grouped) (ih : Parses env true f kf) (iht : ParsesCommas env cs kt) :
    ParsesCommas env (leaf o :: f.cst :: cs) (w ++ o :: (w2 ++ (kf ++ kt))) := by
  refine ⟨w, o, w2 ++ (kf ++ kt), by simp, hw, ho, ?_⟩
  intro m st G C S A y w' c rest Q hG hw' hc hy hQ
  obtain ⟨w3, o3, kl, hkt, hw3, ho3, hv⟩ := iht.next
  have hk : kt ++ (w' ++ c :: rest) = w3 ++ o3 :: (kl ++ (w' ++ c :: rest)) := by rw [hkt]; simp
  refine comma_operand hG (k' := kt ++ (w' ++ c :: rest)) (by simpa using hy) ho hw2 hf hfg (by rw [hk]; exact stops_comma hfg hw3 ho3)
    (by rw [hk]; exact apart_before hw3 (by rw [ho3]; rfl)) (by rw [hk, next_at hw3 hv, ho3]; exact comma_table.2.1) (by decide)
    (by rw [hk, next_at hw3 hv, ho3]; decide) ih ?_
  intro m' u A' hA' he hu
  refine comma_next iht hG hw' hc hu fun u A'' hA'' he'' hu => hQ u A'' hA'' ?_ hu
  rw [he'', he]
  simp

theorem missing_plain {z : Tok} : plains [Cst.tok (z.atStart .Error_InfixImplicitNull)] = [leaf missing] := by
  rw [plains_one (by show TK.isTrivia .Error_InfixImplicitNull = false; decide)]
  show [leaf (.Error_InfixImplicitNull, [])] = _
  rfl

/-- A comma with nothing behind it. -/
theorem stopComma_parses {o : Lexeme} {w : List Lexeme} (hw : Blank true w) (ho : o.1 = .Comma) :
    ParsesCommas env [leaf o, leaf missing] (w ++ [o]) := by
  refine ⟨w, o, [], by simp, hw, ho, ?_⟩
  intro m st G C S A y w' c rest Q hG hw' hc hy hQ
  have hcv := closer_visible hc
  have hv : Visible o.1 := by rw [ho]; exact visible_iff.mp comma_table.1
  refine wpP_bind ?_
  unfold commaOperand
  refine do_eatTrivia (ks := c :: rest) (hy.skip hv.eof) hw' (visible_solid hcv) fun ts z t he => ?_
  have hz := he.sees.is hcv.newline
  rw [if_neg (by rw [hz.kind, (closer_table _ hc).2.2.2.2.2.1]; decide)]
  cases m with
  | zero => exact run_zero
  | succ m =>
  show wpP F (parsePrefix env (run env m) z) _ _
  unfold parsePrefix
  have hp : z.kind.prefixParselet = .closer := by rw [hz.kind]; exact closer_prefix _ hc
  rw [hp]
  show wpP F (closerPrefix env z) _ _
  unfold closerPrefix
  rw [if_pos (by rw [hz.kind]; exact hc)]
  refine wpP_get ?_
  have hm : missingKind ⟨t, G, (Prec.COMMA, S.length) :: C, (tt ts).reverse ++ Cst.tok y :: (A ++ S)⟩ = .Error_InfixImplicitNull := rfl
  rw [hm]
  refine do_pushNode (do_peek he.at' fun _ u _ hu => wpP_pure ?_)
  have e : Cst.tok (z.atStart .Error_InfixImplicitNull) :: ((tt ts).reverse ++ Cst.tok y :: (A ++ S)) =
      (Cst.tok (z.atStart .Error_InfixImplicitNull) :: ((tt ts).reverse ++ Cst.tok y :: A)) ++ S := by simp
  rw [e]
  refine comma_end hc hw' ⟨w', c :: rest, rfl, hw', hu⟩ fun u hu => hQ u _ (by simp) ?_ hu
  have e2 : (Cst.tok (z.atStart .Error_InfixImplicitNull) :: ((tt ts).reverse ++ Cst.tok y :: A)).reverse =
      A.reverse ++ [.tok y] ++ tt ts ++ [Cst.tok (z.atStart .Error_InfixImplicitNull)] := by simp
  rw [e2]
  simp only [plains_append, plains_tt he.trivia, plains_leaf hy hv, missing_plain]
  simp

/-- A comma with another comma behind it. -/
theorem skipComma_parses {o : Lexeme} {cs : List Cst} {w kt : List Lexeme} (hw : Blank true w) (ho : o.1 = .Comma)
    (ih : ParsesCommas env cs kt) : ParsesCommas env (leaf o :: leaf missing :: cs) (w ++ o :: kt) := by
  refine ⟨w, o, kt, rfl, hw, ho, ?_⟩
  intro m st G C S A y w' c rest Q hG hw' hc hy hQ
  obtain ⟨w3, o3, kl, hkt, hw3, ho3, hv3⟩ := ih.next
  have hk : kt ++ (w' ++ c :: rest) = w3 ++ o3 :: (kl ++ (w' ++ c :: rest)) := by rw [hkt]; simp
  have hv : Visible o.1 := by rw [ho]; exact visible_iff.mp comma_table.1
  refine wpP_bind ?_
  unfold commaOperand
  refine do_eatTrivia (ks := o3 :: (kl ++ (w' ++ c :: rest))) (by rw [← hk]; exact hy.skip hv.eof) hw3 (visible_solid hv3) fun ts z t he => ?_
  have hz := he.sees.is hv3.newline
  rw [if_pos (by rw [hz.kind, ho3]; rfl)]
  refine wpP_ok (a := ()) (t := ⟨t, G, (Prec.COMMA, S.length) :: C, _ :: _⟩) rfl ?_
  have e : Cst.tok (z.atStart .Error_InfixImplicitNull) :: ((tt ts).reverse ++ Cst.tok y :: (A ++ S)) =
      (Cst.tok (z.atStart .Error_InfixImplicitNull) :: ((tt ts).reverse ++ Cst.tok y :: A)) ++ S := by simp
  rw [e]
  refine comma_next ih hG hw' hc ⟨w3, o3 :: (kl ++ (w' ++ c :: rest)), hk, hw3, he.at'⟩ fun u A' hA' he' hu => hQ u A' hA' ?_ hu
  rw [he']
  have e2 : (Cst.tok (z.atStart .Error_InfixImplicitNull) :: ((tt ts).reverse ++ Cst.tok y :: A)).reverse =
      A.reverse ++ [.tok y] ++ tt ts ++ [Cst.tok (z.atStart .Error_InfixImplicitNull)] := by simp
  rw [e2]
  simp only [plains_append, plains_tt he.trivia, plains_leaf hy hv, missing_plain]
  simp

/-- The closing bracket. -/
theorem close {cl : Closer} {op : GroupOp} {w : List Lexeme} {c : Lexeme} {A : List Cst}
    (hst : Past true st (w ++ c :: rest)) (hw : Blank true w) (hc : c.1.isCloser = true) (hcl : tokenToCloser c.1 = cl)
    (hQ : ∀ m u A', A' ≠ [] → plains A'.reverse = plains A.reverse ++ [leaf c] → At u rest →
      wpP F (run env m .climb) ⟨u, G, C, .node (.group op) A'.reverse :: S⟩ Q) :
    wpP F (run env n (.groupLoop cl op)) ⟨st, cl :: G, (0, S.length) :: C, A ++ S⟩ Q := by
  cases n with
  | zero => exact run_zero
  | succ n =>
  have hcv := closer_visible hc
  show wpP F (groupLoop env (run env n) cl op) _ _
  unfold groupLoop
  obtain ⟨v, w, rfl, hst'⟩ := hst.split (visible_solid hcv)
  refine do_current hst' hw.suffix (visible_solid hcv) fun ts x u hx => ?_
  have hi := hx.sees.is hcv.newline
  show wpP F (if tokenToCloser x.kind = cl then _ else _) _ _
  rw [if_pos (by rw [hi.kind]; exact hcl)]
  refine do_commitNext ?_
  have e : Cst.tok x :: ((tt ts).reverse ++ (A ++ S)) = (Cst.tok x :: ((tt ts).reverse ++ A)) ++ S := by simp
  rw [e]
  refine do_reduceGroup (by simp) (hQ _ _ _ (by simp) ?_ (hi.skip hcv.eof))
  have e2 : (Cst.tok x :: ((tt ts).reverse ++ A)).reverse = A.reverse ++ tt ts ++ [.tok x] := by simp
  rw [e2]
  simp only [plains_append, plains_tt hx.trivia, plains_leaf hi hcv]
  simp

/-- The first expression between brackets. -/
theorem open_first {cl : Closer} {op : GroupOp} {w kf : List Lexeme} {f : Form} {A : List Cst} (hcl : cl ≠ .AssertFalse)
    (hst : At st (w ++ (kf ++ rest))) (hw : Blank true w) (hf : Writes true f kf) (hfg : f.Grouped) (ih : Parses env true f kf)
    (hstop : Stops true f.right rest) (hnl : nextKind true rest ≠ .Colon) (hap : Apart kf rest)
    (hQ : ∀ m m' t c ts, Tr ts → Shows c f.cst → Past true t rest →
      wpP F (run env m .climb) ⟨t, cl :: G, (0, S.length) :: C, c :: ((tt ts).reverse ++ (A ++ S))⟩
        (fun _ s => wpP F (run env m' (.groupLoop cl op)) s Q)) :
    wpP F (run env n (.groupLoop cl op)) ⟨st, cl :: G, (0, S.length) :: C, A ++ S⟩ Q := by
  cases n with
  | zero => exact run_zero
  | succ n =>
  show wpP F (groupLoop env (run env n) cl op) _ _
  unfold groupLoop
  refine do_current hst hw (solid_first hf) fun ts x u hx => ?_
  obtain ⟨h1, h2⟩ := sees_first hf hx.sees
  obtain ⟨hv, hnc, -⟩ := start_table _ (writes_first hf).2
  show wpP F (if tokenToCloser x.kind = cl then _ else _) _ _
  rw [if_neg (by rw [h2, notCloser_table _ hnc]; exact fun h => hcl h.symm), if_neg (by rw [h2, hnc]; decide)]
  refine do_pushTrivia ?_
  rw [if_neg (by rw [h2]; exact (visible_iff.mp hv).eof)]
  refine wpP_bind ?_
  exact ih n u (cl :: G) ((0, S.length) :: C) _ x rest _ rfl h1 (kept_low hfg (show (0 : Nat) < 3 by decide)) hstop
    (.zero (by decide) hnl) hap fun m t c hc ht => hQ m n t c ts hx.trivia hc ht

theorem closer_ne {c : TK} (h : c.isCloser = true) : tokenToCloser c ≠ .AssertFalse := (closer_table _ h).2.2.2.2.1

theorem empty_parses {w : List Lexeme} (hw : Blank true w) : ParsesBody env .empty w := by
  intro n st G C S A cl op c rest Q hst hc hcl hQ
  exact close hst.past hw hc hcl fun m u A' hA' he hu => hQ m u A' hA' he hu

theorem one_parses {w kf w' : List Lexeme} {f : Form} (hw : Blank true w) (hf : Writes true f kf) (hw' : Blank true w') (hfg : f.Grouped)
    (ih : Parses env true f kf) : ParsesBody env (.one f) (w ++ (kf ++ w')) := by
  intro n st G C S A cl op c rest Q hst hc hcl hQ
  have hcv := closer_visible hc
  refine open_first (by rw [← hcl]; exact closer_ne hc) (rest := w' ++ c :: rest) (by simpa using hst) hw hf hfg ih (stops_closer hfg hw' hc)
    (by rw [next_at hw' hcv]; exact (closer_table _ hc).2.2.2.2.2.2.2.2) (apart_before hw' (closer_table _ hc).2.2.2.2.2.2.1)
    fun m m' t cf ts hts hcf ht => ?_
  refine climb_stop ht (p := 0) ?_ (fun h => absurd (show nextKind true _ = _ from h) (by rw [next_at hw' hcv]; exact (closer_table _ hc).2.2.2.2.2.2.2.2))
    (fun e => (stops_closer hfg hw' hc).noSpan hcf e) ?_ fun t ht => ?_
  · show follows (nextKind true _) = _
    rw [next_at hw' hcv]; exact (closer_table _ hc).2.1
  · rw [topPrec_eq]; exact greater_iff.mpr (Or.inr ⟨rfl, rfl⟩)
  have e : cf :: ((tt ts).reverse ++ (A ++ S)) = (cf :: ((tt ts).reverse ++ A)) ++ S := by simp
  rw [e]
  refine close ht hw' hc hcl fun m u A' hA' he hu => hQ m u A' hA' ?_ hu
  rw [he]
  show _ = _ ++ ([f.cst] ++ _)
  simp [plains_append, plains_tt hts, hcf.one]

/-- The commas behind the first expression. -/
theorem commas_close {m m' : Nat} {d cf : Cst} {cs : List Cst} {kt w' : List Lexeme} {c : Lexeme} {A : List Cst} {cl : Closer} {op : GroupOp}
    {b : Body} (hb : b.csts = [.node (.infix .CodeParser_Comma) (d :: cs)])
    (iht : ParsesCommas env cs kt) (hw' : Blank true w') (hc : c.1.isCloser = true) (hcl : tokenToCloser c.1 = cl)
    (hts : Tr ts) (hcf : Shows cf d) (ht : Past true st (kt ++ (w' ++ c :: rest)))
    (hQ : ∀ m u A', A' ≠ [] → plains A'.reverse = plains A.reverse ++ (b.csts ++ [leaf c]) → At u rest →
      wpP F (run env m .climb) ⟨u, G, C, .node (.group op) A'.reverse :: S⟩ Q) :
    wpP F (run env m .climb) ⟨st, cl :: G, (0, S.length) :: C, cf :: ((tt ts).reverse ++ (A ++ S))⟩
      (fun _ s => wpP F (run env m' (.groupLoop cl op)) s Q) := by
  obtain ⟨w3, o3, kl, rfl, hw3, ho3, h5⟩ := iht
  have hv : Visible o3.1 := by rw [ho3]; exact visible_iff.mp comma_table.1
  have ht : Past true st (w3 ++ o3 :: (kl ++ (w' ++ c :: rest))) := by simpa using ht
  refine climb_go ht hw3 (visible_solid hv) (p := Prec.COMMA) (by rw [ho3]; exact comma_table.2.1) (by rw [ho3]; decide)
    (fun e => by rw [ho3] at e; cases e) (by rw [topPrec_eq]; show ¬ precGreater 0 Prec.COMMA = true; decide) fun m u ts2 y hts2 hy _ => ?_
  have hy := hy (by rw [ho3]; decide)
  cases m with
  | zero => exact run_zero
  | succ m =>
  show wpP F (parseInfix env (run env m) y) _ _
  unfold parseInfix
  rw [hy.kind, ho3]
  show wpP F (commaInfix env (run env m) y) _ _
  unfold commaInfix
  refine do_pushNext ?_
  have e : ∀ X : List Cst, (tt ts2).reverse ++ cf :: X = ((tt ts2).reverse ++ [cf]) ++ X := by simp
  rw [e]
  refine h5 m _ (cl :: G) ((0, S.length) :: C) ((tt ts).reverse ++ (A ++ S)) _ y w' c rest _ rfl hw' hc hy fun u A' hA' he hu => ?_
  refine reduceNode_end hA' ?_
  have e : ∀ X, Cst.node (.infix .CodeParser_Comma) X :: ((tt ts).reverse ++ (A ++ S)) =
      (Cst.node (.infix .CodeParser_Comma) X :: ((tt ts).reverse ++ A)) ++ S := by simp
  rw [e]
  refine close hu hw' hc hcl fun m u A'' hA'' he'' hu => hQ m u A'' hA'' ?_ hu
  rw [he'']
  have h6 : plains [Cst.node (.infix .CodeParser_Comma) A'.reverse] = [Cst.node (.infix .CodeParser_Comma) (d :: cs)] := by
    show [Cst.node _ (plains _)] = _
    rw [he]
    simp [plains_then hcf hts2]
  rw [hb]
  rw [List.reverse_cons, plains_append, h6]
  simp [plains_append, plains_tt hts]

/-- Several expressions with commas. -/
theorem many_parses {w kf kt w' : List Lexeme} {f : Form} {cs : List Cst} {b : Body}
    (hb : b.csts = [.node (.infix .CodeParser_Comma) (f.cst :: cs)]) (hw : Blank true w) (hf : Writes true f kf)
    (hw' : Blank true w') (hfg : f.Grouped)
    (ih : Parses env true f kf) (iht : ParsesCommas env cs kt) : ParsesBody env b (w ++ (kf ++ (kt ++ w'))) := by
  intro n st G C S A cl op c rest Q hst hc hcl hQ
  obtain ⟨w3, o3, kl, hkt, hw3, ho3, hv⟩ := iht.next
  have hk : kt ++ (w' ++ c :: rest) = w3 ++ o3 :: (kl ++ (w' ++ c :: rest)) := by rw [hkt]; simp
  refine open_first (by rw [← hcl]; exact closer_ne hc) (rest := kt ++ (w' ++ c :: rest)) (by simpa using hst) hw hf hfg ih
    (by rw [hk]; exact stops_comma hfg hw3 ho3) (by rw [hk, next_at hw3 hv, ho3]; decide) (by rw [hk]; exact apart_before hw3 (by rw [ho3]; rfl))
    fun m m' u cf ts hts hcf ht => ?_
  exact commas_close hb iht hw' hc hcl hts hcf ht hQ

/-- Commas with nothing in front of them. -/
theorem gap_parses {kt w' : List Lexeme} {t : Gaps} (hw' : Blank true w') (iht : ParsesCommas env t.csts kt) :
    ParsesBody env (.gap t) (kt ++ w') := by
  intro n st G C S A cl op c rest Q hst hc hcl hQ
  obtain ⟨w3, o3, kl, hkt, hw3, ho3, hv⟩ := iht.next
  have hk : kt ++ (w' ++ c :: rest) = w3 ++ o3 :: (kl ++ (w' ++ c :: rest)) := by rw [hkt]; simp
  cases n with
  | zero => exact run_zero
  | succ n =>
  show wpP F (groupLoop env (run env n) cl op) _ _
  unfold groupLoop
  refine do_current (ws := w3) (ks := o3 :: (kl ++ (w' ++ c :: rest))) (by rw [← hk]; simpa using hst) hw3 (visible_solid hv) fun ts x u hx => ?_
  have hi := hx.sees.is hv.newline
  have hnc : x.kind.isCloser = false := by rw [hi.kind, ho3]; rfl
  show wpP F (if tokenToCloser x.kind = cl then _ else _) _ _
  rw [if_neg (by rw [notCloser_table _ hnc, ← hcl]; exact fun h => closer_ne hc h.symm), if_neg (by rw [hnc]; decide)]
  refine do_pushTrivia ?_
  rw [if_neg (by rw [hi.kind]; exact hv.eof)]
  refine wpP_bind ?_
  cases n with
  | zero => exact run_zero
  | succ n =>
  show wpP F (parsePrefix env (run env n) x) _ _
  unfold parsePrefix
  rw [hi.kind, ho3]
  show wpP F (commaPrefix (run env n) x) _ _
  unfold commaPrefix
  refine wpP_get (do_pushNode ?_)
  exact commas_close (b := .gap t) rfl iht hw' hc hcl hx.trivia (cf := .tok (x.atStart .Error_PrefixImplicitNull)) ⟨rfl, rfl⟩
    ⟨w3, o3 :: (kl ++ (w' ++ c :: rest)), hk, hw3, hx.at'⟩ hQ

theorem group_table : ∀ k : TK, (match k.prefixParselet with | .group o _ => decide (o = k) | _ => true) = true :=
  forall_of_all (by decide +kernel)

theorem call_opener_table : ∀ k : TK, (match k.infixParselet with | .call o _ => decide (o = k) | _ => true) = true :=
  forall_of_all (by decide +kernel)

theorem group_parses {o : Bracket} {b : Body} {kb : List Lexeme} (ih : ParsesBody env b kb) :
    Parses env g (.group o b) (o.opener :: (kb ++ [o.closer])) := by
  intro n st G C S x rest Q hG hx hfit hstop hcol hap hQ
  subst hG
  cases n with
  | zero => exact run_zero
  | succ n =>
  obtain ⟨l, ks', e, hi⟩ := hx
  cases e
  have hi : Is x o.opener (kb ++ o.closer :: rest) := by simpa using hi
  have hv := start_visible (k := o.opener.1) (by unfold startKind; rw [o.known]; simp)
  obtain ⟨hc, hcl⟩ := o.closes
  obtain ⟨op', hop⟩ : ∃ k, o.opener.1.prefixParselet = .group k o.op := by
    have := o.known
    unfold groupOf at this
    cases hk : o.opener.1.prefixParselet <;> rw [hk] at this <;> simp_all
  have hkk : op' = o.opener.1 := by
    have := group_table o.opener.1
    rw [hop] at this
    simpa using this
  subst hkk
  show wpP F (parsePrefix env (run env n) x) _ _
  unfold parsePrefix
  rw [hi.kind, hop]
  show wpP F (groupPrefix (run env n) o.opener.1 o.op x) _ _
  unfold groupPrefix
  rw [hi.kind, hcl]
  refine do_pushGroup (do_pushNext (do_pushContext ?_))
  refine ih n _ G C S [.tok x] _ _ o.closer rest Q (hi.skip hv.eof) hc rfl fun m u A' hA' he hu => hQ m u _ ⟨?_, rfl⟩ hu.past
  show Cst.node _ (plains _) = Cst.node _ _
  rw [he]
  have : plains [Cst.tok x].reverse = [leaf o.opener] := plains_leaf hi hv
  rw [this]
  rfl

theorem call_parses {f : Form} {o : CallBracket} {b : Body} {kf w kb : List Lexeme} (hw : Blank g w) (hfb : f.KeptBefore o.opener.1)
    (ihf : Parses env g f kf) (ih : ParsesBody env b kb) :
    Parses env g (.call f o b) (kf ++ (w ++ o.opener :: (kb ++ [o.closer]))) := by
  intro n st G C S x rest Q hG hx hfit hstop hcol hap hQ
  subst hG
  have hb := call_behind o.known
  obtain ⟨hfl, hfo⟩ := keptAfter_cons (f := f) (q := Prec.CALL) rfl hfit
  obtain ⟨hc, hcl⟩ := o.closes
  refine ihf n st G C S x (w ++ o.opener :: (kb ++ o.closer :: rest)) Q rfl (by simpa using hx) hfl
    (stops_before hw hb.visible hb.follows hb.high hfb) (hcol.before (fun h => by simp [Form.colon, h]) hw hb.visible hb.notColon)
    (apart_before hw hb.apart) fun m t c hcf ht => ?_
  refine climb_go ht hw (visible_solid hb.visible) hb.follows hb.notColon (fun e => absurd e hb.notSpan) (by rw [topPrec_eq, not_greater_iff]; exact hfo)
    fun m t ts y hts hy _ => ?_
  have hy := hy hb.notImplicit
  cases m with
  | zero => exact run_zero
  | succ m =>
  show wpP F (parseInfix env (run env m) y) _ _
  unfold parseInfix
  obtain ⟨k', op', hop, hop'⟩ : ∃ k op, o.opener.1.infixParselet = .call k op ∧ op.toCall = some o.op := by
    have := o.known
    unfold callOpOf at this
    cases hk : o.opener.1.infixParselet <;> rw [hk] at this <;> simp_all
  have hkk : k' = o.opener.1 := by
    have := call_opener_table o.opener.1
    rw [hop] at this
    simpa using this
  subst hkk
  rw [hy.kind, hop]
  show wpP F (callInfix (run env m) o.opener.1 op' y) _ _
  unfold callInfix
  refine do_setPrecedence (wpP_bind ?_)
  unfold groupPrefix
  rw [hy.kind, hcl]
  refine do_pushGroup (do_pushNext (do_pushContext ?_))
  refine ih m _ G ((Prec.HIGHEST, S.length) :: C) ((tt ts).reverse ++ c :: S) [.tok y] _ _ o.closer rest _ (hy.skip hb.visible.eof) hc rfl
    fun m' u A' hA' he hu => ?_
  obtain ⟨q, hq1, hq2⟩ := hstop.follows
  refine climb_stop hu.past hq1 (fun h => by rw [pattern_above (show Prec.FAKE_PATTERNCOLON < Prec.HIGHEST by decide)]; exact hcol.opened h) (fun _ => noSpan_cons rfl rfl) ?_ fun u hu => ?_
  · rw [topPrec_eq]; refine greater_iff.mpr ?_; show TighterOrLeft 188 q; unfold TighterOrLeft; omega
  have e : Cst.node (.group op') A'.reverse :: ((tt ts).reverse ++ c :: S) =
      Cst.node (.group op') A'.reverse :: (((tt ts).reverse ++ [c]) ++ S) := by simp
  rw [e]
  refine do_reduceCall hop' (hQ _ _ _ ⟨?_, rfl⟩ hu)
  show Cst.call (plains _) _ _ (plains _) = Cst.call [f.cst] _ _ (leaf o.opener :: (b.csts ++ [leaf o.closer]))
  rw [he]
  have : plains [Cst.tok y].reverse = [leaf o.opener] := plains_leaf hy hb.visible
  rw [this]
  simp [plains_then hcf hts]

end

end CodeParser.Syn
