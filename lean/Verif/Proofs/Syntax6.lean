import Verif.Proofs.Syntax8
import Verif.Proofs.Recover5
/-!
Texts of several expressions (helper lemmas).
-/
namespace CodeParser.Syn
open CodeParser Spec Props

section
variable {env : PEnv} {n : Nat} {st : St} {rest ks ws : List Lexeme} {x : Tok} {cs : List Cst} {Q : List Cst → PS → Prop}

theorem start_follows : ∀ k : TK, startKind k = true → isBuffer k = false → (follows k).isSome = true :=
  forall_of_all (by decide +kernel)

/-- Blanks between expressions. -/
theorem loop_blank : ∀ {ws : List Lexeme} {n : Nat} {st : St} {cs : List Cst}, At st (ws ++ rest) → Blank true ws →
    (∀ m t cs', At t rest → plains cs' = plains cs → wpP F (parseLoopN env m cs') ⟨t, [], [], []⟩ Q) →
    wpP F (parseLoopN env n cs) ⟨st, [], [], []⟩ Q
  | [], n, st, cs, h, _, hQ => hQ n st cs h rfl
  | l :: ws, 0, st, cs, h, hw, hQ => by unfold parseLoopN wpP; exact rfl
  | l :: ws, n + 1, st, cs, h, hw, hQ => by
    unfold parseLoopN
    refine do_peek h fun x t hx ht => ?_
    have hb := hw l (by simp)
    have hbuf := lexes_kind h.lex l (by simp)
    cases hx with
    | lexeme hi hne =>
    have e : kindIn (!List.isEmpty ([] : List Closer)) l.1 = l.1 := kindIn_false
    rw [e] at hi
    have htr : x.kind.isTrivia = true := by
      have := kindIn_trivia false l.1 hbuf
      rw [kindIn_false] at this
      rw [hi.kind, this]; exact hb
    rw [if_neg (by rw [hi.kind]; exact hne)]
    refine wpP_bind ?_
    unfold parseItem
    rw [if_pos htr]
    refine do_skip ?_
    refine loop_blank (hi.skip hne) (fun y hy => hw y (by simp [hy])) fun m u cs' hu he => hQ m u cs' hu ?_
    rw [he, plains_append]
    have : plains [Cst.tok x] = [] := by
      unfold plains
      rw [if_pos (by show x.kind.isTrivia = true; exact htr)]
      rfl
    rw [this]; simp

/-- One expression at the top level. -/
theorem loop_form {f : Form} (h : At st (ks ++ rest)) (hf : Writes false f ks) (hg : f.Grouped) (hs : Stops false f.right rest)
    (hap : Apart ks rest) (h0 : follows (nextKind false rest) = some 0)
    (hQ : ∀ m t cs', Past false t rest → plains cs' = plains cs ++ [f.cst] → wpP F (parseLoopN env m cs') ⟨t, [], [], []⟩ Q) :
    wpP F (parseLoopN env n cs) ⟨st, [], [], []⟩ Q := by
  cases n with
  | zero => unfold parseLoopN wpP; exact rfl
  | succ n =>
  unfold parseLoopN
  refine do_peek h fun x t hx ht => ?_
  obtain ⟨h1, h2⟩ := sees_first hf hx
  have hn : nextKind (!List.isEmpty ([] : List Closer)) rest ≠ .Colon := by
    intro h
    rw [show nextKind false rest = .Colon from h] at h0
    exact absurd h0 (by decide)
  obtain ⟨hv, hnc, -⟩ := start_table _ (writes_first hf).2
  have hv := visible_iff.mp hv
  rw [if_neg (by rw [h2]; exact hv.eof)]
  refine wpP_bind ?_
  unfold parseItem
  rw [if_neg (by rw [h2, hv.trivia]; decide), if_neg (by rw [h2, hnc]; decide)]
  refine wpP_get (wpP_bind ?_)
  refine form_parses (env := env) hf hg _ t [] [] [] x rest _ rfl h1 (kept_low hg (show (0 : Nat) < 3 by decide)) hs ⟨fun _ => rfl, fun h => absurd h hn⟩ hap
    fun m t c hc ht => ?_
  refine climb_stop ht h0 (fun h => absurd h hn) (fun e => hs.noSpan hc e) (by rw [topPrec_eq]; exact greater_iff.mpr (Or.inr ⟨rfl, rfl⟩)) fun t ht => ?_
  refine wpP_bind (wpP_ok (a := c) (t := ⟨t, [], [], []⟩) rfl ?_)
  refine wpP_bind (wpP_ok (a := ()) (t := ⟨t, [], [], []⟩) rfl ?_)
  show wpP F (parseLoopN env n (cs ++ [c])) _ _
  exact hQ n t _ ht (by rw [plains_append, hc.one])

theorem loop_end' {n : Nat} (h : At st []) (hQ : ∀ t, Q cs t) : wpP F (parseLoopN env n cs) ⟨st, [], [], []⟩ Q := by
  cases n with
  | zero => unfold parseLoopN wpP; exact rfl
  | succ n =>
  unfold parseLoopN
  refine do_peek h fun x t hx ht => ?_
  cases hx with
  | eof hk =>
  rw [if_pos hk]
  exact hQ _

theorem nextKind_end : ∀ {w : List Lexeme}, Blank true w → nextKind false w = .EndOfFile ∨ nextKind false w = .ToplevelNewline
  | [], _ => Or.inl rfl
  | l :: w, h => by
    unfold nextKind
    split
    · exact nextKind_end fun x hx => h x (by simp [hx])
    · rename_i hb
      have := h l (by simp)
      revert hb this
      cases l with | mk k t => cases k <;> simp [blankKind]

theorem stops_end {f : Form} (hg : f.Grouped) {w : List Lexeme} (hw : Blank true w) : Stops false f.right w := by
  have h0 : ∃ k, nextKind false w = k ∧ follows k = some 0 ∧ continues k = none ∧ (k ≠ .Semi ∧ k.isPossibleBeginning = false) ∧
      k ≠ .Colon := by
    rcases nextKind_end hw with h | h <;> exact ⟨_, h, rfl, rfl, by decide, by decide⟩
  obtain ⟨k, hk, hf, hc, hb, hn⟩ := h0
  have ht : nextKind true w = .EndOfFile := by
    have := nextKind_blank (ks := []) hw
    rw [List.append_nil] at this
    exact this
  refine ⟨⟨0, by rw [hk]; exact hf, by decide⟩, ⟨0, by rw [ht]; rfl⟩, ?_, ?_⟩
  · rw [hk]; exact before_low hg hf (by decide) hc hb hn
  · intro e _
    rw [ht]
    cases e with
    | operand p a => intro op _; show (none : Option InfixOp) ≠ _; simp
    | _ => trivial

theorem program_next {fs : List Form} (h : Program fs ks) (hb : ∀ l ∈ ks, isBuffer l.1 = false) :
    ∃ p, follows (nextKind true ks) = some p := by
  have key : ∀ {w kf k : List Lexeme} {f : Form}, Blank true w → Writes false f kf → (∀ l ∈ w ++ (kf ++ k), isBuffer l.1 = false) →
      ∃ p, follows (nextKind true (w ++ (kf ++ k))) = some p := by
    intro w kf k f hw hf hb
    obtain ⟨⟨tl, rfl⟩, hs⟩ := writes_first hf
    rw [nextKind_blank hw, List.cons_append, nextKind_solid (visible_solid (start_visible hs))]
    exact Option.isSome_iff_exists.mp (start_follows _ hs (hb _ (by simp)))
  cases h with
  | nil hw =>
    have := nextKind_blank (ks := []) hw
    rw [List.append_nil] at this
    exact ⟨0, by rw [this]; rfl⟩
  | last hw hf _ _ => exact key hw hf hb
  | cons hw hf _ _ _ _ => exact key hw hf hb

/-- A text of several expressions. -/
theorem program_parses {fs : List Form} {ks : List Lexeme} (hp : Program fs ks) : ∀ {n : Nat} {st : St} {cs : List Cst}, At st ks →
    wpP F (parseLoopN env n cs) ⟨st, [], [], []⟩ (fun r _ => plains r = plains cs ++ fs.map Form.cst) := by
  induction hp with
  | @nil w hw =>
    intro n st cs h
    refine loop_blank (rest := []) (by simpa using h) hw fun m t cs' ht he => ?_
    exact loop_end' ht fun _ => by simp [he]
  | @last w f ks w' hw hf hg hw' =>
    intro n st cs h
    refine loop_blank h hw fun m t cs' ht he => ?_
    have h0 : follows (nextKind false w') = some 0 := by rcases nextKind_end hw' with h | h <;> rw [h] <;> rfl
    refine loop_form ht hf hg (stops_end hg hw') (apart_blank hw') h0 fun m t cs'' ht he' => ?_
    obtain ⟨v, w2, rfl, -, ht⟩ := ht
    refine loop_blank (rest := []) (by simpa using ht) hw'.suffix fun m t cs3 ht he3 => ?_
    exact loop_end' ht fun _ => by simp [he, he', he3]
  | @cons w f ks w' nl fs rest hw hf hg hw' hgo hp ih =>
    intro n st cs h
    have hb := lexes_kind h.lex
    have hnl : nextKind false (w' ++ (.ToplevelNewline, nl) :: rest) = .ToplevelNewline := by
      rw [nextKind_blank hw']; rfl
    have hwn : Blank true (w' ++ [(.ToplevelNewline, nl)]) := by
      intro x hx
      rcases List.mem_append.mp hx with hx | hx
      · exact hw'.mono x hx
      · simp at hx; subst hx; rfl
    have ht : nextKind true (w' ++ (.ToplevelNewline, nl) :: rest) = nextKind true rest := by
      have := nextKind_blank (ks := rest) hwn
      rw [List.append_assoc] at this
      exact this
    have hs : Stops false f.right (w' ++ (.ToplevelNewline, nl) :: rest) := by
      obtain ⟨p, hp⟩ := program_next hp (fun l hl => hb l (by simp [hl]))
      refine ⟨⟨0, by rw [hnl]; rfl, by decide⟩, ⟨p, by rw [ht]; exact hp⟩, ?_, ?_⟩
      · rw [hnl]; exact before_low hg rfl (by decide) rfl (by decide) (by decide)
      · intro e he; rw [ht]; exact hgo e he
    refine loop_blank h hw fun m t cs' ht he => ?_
    refine loop_form ht hf hg hs (apart_before hw' rfl) (by rw [hnl]; rfl) fun m t cs'' ht he' => ?_
    obtain ⟨v, w2, rfl, ht2⟩ := ht.split (by rintro _ _ ⟨⟩; rfl)
    rw [List.append_assoc] at hwn
    refine loop_blank (ws := w2 ++ [(.ToplevelNewline, nl)]) (rest := rest) (by simpa using ht2) hwn.suffix fun m t cs3 ht he3 => ?_
    refine wpP_mono (ih (n := m) (cs := cs3) ht) fun r s hr => ?_
    rw [hr, he3, he', he]
    simp

end

/-! ### Nothing is left open -/

mutual
/-- No token of the tree is unterminated. -/
def whole : Cst → Bool
  | .tok t => !t.unterminated
  | .node _ cs => wholes cs
  | .call h _ _ b => wholes h && wholes b
  | .callAgg h _ _ b => whole h && wholes b
  | .box _ cs => wholes cs
  | .code _ => true
/-- The same for a sequence of trees. -/
def wholes : List Cst → Bool
  | [] => true
  | c :: cs => whole c && wholes cs
end

theorem trivia_whole : ∀ k : TK, k.isTrivia = true → (k.isError && k.isUnterminated) = false := forall_of_all (by decide +kernel)

section
variable {cfg : Cfg} {isNew : List Char → Except Err Bool} {input : List Char}

mutual
theorem fix_whole : ∀ c : Cst, whole (plain c) = true → fixCst cfg isNew input c = .ok c
  | .tok t, h => by
    have : t.unterminated = false := by
      have : whole (leaf (t.kind, t.text)) = true := h
      have : (!(t.kind.isError && t.kind.isUnterminated)) = true := this
      unfold Tok.unterminated
      cases h : (t.kind.isError && t.kind.isUnterminated) <;> simp_all
    unfold fixCst; rw [this]; rfl
  | .node k cs, h => by unfold fixCst; rw [fixes_whole cs h]
  | .call hd m op b, h => by
    have h : (wholes (plains hd) && wholes (plains b)) = true := h
    rw [Bool.and_eq_true] at h
    unfold fixCst; rw [fixes_whole hd h.1, fixes_whole b h.2]
  | .callAgg hd m op b, h => by
    have h : (whole (plain hd) && wholes (plains b)) = true := h
    rw [Bool.and_eq_true] at h
    unfold fixCst; rw [fix_whole hd h.1, fixes_whole b h.2]
  | .box k cs, h => by unfold fixCst; rw [fixes_whole cs h]
  | .code n, _ => by unfold fixCst; rfl
theorem fixes_whole : ∀ cs : List Cst, wholes (plains cs) = true → fixCsts cfg isNew input cs = .ok cs
  | [], _ => by unfold fixCsts; rfl
  | c :: cs, h => by
    unfold plains at h
    unfold fixCsts
    split at h
    · rename_i ht
      have hc : fixCst cfg isNew input c = .ok c := by
        cases c with
        | tok t =>
          have : t.unterminated = false := trivia_whole _ ht
          unfold fixCst; rw [this]; rfl
        | _ => cases ht
      rw [hc, fixes_whole cs h]
    · have h : (whole (plain c) && wholes (plains cs)) = true := h
      rw [Bool.and_eq_true] at h
      rw [fix_whole c h.1, fixes_whole cs h.2]
end
end

theorem wholes_append {a b : List Cst} : wholes (a ++ b) = (wholes a && wholes b) := by
  induction a with
  | nil => simp [wholes]
  | cons c a ih => simp [wholes, ih, Bool.and_assoc]

def wholeKind (k : TK) : Bool := !(k.isError && k.isUnterminated)

theorem start_whole : ∀ k : TK, startKind k = true → wholeKind k = true := forall_of_all (by decide +kernel)
theorem closer_whole : ∀ k : TK, k.isCloser = true → wholeKind k = true := forall_of_all (by decide +kernel)
theorem infix_whole : ∀ k : TK, (infixOf k).isSome = true → wholeKind k = true := forall_of_all (by decide +kernel)
theorem binary_whole : ∀ k : TK, (binaryOf k).isSome = true → wholeKind k = true := forall_of_all (by decide +kernel)
theorem postfix_whole : ∀ k : TK, (postfixOf k).isSome = true → wholeKind k = true := forall_of_all (by decide +kernel)
theorem call_whole : ∀ k : TK, (callOpOf k).isSome = true → wholeKind k = true := forall_of_all (by decide +kernel)

theorem blank_whole : ∀ k : TK, (blankOf k).isSome = true → wholeKind k = true := forall_of_all (by decide +kernel)
theorem slot_whole : ∀ k : TK, (slotOf k).isSome = true → wholeKind k = true := forall_of_all (by decide +kernel)
theorem pattern_whole : ∀ k : TK, (patternOf k).isSome = true → wholeKind k = true := forall_of_all (by decide +kernel)
theorem ternary_whole : ∀ k k' : TK, (ternaryOf k k').isSome = true → wholeKind k = true ∧ wholeKind k' = true := by
  intro k k' h
  unfold ternaryOf at h
  split at h
  all_goals first | exact ⟨rfl, rfl⟩ | cases h

theorem whole_leaf {l : Lexeme} (h : wholeKind l.1 = true) : whole (leaf l) = true := h

set_option maxHeartbeats 800000 in
mutual
theorem form_whole : ∀ {f : Form} {g : Bool} {ks : List Lexeme}, Writes g f ks → f.Grouped → whole f.cst = true
  | .atom x, _, _, h, _ => by
    cases h with
    | atom h => exact whole_leaf (start_whole _ (by unfold startKind; rw [h]; rfl))
  | .group o b, _, _, h, hg => by
    cases h with
    | group h =>
      show (whole (leaf o.opener) && wholes (b.csts ++ [leaf o.closer])) = true
      rw [wholes_append, body_whole h hg, whole_leaf (start_whole _ (by unfold startKind; rw [o.known]; simp))]
      show (whole (leaf o.closer) && true) = true
      rw [whole_leaf (closer_whole _ o.closes.1)]; rfl
  | .call f o b, _, _, h, hg => by
    cases h with
    | call h1 h2 h3 =>
      show ((whole f.cst && true) && (whole (leaf o.opener) && wholes (b.csts ++ [leaf o.closer]))) = true
      rw [wholes_append, form_whole h1 hg.1, body_whole h3 hg.2.2, whole_leaf (call_whole _ (by rw [o.known]; rfl))]
      show (whole (leaf o.closer) && true) = true
      rw [whole_leaf (closer_whole _ o.closes.1)]; rfl
  | .binary l o r, _, _, h, hg => by
    cases h with
    | binary h1 h2 h3 h4 =>
      show (whole l.cst && (whole (leaf o.lex) && (whole r.cst && true))) = true
      rw [form_whole h1 hg.1, form_whole h4 hg.2.2.1, whole_leaf (binary_whole _ (by rw [o.known]; rfl))]; rfl
  | .chain op p f t, _, _, h, hg => by
    cases h with
    | chain h1 h2 =>
      show (whole f.cst && wholes t.csts) = true
      rw [form_whole h1 hg.1, tail_whole h2 hg.2.2]; rfl
  | .prefix o f, _, _, h, hg => by
    cases h with
    | «prefix» h1 h2 =>
      show (whole (leaf o.lex) && (whole f.cst && true)) = true
      rw [form_whole h2 hg.1, whole_leaf (start_whole _ (by unfold startKind; rw [o.known]; simp))]; rfl
  | .postfix f o, _, _, h, hg => by
    cases h with
    | «postfix» h1 h2 =>
      show (whole f.cst && (whole (leaf o.lex) && true)) = true
      rw [form_whole h1 hg.1, whole_leaf (postfix_whole _ (by rw [o.known]; rfl))]; rfl
  | .compound c, _, _, _, _ => by
    cases c with
    | blank u h op hk hh =>
      show (whole (leaf u) && (whole (leaf h) && true)) = true
      rw [whole_leaf (blank_whole _ (by rw [hk]; rfl)), whole_leaf (l := h) (by rw [hh]; rfl)]; rfl
    | named x u op hk hh =>
      show (whole (leaf x) && (whole (leaf u) && true)) = true
      rw [whole_leaf (l := u) (pattern_whole _ (by rw [hk]; rfl)), whole_leaf (l := x) (by rw [hh]; rfl)]; rfl
    | typed x u h op op' hk hk' hx hh =>
      show (whole (leaf x) && ((whole (leaf u) && (whole (leaf h) && true)) && true)) = true
      rw [whole_leaf (l := u) (blank_whole _ (by rw [hk]; rfl)), whole_leaf (l := h) (by rw [hh]; rfl), whole_leaf (l := x) (by rw [hx]; rfl)]; rfl
    | slot s m op hk hm hd =>
      show (whole (leaf s) && (whole (leaf m) && true)) = true
      rw [whole_leaf (slot_whole _ (by rw [hk]; rfl)), whole_leaf (l := m) (by rw [hm]; rfl)]; rfl
    | slotName s m hk hm =>
      show (whole (leaf s) && (whole (leaf (.String, m.2)) && true)) = true
      rw [whole_leaf (l := s) (by rw [hk]; rfl), whole_leaf (l := (.String, m.2)) (show wholeKind .String = true by decide)]; rfl
  | .semi f t, _, _, h, hg => by
    cases h with
    | semi h1 h2 =>
      show (whole f.cst && wholes t.csts) = true
      rw [form_whole h1 hg.1, semis_whole h2 hg.2.2]; rfl
  | .ternary l o m r, _, _, h, hg => by
    obtain ⟨g1, g2, g3, g4, g5, g6, g7⟩ := hg
    cases h with
    | ternary h1 h2 h3 h4 h5 h6 h7 =>
      obtain ⟨a, b⟩ := ternary_whole _ _ (show (ternaryOf o.first.1 o.second.1).isSome = true by rw [o.known]; rfl)
      show (whole l.cst && (whole (leaf o.first) && (whole m.cst && (whole (leaf o.second) && (whole r.cst && true))))) = true
      rw [form_whole h1 g1, form_whole h4 g3, form_whole h7 g6, whole_leaf a, whole_leaf b]; rfl
  | .unset f e d, _, _, h, hg => by
    cases h with
    | unset h1 h2 h3 h4 h5 =>
      show (whole f.cst && (whole (leaf e) && (whole (leaf d) && true))) = true
      rw [form_whole h3 hg.1, whole_leaf (l := e) (by rw [h1]; rfl), whole_leaf (l := d) (by rw [h2]; rfl)]; rfl
  | .tagUnset l o m e d, _, _, h, hg => by
    obtain ⟨g1, g2, g3, g4, g5⟩ := hg
    cases h with
    | tagUnset h1 h2 h3 h4 h5 h6 h7 h8 h9 =>
      show (whole l.cst && (whole (leaf o) && (whole m.cst && (whole (leaf e) && (whole (leaf d) && true))))) = true
      rw [form_whole h4 g1, form_whole h7 g3, whole_leaf (l := o) (by rw [h1]; rfl), whole_leaf (l := e) (by rw [h2]; rfl),
        whole_leaf (l := d) (by rw [h3]; rfl)]; rfl
  | .pattern x o r, _, _, h, hg => by
    cases h with
    | pattern h1 h2 h3 h4 h5 =>
      show (whole (leaf x) && (whole (leaf o) && (whole r.cst && true))) = true
      rw [form_whole h5 hg.1, whole_leaf (l := x) (by rw [h1]; rfl), whole_leaf (l := o) (by rw [h2]; rfl)]; rfl
  | .optional l o r, _, _, h, hg => by
    obtain ⟨g1, g2, g3, g4, g5⟩ := hg
    cases h with
    | optional h1 h2 h3 h4 h5 =>
      show (whole l.cst && (whole (leaf o) && (whole r.cst && true))) = true
      rw [form_whole h2 g2, form_whole h5 g4, whole_leaf (l := o) (by rw [h1]; rfl)]; rfl
  | .span l o e, _, _, h, hg => by
    cases h with
    | span h1 h2 h3 h4 =>
      show (whole l.cst && (whole (leaf o) && wholes e.csts)) = true
      rw [form_whole h2 hg.1, reach_whole h4 hg.2.2, whole_leaf (l := o) (by rw [h1]; rfl)]; rfl
  | .spanFrom o e, _, _, h, hg => by
    cases h with
    | spanFrom h1 h2 =>
      show (whole (leaf implicitOne) && (whole (leaf o) && wholes e.csts)) = true
      rw [reach_whole h2 hg, whole_leaf (l := implicitOne) (by decide), whole_leaf (l := o) (by rw [h1]; rfl)]; rfl
theorem reach_whole : ∀ {e : Reach} {g : Bool} {ks : List Lexeme}, Reaches g e ks → e.Grouped → wholes e.csts = true
  | .all, _, _, _, _ => by
    show (whole (leaf implicitAll) && true) = true
    rw [whole_leaf (l := implicitAll) (by decide)]; rfl
  | .to f, _, _, h, hg => by
    cases h with
    | «to» h1 h2 =>
      show (whole f.cst && true) = true
      rw [form_whole h2 hg.2.1]; rfl
  | .step f o f', _, _, h, hg => by
    obtain ⟨g1, g2, g3, g4, g5, g6, g7⟩ := hg
    cases h with
    | step h1 h2 h3 h4 h5 h6 =>
      show (whole f.cst && (whole (leaf o) && (whole f'.cst && true))) = true
      rw [form_whole h3 g2, form_whole h6 g6, whole_leaf (l := o) (by rw [h1]; rfl)]; rfl
  | .allStep o f, _, _, h, hg => by
    cases h with
    | allStep h1 h2 h3 h4 =>
      show (whole (leaf implicitAll) && (whole (leaf o) && (whole f.cst && true))) = true
      rw [form_whole h4 hg.2.1, whole_leaf (l := implicitAll) (by decide), whole_leaf (l := o) (by rw [h1]; rfl)]; rfl
theorem body_whole : ∀ {b : Body} {ks : List Lexeme}, Inside b ks → b.Grouped → wholes b.csts = true
  | .empty, _, h, _ => rfl
  | .one f, _, h, hg => by
    cases h with
    | one h1 h2 h3 => show (whole f.cst && true) = true; rw [form_whole h2 hg]; rfl
  | .many f t, _, h, hg => by
    cases h with
    | many h1 h2 h3 h4 =>
      show ((whole f.cst && wholes t.csts) && true) = true
      rw [form_whole h2 hg.1, commas_whole h3 hg.2]; rfl
  | .gaps f t, _, h, hg => by
    cases h with
    | gaps h1 h2 h3 h4 =>
      show ((whole f.cst && wholes t.csts) && true) = true
      rw [form_whole h2 hg.1, gaps_whole h3 hg.2]; rfl
  | .gap t, _, h, hg => by
    cases h with
    | gap h1 h2 =>
      show ((whole (leaf missingFirst) && wholes t.csts) && true) = true
      rw [gaps_whole h1 hg, whole_leaf (l := missingFirst) (by decide)]; rfl
theorem gaps_whole : ∀ {t : Gaps} {ks : List Lexeme}, Lists t ks → t.Grouped → wholes t.csts = true
  | .stop o, _, h, _ => by
    cases h with
    | stop h1 _ =>
      show (whole (leaf o) && (whole (leaf missing) && true)) = true
      rw [whole_leaf (l := o) (by rw [h1]; rfl), whole_leaf (l := missing) (by decide)]; rfl
  | .last o f, _, h, hg => by
    cases h with
    | last h1 _ _ h4 =>
      show (whole (leaf o) && (whole f.cst && true)) = true
      rw [form_whole h4 hg, whole_leaf (l := o) (by rw [h1]; rfl)]; rfl
  | .skip o t, _, h, hg => by
    cases h with
    | skip h1 _ h3 =>
      show (whole (leaf o) && (whole (leaf missing) && wholes t.csts)) = true
      rw [gaps_whole h3 hg, whole_leaf (l := o) (by rw [h1]; rfl), whole_leaf (l := missing) (by decide)]; rfl
  | .more o f t, _, h, hg => by
    cases h with
    | more h1 _ _ h4 h5 =>
      show (whole (leaf o) && (whole f.cst && wholes t.csts)) = true
      rw [form_whole h4 hg.1, gaps_whole h5 hg.2, whole_leaf (l := o) (by rw [h1]; rfl)]; rfl
theorem tail_whole {op : InfixOp} {p : Nat} : ∀ {t : Tail} {g : Bool} {ks : List Lexeme}, Rest g t ks → t.Grouped op p → wholes t.csts = true
  | .last o f, _, _, h, hg => by
    cases h with
    | last h1 h2 =>
      show (whole (leaf o) && (whole f.cst && true)) = true
      rw [form_whole h2 hg.2.2.1, whole_leaf (infix_whole _ (by rw [hg.1]; rfl))]; rfl
  | .more o f t, _, _, h, hg => by
    cases h with
    | more h1 h2 h3 =>
      obtain ⟨g1, g2, g3, g4, g5, g6⟩ := hg
      show (whole (leaf o) && (whole f.cst && wholes t.csts)) = true
      rw [form_whole h2 g3, tail_whole h3 g6, whole_leaf (infix_whole _ (by rw [g1]; rfl))]; rfl
theorem commas_whole : ∀ {t : Tail} {ks : List Lexeme}, Rest true t ks → t.Commas → wholes t.csts = true
  | .last o f, _, h, hg => by
    cases h with
    | last h1 h2 =>
      show (whole (leaf o) && (whole f.cst && true)) = true
      rw [form_whole h2 hg.2, whole_leaf (by rw [hg.1]; rfl)]; rfl
  | .more o f t, _, h, hg => by
    cases h with
    | more h1 h2 h3 =>
      show (whole (leaf o) && (whole f.cst && wholes t.csts)) = true
      rw [form_whole h2 hg.2.1, commas_whole h3 hg.2.2, whole_leaf (by rw [hg.1]; rfl)]; rfl
theorem semis_whole : ∀ {t : Semis} {g : Bool} {ks : List Lexeme}, Spec.Steps g t ks → t.Grouped → wholes t.csts = true
  | .stop o, _, _, h, _ => by
    cases h with
    | stop h1 h2 =>
      show (whole (leaf o) && (whole (leaf implicitNull) && true)) = true
      rw [whole_leaf (l := o) (by rw [h1]; rfl), whole_leaf (l := implicitNull) rfl]; rfl
  | .last o f, _, _, h, hg => by
    cases h with
    | last h1 h2 h3 h4 =>
      show (whole (leaf o) && (whole f.cst && true)) = true
      rw [form_whole h4 hg.2.1, whole_leaf (l := o) (by rw [h1]; rfl)]; rfl
  | .skip o t, _, _, h, hg => by
    cases h with
    | skip h1 h2 h3 =>
      show (whole (leaf o) && (whole (leaf implicitNull) && wholes t.csts)) = true
      rw [semis_whole h3 hg, whole_leaf (l := o) (by rw [h1]; rfl), whole_leaf (l := implicitNull) rfl]; rfl
  | .more o f t, _, _, h, hg => by
    cases h with
    | more h1 h2 h3 h4 h5 =>
      show (whole (leaf o) && (whole f.cst && wholes t.csts)) = true
      rw [form_whole h4 hg.2.1, semis_whole h5 hg.2.2.2.2, whole_leaf (l := o) (by rw [h1]; rfl)]; rfl
end

theorem program_whole {fs : List Form} {ks : List Lexeme} (h : Program fs ks) : wholes (fs.map Form.cst) = true := by
  induction h with
  | nil => rfl
  | last _ h1 h2 _ => show (whole _ && true) = true; rw [form_whole h1 h2]; rfl
  | cons _ h1 h2 _ _ _ ih => show (whole _ && wholes _) = true; rw [form_whole h1 h2, ih]; rfl

end CodeParser.Syn
