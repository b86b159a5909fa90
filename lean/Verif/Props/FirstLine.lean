import Verif.Props.Tokenizer
import Verif.Proofs.Token5
import Verif.Spec.FirstLine
/-!
Property C24: what the first line behaviour skips, in terms of tokens.
-/
namespace CodeParser.Props
open CodeParser Spec

/-- `ks` are the next tokens at `s`, and behind them the reader is at `t`. -/
inductive Run (cfg : Cfg) : St → List Tok → St → Prop
  | nil {s t} : SameAt s t → Run cfg s [] t
  | cons {s s1 s2 t k ks} : peekToken cfg false s = .ok (k, s1) → k.kind ≠ .EndOfFile →
      k.skip s1 = .ok ((), s2) → Run cfg s2 ks t → Run cfg s (k :: ks) t

section
variable {cfg : Cfg} {s t u s' : St} {k : Tok} {ks : List Tok}

theorem peekToken_sim {g : Bool} : MSim Eq (peekToken cfg g) (peekToken cfg g) := by
  unfold peekToken peekTokenWith
  refine MSim.bind MSim.mark fun _ _ h => MSim.bindE nextToken_sim fun _ => ?_
  msim

theorem skip_same (h : SameAt s s') (k : Tok) {t t' : St} (h1 : k.skip s = .ok ((), t)) (h2 : k.skip s' = .ok ((), t')) :
    SameAt t t' := by
  unfold Tok.skip at h1 h2
  cases h1; cases h2
  exact ⟨rfl, rfl, rfl⟩

theorem Run.congr (h : Run cfg s ks t) : ∀ {s'}, SameAt s s' → ∃ t', Run cfg s' ks t' ∧ SameAt t t' := by
  induction h with
  | nil h => intro s' hs; exact ⟨s', .nil (SameAt.refl _), h.symm.trans hs⟩
  | @cons s s1 s2 t k ks h1 h2 h3 h4 ih =>
    intro s' hs
    obtain ⟨s1', e1, hs1⟩ := (peekToken_sim (cfg := cfg)).ok hs h1
    obtain ⟨s2', e2⟩ : ∃ s2', k.skip s1' = .ok ((), s2') := ⟨_, rfl⟩
    obtain ⟨t', h5, h6⟩ := ih (skip_same hs1 k h3 e2)
    exact ⟨t', .cons e1 h2 e2 h5, h6⟩

/-- Nothing is ahead. -/
def Done (cfg : Cfg) (s : St) : Prop := ∃ k u, peekToken cfg false s = .ok (k, u) ∧ k.kind = .EndOfFile

theorem Done.congr (h : Done cfg s) (hs : SameAt s s') : Done cfg s' := by
  obtain ⟨k, u, h1, h2⟩ := h
  obtain ⟨u', e, -⟩ := (peekToken_sim (cfg := cfg)).ok hs h1
  exact ⟨k, u', e, h2⟩

/-- Reading in two stretches is reading. -/
theorem Run.unique (h : Run cfg s ks t) (hd : Done cfg t) : ∀ {s' pre m ts u}, SameAt s s' →
    Run cfg s' pre m → Run cfg m ts u → Done cfg u → ks = pre ++ ts := by
  induction h with
  | @nil s t h =>
    intro s' pre m ts u hs h1 h2 hu
    have hd' := hd.congr (h.symm.trans hs)
    obtain ⟨k, v, e, hk⟩ := hd'
    cases h1 with
    | nil h3 =>
      cases h2 with
      | nil => rfl
      | cons e2 h4 _ _ =>
        obtain ⟨v', e', -⟩ := (peekToken_sim (cfg := cfg)).ok h3 e
        rw [e'] at e2; cases e2; exact absurd hk h4
    | cons e2 h4 _ _ => rw [e] at e2; cases e2; exact absurd hk h4
  | @cons s s1 s2 t k ks h1 h2 h3 h4 ih =>
    intro s' pre m ts u hs hp hts hu
    obtain ⟨s1', e1, hs1⟩ := (peekToken_sim (cfg := cfg)).ok hs h1
    cases hp with
    | nil h5 =>
      obtain ⟨s1'', e1', hs1'⟩ := (peekToken_sim (cfg := cfg)).ok h5 e1
      cases hts with
      | nil h6 =>
        obtain ⟨k', v, e, hk⟩ := hu
        obtain ⟨_, e', -⟩ := (peekToken_sim (cfg := cfg)).ok h6.symm e
        rw [e'] at e1'; cases e1'; exact absurd hk h2
      | @cons _ a b _ _ ks' e2 h6 h7 h8 =>
        rw [e1'] at e2; cases e2
        rw [ih hd (skip_same (hs1.trans hs1') k h3 h7) (.nil (SameAt.refl _)) h8 hu]
        rfl
    | cons e2 h6 h7 h8 =>
      rw [e1] at e2; cases e2
      rw [ih hd (skip_same hs1 k h3 h7) h8 hts hu]
      rfl

theorem Run.snoc {s1 s2 : St} (h : Run cfg s ks t) (h1 : peekToken cfg false t = .ok (k, s1))
    (h2 : k.kind ≠ .EndOfFile) (h3 : k.skip s1 = .ok ((), s2)) : ∃ s2', Run cfg s (ks ++ [k]) s2' ∧ SameAt s2 s2' := by
  induction h with
  | nil h =>
    obtain ⟨u, e, hu⟩ := (peekToken_sim (cfg := cfg)).ok h.symm h1
    exact ⟨_, .cons e h2 rfl (.nil (SameAt.refl _)), skip_same hu k h3 rfl⟩
  | cons e1 e2 e3 _ ih =>
    obtain ⟨u, hr, hs⟩ := ih h1
    exact ⟨u, .cons e1 e2 e3 hr, hs⟩

theorem ok_bindM {α β} {m : M α} {f : α → M β} {r : β × St} (h : (m >>= f) s = .ok r) :
    ∃ a t, m s = .ok (a, t) ∧ f a t = .ok r := by
  change M.bind m f s = _ at h
  unfold M.bind at h
  split at h
  · exact ⟨_, _, by assumption, h⟩
  · cases h

theorem tokenLoop_reads {ts : List Tok} (h : tokenLoop cfg s = .ok (ts, t)) :
    ∃ u, Run cfg s ts u ∧ Done cfg u := by
  have key : ∀ n acc m, Run cfg s acc.reverse m → ∀ {m'}, SameAt m m' →
      M.loopN (fun ts : List Tok => do
        let t ← peekToken cfg false
        if t.kind = .EndOfFile then pure (.inr ts.reverse)
        else do
          t.skip
          pure (.inl (t :: ts))) n acc m' = .ok (ts, t) → ∃ u, Run cfg s ts u ∧ Done cfg u := by
    intro n
    induction n with
    | zero => intro acc m _ m' _ h; cases h
    | succ n ih =>
      intro acc m hr m' hm h
      unfold M.loopN at h
      split at h
      · next b' s' hb =>
        obtain ⟨k, v, h1, h2⟩ := ok_bindM hb
        split at h2
        · cases h2
        · next hk =>
          obtain ⟨_, w, h3, h4⟩ := ok_bindM h2
          cases h4
          obtain ⟨v', e1, hv⟩ := (peekToken_sim (cfg := cfg)).ok hm.symm h1
          obtain ⟨q, hq, hs⟩ := hr.snoc e1 hk (s2 := _) rfl
          refine ih (k :: acc) q (by simpa using hq) (m' := _) ?_ h
          exact hs.symm.trans (skip_same hv.symm k rfl h3)
      · next a s' hb =>
        cases h
        obtain ⟨k, v, h1, h2⟩ := ok_bindM hb
        split at h2
        · next hk =>
          cases h2
          exact ⟨m, hr, Done.congr ⟨k, _, h1, hk⟩ hm.symm⟩
        · obtain ⟨_, w, h3, h4⟩ := ok_bindM h2
          cases h4
      · cases h
  exact key _ [] s (.nil (SameAt.refl _)) (SameAt.refl _) h

/-- The rest of the first line. -/
theorem lineLoop_reads (h : M.loop (fun _ : Unit => do
          let t ← peekToken cfg false
          if t.kind = .EndOfFile then pure (.inr ())
          else if t.kind = .ToplevelNewline then do
            t.skip
            pure (.inr ())
          else do
            t.skip
            pure (.inl ())) () s = .ok ((), t)) :
    ∃ pre u, Run cfg s pre u ∧ SameAt u t ∧
      ((Done cfg u ∧ ∀ k ∈ pre, k.kind ≠ .ToplevelNewline) ∨
        ∃ l k, pre = l ++ [k] ∧ k.kind = .ToplevelNewline ∧ ∀ k ∈ l, k.kind ≠ .ToplevelNewline) := by
  unfold M.loop at h
  generalize s.rest.length + 2 = n at h
  have key : ∀ n pre m m', Run cfg s pre m → (∀ k ∈ pre, k.kind ≠ .ToplevelNewline) → SameAt m m' →
      M.loopN (fun _ : Unit => do
          let t ← peekToken cfg false
          if t.kind = .EndOfFile then pure (.inr ())
          else if t.kind = .ToplevelNewline then do
            t.skip
            pure (.inr ())
          else do
            t.skip
            pure (.inl ())) n () m' = .ok ((), t) →
      ∃ pre u, Run cfg s pre u ∧ SameAt u t ∧
      ((Done cfg u ∧ ∀ k ∈ pre, k.kind ≠ .ToplevelNewline) ∨
        ∃ l k, pre = l ++ [k] ∧ k.kind = .ToplevelNewline ∧ ∀ k ∈ l, k.kind ≠ .ToplevelNewline) := by
    intro n
    induction n with
    | zero => intro pre m m' _ _ _ h; cases h
    | succ n ih =>
      intro pre m m' hr hp hm h
      unfold M.loopN at h
      have snoc : ∀ {k v w}, peekToken cfg false m' = .ok (k, v) → k.kind ≠ .EndOfFile → k.skip v = .ok ((), w) →
          ∃ q, Run cfg s (pre ++ [k]) q ∧ SameAt q w := by
        intro k v w h1 h2 h3
        obtain ⟨v', e1, hv⟩ := (peekToken_sim (cfg := cfg)).ok hm.symm h1
        obtain ⟨q, hq, hs⟩ := hr.snoc e1 h2 (s2 := _) rfl
        exact ⟨q, hq, hs.symm.trans (skip_same hv.symm k rfl h3)⟩
      split at h
      · next b' s' hb =>
        obtain ⟨k, v, h1, h2⟩ := ok_bindM hb
        split at h2
        · cases h2
        · next hk =>
          split at h2
          · obtain ⟨_, w, h3, h4⟩ := ok_bindM h2; cases h4
          · next hk2 =>
            obtain ⟨_, w, h3, h4⟩ := ok_bindM h2
            cases h4
            obtain ⟨q, hq, hs⟩ := snoc h1 hk h3
            refine ih (pre ++ [k]) q _ hq ?_ hs h
            intro k' hk'
            rcases List.mem_append.mp hk' with h | h
            · exact hp k' h
            · simp only [List.mem_singleton] at h; subst h; exact hk2
      · next a s' hb =>
        cases h
        obtain ⟨k, v, h1, h2⟩ := ok_bindM hb
        split at h2
        · next hk =>
          cases h2
          have hd : Done cfg m := Done.congr ⟨k, _, h1, hk⟩ hm.symm
          obtain ⟨e1, e2⟩ : SameAt m' t ∧ True := by
            have := wp_ok (Q := fun _ t => SameAt m' t) (E := fun _ => True) (m := peekToken cfg false) (s := m') ?_ h1
            · exact ⟨this, trivial⟩
            · unfold peekToken peekTokenWith
              refine wp_bind (wp_mark (wp_anyB fun _ _ => ?_))
              exact wp_bind (wp_seek (wp_pure ⟨rfl, rfl, rfl⟩))
          exact ⟨pre, m, hr, hm.trans e1, Or.inl ⟨hd, hp⟩⟩
        · next hk =>
          split at h2
          · next hk2 =>
            obtain ⟨_, w, h3, h4⟩ := ok_bindM h2
            cases h4
            obtain ⟨q, hq, hs⟩ := snoc h1 hk h3
            exact ⟨_, q, hq, hs, Or.inr ⟨pre, k, rfl, hk2, hp⟩⟩
          · obtain ⟨_, w, h3, h4⟩ := ok_bindM h2; cases h4
      · cases h
  exact key n [] s s (.nil (SameAt.refl _)) (by simp) (SameAt.refl _) h

theorem peekToken_same {g : Bool} (h : peekToken cfg g s = .ok (k, t)) : SameAt s t := by
  refine wp_ok (Q := fun _ t => SameAt s t) (E := fun _ => True) (m := peekToken cfg g) (s := s) ?_ h
  unfold peekToken peekTokenWith
  refine wp_bind (wp_mark (wp_anyB fun _ _ => ?_))
  exact wp_bind (wp_seek (wp_pure ⟨rfl, rfl, rfl⟩))

theorem Run.head (h : Run cfg s (k :: ks) t) : ∃ u, peekToken cfg false s = .ok (k, u) := by
  cases h with
  | cons h1 _ _ _ => exact ⟨_, h1⟩

theorem Run.done (h : Run cfg s ks t) (hd : Done cfg s) : ks = [] := by
  cases h with
  | nil => rfl
  | cons h1 h2 _ _ =>
    obtain ⟨k', u, e, hk⟩ := hd
    rw [h1] at e; cases e; exact absurd hk h2

/-- What `handle_first_line` skips, as a list of tokens. -/
theorem handleFirstLine_reads {first : FirstLine} (hf : first ≠ .notScript)
    (h : handleFirstLine cfg first s = .ok ((), t)) :
    ∃ pre u, Run cfg s pre u ∧ SameAt u t ∧
      ((pre = [] ∧ ∃ k v, peekToken cfg false s = .ok (k, v) ∧ k.kind ≠ .Hash) ∨
       (∃ a, pre = [a] ∧ a.kind = .Hash ∧ ∃ k v, peekToken cfg false u = .ok (k, v) ∧ k.kind ≠ .Bang) ∨
       (∃ a b l, pre = a :: b :: l ∧ a.kind = .Hash ∧ b.kind = .Bang ∧
          ((Done cfg u ∧ ∀ k ∈ l, k.kind ≠ .ToplevelNewline) ∨
            ∃ l' k, l = l' ++ [k] ∧ k.kind = .ToplevelNewline ∧ ∀ k ∈ l', k.kind ≠ .ToplevelNewline))) := by
  have h : (do
    let t ← peekToken cfg false
    if t.kind ≠ .Hash then pure ()
    else
      t.skip
      let t ← peekToken cfg false
      if t.kind ≠ .Bang then pure ()
      else
        t.skip
        M.loop (fun _ : Unit => do
          let t ← peekToken cfg false
          if t.kind = .EndOfFile then pure (.inr ())
          else if t.kind = .ToplevelNewline then do
            t.skip
            pure (.inr ())
          else do
            t.skip
            pure (.inl ())) () : M Unit) s = .ok ((), t) := by
    cases first with
    | notScript => exact absurd rfl hf
    | check => exact h
    | script => exact h
  obtain ⟨a, s1, ha, h⟩ := ok_bindM h
  split at h
  · next hk =>
    cases h
    exact ⟨[], s, .nil (SameAt.refl _), peekToken_same ha, Or.inl ⟨rfl, a, _, ha, hk⟩⟩
  · next hk =>
    have hk : a.kind = .Hash := by simpa using hk
    obtain ⟨_, s2, hs2, h⟩ := ok_bindM h
    obtain ⟨b, s3, hb, h⟩ := ok_bindM h
    have ha' : a.kind ≠ .EndOfFile := by rw [hk]; decide
    split at h
    · next hk2 =>
      cases h
      exact ⟨[a], s2, .cons ha ha' hs2 (.nil (SameAt.refl _)), peekToken_same hb,
        Or.inr (Or.inl ⟨a, rfl, hk, b, _, hb, hk2⟩)⟩
    · next hk2 =>
      have hk2 : b.kind = .Bang := by simpa using hk2
      obtain ⟨_, s4, hs4, h⟩ := ok_bindM h
      have hb' : b.kind ≠ .EndOfFile := by rw [hk2]; decide
      obtain ⟨l, u, h1, h2, h3⟩ := lineLoop_reads h
      exact ⟨a :: b :: l, u, .cons ha ha' hs2 (.cons hb hb' hs4 h1), h2,
        Or.inr (Or.inr ⟨a, b, l, rfl, hk, hk2, h3⟩)⟩

theorem throughNewline_stop {l r : List Tok} (h : ∀ k ∈ l, k.kind ≠ .ToplevelNewline) (hk : k.kind = .ToplevelNewline) :
    throughNewline ((l ++ k :: r).map Tok.kind) = l.length + 1 := by
  induction l with
  | nil => simp [throughNewline, hk]
  | cons a l ih =>
    have := h a List.mem_cons_self
    simp only [List.cons_append, List.map_cons, throughNewline, if_neg this, List.length_cons]
    rw [ih fun k hk => h k (List.mem_cons_of_mem _ hk)]

theorem throughNewline_all {l : List Tok} (h : ∀ k ∈ l, k.kind ≠ .ToplevelNewline) :
    throughNewline (l.map Tok.kind) = l.length := by
  induction l with
  | nil => rfl
  | cons a l ih =>
    have := h a List.mem_cons_self
    simp only [List.map_cons, throughNewline, if_neg this, List.length_cons]
    rw [ih fun k hk => h k (List.mem_cons_of_mem _ hk)]

end

/-- C24: the tokens found with a first line behaviour are those found without one, less the
ones `skipped` says: none if the input does not start with the token `#`, everything through
the first top-level newline if it starts with the tokens `#` and `!` — and, against the
intention, the `#` alone otherwise.  Texts and positions of the remaining tokens are the
same. -/
theorem C24_tokens_partial (cfg : Cfg) (conv : Conv) (first : FirstLine) (bs : List UInt8) (all ts : List Tok) (t t' : St)
    (hn : tokens cfg conv .notScript bs = .ok (all, t)) (hf : tokens cfg conv first bs = .ok (ts, t')) :
    ts = all.drop (skipped first (all.map Tok.kind)) := by
  by_cases hns : first = .notScript
  · subst hns
    rw [hn] at hf; cases hf
    simp [skipped]
  obtain ⟨_, s0, h0, h1⟩ := ok_bindM hn
  cases h0
  obtain ⟨w, hall, hd⟩ := tokenLoop_reads h1
  obtain ⟨_, s1, h2, h3⟩ := ok_bindM hf
  obtain ⟨pre, u, hpre, hu, hcase⟩ := handleFirstLine_reads hns h2
  obtain ⟨v, hts, hv⟩ := tokenLoop_reads h3
  obtain ⟨v', hts', hv'⟩ := hts.congr hu.symm
  have hkey : all = pre ++ ts := hall.unique hd (SameAt.refl _) hpre hts' (hv.congr hv')
  suffices hlen : skipped first (all.map Tok.kind) = pre.length by
    rw [hlen, hkey, List.drop_left]
  unfold skipped
  rw [if_neg hns]
  rcases hcase with ⟨rfl, k, q, hk, hne⟩ | ⟨a, rfl, ha, k, q, hk, hne⟩ | ⟨a, b, l, rfl, ha, hb, hl⟩
  · cases all with
    | nil => rfl
    | cons x xs =>
      obtain ⟨q', e⟩ := hall.head
      rw [hk] at e; cases e
      simp only [List.map_cons, List.length_nil]
      split
      · next h => simp only [List.cons.injEq] at h; exact absurd h.1 hne
      · next h => simp only [List.cons.injEq] at h; exact absurd h.1 hne
      · rfl
  · rw [hkey]
    cases ts with
    | nil => simp [ha]
    | cons x xs =>
      obtain ⟨q', e⟩ := hts'.head
      rw [hk] at e; cases e
      simp only [List.cons_append, List.nil_append, List.map_cons, ha, List.length_singleton]
      split
      · next h => simp only [List.cons.injEq, true_and] at h; exact absurd h.1 hne
      · rfl
      · next h => exact absurd rfl (h _)
  · rw [hkey]
    simp only [List.cons_append, List.map_cons, ha, hb, List.length_cons]
    rcases hl with ⟨hd, hl⟩ | ⟨l', k, rfl, hk, hl⟩
    · rw [hts'.done hd, List.append_nil, throughNewline_all hl]
    · rw [List.append_assoc, List.singleton_append, throughNewline_stop hl hk]
      simp

/-- The kinds and texts of the tokens. -/
def kindsTexts (first : FirstLine) (input : List Char) : Option (List (TK × List UInt8)) :=
  match tokens Cfg.default .lineColumn first (encode input) with
  | .ok (ts, _) => some (ts.map fun t => (t.kind, t.text))
  | .error _ => none

/-- The ordinary case: the first line is skipped. -/
example : kindsTexts .check ['#', '!', 'w', ' ', 'x', '\n', 'a'] = some [(.Symbol, [97])] ∧
    kindsTexts .check ['a', '#'] = some [(.Symbol, [97]), (.Hash, [35])] := by decide +kernel

/-- C24 fails as stated: an input starting with `#` but not with `#!` loses its `#`; and a
first line with an unterminated string takes the following lines along. -/
theorem C24_violated :
    kindsTexts .check ['#', 'a'] = some [(.Symbol, [97])] ∧
    kindsTexts .check ['#', '!', '"', '\n', 'a', '"', '\n', 'b'] = some [(.Symbol, [98])] := by decide +kernel

end CodeParser.Props
