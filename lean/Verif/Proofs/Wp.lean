import Verif.Model.Monad
import Verif.Proofs.Reader
/-!
Helper definitions and lemmas for reasoning about computations over the reader:
reachable positions (`Path`, `R`) and weakest preconditions (`wp`).
-/
namespace CodeParser

/-- `Path cfg s cs t`: reading the source characters `cs` one after the other moves
the reader from the position of `s` to the position of `t` (the encoding flag and
the end-of-file latch are ignored). -/
inductive Path (cfg : Cfg) : St → List CP → St → Prop
  | nil {s t : St} : t.rest = s.rest → t.loc = s.loc → Path cfg s [] t
  | cons {s t : St} {cs : List CP} : s.rest ≠ [] → Path cfg (nextSource cfg s).2 cs t →
      Path cfg s ((nextSource cfg s).1 :: cs) t

theorem nextSource_WF_congr {cfg} {s t : St} (hs : WF s) (ht : WF t) (hr : s.rest = t.rest)
    (hl : s.loc = t.loc) : (nextSource cfg s).1 = (nextSource cfg t).1 ∧
      (nextSource cfg s).2.rest = (nextSource cfg t).2.rest ∧
      (nextSource cfg s).2.loc = (nextSource cfg t).2.loc := by
  obtain ⟨r, l, e, f⟩ := s
  obtain ⟨r', l', e', f'⟩ := t
  simp only at hr hl
  subst hr; subst hl
  by_cases h : r = []
  · subst h
    rw [nextSource_nil rfl, nextSource_nil rfl]; exact ⟨rfl, rfl, rfl⟩
  · have h1 : e = false := by cases e <;> simp_all [WF]
    have h2 : e' = false := by cases e' <;> simp_all [WF]
    subst h1; subst h2
    have := @nextSource_sim cfg r l false f f'
    exact ⟨this.1, this.2.1, this.2.2.1⟩

theorem Path.congr_left {cfg cs} {s s' t : St} (h : Path cfg s cs t) (hs : WF s) (hs' : WF s')
    (hr : s'.rest = s.rest) (hl : s'.loc = s.loc) : Path cfg s' cs t := by
  induction h generalizing s' with
  | nil h1 h2 => exact .nil (h1.trans hr.symm) (h2.trans hl.symm)
  | @cons s t cs hne _ ih =>
    have := nextSource_WF_congr (cfg := cfg) hs hs' hr.symm hl.symm
    rw [this.1]
    exact .cons (by rw [hr]; exact hne)
      (ih (WF_nextSource hs) (WF_nextSource hs') this.2.1.symm this.2.2.symm)

theorem Path.congr_right {cfg cs} {s t t' : St} (h : Path cfg s cs t)
    (hr : t'.rest = t.rest) (hl : t'.loc = t.loc) : Path cfg s cs t' := by
  induction h with
  | nil h1 h2 => exact .nil (hr.trans h1) (hl.trans h2)
  | cons hne _ ih => exact .cons hne (ih hr hl)

theorem Path.trans {cfg cs ds} {s t u : St} (h : Path cfg s cs t) (h2 : Path cfg t ds u)
    (hs : WF s) (ht : WF t) : Path cfg s (cs ++ ds) u := by
  induction h with
  | nil h1 h3 => exact h2.congr_left ht hs h1.symm h3.symm
  | cons hne _ ih => exact .cons hne (ih h2 (WF_nextSource hs) ht)

theorem nextSource_rest {cfg s} (hwf : WF s) : ∃ pre, s.rest = pre ++ (nextSource cfg s).2.rest ∧
    (s.rest ≠ [] → pre ≠ []) := by
  by_cases hne : s.rest = []
  · rw [nextSource_nil hne]; exact ⟨[], rfl, fun h => absurd hne h⟩
  · have := nextSource_Dec (cfg := cfg) hwf hne
    generalize nextSource cfg s = p at this
    cases this with
    | valid c rest h1 h2 h3 =>
      refine ⟨_, h1, fun _ h => ?_⟩
      have := congrArg List.length h
      simp at this
      have := Char.utf8Size_pos c; omega
    | crlf rest h1 => exact ⟨[13, 10], h1, by simp⟩
    | invalid c pre rest e u h1 h2 hl h3 h4 => exact ⟨pre, h3, fun _ => h2⟩

theorem Path.suffix {cfg cs} {s t : St} (h : Path cfg s cs t) (hs : WF s) :
    ∃ pre, s.rest = pre ++ t.rest := by
  induction h with
  | nil h1 _ => exact ⟨[], by simp [h1]⟩
  | @cons s t cs hne _ ih =>
    obtain ⟨p, hp⟩ := ih (WF_nextSource hs)
    obtain ⟨q, hq, _⟩ := nextSource_rest (cfg := cfg) hs
    exact ⟨q ++ p, by rw [hq, hp]; simp⟩

/-- Some undecodable byte sequence (or a byte order mark) lies ahead of `s`. -/
def Bad (cfg : Cfg) (s : St) : Prop :=
  ∃ cs c t, Path cfg s (cs ++ [c]) t ∧ c.isUnsafe = true

/-- `R cfg s t`: reading moved from `s` to `t`; `t` is further on in the input and
the encoding flag of `t` accounts for what was read. -/
structure R (cfg : Cfg) (s t : St) : Prop where
  wf : WF t
  path : ∃ cs, Path cfg s cs t ∧ ((∃ c ∈ cs, c.isUnsafe = true) → t.flag ≠ none)
  keep : s.flag ≠ none → t.flag ≠ none
  blame : t.flag ≠ none → s.flag ≠ none ∨ Bad cfg s

theorem R.refl {cfg s} (h : WF s) : R cfg s s :=
  ⟨h, ⟨[], .nil rfl rfl, by simp⟩, id, Or.inl⟩

theorem Bad.of_path {cfg cs} {s t : St} (hs : WF s) (ht : WF t) (h : Path cfg s cs t) (hb : Bad cfg t) :
    Bad cfg s := by
  obtain ⟨ds, c, u, hp, hc⟩ := hb
  exact ⟨cs ++ ds, c, u, by rw [List.append_assoc]; exact h.trans hp hs ht, hc⟩

theorem R.trans {cfg} {s t u : St} (hs : WF s) (h1 : R cfg s t) (h2 : R cfg t u) : R cfg s u := by
  obtain ⟨cs, hp, hf⟩ := h1.path
  obtain ⟨ds, hq, hg⟩ := h2.path
  refine ⟨h2.wf, ⟨cs ++ ds, hp.trans hq hs h1.wf, ?_⟩, fun h => h2.keep (h1.keep h), ?_⟩
  · rintro ⟨c, hc, hu⟩
    rcases List.mem_append.mp hc with hc | hc
    · exact h2.keep (hf ⟨c, hc, hu⟩)
    · exact hg ⟨c, hc, hu⟩
  · intro h
    rcases h2.blame h with h | h
    · exact h1.blame h
    · exact Or.inr (h.of_path hs h1.wf hp)

/-- Going back to a mark. -/
theorem R.seek {cfg} {s m t : St} (hs : WF s) (h1 : R cfg s m) (h2 : R cfg m t) :
    R cfg s (t.seek m) := by
  obtain ⟨cs, hp, hf⟩ := h1.path
  refine ⟨h1.wf, ⟨cs, hp.congr_right rfl rfl, fun h => ?_⟩, ?_, ?_⟩
  · exact h2.keep (hf h)
  · intro h; exact (R.trans hs h1 h2).keep h
  · intro h; exact (R.trans hs h1 h2).blame h

theorem R.suffix {cfg} {s t : St} (hs : WF s) (h : R cfg s t) : ∃ pre, s.rest = pre ++ t.rest := by
  obtain ⟨cs, hp, _⟩ := h.path
  exact hp.suffix hs

theorem R.len {cfg} {s t : St} (hs : WF s) (h : R cfg s t) : t.rest.length ≤ s.rest.length := by
  obtain ⟨p, hp⟩ := h.suffix hs
  rw [hp]; simp

theorem Path.unsafe_Bad {cfg cs} {s t : St} (h : Path cfg s cs t)
    (hu : ∃ c ∈ cs, CP.isUnsafe c = true) : Bad cfg s := by
  induction h with
  | nil => obtain ⟨c, hc, _⟩ := hu; simp at hc
  | @cons s t cs hne hp ih =>
    obtain ⟨c, hc, hcu⟩ := hu
    rcases List.mem_cons.mp hc with hc | hc
    · refine ⟨[], (nextSource cfg s).1, (nextSource cfg s).2, .cons hne (.nil rfl rfl), hc ▸ hcu⟩
    · obtain ⟨ds, c, u, hp, hc⟩ := ih ⟨c, hc, hcu⟩
      exact ⟨_ :: ds, c, u, .cons hne hp, hc⟩

/-- What reading one source character does. -/
theorem R_nextSource {cfg s} (hs : WF s) : R cfg s (nextSource cfg s).2 := by
  refine ⟨WF_nextSource hs, ?_, ?_, ?_⟩
  · by_cases hne : s.rest = []
    · refine ⟨[], .nil ?_ ?_, by simp⟩ <;> rw [nextSource_nil hne]
    · refine ⟨[(nextSource cfg s).1], .cons hne (.nil rfl rfl), ?_⟩
      have := nextSource_Dec (cfg := cfg) hs hne
      generalize nextSource cfg s = p at this
      cases this with
      | valid c rest h1 h2 h3 => simp [CP.isUnsafe]
      | crlf rest h1 => simp [CP.isUnsafe]
      | invalid c pre rest e u h1 h2 hl h3 h4 => simp
  · by_cases hne : s.rest = []
    · rw [nextSource_nil hne]; exact id
    · have := nextSource_Dec (cfg := cfg) hs hne
      generalize nextSource cfg s = p at this
      cases this with
      | valid c rest h1 h2 h3 => exact id
      | crlf rest h1 => exact id
      | invalid c pre rest e u h1 h2 hl h3 h4 => simp
  · by_cases hne : s.rest = []
    · rw [nextSource_nil hne]; exact Or.inl
    · have hb : (nextSource cfg s).1.isUnsafe = true → Bad cfg s := fun h =>
        ⟨[], _, _, .cons hne (.nil rfl rfl), h⟩
      have := nextSource_Dec (cfg := cfg) hs hne
      generalize nextSource cfg s = p at this hb
      cases this with
      | valid c rest h1 h2 h3 => exact Or.inl
      | crlf rest h1 => exact Or.inl
      | invalid c pre rest e u h1 h2 hl h3 h4 => exact fun _ => Or.inr (hb h1)

/-! ### Weakest preconditions -/

/-- The computation `m`, run in `s`, ends in a result satisfying `Q` or in an error
satisfying `E`. -/
def wp {α} (E : Err → Prop) (m : M α) (s : St) (Q : α → St → Prop) : Prop :=
  match m s with
  | .ok (a, t) => Q a t
  | .error e => E e

theorem wp_pure {α} {E : Err → Prop} {a : α} {s Q} (h : Q a s) : wp E (Pure.pure a : M α) s Q := h

theorem wp_bind {α β} {E : Err → Prop} {m : M α} {f : α → M β} {s} {Q : β → St → Prop}
    (h : wp E m s (fun a t => wp E (f a) t Q)) : wp E (m >>= f) s Q := by
  unfold wp at *
  show match M.bind m f s with | .ok (a, t) => Q a t | .error e => E e
  unfold M.bind
  cases hm : m s with
  | error e => simpa [hm] using h
  | ok p => obtain ⟨a, t⟩ := p; simpa [hm] using h

theorem wp_mono {α} {E E' : Err → Prop} {m : M α} {s} {Q Q' : α → St → Prop}
    (h : wp E m s Q) (hE : ∀ e, E e → E' e) (hQ : ∀ a t, Q a t → Q' a t) : wp E' m s Q' := by
  unfold wp at *
  cases hm : m s with
  | error e => simp only [hm] at h; exact hE e h
  | ok p => obtain ⟨a, t⟩ := p; simp only [hm] at h; exact hQ a t h

/-- Using the specification of a callee. -/
theorem wp_call {α β} {E E' : Err → Prop} {m : M α} {f : α → M β} {s} {Q : α → St → Prop}
    {Q' : β → St → Prop} (h : wp E m s Q) (hE : ∀ e, E e → E' e)
    (hQ : ∀ a t, Q a t → wp E' (f a) t Q') : wp E' (m >>= f) s Q' :=
  wp_bind (wp_mono h hE hQ)

theorem wp_ite {α} {E : Err → Prop} {c : Prop} [Decidable c] {x y : M α} {s Q}
    (h1 : c → wp E x s Q) (h2 : ¬ c → wp E y s Q) : wp E (if c then x else y) s Q := by
  by_cases h : c
  · rw [if_pos h]; exact h1 h
  · rw [if_neg h]; exact h2 h

theorem wp_panic {α} {E : Err → Prop} {p : Site} {s} {Q : α → St → Prop} (h : E (.panic p)) :
    wp E (M.panic p : M α) s Q := h

theorem wp_mark {E : Err → Prop} {s} {Q : St → St → Prop} (h : Q s s) : wp E M.mark s Q := h

theorem wp_seek {E : Err → Prop} {m s} {Q : Unit → St → Prop} (h : Q () (s.seek m)) :
    wp E (M.seek m) s Q := h

theorem wp_src {E : Err → Prop} {cfg s} {Q : CP → St → Prop}
    (h : Q (nextSource cfg s).1 (nextSource cfg s).2) : wp E (src cfg) s Q := h

theorem wp_peekSrc {E : Err → Prop} {cfg s} {Q : CP → St → Prop}
    (h : Q (nextSource cfg s).1 ((nextSource cfg s).2.seek s)) : wp E (peekSrc cfg) s Q := h

/-- Loop rule: an invariant `I` and a measure `μ` that drops with every iteration. -/
theorem wp_loop {α β} {E : Err → Prop} {body : β → M (β ⊕ α)} {b : β} {s : St}
    {Q : α → St → Prop} (I : β → St → Prop) (μ : β → St → Nat)
    (h0 : I b s) (hμ : μ b s ≤ s.rest.length + 1)
    (hstep : ∀ b t, I b t → wp E (body b) t (fun r u => match r with
      | .inl b' => I b' u ∧ μ b' u < μ b t
      | .inr a => Q a u)) : wp E (M.loop body b) s Q := by
  have key : ∀ n b t, I b t → μ b t < n → wp E (M.loopN body n b) t Q := by
    intro n
    induction n with
    | zero => intro b t _ h; omega
    | succ n ih =>
      intro b t hI hlt
      have := hstep b t hI
      unfold wp M.loopN
      unfold wp at this
      cases hb : body b t with
      | error e => simpa [hb] using this
      | ok p =>
        obtain ⟨r, u⟩ := p
        simp only [hb] at this ⊢
        cases r with
        | inl b' => exact ih b' u this.1 (by omega)
        | inr a => exact this
  exact key _ b s h0 (by omega)

end CodeParser
