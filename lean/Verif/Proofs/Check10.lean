import Verif.Proofs.Check9
/-!
Helper lemmas: relations between the state before, the state behind and the events that hold for every
computation of the reader and of the tokenizer because they hold for the steps.
-/
namespace CodeParser.Chk
open CodeParser.Spec (aboutEncoding recorded)

/-- The same session. -/
structure Kin (E E' : Env) : Prop where
  cfg : E'.cfg = E.cfg
  check : E'.check = E.check
  oob : E'.oob = E.oob

theorem Kin.refl (E : Env) : Kin E E := ⟨rfl, rfl, rfl⟩

theorem Kin.to {E E' E'' : Env} (h : Kin E E') (h1 : E''.cfg = E'.cfg) (h2 : E''.check = E'.check) (h3 : E''.oob = E'.oob) :
    Kin E E'' := ⟨h1.trans h.1, h2.trans h.2, h3.trans h.3⟩

/-- A relation that holds for the steps. -/
structure Law (E : Env) (P : St → St → List Ev → Prop) : Prop where
  move : ∀ {s t : St}, t.flag = s.flag → P s t []
  trans : ∀ {s t u : St} {es fs : List Ev}, P s t es → P t u fs → P s u (es ++ fs)
  src : ∀ {E' : Env} {s t : St} {c : CP} {es : List Ev}, Kin E E' → src E' s = .ok (c, t, es) → P s t es
  issue : ∀ {s : St} {i : Report}, E.check = true → ¬ aboutEncoding (.issue i) → P s s [.issue i]
  track : ∀ {s : St} {e : Ev}, E.oob = true → recorded e ≠ none → P s s [e]

/-- The relation holds for the computation. -/
def Obeys {α : Type} (P : St → St → List Ev → Prop) (m : M α) : Prop :=
  ∀ s a t es, m s = .ok (a, t, es) → P s t es

section
variable {E : Env} {P : St → St → List Ev → Prop} {α β : Type}

theorem Obeys.pure (L : Law E P) {a : α} : Obeys P (Pure.pure a : M α) := by
  intro s b t es h
  cases h
  exact L.move rfl

theorem Obeys.bind (L : Law E P) {m : M α} {f : α → M β} (hm : Obeys P m) (hf : ∀ a, Obeys P (f a)) : Obeys P (m >>= f) := by
  intro s b u es h
  change M.bind m f s = _ at h
  unfold M.bind at h
  rcases h1 : m s with e | ⟨a, t, es1⟩ <;> rw [h1] at h
  · cases h
  · simp only at h
    rcases h2 : f a t with e | ⟨b', u', es2⟩ <;> rw [h2] at h
    · cases h
    · cases h
      exact L.trans (hm _ _ _ _ h1) (hf _ _ _ _ _ h2)

theorem Obeys.ite {c : Prop} [Decidable c] {a b : M α} (h1 : c → Obeys P a) (h2 : ¬ c → Obeys P b) : Obeys P (if c then a else b) := by
  by_cases h : c
  · rw [if_pos h]; exact h1 h
  · rw [if_neg h]; exact h2 h

theorem Obeys.when (L : Law E P) {c : Bool} {m : M Unit} (h : c = true → Obeys P m) : Obeys P (M.when c m) := by
  cases c with
  | false => exact Obeys.pure L
  | true => exact h rfl

theorem Obeys.loop (L : Law E P) {body : β → M (β ⊕ α)} (h : ∀ b, Obeys P (body b)) {b : β} : Obeys P (M.loop body b) := by
  have key : ∀ n b, Obeys P (M.loopN body n b) := by
    intro n
    induction n with
    | zero => intro b s a t es h; cases h
    | succ n ih =>
      intro b s a t es hr
      unfold M.loopN at hr
      rcases h1 : body b s with e | ⟨r, u, es1⟩ <;> rw [h1] at hr
      · cases hr
      · cases r with
        | inr x => cases hr; exact h _ _ _ _ _ h1
        | inl x =>
          simp only at hr
          rcases h2 : M.loopN body n x u with e | ⟨b', u', es2⟩ <;> rw [h2] at hr
          · cases hr
          · cases hr
            exact L.trans (h _ _ _ _ _ h1) (ih _ _ _ _ _ h2)
  intro s a t es hr
  exact key _ _ _ _ _ _ hr

theorem Obeys.lift (L : Law E P) {m : CodeParser.M α} (h : ∀ s a t, m s = .ok (a, t) → t.flag = s.flag) : Obeys P (M.lift m) := by
  intro s a t es hr
  unfold M.lift at hr
  rcases h1 : m s with e | ⟨b, u⟩ <;> rw [h1] at hr
  · cases hr
  · cases hr
    exact L.move (h _ _ _ h1)

theorem Obeys.fail {e : Fail} : Obeys P (M.fail e : M α) := by intro s a t es h; cases h
theorem Obeys.panic {e : Site} : Obeys P (M.panic e : M α) := by intro s a t es h; cases h
theorem Obeys.mark (L : Law E P) : Obeys P M.mark := by intro s a t es h; cases h; exact L.move rfl
theorem Obeys.here (L : Law E P) : Obeys P here := by intro s a t es h; cases h; exact L.move rfl
theorem Obeys.seek (L : Law E P) {m : St} : Obeys P (M.seek m) := by intro s a t es h; cases h; exact L.move rfl
theorem Obeys.goBack (L : Law E P) {m : St} : Obeys P (goBack m) := by intro s a t es h; cases h; exact L.move rfl
theorem Obeys.textFrom (L : Law E P) {m : St} : Obeys P (textFrom m) := by intro s a t es h; cases h; exact L.move rfl
theorem Obeys.shown (L : Law E P) {o : Option (List UInt8)} : Obeys P (shown o) := by
  cases o with
  | none => exact .fail
  | some t => exact .pure L
theorem Obeys.previous (L : Law E P) {l : Loc} : Obeys P (previous l) := by
  unfold Chk.previous
  split
  · exact Obeys.pure L
  · exact .fail
theorem Obeys.spanOf (L : Law E P) {a b : Loc} : Obeys P (spanOf a b) := by
  unfold Chk.spanOf
  split
  · exact Obeys.pure L
  · exact .fail

/-- A computation without issues that leaves the state as it is. -/
def Still {α : Type} (m : CodeParser.M α) : Prop := ∀ s a t, m s = .ok (a, t) → t = s

theorem Still.pure {a : α} : Still (Pure.pure a : CodeParser.M α) := by intro s b t h; cases h; rfl
theorem Still.panic {e : Site} : Still (CodeParser.M.panic e : CodeParser.M α) := by intro s b t h; cases h
theorem Still.bind {m : CodeParser.M α} {f : α → CodeParser.M β} (hm : Still m) (hf : ∀ a, Still (f a)) : Still (m >>= f) := by
  intro s b u h
  change CodeParser.M.bind m f s = _ at h
  unfold CodeParser.M.bind at h
  rcases h1 : m s with e | ⟨a, t⟩ <;> rw [h1] at h
  · cases h
  · have := hm _ _ _ h1
    subst this
    exact hf _ _ _ _ h
theorem Still.ite {c : Prop} [Decidable c] {a b : CodeParser.M α} (h1 : Still a) (h2 : Still b) : Still (if c then a else b) := by
  by_cases h : c
  · rw [if_pos h]; exact h1
  · rw [if_neg h]; exact h2
theorem Obeys.still (L : Law E P) {m : CodeParser.M α} (h : Still m) : Obeys P (M.lift m) := .lift L fun s a t hr => by rw [h s a t hr]

end
end CodeParser.Chk
