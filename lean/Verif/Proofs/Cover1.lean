import Verif.Proofs.Check12
/-!
Helper lemmas: what holds of every place the reader comes to, because it holds at the start and reading a
source character takes it along, holds behind every computation of the reader and of the tokenizer.
-/
namespace CodeParser.Chk.Cov

/-- The same session. -/
structure Akin (E E' : Env) : Prop where
  cfg : E'.cfg = E.cfg
  check : E'.check = E.check
  normal : E'.normal = E.normal

theorem Akin.refl (E : Env) : Akin E E := ⟨rfl, rfl, rfl⟩

theorem Akin.to {E E' E'' : Env} (h : Akin E E') (h1 : E''.cfg = E'.cfg) (h2 : E''.check = E'.check) (h3 : E''.normal = E'.normal) :
    Akin E E'' := ⟨h1.trans h.1, h2.trans h.2, h3.trans h.3⟩

/-- `K rest loc` is taken along by reading a source character, if all events satisfy `L`. -/
structure Cover (E : Env) (L : Ev → Prop) (K : List UInt8 → Loc → Prop) : Prop where
  src : ∀ {E' : Env} {s t : St} {c : CP} {es : List Ev}, Akin E E' → WF s → K s.rest s.loc → src E' s = .ok (c, t, es) →
    (∀ e ∈ es, L e) → K t.rest t.loc

/-- The reader is at a place where `K` holds. -/
def In (K : List UInt8 → Loc → Prop) (s : St) : Prop := WF s ∧ K s.rest s.loc

/-- The computation stays within `K`, if all events satisfy `L`. -/
def Keeps {α : Type} (L : Ev → Prop) (K : List UInt8 → Loc → Prop) (m : M α) : Prop :=
  ∀ s a t es, In K s → m s = .ok (a, t, es) → (∀ e ∈ es, L e) → In K t

/-- The computation stays within `K` and gives something for which `Q` holds. -/
def Gives {α : Type} (L : Ev → Prop) (K : List UInt8 → Loc → Prop) (Q : α → Prop) (m : M α) : Prop :=
  ∀ s a t es, In K s → m s = .ok (a, t, es) → (∀ e ∈ es, L e) → In K t ∧ Q a

/-- The token starts at `start` and ends where `K` holds. -/
def Ends (K : List UInt8 → Loc → Prop) (start : St) (k : Tok) : Prop :=
  K k.after k.stop ∧ k.start = start.loc ∧ k.text = start.rest.take (start.rest.length - k.after.length)

section
variable {α β : Type} {E : Env} {L : Ev → Prop} {K : List UInt8 → Loc → Prop} {Q : α → Prop} {Q' : β → Prop}

theorem Gives.keeps {m : M α} (h : Gives L K Q m) : Keeps L K m := fun s a t es h1 h2 h3 => (h s a t es h1 h2 h3).1

theorem Keeps.gives {m : M α} (h : Keeps L K m) : Gives L K (fun _ => True) m := fun s a t es h1 h2 h3 => ⟨h s a t es h1 h2 h3, trivial⟩

theorem Gives.bind {m : M α} {f : α → M β} (hm : Gives L K Q m) (hf : ∀ a, Q a → Gives L K Q' (f a)) : Gives L K Q' (m >>= f) := by
  intro s b u es hs h hl
  obtain ⟨a, t, es1, es2, h1, h2, rfl⟩ := bind_split h
  obtain ⟨h3, h4⟩ := hm _ _ _ _ hs h1 fun e he => hl e (List.mem_append_left _ he)
  exact hf a h4 _ _ _ _ h3 h2 fun e he => hl e (List.mem_append_right _ he)

theorem Gives.keepsBind {m : M α} {f : α → M β} (hm : Gives L K Q m) (hf : ∀ a, Q a → Keeps L K (f a)) : Keeps L K (m >>= f) :=
  (hm.bind fun a ha => (hf a ha).gives).keeps

theorem Gives.kbind {m : M α} {f : α → M β} (hm : Keeps L K m) (hf : ∀ a, Gives L K Q' (f a)) : Gives L K Q' (m >>= f) :=
  hm.gives.bind fun a _ => hf a

theorem Keeps.bind {m : M α} {f : α → M β} (hm : Keeps L K m) (hf : ∀ a, Keeps L K (f a)) : Keeps L K (m >>= f) :=
  (hm.gives.bind fun a _ => (hf a).gives).keeps

theorem Keeps.pure {a : α} : Keeps L K (Pure.pure a : M α) := by
  intro s b t es hs h _
  cases h
  exact hs

theorem Gives.pure {a : α} (h : Q a) : Gives L K Q (Pure.pure a : M α) := by
  intro s b t es hs h _
  cases h
  exact ⟨hs, h⟩

theorem Keeps.ite {c : Prop} [Decidable c] {a b : M α} (h1 : c → Keeps L K a) (h2 : ¬ c → Keeps L K b) : Keeps L K (if c then a else b) := by
  by_cases h : c
  · rw [if_pos h]; exact h1 h
  · rw [if_neg h]; exact h2 h

theorem Gives.ite {c : Prop} [Decidable c] {a b : M α} (h1 : c → Gives L K Q a) (h2 : ¬ c → Gives L K Q b) : Gives L K Q (if c then a else b) := by
  by_cases h : c
  · rw [if_pos h]; exact h1 h
  · rw [if_neg h]; exact h2 h

theorem Keeps.when {c : Bool} {m : M Unit} (h : c = true → Keeps L K m) : Keeps L K (M.when c m) := by
  cases c with
  | false => exact Keeps.pure
  | true => exact h rfl

/-- A loop with an invariant. -/
theorem Gives.loop {body : β → M (β ⊕ α)} (I : β → Prop) (h : ∀ b, I b → Gives L K (fun | .inl b => I b | .inr a => Q a) (body b))
    {b : β} (hb : I b) : Gives L K Q (M.loop body b) := by
  have key : ∀ n b, I b → Gives L K Q (M.loopN body n b) := by
    intro n
    induction n with
    | zero => intro b _ s a t es _ h; cases h
    | succ n ih =>
      intro b hb s a t es hs hr hl
      unfold M.loopN at hr
      rcases h1 : body b s with e | ⟨r, u, es1⟩ <;> rw [h1] at hr
      · cases hr
      · cases r with
        | inr x => cases hr; exact h _ hb _ _ _ _ hs h1 hl
        | inl x =>
          simp only at hr
          rcases h2 : M.loopN body n x u with e | ⟨b', u', es2⟩ <;> rw [h2] at hr
          · cases hr
          · cases hr
            have h3 := h _ hb _ _ _ _ hs h1 fun e he => hl e (List.mem_append_left _ he)
            exact ih _ h3.2 _ _ _ _ h3.1 h2 fun e he => hl e (List.mem_append_right _ he)
  intro s a t es hs hr hl
  exact key _ _ hb _ _ _ _ hs hr hl

theorem Keeps.loop {body : β → M (β ⊕ α)} (h : ∀ b, Keeps L K (body b)) {b : β} : Keeps L K (M.loop body b) := by
  refine (Gives.loop (Q := fun _ => True) (fun _ => True) (fun b _ => ?_) trivial).keeps
  intro s a t es h1 h2 h3
  refine ⟨h _ _ _ _ _ h1 h2 h3, ?_⟩
  rcases a with a | a <;> trivial

/-- A computation that leaves the reader where it is. -/
def Stays {α : Type} (m : M α) : Prop := ∀ s a t es, m s = .ok (a, t, es) → t = s

theorem Stays.keeps {m : M α} (h : Stays m) : Keeps L K m := by
  intro s a t es hs hr _
  rw [h _ _ _ _ hr]
  exact hs

theorem Keeps.fail {e : Fail} : Keeps L K (M.fail e : M α) := by intro s a t es _ h; cases h
theorem Keeps.panic {e : Site} : Keeps L K (M.panic e : M α) := by intro s a t es _ h; cases h
theorem Gives.panic {e : Site} : Gives L K Q (M.panic e : M α) := by intro s a t es _ h; cases h
theorem Gives.mark : Gives L K (In K) M.mark := by intro s a t es hs h _; cases h; exact ⟨hs, hs⟩
theorem Keeps.here : Keeps L K here := by intro s a t es hs h _; cases h; exact hs
theorem Keeps.emit {e : Ev} : Keeps L K (emit e) := by intro s a t es hs h _; cases h; exact hs
theorem Keeps.textFrom {m : St} : Keeps L K (textFrom m) := by intro s a t es hs h _; cases h; exact hs
theorem Keeps.seek {m : St} (hm : In K m) : Keeps L K (M.seek m) := by intro s a t es hs h _; cases h; exact hm
theorem Keeps.shown {o : Option (List UInt8)} : Keeps L K (shown o) := by
  cases o with
  | none => exact .fail
  | some t => exact .pure
theorem Keeps.previous {l : Loc} : Keeps L K (previous l) := by
  unfold Chk.previous
  split
  · exact Keeps.pure
  · exact .fail
theorem Keeps.spanOf {a b : Loc} : Keeps L K (spanOf a b) := by
  unfold Chk.spanOf
  split
  · exact Keeps.pure
  · exact .fail
theorem Keeps.still {m : CodeParser.M α} (h : Still m) : Keeps L K (M.lift m) := by
  intro s a t es hs hr _
  unfold M.lift at hr
  rcases h1 : m s with e | ⟨b, u⟩ <;> rw [h1] at hr
  · cases hr
  · cases hr
    rw [h _ _ _ h1]
    exact hs

/-- What is read between a mark and going back to it does not matter. -/
theorem Keeps.around {m : M α} {f : α → β} : Keeps L K (do let mark ← M.mark; let a ← m; M.seek mark; Pure.pure (f a)) := by
  intro s b t es hs h _
  obtain ⟨mk, u, es1, es2, h1, h2, rfl⟩ := bind_split h
  cases h1
  obtain ⟨a, v, es3, es4, h3, h4, rfl⟩ := bind_split h2
  obtain ⟨x, w, es5, es6, h5, h6, rfl⟩ := bind_split h4
  cases h5
  cases h6
  exact hs

theorem Gives.around {m : M α} (h : Gives L K Q m) : Gives L K Q (do let mark ← M.mark; let a ← m; M.seek mark; Pure.pure a) := by
  intro s b t es hs hr hl
  obtain ⟨mk, u, es1, es2, h1, h2, rfl⟩ := bind_split hr
  cases h1
  obtain ⟨a, v, es3, es4, h3, h4, rfl⟩ := bind_split h2
  obtain ⟨x, w, es5, es6, h5, h6, rfl⟩ := bind_split h4
  cases h5
  cases h6
  exact ⟨hs, (h _ _ _ _ hs h3 fun e he => hl e (by simp [he])).2⟩

end

theorem tok_ends {L : Ev → Prop} {K : List UInt8 → Loc → Prop} {k : TK} {start : St} : Gives L K (Ends K start) (tok k start) := by
  intro s a t es hs h _
  unfold tok M.lift CodeParser.tok at h
  rcases hsp : Span.new start.loc s.loc with _ | sp <;> rw [hsp] at h
  · cases h
  · cases h
    unfold Span.new at hsp
    split at hsp
    · cases hsp
      exact ⟨hs, hs.2, rfl, rfl⟩
    · cases hsp

theorem errorTokAt_ends {L : Ev → Prop} {K : List UInt8 → Loc → Prop} {k : TK} {start : St} (hs : In K start) :
    Gives L K (Ends K start) (errorTokAt k start) := by
  intro s a t es hs' h _
  cases h
  exact ⟨hs', hs.2, rfl, by simp⟩

theorem punctuation_ends {L : Ev → Prop} {K : List UInt8 → Loc → Prop} {start : St} {c : WLC} : Gives L K (Ends K start) (handlePunctuation start c) := by
  unfold handlePunctuation CodeParser.handlePunctuation
  repeat' split
  all_goals first
    | exact tok_ends
    | exact Gives.panic

theorem linear_ends {L : Ev → Prop} {K : List UInt8 → Loc → Prop} {start : St} {c : WLC} : Gives L K (Ends K start) (handleLinearSyntax start c) := by
  unfold handleLinearSyntax CodeParser.handleLinearSyntax
  repeat' split
  all_goals first
    | exact tok_ends
    | exact Gives.panic

/-- One step of a proof that a computation stays within a set of places. -/
syntax "keep1" : tactic
/-- Marks are in the set of places. -/
macro "keepMarks" : tactic => `(tactic| first | assumption | (intro m hm; cases hm; assumption) | (intro m hm; cases hm))
/-- A proof that a computation stays within a set of places. -/
macro "keep" : tactic => `(tactic| repeat' keep1)

section
variable {E0 E : Env} {L : Ev → Prop} {K : List UInt8 → Loc → Prop} {α : Type}

theorem src_k (C : Cover E0 L K) (hk : Akin E0 E) : Keeps L K (src E) := by
  intro s c t es hs h hl
  refine ⟨?_, C.src hk hs.1 hs.2 h hl⟩
  obtain ⟨rfl, -, -⟩ := src_left h
  exact WF_nextSource hs.1

set_option hygiene false in
macro_rules
  | `(tactic| keep1) => `(tactic| first
    | with_reducible refine Gives.keepsBind Gives.mark (fun _ _ => ?_)
    | with_reducible refine Gives.bind Gives.mark (fun _ _ => ?_)
    | with_reducible refine Keeps.bind ?_ (fun _ => ?_)
    | with_reducible refine Gives.kbind ?_ (fun _ => ?_)
    | with_reducible exact Keeps.pure
    | with_reducible refine Keeps.ite (fun _ => ?_) (fun _ => ?_)
    | with_reducible refine Gives.ite (fun _ => ?_) (fun _ => ?_)
    | with_reducible refine Keeps.when (fun _ => ?_)
    | with_reducible refine Keeps.loop (fun _ => ?_)
    | with_reducible exact Keeps.here
    | with_reducible exact Keeps.emit
    | with_reducible exact Keeps.seek (by assumption)
    | with_reducible exact Keeps.textFrom
    | with_reducible exact Keeps.shown
    | with_reducible exact Keeps.previous
    | with_reducible exact Keeps.spanOf
    | with_reducible exact Keeps.panic
    | with_reducible exact Gives.panic
    | with_reducible exact Keeps.fail
    | with_reducible exact tok_ends
    | with_reducible exact errorTokAt_ends (by assumption)
    | with_reducible exact punctuation_ends
    | with_reducible exact linear_ends
    | exact Keeps.still still_assertB
    | exact Keeps.still still_assertAscii
    | exact Keeps.still still_assertStart
    | exact Keeps.still still_digitsValue
    | exact Keeps.still still_fromU32
    | ((with_reducible apply src_k C); exact hk.to rfl rfl rfl)
    | split
    | dsimp only)

theorem safeAndGraphical_k {c : WLC} : Keeps L K (safeAndGraphical c) := by
  unfold safeAndGraphical
  keep

macro_rules | `(tactic| keep1) => `(tactic| (with_reducible exact safeAndGraphical_k))

theorem certainActions_k {c : WLC} {sp : Span} : Keeps L K (certainActions c sp) := by
  unfold certainActions
  keep

macro_rules | `(tactic| keep1) => `(tactic| (with_reducible exact certainActions_k))

theorem peekSrc_k : Keeps L K (peekSrc E) := Keeps.around (f := id)

macro_rules | `(tactic| keep1) => `(tactic| with_reducible exact peekSrc_k)

theorem strangeSyntaxIssue_k (C : Cover E0 L K) (hk : Akin E0 E) {c : WLC} {start : Loc} {conf : Nat} : Keeps L K (strangeSyntaxIssue E c start conf) := by
  unfold strangeSyntaxIssue
  keep

set_option hygiene false in
macro_rules | `(tactic| keep1) => `(tactic| ((with_reducible apply strangeSyntaxIssue_k C); exact hk.to rfl rfl rfl))

theorem checkStrangeSyntax_k (C : Cover E0 L K) (hk : Akin E0 E) {c : WLC} {start : Loc} : Keeps L K (checkStrangeSyntax E c start) := by
  unfold checkStrangeSyntax
  keep

set_option hygiene false in
macro_rules | `(tactic| keep1) => `(tactic| ((with_reducible apply checkStrangeSyntax_k C); exact hk.to rfl rfl rfl))

theorem unhandled_k {escaped : St} {actions : Span → List Action} : Keeps L K (unhandled escaped actions) := by
  unfold unhandled
  keep

macro_rules | `(tactic| keep1) => `(tactic| (with_reducible exact unhandled_k))

theorem malformedDigits_k (C : Cover E0 L K) (hk : Akin E0 E) {escaped : St} {digits : St} {intro : List Char} : Keeps L K (malformedDigits E escaped digits intro) := by
  unfold malformedDigits
  keep

set_option hygiene false in
macro_rules | `(tactic| keep1) => `(tactic| ((with_reducible apply malformedDigits_k C); exact hk.to rfl rfl rfl))

theorem digitRun_k (C : Cover E0 L K) (hk : Akin E0 E) {isDig : CP → Bool} {n : Nat} : Keeps L K (digitRun E isDig n) := by
  induction n with
  | zero => exact Keeps.pure
  | succ n ih =>
    unfold digitRun
    repeat' first
      | exact ih
      | keep1

set_option hygiene false in
macro_rules | `(tactic| keep1) => `(tactic| ((with_reducible apply digitRun_k C); exact hk.to rfl rfl rfl))

theorem handle4Hex_k (C : Cover E0 L K) (hk : Akin E0 E) {colon : St} (h_colon : In K colon) : Keeps L K (handle4Hex E colon) := by
  unfold handle4Hex
  keep

set_option hygiene false in
macro_rules | `(tactic| keep1) => `(tactic| ((with_reducible apply handle4Hex_k C) <;> [exact hk.to rfl rfl rfl; keepMarks]))

theorem handle2Hex_k (C : Cover E0 L K) (hk : Akin E0 E) {dot : St} (h_dot : In K dot) : Keeps L K (handle2Hex E dot) := by
  unfold handle2Hex
  keep

set_option hygiene false in
macro_rules | `(tactic| keep1) => `(tactic| ((with_reducible apply handle2Hex_k C) <;> [exact hk.to rfl rfl rfl; keepMarks]))

theorem handleOctal_k (C : Cover E0 L K) (hk : Akin E0 E) {firstOctal : St} (h_firstOctal : In K firstOctal) : Keeps L K (handleOctal E firstOctal) := by
  unfold handleOctal
  keep

set_option hygiene false in
macro_rules | `(tactic| keep1) => `(tactic| ((with_reducible apply handleOctal_k C) <;> [exact hk.to rfl rfl rfl; keepMarks]))

theorem handle6Hex_k (C : Cover E0 L K) (hk : Akin E0 E) {bar : St} (h_bar : In K bar) : Keeps L K (handle6Hex E bar) := by
  unfold handle6Hex
  keep

set_option hygiene false in
macro_rules | `(tactic| keep1) => `(tactic| ((with_reducible apply handle6Hex_k C) <;> [exact hk.to rfl rfl rfl; keepMarks]))

theorem longNameTail_k (C : Cover E0 L K) (hk : Akin E0 E) : Keeps L K (longNameTail E) := by
  unfold longNameTail
  keep

set_option hygiene false in
macro_rules | `(tactic| keep1) => `(tactic| ((with_reducible apply longNameTail_k C); exact hk.to rfl rfl rfl))

theorem longNameScan_k (C : Cover E0 L K) (hk : Akin E0 E) {c : CP} : Keeps L K (longNameScan E c) := by
  unfold longNameScan
  keep

set_option hygiene false in
macro_rules | `(tactic| keep1) => `(tactic| ((with_reducible apply longNameScan_k C); exact hk.to rfl rfl rfl))

theorem malformedLongName_k (C : Cover E0 L K) (hk : Akin E0 E) {openSquare : St} {start : St} {c : CP} : Keeps L K (malformedLongName E openSquare start c) := by
  unfold malformedLongName
  keep

set_option hygiene false in
macro_rules | `(tactic| keep1) => `(tactic| ((with_reducible apply malformedLongName_k C); exact hk.to rfl rfl rfl))

theorem unknownLongName_k (C : Cover E0 L K) (hk : Akin E0 E) {openSquare : St} {name : List UInt8} : Keeps L K (unknownLongName E openSquare name) := by
  unfold unknownLongName
  keep

set_option hygiene false in
macro_rules | `(tactic| keep1) => `(tactic| ((with_reducible apply unknownLongName_k C); exact hk.to rfl rfl rfl))

theorem handleLongName_k (C : Cover E0 L K) (hk : Akin E0 E) {openSquare : St} (h_openSquare : In K openSquare) : Keeps L K (handleLongName E openSquare) := by
  unfold handleLongName
  keep

set_option hygiene false in
macro_rules | `(tactic| keep1) => `(tactic| ((with_reducible apply handleLongName_k C) <;> [exact hk.to rfl rfl rfl; keepMarks]))

theorem skippedName_k (C : Cover E0 L K) (hk : Akin E0 E) {c : CP} : Keeps L K (skippedName E c) := by
  unfold skippedName
  keep

set_option hygiene false in
macro_rules | `(tactic| keep1) => `(tactic| ((with_reducible apply skippedName_k C); exact hk.to rfl rfl rfl))

theorem escapedBackslash_k : Keeps L K (escapedBackslash E) := by
  unfold escapedBackslash
  split
  · intro s b t es hs h _
    obtain ⟨mk, u, es1, es2, h1, h2, rfl⟩ := bind_split h
    cases h1
    obtain ⟨a, v, es3, es4, h3, h4, rfl⟩ := bind_split h2
    cases h4
    exact hs
  · exact Keeps.pure

macro_rules | `(tactic| keep1) => `(tactic| with_reducible exact escapedBackslash_k)

theorem escapedName_k (C : Cover E0 L K) (hk : Akin E0 E) : Keeps L K (escapedName E) := by
  unfold escapedName
  keep

set_option hygiene false in
macro_rules | `(tactic| keep1) => `(tactic| ((with_reducible apply escapedName_k C); exact hk.to rfl rfl rfl))

theorem escapedUpper_k (C : Cover E0 L K) (hk : Akin E0 E) {escaped : St} {c : CP} {first : Loc} {stop : Loc} : Keeps L K (escapedUpper E escaped c first stop) := by
  unfold escapedUpper
  keep

set_option hygiene false in
macro_rules | `(tactic| keep1) => `(tactic| ((with_reducible apply escapedUpper_k C); exact hk.to rfl rfl rfl))

theorem unhandledIssue_k (C : Cover E0 L K) (hk : Akin E0 E) {escaped : St} {c : CP} : Keeps L K (unhandledIssue E escaped c) := by
  unfold unhandledIssue
  keep

set_option hygiene false in
macro_rules | `(tactic| keep1) => `(tactic| ((with_reducible apply unhandledIssue_k C); exact hk.to rfl rfl rfl))

theorem unhandledEscape_k (C : Cover E0 L K) (hk : Akin E0 E) {escaped : St} (h_escaped : In K escaped) : Keeps L K (unhandledEscape E escaped) := by
  unfold unhandledEscape
  keep

set_option hygiene false in
macro_rules | `(tactic| keep1) => `(tactic| ((with_reducible apply unhandledEscape_k C) <;> [exact hk.to rfl rfl rfl; keepMarks]))

theorem simpleIssue_k (C : Cover E0 L K) (hk : Akin E0 E) {escaped : St} {p : CP} : Keeps L K (simpleIssue E escaped p) := by
  unfold simpleIssue
  keep

set_option hygiene false in
macro_rules | `(tactic| keep1) => `(tactic| ((with_reducible apply simpleIssue_k C); exact hk.to rfl rfl rfl))

theorem nextEscape_k (C : Cover E0 L K) (hk : Akin E0 E) {escaped : St} (h_escaped : In K escaped) : Keeps L K (nextEscape E escaped) := by
  unfold nextEscape
  keep

set_option hygiene false in
macro_rules | `(tactic| keep1) => `(tactic| ((with_reducible apply nextEscape_k C) <;> [exact hk.to rfl rfl rfl; keepMarks]))

theorem nextWL_k (C : Cover E0 L K) (hk : Akin E0 E) : Keeps L K (nextWL E) := by
  unfold nextWL
  keep

set_option hygiene false in
macro_rules | `(tactic| keep1) => `(tactic| ((with_reducible apply nextWL_k C); exact hk.to rfl rfl rfl))

theorem peekWL_k : Keeps L K (peekWL E) := Keeps.around (f := id)

macro_rules | `(tactic| keep1) => `(tactic| with_reducible exact peekWL_k)

theorem skipWhite_k (C : Cover E0 L K) (hk : Akin E0 E) {c : WLC} : Keeps L K (skipWhite E c) := by
  unfold skipWhite
  keep

set_option hygiene false in
macro_rules | `(tactic| keep1) => `(tactic| ((with_reducible apply skipWhite_k C); exact hk.to rfl rfl rfl))

theorem nextC_k (C : Cover E0 L K) (hk : Akin E0 E) : Keeps L K (nextC E) := by
  unfold nextC
  keep

set_option hygiene false in
macro_rules | `(tactic| keep1) => `(tactic| ((with_reducible apply nextC_k C); exact hk.to rfl rfl rfl))

theorem curC_k : Keeps L K (curC E) := Keeps.around (f := id)

macro_rules | `(tactic| keep1) => `(tactic| with_reducible exact curC_k)

theorem spanFrom_k {start : Loc} : Keeps L K (spanFrom start) := by
  unfold spanFrom
  keep

macro_rules | `(tactic| keep1) => `(tactic| (with_reducible exact spanFrom_k))

theorem slotIssue_k {start : Loc} : Keeps L K (slotIssue start) := by
  unfold slotIssue
  keep

macro_rules | `(tactic| keep1) => `(tactic| (with_reducible exact slotIssue_k))

theorem shownFor_k {tag : Tag} {c : WLC} : Keeps L K (shownFor tag c) := by
  unfold shownFor
  keep

macro_rules | `(tactic| keep1) => `(tactic| (with_reducible exact shownFor_k))

theorem unexpectedChar_k {start : Loc} {c : WLC} {tag : Tag} {conf : Nat} : Keeps L K (unexpectedChar start c tag conf) := by
  unfold unexpectedChar
  keep

macro_rules | `(tactic| keep1) => `(tactic| (with_reducible exact unexpectedChar_k))

theorem letterIssue_k (C : Cover E0 L K) (hk : Akin E0 E) {pol : Pol} {charLoc : Loc} {c : WLC} {plain : Bool} : Keeps L K (letterIssue E pol charLoc c plain) := by
  unfold letterIssue
  keep

set_option hygiene false in
macro_rules | `(tactic| keep1) => `(tactic| ((with_reducible apply letterIssue_k C); exact hk.to rfl rfl rfl))

theorem embedded_k (C : Cover E0 L K) (hk : Akin E0 E) {p : CP} : Keeps L K (embedded E p) := by
  unfold embedded
  keep

set_option hygiene false in
macro_rules | `(tactic| keep1) => `(tactic| ((with_reducible apply embedded_k C); exact hk.to rfl rfl rfl))

theorem backupAndWarn_k (C : Cover E0 L K) (hk : Akin E0 E) {reset : St} (h_reset : In K reset) : Keeps L K (backupAndWarn E reset) := by
  unfold backupAndWarn
  keep

set_option hygiene false in
macro_rules | `(tactic| keep1) => `(tactic| ((with_reducible apply backupAndWarn_k C) <;> [exact hk.to rfl rfl rfl; keepMarks]))

theorem ambiguousHere_k  : Keeps L K (ambiguousHere ) := by
  unfold ambiguousHere
  keep

macro_rules | `(tactic| keep1) => `(tactic| (with_reducible exact ambiguousHere_k))

theorem equalIssue_k (C : Cover E0 L K) (hk : Akin E0 E) : Keeps L K (equalIssue E) := by
  unfold equalIssue
  keep

set_option hygiene false in
macro_rules | `(tactic| keep1) => `(tactic| ((with_reducible apply equalIssue_k C); exact hk.to rfl rfl rfl))

theorem underDotIssue_k (C : Cover E0 L K) (hk : Akin E0 E) : Keeps L K (underDotIssue E) := by
  unfold underDotIssue
  keep

set_option hygiene false in
macro_rules | `(tactic| keep1) => `(tactic| ((with_reducible apply underDotIssue_k C); exact hk.to rfl rfl rfl))

theorem minusMinusIssue_k (C : Cover E0 L K) (hk : Akin E0 E) {start : St} : Keeps L K (minusMinusIssue E start) := by
  unfold minusMinusIssue
  keep

set_option hygiene false in
macro_rules | `(tactic| keep1) => `(tactic| ((with_reducible apply minusMinusIssue_k C); exact hk.to rfl rfl rfl))

theorem tokNext_k (C : Cover E0 L K) (hk : Akin E0 E) {k : TK} {start : St} (h_start : In K start) : Gives L K (Ends K start) (tokNext E k start) := by
  unfold tokNext
  keep

set_option hygiene false in
macro_rules | `(tactic| keep1) => `(tactic| ((with_reducible apply tokNext_k C) <;> [exact hk.to rfl rfl rfl; keepMarks]))

theorem handleComment_k (C : Cover E0 L K) (hk : Akin E0 E) {start : St} {c : CP} (h_start : In K start) : Gives L K (Ends K start) (handleComment E start c) := by
  unfold handleComment
  keep

set_option hygiene false in
macro_rules | `(tactic| keep1) => `(tactic| ((with_reducible apply handleComment_k C) <;> [exact hk.to rfl rfl rfl; keepMarks]))

theorem handleBlob_k (C : Cover E0 L K) (hk : Akin E0 E) {start : St} {c : WLC} (h_start : In K start) : Gives L K (Ends K start) (handleBlob E start c) := by
  unfold handleBlob
  keep

set_option hygiene false in
macro_rules | `(tactic| keep1) => `(tactic| ((with_reducible apply handleBlob_k C) <;> [exact hk.to rfl rfl rfl; keepMarks]))

theorem letterRead_k (C : Cover E0 L K) (hk : Akin E0 E) {pol : Pol} {c : WLC} {plain : Bool} : Keeps L K (letterRead E pol c plain) := by
  unfold letterRead
  keep

set_option hygiene false in
macro_rules | `(tactic| keep1) => `(tactic| ((with_reducible apply letterRead_k C); exact hk.to rfl rfl rfl))

theorem symbolSegment_k (C : Cover E0 L K) (hk : Akin E0 E) {pol : Pol} {c : WLC} : Keeps L K (symbolSegment E pol c) := by
  unfold symbolSegment
  keep

set_option hygiene false in
macro_rules | `(tactic| keep1) => `(tactic| ((with_reducible apply symbolSegment_k C); exact hk.to rfl rfl rfl))

theorem symbolFirst_k (C : Cover E0 L K) (hk : Akin E0 E) {pol : Pol} {start : St} {c : WLC} (h_start : In K start) : Keeps L K (symbolFirst E pol start c) := by
  unfold symbolFirst
  keep

set_option hygiene false in
macro_rules | `(tactic| keep1) => `(tactic| ((with_reducible apply symbolFirst_k C) <;> [exact hk.to rfl rfl rfl; keepMarks]))

theorem handleSymbol_k (C : Cover E0 L K) (hk : Akin E0 E) {pol : Pol} {start : St} {c : WLC} (h_start : In K start) : Gives L K (Ends K start) (handleSymbol E pol start c) := by
  unfold handleSymbol
  keep

set_option hygiene false in
macro_rules | `(tactic| keep1) => `(tactic| ((with_reducible apply handleSymbol_k C) <;> [exact hk.to rfl rfl rfl; keepMarks]))

theorem handleString_k (C : Cover E0 L K) (hk : Akin E0 E) {pol : Pol} {start : St} {c : WLC} (h_start : In K start) : Gives L K (Ends K start) (handleString E pol start c) := by
  unfold handleString
  keep

set_option hygiene false in
macro_rules | `(tactic| keep1) => `(tactic| ((with_reducible apply handleString_k C) <;> [exact hk.to rfl rfl rfl; keepMarks]))

theorem stringifyAsTagRest_k (C : Cover E0 L K) (hk : Akin E0 E) {start : St} {c : WLC} (h_start : In K start) : Gives L K (Ends K start) (stringifyAsTagRest E start c) := by
  unfold stringifyAsTagRest
  keep

set_option hygiene false in
macro_rules | `(tactic| keep1) => `(tactic| ((with_reducible apply stringifyAsTagRest_k C) <;> [exact hk.to rfl rfl rfl; keepMarks]))

theorem nextTokenTagAt_k (C : Cover E0 L K) (hk : Akin E0 E) {start : St} (h_start : In K start) : Gives L K (Ends K start) (nextTokenTagAt E start) := by
  unfold nextTokenTagAt
  keep

set_option hygiene false in
macro_rules | `(tactic| keep1) => `(tactic| ((with_reducible apply nextTokenTagAt_k C) <;> [exact hk.to rfl rfl rfl; keepMarks]))

theorem fileBrackets_k (C : Cover E0 L K) (hk : Akin E0 E) {c : CP} : Keeps L K (fileBrackets E c) := by
  unfold fileBrackets
  keep

set_option hygiene false in
macro_rules | `(tactic| keep1) => `(tactic| ((with_reducible apply fileBrackets_k C); exact hk.to rfl rfl rfl))

theorem fileLoop_k (C : Cover E0 L K) (hk : Akin E0 E) {c : CP} : Keeps L K (fileLoop E c) := by
  unfold fileLoop
  keep

set_option hygiene false in
macro_rules | `(tactic| keep1) => `(tactic| ((with_reducible apply fileLoop_k C); exact hk.to rfl rfl rfl))

theorem stringifyAsFileRest_k (C : Cover E0 L K) (hk : Akin E0 E) {start : St} {c : CP} (h_start : In K start) : Gives L K (Ends K start) (stringifyAsFileRest E start c) := by
  unfold stringifyAsFileRest
  keep

set_option hygiene false in
macro_rules | `(tactic| keep1) => `(tactic| ((with_reducible apply stringifyAsFileRest_k C) <;> [exact hk.to rfl rfl rfl; keepMarks]))

theorem nextTokenFileAt_k (C : Cover E0 L K) (hk : Akin E0 E) {start : St} (h_start : In K start) : Gives L K (Ends K start) (nextTokenFileAt E start) := by
  unfold nextTokenFileAt
  keep

set_option hygiene false in
macro_rules | `(tactic| keep1) => `(tactic| ((with_reducible apply nextTokenFileAt_k C) <;> [exact hk.to rfl rfl rfl; keepMarks]))

theorem handleZeros_k (C : Cover E0 L K) (hk : Akin E0 E) {c : WLC} : Keeps L K (handleZeros E c) := by
  unfold handleZeros
  keep

set_option hygiene false in
macro_rules | `(tactic| keep1) => `(tactic| ((with_reducible apply handleZeros_k C); exact hk.to rfl rfl rfl))

theorem handleDigits_k (C : Cover E0 L K) (hk : Akin E0 E) {c : WLC} : Keeps L K (handleDigits E c) := by
  unfold handleDigits
  keep

set_option hygiene false in
macro_rules | `(tactic| keep1) => `(tactic| ((with_reducible apply handleDigits_k C); exact hk.to rfl rfl rfl))

theorem handleAlphaOrDigits_k (C : Cover E0 L K) (hk : Akin E0 E) {c : WLC} {base : Nat} : Keeps L K (handleAlphaOrDigits E c base) := by
  unfold handleAlphaOrDigits
  keep

set_option hygiene false in
macro_rules | `(tactic| keep1) => `(tactic| ((with_reducible apply handleAlphaOrDigits_k C); exact hk.to rfl rfl rfl))

theorem fractionPastDot_k (C : Cover E0 L K) (hk : Akin E0 E) {dot : St} {c : WLC} {base : Nat} {x : NumCtx} (h_dot : In K dot) : Keeps L K (fractionPastDot E dot c base x) := by
  unfold fractionPastDot
  keep

set_option hygiene false in
macro_rules | `(tactic| keep1) => `(tactic| ((with_reducible apply fractionPastDot_k C) <;> [exact hk.to rfl rfl rfl; keepMarks]))

theorem possibleFraction_k (C : Cover E0 L K) (hk : Akin E0 E) {dot : St} {c : WLC} {x : NumCtx} (h_dot : In K dot) : Keeps L K (possibleFraction E dot c x) := by
  unfold possibleFraction
  keep

set_option hygiene false in
macro_rules | `(tactic| keep1) => `(tactic| ((with_reducible apply possibleFraction_k C) <;> [exact hk.to rfl rfl rfl; keepMarks]))

theorem numExponentEnd_k (C : Cover E0 L K) (hk : Akin E0 E) {start : St} {x : NumCtx} {c : WLC} (h_start : In K start) : Gives L K (Ends K start) (numExponentEnd E start x c) := by
  unfold numExponentEnd
  keep

set_option hygiene false in
macro_rules | `(tactic| keep1) => `(tactic| ((with_reducible apply numExponentEnd_k C) <;> [exact hk.to rfl rfl rfl; keepMarks]))

theorem expZeros_k (C : Cover E0 L K) (hk : Akin E0 E) {c : WLC} : Keeps L K (expZeros E c) := by
  unfold expZeros
  keep

set_option hygiene false in
macro_rules | `(tactic| keep1) => `(tactic| ((with_reducible apply expZeros_k C); exact hk.to rfl rfl rfl))

theorem expDigits_k (C : Cover E0 L K) (hk : Akin E0 E) {x : NumCtx} {c : WLC} : Keeps L K (expDigits E x c) := by
  unfold expDigits
  keep

set_option hygiene false in
macro_rules | `(tactic| keep1) => `(tactic| ((with_reducible apply expDigits_k C); exact hk.to rfl rfl rfl))

theorem expSign_k (C : Cover E0 L K) (hk : Akin E0 E) {x : NumCtx} {c : WLC} : Keeps L K (expSign E x c) := by
  unfold expSign
  keep

set_option hygiene false in
macro_rules | `(tactic| keep1) => `(tactic| ((with_reducible apply expSign_k C); exact hk.to rfl rfl rfl))

theorem numStar_k (C : Cover E0 L K) (hk : Akin E0 E) {start : St} {star : Option St} {x : NumCtx} {c : WLC} (h_start : In K start) (h_star : ∀ m ∈ star, In K m) : Gives L K (Ends K start) (numStar E start star x c) := by
  unfold numStar
  refine Gives.kbind (by keep1) fun _ => ?_
  rcases star with _ | star
  · exact Gives.panic
  · have hm := h_star star rfl
    dsimp only
    keep

set_option hygiene false in
macro_rules | `(tactic| keep1) => `(tactic| ((with_reducible apply numStar_k C) <;> [exact hk.to rfl rfl rfl; keepMarks; keepMarks]))

theorem numPrecisionEnd_k (C : Cover E0 L K) (hk : Akin E0 E) {start : St} {x : NumCtx} {accuracy : Bool} {supplied : Bool} {c : WLC} (h_start : In K start) : Gives L K (Ends K start) (numPrecisionEnd E start x accuracy supplied c) := by
  unfold numPrecisionEnd
  keep

set_option hygiene false in
macro_rules | `(tactic| keep1) => `(tactic| ((with_reducible apply numPrecisionEnd_k C) <;> [exact hk.to rfl rfl rfl; keepMarks]))

theorem numPrecisionFraction_k (C : Cover E0 L K) (hk : Akin E0 E) {start : St} {x : NumCtx} {accuracy : Bool} {sign : Option St} {supplied : Bool} {dot : St} {c : WLC} (h_start : In K start) (h_sign : ∀ m ∈ sign, In K m) (h_dot : In K dot) : Gives L K (Ends K start) (numPrecisionFraction E start x accuracy sign supplied dot c) := by
  rcases sign with _ | sign
  · unfold numPrecisionFraction
    keep
  · have hm := h_sign sign rfl
    unfold numPrecisionFraction
    keep

set_option hygiene false in
macro_rules | `(tactic| keep1) => `(tactic| ((with_reducible apply numPrecisionFraction_k C) <;> [exact hk.to rfl rfl rfl; keepMarks; keepMarks; keepMarks]))

theorem numPrecisionDot_k (C : Cover E0 L K) (hk : Akin E0 E) {start : St} {x : NumCtx} {accuracy : Bool} {sign : Option St} {supplied : Bool} {c : WLC} (h_start : In K start) (h_sign : ∀ m ∈ sign, In K m) : Gives L K (Ends K start) (numPrecisionDot E start x accuracy sign supplied c) := by
  unfold numPrecisionDot
  keep

set_option hygiene false in
macro_rules | `(tactic| keep1) => `(tactic| ((with_reducible apply numPrecisionDot_k C) <;> [exact hk.to rfl rfl rfl; keepMarks; keepMarks]))

theorem numPrecisionDigits_k (C : Cover E0 L K) (hk : Akin E0 E) {start : St} {x : NumCtx} {accuracy : Bool} {sign : Option St} {c : WLC} (h_start : In K start) (h_sign : ∀ m ∈ sign, In K m) : Gives L K (Ends K start) (numPrecisionDigits E start x accuracy sign c) := by
  unfold numPrecisionDigits
  keep

set_option hygiene false in
macro_rules | `(tactic| keep1) => `(tactic| ((with_reducible apply numPrecisionDigits_k C) <;> [exact hk.to rfl rfl rfl; keepMarks; keepMarks]))

theorem signIssue_k {sign : St} {b : UInt8} : Keeps L K (signIssue sign b) := by
  unfold signIssue
  keep

macro_rules | `(tactic| keep1) => `(tactic| (with_reducible exact signIssue_k))

theorem numPrecisionSign_k (C : Cover E0 L K) (hk : Akin E0 E) {start : St} {x : NumCtx} {accuracy : Bool} {c : WLC} (h_start : In K start) : Gives L K (Ends K start) (numPrecisionSign E start x accuracy c) := by
  unfold numPrecisionSign
  keep

set_option hygiene false in
macro_rules | `(tactic| keep1) => `(tactic| ((with_reducible apply numPrecisionSign_k C) <;> [exact hk.to rfl rfl rfl; keepMarks]))

theorem numPrecision_k (C : Cover E0 L K) (hk : Akin E0 E) {start : St} {star : Option St} {x : NumCtx} {c : WLC} (h_start : In K start) (h_star : ∀ m ∈ star, In K m) : Gives L K (Ends K start) (numPrecision E start star x c) := by
  unfold numPrecision
  keep

set_option hygiene false in
macro_rules | `(tactic| keep1) => `(tactic| ((with_reducible apply numPrecision_k C) <;> [exact hk.to rfl rfl rfl; keepMarks; keepMarks]))

theorem numAfterFraction_k (C : Cover E0 L K) (hk : Akin E0 E) {start : St} {star : Option St} {x : NumCtx} {c : WLC} (h_start : In K start) (h_star : ∀ m ∈ star, In K m) : Gives L K (Ends K start) (numAfterFraction E start star x c) := by
  unfold numAfterFraction
  keep

set_option hygiene false in
macro_rules | `(tactic| keep1) => `(tactic| ((with_reducible apply numAfterFraction_k C) <;> [exact hk.to rfl rfl rfl; keepMarks; keepMarks]))

theorem numFraction_k (C : Cover E0 L K) (hk : Akin E0 E) {start : St} {lead : St} {leadCount : Nat} {star : Option St} {x : NumCtx} {c : WLC} (h_start : In K start) (h_lead : In K lead) (h_star : ∀ m ∈ star, In K m) : Gives L K (Ends K start) (numFraction E start lead leadCount star x c) := by
  unfold numFraction
  keep

set_option hygiene false in
macro_rules | `(tactic| keep1) => `(tactic| ((with_reducible apply numFraction_k C) <;> [exact hk.to rfl rfl rfl; keepMarks; keepMarks; keepMarks]))

theorem numAfterBaseDigits_k (C : Cover E0 L K) (hk : Akin E0 E) {start : St} {lead : St} {n : Nat} {x : NumCtx} {c : WLC} (h_start : In K start) (h_lead : In K lead) : Gives L K (Ends K start) (numAfterBaseDigits E start lead n x c) := by
  unfold numAfterBaseDigits
  keep

set_option hygiene false in
macro_rules | `(tactic| keep1) => `(tactic| ((with_reducible apply numAfterBaseDigits_k C) <;> [exact hk.to rfl rfl rfl; keepMarks; keepMarks]))

theorem numBase_k (C : Cover E0 L K) (hk : Akin E0 E) {start : St} {nz : St} {caret : St} {x : NumCtx} (h_start : In K start) (h_nz : In K nz) (h_caret : In K caret) : Gives L K (Ends K start) (numBase E start nz caret x) := by
  unfold numBase
  keep

set_option hygiene false in
macro_rules | `(tactic| keep1) => `(tactic| ((with_reducible apply numBase_k C) <;> [exact hk.to rfl rfl rfl; keepMarks; keepMarks; keepMarks]))

theorem numZeros_k (C : Cover E0 L K) (hk : Akin E0 E) {start : St} {c : WLC} (hs : In K start) :
    Gives L K (fun r => In K r.2.1) (numZeros E start c) := by
  unfold numZeros
  refine Gives.ite (fun _ => ?_) (fun _ => Gives.pure hs)
  exact Gives.kbind (handleZeros_k C (hk.to rfl rfl rfl)) fun _ => Gives.mark.bind fun _ h => Gives.pure h

theorem numDigits_k (C : Cover E0 L K) (hk : Akin E0 E) {c : WLC} :
    Gives L K (fun r => In K r.2.1) (numDigits E c) := by
  unfold numDigits
  refine Gives.mark.bind fun mk hm => Gives.ite (fun _ => ?_) (fun _ => Gives.pure hm)
  exact Gives.kbind (handleDigits_k C (hk.to rfl rfl rfl)) fun _ => Gives.mark.bind fun _ h => Gives.pure h

theorem handleNumber_k (C : Cover E0 L K) (hk : Akin E0 E) {pol : Pol} {start : St} {c : WLC} (hs : In K start) :
    Gives L K (Ends K start) (handleNumber E pol start c) := by
  unfold handleNumber
  refine Gives.kbind (by keep1) fun _ => Gives.ite (fun _ => ?_) (fun _ => ?_)
  · refine (numZeros_k C (hk.to rfl rfl rfl) hs).bind ?_
    rintro ⟨n, nz, c⟩ hnz
    refine (numDigits_k C (hk.to rfl rfl rfl)).bind ?_
    rintro ⟨m, lead, c⟩ hlead
    dsimp only at hnz hlead
    keep
  · keep

set_option hygiene false in
macro_rules | `(tactic| keep1) => `(tactic| ((with_reducible apply handleNumber_k C) <;> [exact hk.to rfl rfl rfl; assumption]))

theorem handleColon_k (C : Cover E0 L K) (hk : Akin E0 E) {start : St} {c : WLC} (h_start : In K start) : Gives L K (Ends K start) (handleColon E start c) := by
  unfold handleColon
  keep

set_option hygiene false in
macro_rules | `(tactic| keep1) => `(tactic| ((with_reducible apply handleColon_k C) <;> [exact hk.to rfl rfl rfl; keepMarks]))

theorem handleOpenParen_k (C : Cover E0 L K) (hk : Akin E0 E) {start : St} {c : WLC} (h_start : In K start) : Gives L K (Ends K start) (handleOpenParen E start c) := by
  unfold handleOpenParen
  keep

set_option hygiene false in
macro_rules | `(tactic| keep1) => `(tactic| ((with_reducible apply handleOpenParen_k C) <;> [exact hk.to rfl rfl rfl; keepMarks]))

theorem handleDot_k (C : Cover E0 L K) (hk : Akin E0 E) {pol : Pol} {start : St} {first : WLC} (h_start : In K start) : Gives L K (Ends K start) (handleDot E pol start first) := by
  unfold handleDot
  keep

set_option hygiene false in
macro_rules | `(tactic| keep1) => `(tactic| ((with_reducible apply handleDot_k C) <;> [exact hk.to rfl rfl rfl; keepMarks]))

theorem handleEqual_k (C : Cover E0 L K) (hk : Akin E0 E) {start : St} {c : WLC} (h_start : In K start) : Gives L K (Ends K start) (handleEqual E start c) := by
  unfold handleEqual
  keep

set_option hygiene false in
macro_rules | `(tactic| keep1) => `(tactic| ((with_reducible apply handleEqual_k C) <;> [exact hk.to rfl rfl rfl; keepMarks]))

theorem handleUnder_k (C : Cover E0 L K) (hk : Akin E0 E) {start : St} {c : WLC} (h_start : In K start) : Gives L K (Ends K start) (handleUnder E start c) := by
  unfold handleUnder
  keep

set_option hygiene false in
macro_rules | `(tactic| keep1) => `(tactic| ((with_reducible apply handleUnder_k C) <;> [exact hk.to rfl rfl rfl; keepMarks]))

theorem handleLess_k (C : Cover E0 L K) (hk : Akin E0 E) {start : St} {c : WLC} (h_start : In K start) : Gives L K (Ends K start) (handleLess E start c) := by
  unfold handleLess
  keep

set_option hygiene false in
macro_rules | `(tactic| keep1) => `(tactic| ((with_reducible apply handleLess_k C) <;> [exact hk.to rfl rfl rfl; keepMarks]))

theorem handleGreater_k (C : Cover E0 L K) (hk : Akin E0 E) {start : St} {c : WLC} (h_start : In K start) : Gives L K (Ends K start) (handleGreater E start c) := by
  unfold handleGreater
  keep

set_option hygiene false in
macro_rules | `(tactic| keep1) => `(tactic| ((with_reducible apply handleGreater_k C) <;> [exact hk.to rfl rfl rfl; keepMarks]))

theorem handleMinus_k (C : Cover E0 L K) (hk : Akin E0 E) {start : St} {c : WLC} (h_start : In K start) : Gives L K (Ends K start) (handleMinus E start c) := by
  unfold handleMinus
  keep

set_option hygiene false in
macro_rules | `(tactic| keep1) => `(tactic| ((with_reducible apply handleMinus_k C) <;> [exact hk.to rfl rfl rfl; keepMarks]))

theorem handleBar_k (C : Cover E0 L K) (hk : Akin E0 E) {start : St} {c : WLC} (h_start : In K start) : Gives L K (Ends K start) (handleBar E start c) := by
  unfold handleBar
  keep

set_option hygiene false in
macro_rules | `(tactic| keep1) => `(tactic| ((with_reducible apply handleBar_k C) <;> [exact hk.to rfl rfl rfl; keepMarks]))

theorem handleDoubled_k (C : Cover E0 L K) (hk : Akin E0 E) {x : Char} {single : TK} {double : TK} {start : St} {c : WLC} (h_start : In K start) : Gives L K (Ends K start) (handleDoubled E x single double start c) := by
  unfold handleDoubled
  keep

set_option hygiene false in
macro_rules | `(tactic| keep1) => `(tactic| ((with_reducible apply handleDoubled_k C) <;> [exact hk.to rfl rfl rfl; keepMarks]))

theorem handleBang_k (C : Cover E0 L K) (hk : Akin E0 E) {start : St} {c : WLC} (h_start : In K start) : Gives L K (Ends K start) (handleBang E start c) := by
  unfold handleBang
  keep

set_option hygiene false in
macro_rules | `(tactic| keep1) => `(tactic| ((with_reducible apply handleBang_k C) <;> [exact hk.to rfl rfl rfl; keepMarks]))

theorem handlePercent_k (C : Cover E0 L K) (hk : Akin E0 E) {start : St} {c : WLC} (h_start : In K start) : Gives L K (Ends K start) (handlePercent E start c) := by
  unfold handlePercent
  keep

set_option hygiene false in
macro_rules | `(tactic| keep1) => `(tactic| ((with_reducible apply handlePercent_k C) <;> [exact hk.to rfl rfl rfl; keepMarks]))

theorem handleSlash_k (C : Cover E0 L K) (hk : Akin E0 E) {start : St} {c : WLC} (h_start : In K start) : Gives L K (Ends K start) (handleSlash E start c) := by
  unfold handleSlash
  keep

set_option hygiene false in
macro_rules | `(tactic| keep1) => `(tactic| ((with_reducible apply handleSlash_k C) <;> [exact hk.to rfl rfl rfl; keepMarks]))

theorem handleAt_k (C : Cover E0 L K) (hk : Akin E0 E) {start : St} {c : WLC} (h_start : In K start) : Gives L K (Ends K start) (handleAt E start c) := by
  unfold handleAt
  keep

set_option hygiene false in
macro_rules | `(tactic| keep1) => `(tactic| ((with_reducible apply handleAt_k C) <;> [exact hk.to rfl rfl rfl; keepMarks]))

theorem handlePlus_k (C : Cover E0 L K) (hk : Akin E0 E) {start : St} {c : WLC} (h_start : In K start) : Gives L K (Ends K start) (handlePlus E start c) := by
  unfold handlePlus
  keep

set_option hygiene false in
macro_rules | `(tactic| keep1) => `(tactic| ((with_reducible apply handlePlus_k C) <;> [exact hk.to rfl rfl rfl; keepMarks]))

theorem handleStar_k (C : Cover E0 L K) (hk : Akin E0 E) {start : St} {c : WLC} (h_start : In K start) : Gives L K (Ends K start) (handleStar E start c) := by
  unfold handleStar
  keep

set_option hygiene false in
macro_rules | `(tactic| keep1) => `(tactic| ((with_reducible apply handleStar_k C) <;> [exact hk.to rfl rfl rfl; keepMarks]))

theorem handleCaret_k (C : Cover E0 L K) (hk : Akin E0 E) {start : St} {c : WLC} (h_start : In K start) : Gives L K (Ends K start) (handleCaret E start c) := by
  unfold handleCaret
  keep

set_option hygiene false in
macro_rules | `(tactic| keep1) => `(tactic| ((with_reducible apply handleCaret_k C) <;> [exact hk.to rfl rfl rfl; keepMarks]))

theorem backslashName_k (C : Cover E0 L K) (hk : Akin E0 E) {reset : St} {c : WLC} (hr : In K reset) : Keeps L K (backslashName E reset c) := by
  unfold backslashName
  refine (Gives.loop (Q := fun _ => True) (fun d : St × WLC => In K d.1) (fun d hd => ?_) hr).keeps
  refine Gives.ite (fun _ => ?_) (fun _ => Gives.ite (fun _ => Gives.pure trivial) fun _ => ?_)
  · exact Gives.mark.bind fun mk hmk => Gives.kbind (nextC_k C (hk.to rfl rfl rfl)) fun c => Gives.pure hmk
  · exact Gives.kbind (Keeps.seek hd) fun _ => Gives.pure trivial

set_option hygiene false in
macro_rules | `(tactic| keep1) => `(tactic| ((with_reducible apply backslashName_k C) <;> [exact hk.to rfl rfl rfl; assumption]))

theorem backslashDigits_k (C : Cover E0 L K) (hk : Akin E0 E) {isDig : CP → Bool} {n : Nat} :
    ∀ {reset : St} {c : WLC}, In K reset → Keeps L K (backslashDigits E isDig n reset c) := by
  induction n with
  | zero => intro _ _ _; exact Keeps.pure
  | succ n ih =>
    intro reset c hr
    unfold backslashDigits
    repeat' first
      | exact ih (by assumption)
      | keep1

set_option hygiene false in
macro_rules | `(tactic| keep1) => `(tactic| ((with_reducible apply backslashDigits_k C) <;> [exact hk.to rfl rfl rfl; assumption]))

theorem backslashScan_k (C : Cover E0 L K) (hk : Akin E0 E) : Keeps L K (backslashScan E) := by
  unfold backslashScan
  keep

set_option hygiene false in
macro_rules | `(tactic| keep1) => `(tactic| ((with_reducible apply backslashScan_k C); exact hk.to rfl rfl rfl))

theorem handleBackslash_k (C : Cover E0 L K) (hk : Akin E0 E) {start : St} {c : WLC} (h_start : In K start) : Gives L K (Ends K start) (handleBackslash E start c) := by
  unfold handleBackslash
  keep

set_option hygiene false in
macro_rules | `(tactic| keep1) => `(tactic| ((with_reducible apply handleBackslash_k C) <;> [exact hk.to rfl rfl rfl; keepMarks]))

theorem nextTokenOther_k (C : Cover E0 L K) (hk : Akin E0 E) {pol : Pol} {start : St} {c : WLC} (h_start : In K start) : Gives L K (Ends K start) (nextTokenOther E pol start c) := by
  unfold nextTokenOther
  keep

set_option hygiene false in
macro_rules | `(tactic| keep1) => `(tactic| ((with_reducible apply nextTokenOther_k C) <;> [exact hk.to rfl rfl rfl; keepMarks]))

theorem nextTokenUncommon_k (C : Cover E0 L K) (hk : Akin E0 E) {pol : Pol} {start : St} {c : WLC} (h_start : In K start) : Gives L K (Ends K start) (nextTokenUncommon E pol start c) := by
  unfold nextTokenUncommon
  keep

set_option hygiene false in
macro_rules | `(tactic| keep1) => `(tactic| ((with_reducible apply nextTokenUncommon_k C) <;> [exact hk.to rfl rfl rfl; keepMarks]))

theorem dispatch_k (C : Cover E0 L K) (hk : Akin E0 E) {pol : Pol} {start : St} {c : WLC} (h_start : In K start) : Gives L K (Ends K start) (dispatch E pol start c) := by
  unfold dispatch
  keep

set_option hygiene false in
macro_rules | `(tactic| keep1) => `(tactic| ((with_reducible apply dispatch_k C) <;> [exact hk.to rfl rfl rfl; keepMarks]))

theorem nextTokenAt_k (C : Cover E0 L K) (hk : Akin E0 E) {pol : Pol} {start : St} (h_start : In K start) : Gives L K (Ends K start) (nextTokenAt E pol start) := by
  unfold nextTokenAt
  keep

set_option hygiene false in
macro_rules | `(tactic| keep1) => `(tactic| ((with_reducible apply nextTokenAt_k C) <;> [exact hk.to rfl rfl rfl; keepMarks]))

end
end CodeParser.Chk.Cov
