import Verif.Spec.Syntax
import Verif.Props.Grouping
import Verif.Props.LexText
/-!
Reading the tokens of a text whose lexemes are known (helper lemmas).
-/
namespace CodeParser.Syn
open CodeParser Spec Props

/-! ### Facts about kinds -/

/-- Kinds that are not those of lexemes. -/
def isBuffer : TK → Bool
  | .Buffer1 | .Buffer2 | .Buffer3 | .Buffer4 | .Fake_ImplicitTimes => true
  | .Error_ExpectedLetterlike => true
  | _ => false

theorem blank_mono : ∀ k : TK, blankKind false k = true → blankKind true k = true := forall_of_all (by decide +kernel)

theorem kindIn_trivia (g : Bool) : ∀ k : TK, isBuffer k = false → (kindIn g k).isTrivia = blankKind true k := by
  cases g <;> exact forall_of_all (by decide +kernel)

theorem kindIn_NTN (g : Bool) : ∀ k : TK, isBuffer k = false → (kindIn g k).isTriviaButNotToplevelNewline = blankKind g k := by
  cases g <;> exact forall_of_all (by decide +kernel)

theorem lone_buffer {p : CP} {k : TK} (h : Lone p k) : isBuffer k = false := by
  cases h with
  | @operator n name k h1 h2 h3 =>
    cases hk : isBuffer k with
    | false => rfl
    | true =>
      have : ∀ k : TK, isBuffer k = true → k.name.head? ≠ some 'L' := forall_of_all (by decide +kernel)
      exact absurd (by rw [h3]; rfl) (this k hk)
  | linear h =>
    simp only [linearSyntax, List.mem_cons, Prod.mk.injEq, List.not_mem_nil, or_false] at h
    rcases h with h | h | h | h | h | h | h | h | h | h | h | h <;> (obtain ⟨-, rfl⟩ := h; rfl)
  | single h =>
    simp only [Spec.single, List.mem_cons, Prod.mk.injEq, List.not_mem_nil, or_false] at h
    rcases h with h | h | h | h | h | h | h <;> (obtain ⟨-, rfl⟩ := h; rfl)
  | _ => rfl

theorem lexes_kind {bs : List UInt8} {ks : List Lexeme} (h : LexesTo bs ks) : ∀ l ∈ ks, isBuffer l.1 = false := by
  induction h with
  | nil => simp
  | @operator c tail k r ks h1 h2 h3 h4 h5 h ih =>
    have hk : isBuffer k = false := by
      have : ∀ e ∈ operators c, isBuffer e.2 = false := by
        unfold operators
        split <;> decide
      exact this _ h1.known
    intro l hl
    rcases List.mem_cons.mp hl with rfl | hl
    · exact hk
    · exact ih l hl
  | @number l r ks h1 h2 h ih =>
    intro x hx
    rcases List.mem_cons.mp hx with rfl | hx
    · show isBuffer l.kind = false
      unfold Literal.kind
      repeat' split
      all_goals decide
    · exact ih x hx
  | @percent n r ks h1 h2 h ih =>
    intro x hx
    rcases List.mem_cons.mp hx with rfl | hx
    · show isBuffer (if n = 0 then TK.Percent else .PercentPercent) = false
      split <;> rfl
    · exact ih x hx
  | @lone text r c k ks h1 h2 h3 h ih =>
    intro x hx
    rcases List.mem_cons.mp hx with rfl | hx
    · exact lone_buffer h2
    · exact ih x hx
  | _ =>
    rename_i ih
    intro x hx
    rcases List.mem_cons.mp hx with rfl | hx
    · rfl
    · exact ih x hx

theorem _root_.CodeParser.Spec.Blank.mono {g : Bool} {ws : List Lexeme} (h : Blank g ws) : Blank true ws := by
  intro x hx
  have h := h x hx
  cases g with
  | true => exact h
  | false => exact blank_mono _ h

/-! ### States and tokens -/

/-- The text ahead consists of the lexemes. -/
structure At (st : St) (ks : List Lexeme) : Prop where
  eof : st.eof = false
  lex : LexesTo st.rest ks

/-- The token is the lexeme, with the other lexemes behind it. -/
structure Is (x : Tok) (l : Lexeme) (ks : List Lexeme) : Prop where
  kind : x.kind = l.1
  text : x.text = l.2
  lex : LexesTo x.after ks

/-- The token ahead, inside of brackets or not. -/
inductive Sees (g : Bool) (x : Tok) : List Lexeme → Prop
  | eof : x.kind = .EndOfFile → Sees g x []
  | lexeme {l ks} : Is x (kindIn g l.1, l.2) ks → l.1 ≠ .EndOfFile → Sees g x (l :: ks)

theorem Is.skip {x : Tok} {l : Lexeme} {ks : List Lexeme} (h : Is x l ks) (hne : l.1 ≠ .EndOfFile) {st : St} : At (x.skipSt st) ks :=
  ⟨by show (_ == _) = false; rw [h.kind]; simpa using hne, h.lex⟩

section
variable {cfg : Cfg} {g : Bool} {st t : St} {ks ws : List Lexeme} {x : Tok} {ts : List Tok}

theorem At.wf (h : At st ks) : WF st := by intro h'; rw [h.eof] at h'; cases h'

theorem At.congr (h : At st ks) (hr : t.rest = st.rest) (he : t.eof = st.eof) : At t ks :=
  ⟨he.trans h.eof, by rw [hr]; exact h.lex⟩

/-- Where the parser returns to after having looked at the tokens `ts`. -/
def resetTo : List Tok → List UInt8 → List UInt8
  | [], r => r
  | t :: _, _ => t.text ++ t.after

theorem peek_at (h : At st ks) : wp (fun _ => False) (peekToken cfg g) st fun x t =>
    Sees g x ks ∧ At t ks ∧ t.rest = st.rest ∧ x.text ++ x.after = st.rest := by
  have hp := peekTokenWith_wp (cfg := cfg) (pol := Pol.top) (g := g) h.wf
  have key : ∀ x t, peekToken cfg g st = .ok (x, t) → Sees g x ks := by
    intro x t hx
    rcases lexes_next (cfg := cfg) (g := g) h.lex h.eof rfl with ⟨h1, h2⟩ | ⟨k, text, r, ks', h1, h2, h3, h4, h5, y, u, h6, h7, h8, h9⟩
    · rw [h2]
      refine .eof ?_
      have hx' : peekTokenWith cfg Pol.top g st = .ok (x, t) := hx
      unfold wp at hp
      rw [hx'] at hp
      by_contra hne
      have := hp.more hne
      have hs := hp.split
      rw [h1] at hs
      simp at hs
      exact this hs.1
    · rw [hx] at h6
      cases h6
      rw [h1]
      refine .lexeme ⟨h7, h8, by rw [h9]; exact h5⟩ h2
  unfold wp at hp ⊢
  cases hr : peekToken cfg g st with
  | error e =>
    have hr' : peekTokenWith cfg Pol.top g st = .error e := hr
    rcases lexes_next (cfg := cfg) (g := g) h.lex h.eof rfl with ⟨h1, -⟩ | ⟨k, text, r, ks', -, -, -, -, -, y, u, h6, -⟩
    · rw [hr'] at hp
      exact no_escape (by rw [h1]; simp) hp.2
    · rw [hr] at h6
      cases h6
  | ok p =>
    have hr' : peekTokenWith cfg Pol.top g st = .ok p := hr
    rw [hr'] at hp
    have hs := hp.same
    exact ⟨key _ _ hr, h.congr hs.rest.symm hs.eof.symm, hs.rest.symm, hp.split⟩

/-- Looking at the next token with another policy. -/
theorem peekWith_at {pol : Pol} (h : At st ks) (hpol : pol.intShort = true → ∀ l ∈ ks.head?, numberKind l.1 = false) :
    wp (fun _ => False) (peekTokenWith cfg pol g) st fun x t => At t ks ∧
      ((ks = [] ∧ x.kind = .EndOfFile) ∨ ∃ l ks', ks = l :: ks' ∧ Is x (kindWith pol g l.1, l.2) ks') := by
  have hp := peekTokenWith_wp (cfg := cfg) (pol := pol) (g := g) h.wf
  unfold wp at hp ⊢
  cases hr : peekTokenWith cfg pol g st with
  | error e =>
    rcases lexes_with (cfg := cfg) (g := g) h.lex h.eof rfl hpol with ⟨h1, -⟩ | ⟨k, text, r, ks', -, -, -, -, -, y, u, h6, -⟩
    · rw [hr] at hp
      exact no_escape (by rw [h1]; simp) hp.2
    · rw [hr] at h6
      cases h6
  | ok p =>
    rw [hr] at hp
    have hs := hp.same
    refine ⟨h.congr hs.rest.symm hs.eof.symm, ?_⟩
    rcases lexes_with (cfg := cfg) (g := g) h.lex h.eof rfl hpol with ⟨h1, h2⟩ | ⟨k, text, r, ks', h1, h2, h3, h4, h5, y, u, h6, h7, h8, h9⟩
    · refine Or.inl ⟨h2, ?_⟩
      by_contra hne
      have := hp.more hne
      have hs := hp.split
      rw [h1] at hs
      simp at hs
      exact this hs.1
    · rw [hr] at h6
      cases h6
      refine Or.inr ⟨_, _, h1, h7, h8, by rw [h9]; exact h5⟩

/-- Looking at digits behind `#` or `%`. -/
theorem peekShort_at {pol : Pol} {ds : List Char} (h : At st ((.Integer, bytes ds) :: ks)) (hds : ∀ c ∈ ds, isDec c = true)
    (hpol : pol.intShort = true) :
    wp (fun _ => False) (peekTokenWith cfg pol g) st fun x _ => Is x (.Integer, bytes ds) ks := by
  obtain ⟨r, h3, h5, y, u, h6, h7, h8, h9⟩ := lexes_short (cfg := cfg) (g := g) h.lex hds h.eof rfl hpol
  unfold wp
  rw [h6]
  refine ⟨h7, h8, by rw [h9]; exact h5⟩

/-- What eating blanks gives: the tokens eaten, the token behind them and the new state. -/
structure Eaten (g : Bool) (st : St) (ks : List Lexeme) (ts : List Tok) (x : Tok) (t : St) : Prop where
  sees : Sees g x ks
  at' : At t ks
  trivia : Tr ts
  back : resetTo ts t.rest = st.rest
  here : x.text ++ x.after = t.rest

theorem eat_at {p : TK → Bool} (h : At st (ws ++ ks)) (hp : ∀ k, p k = true → k.isTrivia = true)
    (hws : ∀ l ∈ ws, p (kindIn g l.1) = true) (hks : ∀ l ks', ks = l :: ks' → p (kindIn g l.1) = false) :
    wp (fun _ => False) (eatM cfg g p) st fun r t => Eaten g st ks r.1 r.2 t := by
  have heof : p .EndOfFile = false := by
    cases hq : p .EndOfFile with
    | false => rfl
    | true => exact absurd (hp _ hq) (by decide)
  unfold eatM
  refine wp_loop (fun ts u => ∃ ws', At u (ws' ++ ks) ∧ (∀ l ∈ ws', p (kindIn g l.1) = true) ∧ Tr ts ∧ resetTo ts u.rest = st.rest)
    (fun _ u => u.rest.length) ⟨ws, h, hws, by intro _ h; simp at h, rfl⟩ (by omega) ?_
  rintro ts u ⟨ws', hu, hw, htr, hback⟩
  refine wp_call (peek_at hu) (fun _ h => h) ?_
  rintro x v ⟨hx, hv, hrest, hsplit⟩
  cases ws' with
  | nil =>
    have hpx : p x.kind = false := by
      rw [List.nil_append] at hx
      cases hx with
      | eof he => rw [he]; exact heof
      | lexeme hi _ => rw [hi.kind]; exact hks _ _ rfl
    rw [if_neg (by simp [hpx])]
    refine wp_pure ⟨hx, hv, htr, ?_, hsplit.trans hrest.symm⟩
    rw [hrest]; exact hback
  | cons w ws' =>
    rw [List.cons_append] at hx hu
    cases hx with
    | lexeme hi hne =>
    have hpx : p x.kind = true := by rw [hi.kind]; exact hw _ (by simp)
    rw [if_pos hpx]
    refine wp_skip (wp_pure ⟨⟨ws', hi.skip ?_, fun l hl => hw l (by simp [hl]), ?_, ?_⟩, ?_⟩)
    · intro h
      have h : kindIn g w.1 = .EndOfFile := h
      rw [hi.kind, show (kindIn g w.1, w.2).1 = .EndOfFile from h, heof] at hpx
      cases hpx
    · intro t ht
      rcases List.mem_append.mp ht with ht | ht
      · exact htr t ht
      · rw [List.mem_singleton.mp ht]; exact hp _ hpx
    · cases ts with
      | nil => show x.text ++ x.after = _; rw [hsplit]; exact hback
      | cons t ts => exact hback
    · show x.after.length < u.rest.length
      rw [← hsplit]
      have hne' : x.text ≠ [] := by
        intro h0
        rcases lexes_next (cfg := cfg) (g := g) hu.lex hu.eof rfl with ⟨-, h2⟩ | ⟨k, text, r, ks', h1, -, -, h4, -⟩
        · cases h2
        · cases h1
          rw [hi.text] at h0
          exact h4 h0
      have := List.length_pos_iff.mpr hne'
      simp; omega

/-- The first lexeme is not a blank. -/
def Solid (g : Bool) (ks : List Lexeme) : Prop := ∀ l ks', ks = l :: ks' → blankKind g l.1 = false

theorem solid_mono (h : Solid true ks) : Solid g ks := by
  cases g with
  | true => exact h
  | false =>
    intro l ks' e
    have := h l ks' e
    cases hq : blankKind false l.1 with
    | false => rfl
    | true => rw [blank_mono _ hq] at this; cases this

theorem split_blank (g : Bool) : ∀ ks : List Lexeme, ∃ ws ks', ks = ws ++ ks' ∧ Blank g ws ∧ Solid g ks'
  | [] => ⟨[], [], rfl, by intro _ h; simp at h, by intro _ _ h; cases h⟩
  | l :: ks => by
    cases h : blankKind g l.1 with
    | false => exact ⟨[], l :: ks, rfl, by intro _ h; simp at h, by rintro _ _ ⟨⟩; exact h⟩
    | true =>
      obtain ⟨ws, ks', h1, h2, h3⟩ := split_blank g ks
      refine ⟨l :: ws, ks', by rw [h1]; rfl, ?_, h3⟩
      intro x hx
      rcases List.mem_cons.mp hx with rfl | hx
      · exact h
      · exact h2 x hx

theorem nextKind_blank (h : Blank g ws) : nextKind g (ws ++ ks) = nextKind g ks := by
  induction ws with
  | nil => rfl
  | cons w ws ih =>
    show (if blankKind g w.1 = true then nextKind g (ws ++ ks) else w.1) = _
    rw [if_pos (h w (by simp))]
    exact ih fun x hx => h x (by simp [hx])

theorem nextKind_solid {l : Lexeme} (h : Solid g (l :: ks)) : nextKind g (l :: ks) = l.1 := by
  unfold nextKind
  rw [if_neg]
  rw [h _ _ rfl]; simp

/-- The text ahead consists of the lexemes, but some of the blanks may have been passed. -/
def Past (g : Bool) (st : St) (ks : List Lexeme) : Prop := ∃ w ks', ks = w ++ ks' ∧ Blank g w ∧ At st ks'

theorem At.past (h : At st ks) : Past g st ks := ⟨[], ks, rfl, by intro _ h; simp at h, h⟩

theorem Past.mono (h : Past g st ks) : Past true st ks := by
  obtain ⟨w, ks', h1, h2, h3⟩ := h
  exact ⟨w, ks', h1, h2.mono, h3⟩

/-- In front of a lexeme that is no blank, some of the blanks remain. -/
theorem Past.split (h : Past g st (ws ++ ks)) (hs : Solid g ks) : ∃ v w, ws = v ++ w ∧ At st (w ++ ks) := by
  obtain ⟨w, ks', h1, h2, h3⟩ := h
  induction w generalizing ws with
  | nil => exact ⟨[], ws, rfl, by rw [h1]; exact h3⟩
  | cons a w ih =>
    cases ws with
    | nil =>
      have := hs a _ h1
      rw [h2 a (by simp)] at this
      cases this
    | cons b ws =>
      simp only [List.cons_append, List.cons.injEq] at h1
      obtain ⟨v, w', e1, e2⟩ := ih (ws := ws) h1.2 fun x hx => h2 x (by simp [hx])
      exact ⟨b :: v, w', by rw [e1]; rfl, e2⟩

theorem _root_.CodeParser.Spec.Blank.suffix {v w : List Lexeme} (h : Blank g (v ++ w)) : Blank g w :=
  fun x hx => h x (by simp [hx])

end
end CodeParser.Syn
