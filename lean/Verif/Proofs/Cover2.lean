import Verif.Proofs.Cover1
/-!
Helper lemmas: tokens start and end at places that are known to be reached (see Proofs/Cover1.lean).
-/
namespace CodeParser.Chk.Cov

section
variable {E0 E : Env} {L : Ev → Prop} {K : List UInt8 → Loc → Prop} {α : Type}


/-- The token starts and ends where `K` holds. -/
def TokIn (K : List UInt8 → Loc → Prop) (k : Tok) : Prop := K k.after k.stop ∧ K (k.text ++ k.after) k.start

/-- What follows a place of the text. -/
theorem Cover.below (C : Cover E0 L K) (start : St) : Cover E0 L (fun r l => K r l ∧ r <:+ start.rest) where
  src := by
    rintro E' s t c es hk hw ⟨h1, h2⟩ h hl
    refine ⟨C.src hk hw h1 h hl, ?_⟩
    obtain ⟨rfl, -, -⟩ := src_left h
    obtain ⟨pre, hp, -⟩ := nextSource_rest (cfg := E'.cfg) hw
    exact List.IsSuffix.trans ⟨pre, hp.symm⟩ h2

/-- Tokens from a place that is known. -/
theorem tokIn_of {f : St → M Tok} (C : Cover E0 L K)
    (h : ∀ {K : List UInt8 → Loc → Prop}, Cover E0 L K → ∀ start, In K start → Gives L K (Ends K start) (f start)) :
    Gives L K (TokIn K) (do let start ← M.mark; f start) := by
  intro s k t es hs hr hl
  obtain ⟨mk, u, es1, es2, h1, h2, rfl⟩ := bind_split hr
  cases h1
  obtain ⟨h3, h4, h5, h6⟩ := h (C.below s) s ⟨hs.1, hs.2, List.suffix_refl _⟩ _ _ _ _ ⟨hs.1, hs.2, List.suffix_refl _⟩ h2 hl
  refine ⟨⟨h3.1, h3.2.1⟩, h4.1, ?_⟩
  obtain ⟨pre, hp⟩ := h4.2
  have : k.text = pre := by rw [h6, ← hp]; simp
  rw [this, hp, h5]
  exact hs.2

theorem nextToken_k (C : Cover E0 L K) (hk : Akin E0 E) {pol : Pol} : Gives L K (TokIn K) (nextToken E pol) := by
  unfold nextToken
  exact tokIn_of (f := fun start => nextTokenAt (E.at start.loc (!pol.insideSlot) true) pol start) C
    fun C start hs => nextTokenAt_k (E := E.at start.loc (!pol.insideSlot) true) C (hk.to rfl rfl rfl) hs

theorem nextTokenTag_k (C : Cover E0 L K) (hk : Akin E0 E) : Gives L K (TokIn K) (nextTokenTag E) := by
  unfold nextTokenTag
  exact tokIn_of (f := fun start => nextTokenTagAt (E.at start.loc true true) start) C
    fun C start hs => nextTokenTagAt_k (E := E.at start.loc true true) C (hk.to rfl rfl rfl) hs

theorem nextTokenFile_k (C : Cover E0 L K) (hk : Akin E0 E) : Gives L K (TokIn K) (nextTokenFile E) := by
  unfold nextTokenFile
  exact tokIn_of (f := fun start => nextTokenFileAt (E.at start.loc false false) start) C
    fun C start hs => nextTokenFileAt_k (E := E.at start.loc false false) C (hk.to rfl rfl rfl) hs

theorem peekTokenWith_k (C : Cover E0 L K) (hk : Akin E0 E) {pol : Pol} {g : Bool} : Gives L K (TokIn K) (peekTokenWith E pol g) :=
  (nextToken_k C hk).around

theorem peekToken_k (C : Cover E0 L K) (hk : Akin E0 E) {g : Bool} : Gives L K (TokIn K) (peekToken E g) := peekTokenWith_k C hk

theorem peekTokenTag_k (C : Cover E0 L K) (hk : Akin E0 E) : Gives L K (TokIn K) (peekTokenTag E) := (nextTokenTag_k C hk).around

theorem peekTokenFile_k (C : Cover E0 L K) (hk : Akin E0 E) : Gives L K (TokIn K) (peekTokenFile E) := (nextTokenFile_k C hk).around

theorem skip_k {k : Tok} (h : TokIn K k) (hne : k.kind ≠ .EndOfFile) : Keeps L K (M.lift k.skip) := by
  intro s a t es _ hr _
  cases hr
  refine ⟨fun h1 => ?_, h.1⟩
  simp at h1
  exact absurd h1 hne

end
end CodeParser.Chk.Cov
