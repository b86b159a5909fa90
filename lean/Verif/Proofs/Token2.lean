import Verif.Proofs.Token1
/-!
Helper lemmas: what the token handlers for operators, strings, symbols and comments do.
-/
namespace CodeParser
open Spec

/-- One step through a token handler. -/
macro "tw1" : tactic => `(tactic| with_reducible first
  | exact wp_tok (by assumption) (by first | assumption | with_unfolding_all exact rfl)
  | exact wp_tokNext (by assumption) (by first | assumption | with_unfolding_all exact rfl)
  | (refine wp_nextC (by assumption) fun _ _ _ _ _ _ _ => ?_)
  | (refine wp_curC (by assumption) fun _ _ _ _ _ _ => ?_)
  | (refine wp_mark1 ?_)
  | (refine wp_seek1 (by assumption) (by assumption) (by omega) fun _ _ _ _ => ?_)
  | (refine wp_assert (by first | assumption | exact beq_iff_eq.mpr (by assumption)) ?_)
  | (refine wp_ite (fun _ => ?_) (fun _ => ?_)))

macro "tw" : tactic => `(tactic| repeat' tw1)

section
variable {cfg : Cfg} {pol : Pol} {start s : St} {n : Nat} {c : WLC}

theorem handleColon_wp (h : At cfg start n s) (hc : c.point = ch ':') :
    wp (EE start.rest) (handleColon cfg start c) s (HPost cfg pol start n) := by
  unfold handleColon; tw

theorem handleEqual_wp (h : At cfg start n s) (hc : c.point = ch '=') :
    wp (EE start.rest) (handleEqual cfg start c) s (HPost cfg pol start n) := by
  unfold handleEqual; tw

theorem handleUnder_wp (h : At cfg start n s) (hc : c.point = ch '_') :
    wp (EE start.rest) (handleUnder cfg start c) s (HPost cfg pol start n) := by
  unfold handleUnder; tw

theorem handleLess_wp (h : At cfg start n s) (hc : c.point = ch '<') :
    wp (EE start.rest) (handleLess cfg start c) s (HPost cfg pol start n) := by
  unfold handleLess; tw

theorem handleGreater_wp (h : At cfg start n s) (hc : c.point = ch '>') :
    wp (EE start.rest) (handleGreater cfg start c) s (HPost cfg pol start n) := by
  unfold handleGreater; tw

theorem handleMinus_wp (h : At cfg start n s) (hc : c.point = ch '-') :
    wp (EE start.rest) (handleMinus cfg start c) s (HPost cfg pol start n) := by
  unfold handleMinus; tw

theorem handleBar_wp (h : At cfg start n s) (hc : c.point = ch '|') :
    wp (EE start.rest) (handleBar cfg start c) s (HPost cfg pol start n) := by
  unfold handleBar; tw

theorem handleDoubled_wp {x : Char} {a b : TK} (h : At cfg start n s) (hc : c.point = ch x)
    (ha : KOK pol a = true) (hb : KOK pol b = true) :
    wp (EE start.rest) (handleDoubled cfg x a b start c) s (HPost cfg pol start n) := by
  unfold handleDoubled; tw

theorem handleBang_wp (h : At cfg start n s) (hc : c.point = ch '!') :
    wp (EE start.rest) (handleBang cfg start c) s (HPost cfg pol start n) := by
  unfold handleBang; tw

theorem handleSlash_wp (h : At cfg start n s) (hc : c.point = ch '/') :
    wp (EE start.rest) (handleSlash cfg start c) s (HPost cfg pol start n) := by
  unfold handleSlash; tw

theorem handleAt_wp (h : At cfg start n s) (hc : c.point = ch '@') :
    wp (EE start.rest) (handleAt cfg start c) s (HPost cfg pol start n) := by
  unfold handleAt; tw

theorem handlePlus_wp (h : At cfg start n s) (hc : c.point = ch '+') :
    wp (EE start.rest) (handlePlus cfg start c) s (HPost cfg pol start n) := by
  unfold handlePlus; tw

theorem handleStar_wp (h : At cfg start n s) (hc : c.point = ch '*') :
    wp (EE start.rest) (handleStar cfg start c) s (HPost cfg pol start n) := by
  unfold handleStar; tw

theorem handleCaret_wp (h : At cfg start n s) (hc : c.point = ch '^') :
    wp (EE start.rest) (handleCaret cfg start c) s (HPost cfg pol start n) := by
  unfold handleCaret; tw

theorem wp_bind_same {α β} {E : Err → Prop} {m : M α} {f : α → M β} {s : St} {P : α → St → Prop}
    {Q : β → St → Prop} (h : wp E m s P) (hQ : ∀ a t, P a t → wp E (f a) t Q) : wp E (m >>= f) s Q :=
  wp_call h (fun _ h => h) hQ

theorem letter_ne_eof (h : c.isLetter = true) : c.point ≠ .eof := by
  intro he; simp [WLC.isLetter, he, CP.isLetterlike, CP.isMBLetterlike] at h

theorem digit_ne_eof {p : CP} (h : p.isDigit = true) : p ≠ .eof := by
  rintro rfl; simp [CP.isDigit] at h

theorem alnum_ne_eof {p : CP} (h : p.isAlphaOrDigit = true) : p ≠ .eof := by
  rintro rfl; simp [CP.isAlphaOrDigit] at h

theorem ch_ne_eof {p : CP} {x : Char} (h : p = ch x) : p ≠ .eof := by
  rintro rfl; cases h

theorem handlePercent_wp (h : At cfg start n s) (hc : c.point = ch '%') :
    wp (EE start.rest) (handlePercent cfg start c) s (HPost cfg pol start n) := by
  unfold handlePercent
  tw1; tw1; tw1
  · tw1
    rename_i c1 t1 h1 _ _ hc1
    refine wp_bind_same (P := fun _ t => At cfg start n t) ?_ fun _ t h => by tw
    refine wp_loop (fun c t => At cfg start n t ∧ Cur t.rest c) (fun _ t => t.rest.length)
      ⟨h1, hc1⟩ (by omega) ?_
    rintro c t ⟨h, hc⟩
    refine wp_ite (fun _ => wp_pure h) (fun hp => ?_)
    have hne := hc.ne_nil (ch_ne_eof (not_not.mp hp))
    tw1; tw1
    rename_i h2 _ _ hlt _ _ _ h3 _ hr hc3
    exact wp_pure ⟨⟨h3, hc3⟩, by rw [hr]; exact hlt hne⟩
  · tw

theorem handleComment_wp (h : At cfg start n s) {c : CP} (hc : c = ch '*') :
    wp (EE start.rest) (handleComment cfg start c) s (HPost cfg pol start n) := by
  unfold handleComment
  tw1
  refine wp_src1 h fun c0 t0 h0 _ hl0 hl0' hp0 => wp_src1 h0 fun c1 t1 h1 _ hl1 hl1' hp1 => ?_
  refine wp_bind_same (P := fun _ t => At cfg start n t) ?_ fun b t h => ?_
  · refine wp_loop (fun _ t => At cfg start n t)
      (fun d t => if d.2 = .eof then 0 else t.rest.length + 1) h1 (by split <;> omega) ?_
    rintro ⟨d, c⟩ t h
    have meas : ∀ (c' : CP) (u : St), c ≠ .eof → (t.rest ≠ [] → u.rest.length < t.rest.length) →
        u.rest.length ≤ t.rest.length → (t.rest = [] → c' = .eof) →
        (if c' = CP.eof then 0 else u.rest.length + 1) < if c = CP.eof then 0 else t.rest.length + 1 := by
      intro c' u hc hu hu' he
      rw [if_neg hc]
      by_cases ht : t.rest = []
      · rw [he ht, if_pos rfl]; omega
      · have := hu ht; split <;> omega
    have peof : ∀ {r : List UInt8} {p r'}, Plain r p r' → r = [] → p = .eof := by
      intro r p r' h hr
      cases h with
      | eof => rfl
      | ascii => cases hr
      | crlf => cases hr
      | high h1 => simp at hr; exact absurd hr.1 h1
    simp only
    refine wp_ite (fun hc => ?_) (fun _ => wp_ite (fun hc => ?_) (fun _ => wp_ite (fun _ => wp_pure h) (fun hc => ?_)))
    · have hne := ch_ne_eof hc
      refine wp_src1 h fun c1 u hu _ hl1 hl1' hp1 => wp_ite (fun hs => ?_) (fun _ => ?_)
      · refine wp_src1 hu fun c2 v hv _ hl2 hl2' hp2 => wp_pure ⟨hv, ?_⟩
        have : t.rest ≠ [] := fun h => absurd (peof hp1 h) (ch_ne_eof hs)
        exact meas c2 v hne (fun h => by have := hl1' h; omega) (by omega) (fun h => absurd h this)
      · exact wp_pure ⟨hu, meas c1 u hne hl1' hl1 (peof hp1)⟩
    · have hne := ch_ne_eof hc
      refine wp_src1 h fun c1 u hu _ hl1 hl1' hp1 => wp_ite (fun hs => wp_ite (fun _ => wp_pure hu) (fun _ => ?_)) (fun _ => ?_)
      · refine wp_src1 hu fun c2 v hv _ hl2 hl2' hp2 => wp_pure ⟨hv, ?_⟩
        have : t.rest ≠ [] := fun h => absurd (peof hp1 h) (ch_ne_eof hs)
        exact meas c2 v hne (fun h => by have := hl1' h; omega) (by omega) (fun h => absurd h this)
      · exact wp_pure ⟨hu, meas c1 u hne hl1' hl1 (peof hp1)⟩
    · refine wp_src1 h fun c1 u hu _ hl1 hl1' hp1 => wp_pure ⟨hu, meas c1 u hc hl1' hl1 (peof hp1)⟩
  · cases b <;> tw

theorem handleOpenParen_wp (h : At cfg start n s) (hc : c.point = ch '(') :
    wp (EE start.rest) (handleOpenParen cfg start c) s (HPost cfg pol start n) := by
  unfold handleOpenParen
  tw1
  refine wp_peek1 h fun c1 t h1 _ _ _ => wp_ite (fun hc => handleComment_wp h1 hc.2) (fun _ => by tw)

theorem NextB.eof {r : List UInt8} {r'} (h : NextB r c r') (hr : r = []) : c.point = .eof := by
  subst hr; rw [h.nil.1]

theorem handleBlob_wp (h : At cfg start n s) (hc : c.point = .char 0xf7c9) :
    wp (EE start.rest) (handleBlob cfg start c) s (HPost cfg pol start n) := by
  unfold handleBlob
  tw1; tw1
  rename_i c1 t1 h1 _ hl1 hl1' hp1
  refine wp_bind_same (P := fun _ t => At cfg start n t) ?_ fun b t h => ?_
  · refine wp_loop (fun _ t => At cfg start n t)
      (fun d t => if d.2.point = .eof then 0 else t.rest.length + 1) h1 (by split <;> omega) ?_
    rintro ⟨d, c⟩ t h
    have meas : ∀ (c' : WLC) (u : St), c.point ≠ .eof → (t.rest ≠ [] → u.rest.length < t.rest.length) →
        NextB t.rest c' u.rest →
        (if c'.point = CP.eof then 0 else u.rest.length + 1) < if c.point = CP.eof then 0 else t.rest.length + 1 := by
      intro c' u hc hu he
      rw [if_neg hc]
      by_cases ht : t.rest = []
      · rw [he.eof ht, if_pos rfl]; omega
      · have := hu ht; split <;> omega
    simp only
    refine wp_ite (fun hc => ?_) (fun _ => wp_ite (fun hc => wp_ite (fun _ => wp_pure h) (fun _ => ?_)) (fun _ => wp_ite (fun _ => wp_pure h) (fun hc => ?_)))
    · refine wp_nextC h fun c1 u hu _ hl1 hl1' hp1 => wp_pure ⟨hu, meas c1 u (by rw [hc]; simp) hl1' hp1⟩
    · refine wp_nextC h fun c1 u hu _ hl1 hl1' hp1 => wp_pure ⟨hu, meas c1 u (by rw [hc]; simp) hl1' hp1⟩
    · refine wp_nextC h fun c1 u hu _ hl1 hl1' hp1 => wp_pure ⟨hu, meas c1 u hc hl1' hp1⟩
  · cases b <;> tw

theorem symbolSegment_wp (h : At cfg start n s) (hc : c.isLetter = true) :
    wp (EE start.rest) (symbolSegment cfg c) s (fun _ t => At cfg start n t ∧ fl s ≤ fl t ∧
      t.rest.length ≤ s.rest.length) := by
  unfold symbolSegment
  tw1; tw1
  rename_i c1 t1 h1 hf1 hr1 hc1
  refine wp_loop (fun c t => At cfg start n t ∧ Cur t.rest c ∧ fl s ≤ fl t ∧ t.rest.length ≤ s.rest.length)
    (fun _ t => t.rest.length) ⟨h1, hc1, hf1, Nat.le_of_eq (congrArg List.length hr1)⟩ (by omega) ?_
  rintro c t ⟨h, hc, hfl, hlen⟩
  refine wp_ite (fun hp => ?_) (fun _ => wp_ite (fun hp => ?_) (fun _ => wp_ite (fun hp => ?_) (fun _ => wp_pure ⟨h, hfl, hlen⟩)))
  · have hne := hc.ne_nil (digit_ne_eof hp)
    refine wp_nextC h fun c2 t2 h2 _ hl hlt _ => wp_curC h2 fun c3 t3 h3 _ hr hc3 => ?_
    have := hlt hne
    exact wp_pure ⟨⟨h3, hc3, by omega, by rw [hr]; omega⟩, by rw [hr]; omega⟩
  · have hne := hc.ne_nil (letter_ne_eof hp)
    refine wp_nextC h fun c2 t2 h2 _ hl hlt _ => wp_curC h2 fun c3 t3 h3 _ hr hc3 => ?_
    have := hlt hne
    exact wp_pure ⟨⟨h3, hc3, by omega, by rw [hr]; omega⟩, by rw [hr]; omega⟩
  · refine wp_nextC h fun c2 t2 h2 _ hl hlt _ => wp_pure ⟨h2, by omega, by omega⟩

theorem handleSymbol_wp (h : At cfg start n s) (hc : c.point = ch '`' ∨ c.isLetter = true) :
    wp (EE start.rest) (handleSymbol cfg pol start c) s (HPost cfg pol start n) := by
  unfold handleSymbol
  refine wp_assert (by rcases hc with h | h <;> simp [h]) ?_
  refine wp_bind_same (P := fun _ t => At cfg start n t) ?_ fun c1 t1 h1 => ?_
  · unfold symbolFirst
    refine wp_ite (fun hp => ?_) (fun _ => wp_pure h)
    exact wp_mono (symbolSegment_wp h hp) (fun _ h => h) (fun _ _ h => h.1)
  · refine wp_bind_same (P := fun _ t => At cfg start n t) ?_ fun b t h => ?_
    · refine wp_loop (fun _ t => At cfg start n t) (fun _ t => t.rest.length) h1 (by omega) ?_
      rintro c t h
      refine wp_ite (fun _ => wp_pure h) (fun _ => ?_)
      refine wp_curC h fun c2 t2 h2 _ hr2 hc2 => wp_ite (fun hp => ?_) (fun _ => wp_pure h2)
      have hne := hc2.ne_nil (letter_ne_eof hp)
      refine wp_nextC h2 fun c3 t3 h3 _ hl hlt _ => ?_
      refine wp_bind_same (symbolSegment_wp h3 hp) ?_
      rintro c4 t4 ⟨h4, _, hl4⟩
      have := hlt hne
      exact wp_pure ⟨h4, by rw [hr2] at this; omega⟩
    · refine wp_ite (fun _ => ?_) (fun _ => by tw)
      cases pol.insideSlot <;> tw

theorem handleString_wp (h : At cfg start n s) (hc : c.point = ch '"') :
    wp (EE start.rest) (handleString cfg start c) s (HPost cfg pol start n) := by
  unfold handleString
  tw1
  refine wp_bind_same (P := fun _ t => At cfg start n t) ?_ fun b t h => ?_
  · refine wp_loop (fun _ t => At cfg start n t) (fun _ t => t.rest.length) h (by omega) ?_
    rintro _ t h
    refine wp_nextC h fun c u hu _ _ hlt hp => wp_ite (fun _ => wp_pure hu) (fun _ => wp_ite (fun _ => wp_pure hu) (fun hc => wp_pure ⟨hu, hlt (hp.ne_nil hc)⟩))
  · cases b <;> tw

theorem backslashName_wp {m : St} (hm : At cfg start n m) (h : At cfg start n s) (hf : fl m ≤ fl s)
    (hp : NextB m.rest c s.rest) :
    wp (EE start.rest) (backslashName cfg m c) s (fun _ t => At cfg start n t) := by
  unfold backslashName
  refine wp_loop (fun d t => At cfg start n d.1 ∧ At cfg start n t ∧ fl d.1 ≤ fl t ∧ NextB d.1.rest d.2 t.rest)
    (fun d t => if d.2.point = .eof then 0 else t.rest.length + 1) ⟨hm, h, hf, hp⟩
    (by split <;> omega) ?_
  rintro ⟨m, c⟩ t ⟨hm, h, hf, hp⟩
  refine wp_ite (fun ha => ?_) (fun _ => wp_ite (fun _ => wp_pure h) (fun _ => ?_))
  · refine wp_mark1 (wp_nextC h fun c2 u hu hf2 hl hlt hp2 => wp_pure ⟨⟨h, hu, hf2, hp2⟩, ?_⟩)
    have hne : c.point ≠ .eof := alnum_ne_eof ha
    simp only at hne ⊢
    rw [if_neg hne]
    by_cases ht : t.rest = []
    · rw [hp2.eof ht, if_pos rfl]; omega
    · have := hlt ht; split <;> omega
  · refine wp_seek1 hm h hf fun u hu _ _ => wp_pure hu

theorem backslashDigits_wp {p : CP → Bool} (k : Nat) : ∀ {s m : St} {c : WLC}, At cfg start n m → At cfg start n s →
    fl m ≤ fl s → wp (EE start.rest) (backslashDigits cfg p k m c) s (fun _ t => At cfg start n t) := by
  induction k with
  | zero => intro s m c _ h _; exact wp_pure h
  | succ k ih =>
    intro s m c hm h hf
    unfold backslashDigits
    refine wp_ite (fun _ => ?_) (fun _ => ?_)
    · exact wp_mark1 (wp_nextC h fun c2 u hu hf2 hl hlt hp2 => ih h hu hf2)
    · exact wp_seek ⟨h.wf, hm.reach.seek' h.reach hf, hm.len⟩

theorem backslashScan_wp (h : At cfg start n s) :
    wp (EE start.rest) (backslashScan cfg) s (fun _ t => At cfg start n t) := by
  unfold backslashScan
  tw
  all_goals first
    | exact backslashName_wp (by assumption) (by assumption) (by assumption) (by assumption)
    | exact backslashDigits_wp _ (by assumption) (by assumption) (by assumption)
    | exact wp_pure (by assumption)

theorem handleBackslash_wp (h : At cfg start n s) (hc : c.point = ch '\\') :
    wp (EE start.rest) (handleBackslash cfg start c) s (HPost cfg pol start n) := by
  unfold handleBackslash
  tw1
  exact wp_bind_same (backslashScan_wp h) fun _ t h => by tw

theorem handleLinearSyntax_wp (h : At cfg start n s) (hc : c.point.isMBLinearSyntax = true)
    (h1 : c.point ≠ .char 0xf7c1) (h9 : c.point ≠ .char 0xf7c9) :
    wp (EE start.rest) (handleLinearSyntax start c) s (HPost cfg pol start n) := by
  unfold handleLinearSyntax
  tw
  rename_i a0 a2 a5 a6 a7 a8 a10 a11 a12 a13 asp
  exfalso
  cases hp : c.point <;> simp_all [CP.isMBLinearSyntax, inR]
  omega

/-- Every punctuation character has an operator. -/
theorem punctuation_operators : (mbPunctuationTable.all fun c =>
    match longNameCodePointToOperator c with
    | some k => k.fromSource
    | none => false) = true := by decide +kernel

theorem handlePunctuation_wp (h : At cfg start n s) (hc : c.point.isMBPunctuation = true) :
    wp (EE start.rest) (handlePunctuation start c) s (HPost cfg pol start n) := by
  obtain ⟨m, hm, hin⟩ := (Props.C14_chars c.point).1.mp hc
  have := List.all_eq_true.mp punctuation_operators m hm
  unfold handlePunctuation
  rw [hin]
  simp only
  cases hk : longNameCodePointToOperator m with
  | none => rw [hk] at this; cases this
  | some k =>
    rw [hk] at this
    simp only at this ⊢
    exact wp_tok h (by unfold KOK; rw [this]; rfl)

end
end CodeParser
