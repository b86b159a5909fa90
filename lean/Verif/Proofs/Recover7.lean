import Verif.Proofs.Recover6
/-!
Tokenizing a text: the tokens, and the errors.
-/
namespace CodeParser
open Spec

variable {cfg : Cfg} {conv : Conv} {first : FirstLine} {s : St}

/-- The tokens of the token loop are proper. -/
theorem tokenLoop_tokOK (hs : WF s) : wp (EE s.rest) (tokenLoop cfg) s (fun ks _ => ∀ k ∈ ks, TokOK k) := by
  unfold tokenLoop
  refine wp_loop (fun ks t => R cfg s t ∧ ∀ k ∈ ks, TokOK k) (fun _ t => t.rest.length) ⟨R.refl hs, by simp⟩ (by omega) ?_
  rintro ks t ⟨hR, hK⟩
  refine wp_call (wp_eq (peekTokenWith_wp hR.wf)) (fun _ h => h.of_R hs hR) ?_
  rintro k u ⟨hp, he⟩
  refine wp_ite (fun _ => wp_pure (by simpa using hK)) (fun hne => ?_)
  refine wp_skip (wp_pure ⟨⟨R.trans hs hR hp.skip, ?_⟩, ?_⟩)
  · intro k' hk'
    rcases List.mem_cons.mp hk' with rfl | hk'
    · exact TokOK.real (KOK_real (hp.kind.resolve_left hne)) (hp.more hne) hp.split (peek_line hR.wf he)
    · exact hK k' hk'
  · show k.after.length < t.rest.length
    have := hp.len
    have := List.length_pos_iff.mpr (hp.more hne)
    omega

/-- The tokens of an input. -/
theorem tokens_tokOK {bs : List UInt8} {ks : List Tok} {t : St} (h : tokens cfg conv first bs = .ok (ks, t)) : ∀ k ∈ ks, TokOK k := by
  have hw := WF_init conv bs
  have := wp_call (E' := EE bs) (handleFirstLine_wp (cfg := cfg) (f := first) hw) (fun _ h => h)
    (Q' := fun ks t => ∀ k ∈ ks, TokOK k) (f := fun _ => tokenLoop cfg)
    fun _ s hR => wp_mono (tokenLoop_tokOK hR.wf) (fun _ he => he.of_R hw hR) fun ks t hL => hL
  unfold wp at this
  unfold tokens at h
  rw [show (handleFirstLine cfg first >>= fun _ => tokenLoop cfg : M (List Tok)) (St.init conv bs) = _ from h] at this
  exact this

theorem fixToks_err {isNew : List Char → Except Err Bool} {input : List Char} {e : Err} : ∀ {ts : List Tok},
    fixToks cfg isNew input ts = .error e → ∃ t ∈ ts, t.unterminated = true ∧ fixTok cfg isNew input t = .error e
  | [], h => by cases h
  | t :: ts, h => by
    unfold fixToks at h
    split at h
    · next he =>
      cases h
      split at he
      · next hu => exact ⟨t, List.mem_cons_self, hu, he⟩
      · cases he
    · split at h
      · next he =>
        cases h
        obtain ⟨t', h1, h2⟩ := fixToks_err he
        exact ⟨t', List.mem_cons_of_mem _ h1, h2⟩
      · cases h

/-- The errors of tokenizing bytes. -/
theorem tokenizeBytes_err {isNew : List Char → Except Err Bool} {bs : List UInt8} {e : Err}
    (h : tokenizeBytesWith isNew cfg conv first bs = .error e) :
    EE bs e ∨ ∃ input t, bs = encode input ∧ Placed cfg input conv.start t ∧ TokOK t ∧ t.unterminated = true ∧
      fixTok cfg isNew input t = .error e := by
  unfold tokenizeBytesWith at h
  have ht := tokens_wp (cfg := cfg) conv first bs
  cases hT : tokens cfg conv first bs with
  | error e' => rw [hT] at h ht; cases h; exact Or.inl ht
  | ok p =>
    obtain ⟨ks, t⟩ := p
    have hok := tokens_tokOK hT
    rw [hT] at h ht
    simp only at h ht
    obtain ⟨u, hR, hL⟩ := ht
    cases hf : t.flag with
    | some f => rw [hf] at h; cases h
    | none =>
      rw [hf] at h
      cases hu : fromUtf8 bs with
      | none => rw [hu] at h; cases h
      | some input =>
        have hbs := fromUtf8_some hu
        subst hbs
        rw [hu] at h
        simp only at h
        split at h
        · next he =>
          cases h
          obtain ⟨t', h1, h2, h3⟩ := fixToks_err he
          obtain ⟨xs, hp, -⟩ := hR.path
          obtain ⟨ds, e1, e2⟩ := hp.steps (WF_init _ _) rfl
          exact Or.inr ⟨input, t', rfl, hL.laid.lies.placed e1 e2 t' h1, hok t' h1, h2, h3⟩
        · cases h

end CodeParser
