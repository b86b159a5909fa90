import Verif.Proofs.Token4
import Verif.Spec.Tree
/-!
Message tags and file names (helper lemmas).
-/
namespace CodeParser
open Spec

theorem wp_and {α} {E E' : Err → Prop} {m : M α} {s : St} {Q Q' : α → St → Prop}
    (h : wp E m s Q) (h' : wp E' m s Q') : wp E m s (fun a t => Q a t ∧ Q' a t) := by
  unfold wp at *
  cases hm : m s with
  | error e => simpa [hm] using h
  | ok p => rw [hm] at h h'; exact ⟨h, h'⟩

theorem wp_any {α} {m : M α} {s : St} : wp (fun _ => True) m s (fun _ _ => True) := by
  unfold wp; cases m s <;> trivial

theorem wp_anyB {α β} {m : M α} {f : α → M β} {s : St} {Q : β → St → Prop}
    (h : ∀ a t, wp (fun _ => True) (f a) t Q) : wp (fun _ => True) (m >>= f) s Q :=
  wp_call wp_any (fun _ h => h) fun a t _ => h a t

theorem tok_kind {k : TK} {start s : St} : wp (fun _ => True) (tok k start) s (fun t _ => t.kind = k) := by
  unfold wp tok
  split
  · rename_i h; split at h <;> cases h; rfl
  · trivial

section
variable {cfg : Cfg} {start s : St} {n : Nat} {c : WLC}

theorem handleString_kind : wp (fun _ => True) (handleString cfg start c) s
    (fun t _ => t.kind = .String ∨ t.kind = .Error_UnterminatedString) := by
  unfold handleString
  refine wp_anyB fun _ _ => wp_anyB fun b _ => wp_mono tok_kind (fun _ h => h) fun t _ h => ?_
  cases b <;> simp [h]

/-- What a peek at a token read in another way gives. -/
structure OddPost (cfg : Cfg) (kinds : TK → Bool) (s : St) (k : Tok) (t : St) : Prop extends Peeked cfg s k t where
  kind : kinds k.kind = true
  notEof : k.kind ≠ .EndOfFile
  notEmpty : k.kind.isTrivia = true → k.text ≠ []
  hollow : TokOK k

/-- What reading a token gives, before going back. -/
inductive OddTok (cfg : Cfg) (kinds : TK → Bool) (s : St) : Tok → St → Prop
  | token {k t} : R cfg s t → k = tokOf k.kind s t → kinds k.kind = true → k.kind ≠ .EndOfFile →
      t.rest.length < s.rest.length → (invented k.kind || spare k.kind) = false → (onNewline s.rest → isNewline k.kind) →
      OddTok cfg kinds s k t
  | empty {k t} : R cfg s t → k = ⟨k.kind, [], s.rest, s.loc, s.loc⟩ → kinds k.kind = true →
      k.kind ≠ .EndOfFile → k.kind.isTrivia = false → invented k.kind = true → OddTok cfg kinds s k t

theorem onNewline_append {a b : List UInt8} (h : onNewline a) : onNewline (a ++ b) := by
  cases a with
  | nil => rcases h with h | h <;> cases h
  | cons => exact h

theorem plain_newline {r r' : List UInt8} {p : CP} (h : Plain r p r') (hn : onNewline r) :
    p = ch '\n' ∨ p = ch '\r' ∨ p = .crlf := by
  cases h with
  | eof => rcases hn with h | h <;> cases h
  | ascii h1 h2 =>
    rcases hn with h | h <;> simp at h <;> subst h
    · exact Or.inl rfl
    · exact Or.inr (Or.inl rfl)
  | crlf => exact Or.inr (Or.inr rfl)
  | @high pre _ _ h1 h2 h3 =>
    exfalso
    cases pre with
    | nil => exact h1 rfl
    | cons b pre =>
      have := h2 b List.mem_cons_self
      rcases hn with h | h <;> simp at h <;> subst h <;> simp at this

theorem wlb_newline {r r' : List UInt8} {c : WLC} (h : WLB r c r') (hn : onNewline r) :
    c.point = ch '\n' ∨ c.point = ch '\r' ∨ c.point = .crlf := by
  rcases h with ⟨q, rfl, _⟩ | ⟨_, h, _⟩
  · rcases hn with h | h <;> simp [byte] at h
  · exact plain_newline h hn

theorem nextB_newline {r r' : List UInt8} {c : WLC} (h : NextB r c r') (hn : onNewline r) :
    c.point = ch '\n' ∨ c.point = ch '\r' ∨ c.point = .crlf := by
  cases h with
  | here h _ => exact wlb_newline h hn
  | cont h h1 _ _ =>
    rcases wlb_newline h hn with h | h | h <;> rw [h] at h1 <;> cases h1

theorem invented_spare (k : TK) (h : invented k = true) : spare k = false := by
  cases k <;> first | rfl | cases h

theorem OddTok.peeked {kinds : TK → Bool} {k : Tok} {u : St} (hs : WF s) (he : s.eof = false)
    (h : OddTok cfg kinds s k u) : OddPost cfg kinds s k (u.seek s) := by
  cases h with
  | token hR hk hkd hne hl hi hnl =>
    have hp : Peeked cfg s k (u.seek s) := by
      rw [hk]; exact Peeked.of_tokOf hs hR (fun h' => absurd h' hne)
    have hn : k.text ≠ [] := by
      intro hn
      have h1 := hp.split
      rw [hn, hk] at h1
      have h1 : u.rest = s.rest := h1
      rw [h1] at hl; omega
    have hi : invented k.kind = false ∧ spare k.kind = false := by simpa using hi
    refine ⟨hp, hkd, hne, fun _ => hn, fun h => by (rw [hi.1] at h; cases h), fun _ => hn, fun h => hnl ?_, hi.2⟩
    rw [← hp.split]
    exact onNewline_append h
  | empty hR hk hkd hne ht hi =>
    refine ⟨⟨R.seek hs (R.refl hs) hR, ⟨rfl, rfl, rfl⟩, by rw [hk]; rfl, by rw [hk], ?_⟩, hkd, hne,
      fun h => by (rw [ht] at h; cases h), fun _ => by (rw [hk]; exact ⟨rfl, rfl⟩),
      fun h => by (rw [hi] at h; cases h), fun h => by (rw [hk] at h; rcases h with h | h <;> cases h), invented_spare _ hi⟩
    have hseek := R.seek hs (R.refl hs) hR
    have : k.skipSt (u.seek s) = u.seek s := by
      rw [hk]
      show ({ rest := s.rest, loc := s.loc, eof := k.kind == .EndOfFile, flag := u.flag } : St) = ⟨s.rest, s.loc, s.eof, u.flag⟩
      rw [he]; simp [hne]
    rw [this]; exact hseek

/-- The kinds of the tokens following `::`. -/
def TK.tagKind : TK → Bool
  | .String | .Error_UnterminatedString | .Error_ExpectedTag => true
  | _ => false

/-- The kinds of the tokens following `<<`, `>>` and `>>>`. -/
def TK.fileKind : TK → Bool
  | .String | .Error_UnterminatedString | .Error_ExpectedFile | .Error_UnterminatedFileString
  | .ToplevelNewline | .Whitespace => true
  | _ => false

theorem wp_errorTokAt {E : Err → Prop} {k : TK} {Q : Tok → St → Prop}
    (h : Q ⟨k, [], start.rest, start.loc, start.loc⟩ s) : wp E (errorTokAt k start) s Q := h

theorem handleString_odd {kinds : TK → Bool} (h : At cfg start n s) (hn : n < start.rest.length)
    (hnl : ¬ onNewline start.rest) (hc : c.point = ch '"')
    (h1 : kinds .String = true) (h2 : kinds .Error_UnterminatedString = true) :
    wp (EE start.rest) (handleString cfg start c) s (OddTok cfg kinds start) := by
  refine wp_mono (wp_and (handleString_wp (pol := Pol.top) h hc) handleString_kind) (fun _ h => h) ?_
  rintro k t ⟨hp, hk⟩
  have := hp.len
  refine .token hp.reach hp.shape ?_ ?_ (by omega) ?_ (fun h => absurd h hnl) <;> rcases hk with hk | hk <;> rw [hk]
  · exact h1
  · exact h2
  · decide
  · decide
  · rfl
  · rfl

theorem tok_odd {kinds : TK → Bool} {k : TK} (hs : WF start) (h : R cfg start s)
    (h1 : kinds k = true) (h2 : k ≠ .EndOfFile) (h3 : s.rest.length < start.rest.length)
    (h4 : (invented k || spare k) = false) (h5 : onNewline start.rest → isNewline k) :
    wp (EE start.rest) (tok k start) s (OddTok cfg kinds start) :=
  wp_tok' hs h (.token h rfl h1 h2 h3 h4 h5)

theorem nextTokenTag_wp (hs : WF s) :
    wp (EE s.rest) (nextTokenTag cfg) s (OddTok cfg TK.tagKind s) := by
  unfold nextTokenTag
  refine wp_mark1 ?_
  refine wp_nextC (n := s.rest.length) ⟨hs, R.refl hs, Nat.le_refl _⟩ fun c t h hf hl hlt hb => ?_
  have e : wp (EE s.rest) (errorTokAt .Error_ExpectedTag s) t (OddTok cfg TK.tagKind s) :=
    wp_errorTokAt (.empty h.reach rfl rfl TK.noConfusion (show TK.isTrivia _ = false by dsimp only; decide) rfl)
  refine wp_ite (fun _ => e) (fun hc0 => wp_ite (fun _ => e) (fun hc1 => ?_))
  have hnl : ¬ onNewline s.rest := fun h => hc1 (nextB_newline hb h)
  have hne : s.rest ≠ [] := by
    intro hr
    rw [hr] at hb
    exact hc0 (by rw [hb.nil.1])
  have hlt := hlt hne
  have h : At cfg s (s.rest.length - 1) t := ⟨h.wf, h.reach, by omega⟩
  refine wp_ite (fun hc => ?_) (fun _ => ?_)
  · exact handleString_odd h (by omega) hnl hc rfl rfl
  · unfold stringifyAsTagRest
    refine wp_ite (fun hc => ?_) (fun _ => e)
    refine wp_call (symbolSegment_wp h hc) (fun _ h => h) fun c2 t2 h2 => ?_
    have := h2.1.len
    exact tok_odd hs h2.1.reach rfl (by decide) (by omega) rfl (fun h => absurd h hnl)

theorem fileBrackets_wp {c : CP} (h : At cfg start n s) (hc : c = ch '[') :
    wp (EE start.rest) (fileBrackets cfg c) s (fun _ t => At cfg start n t ∧ t.rest.length ≤ s.rest.length) := by
  unfold fileBrackets
  refine wp_assert (by simp [hc]) ?_
  refine wp_peek1 h fun c1 t1 h1 _ hr1 he1 => ?_
  refine wp_loop (fun d t => At cfg start n t ∧ t.rest.length ≤ s.rest.length ∧ (d.2 = .eof ↔ t.rest = []))
    (fun _ t => t.rest.length) ⟨h1, by rw [hr1]; omega, he1⟩ (by omega) ?_
  rintro ⟨d, c2⟩ t2 ⟨h2, hl2, he2⟩
  refine wp_ite (fun _ => wp_pure ⟨h2, hl2⟩) (fun _ => wp_ite (fun _ => wp_pure ⟨h2, hl2⟩) (fun hne => ?_))
  have hne : t2.rest ≠ [] := fun h => hne (he2.mpr h)
  refine wp_ite (fun _ => ?_) (fun _ => wp_ite (fun _ => ?_) (fun _ => wp_ite (fun _ => wp_pure ⟨h2, hl2⟩) (fun _ => ?_)))
  all_goals
    refine wp_src1 h2 fun _ t3 h3 _ hl3 hlt3 _ => wp_peek1 h3 fun c4 t4 h4 _ hr4 he4 => ?_
    have := hlt3 hne
  · exact wp_pure ⟨⟨h4, by rw [hr4]; omega, he4⟩, by rw [hr4]; omega⟩
  · exact wp_ite (fun _ => wp_pure ⟨h4, by rw [hr4]; omega⟩) (fun _ => wp_pure ⟨⟨h4, by rw [hr4]; omega, he4⟩, by rw [hr4]; omega⟩)
  · exact wp_pure ⟨⟨h4, by rw [hr4]; omega, he4⟩, by rw [hr4]; omega⟩

theorem isFileChar_ne_eof {c : CP} (h : c.isFileChar = true) : c ≠ .eof := by
  rintro rfl; cases h

theorem fileBrackets_eof {c : CP} (h : At cfg start n s) (hc : c = ch '[') :
    wp (EE start.rest) (fileBrackets cfg c) s (fun r t => ∀ c, r = some c → (c = .eof ∨ t.rest ≠ [])) := by
  unfold fileBrackets
  refine wp_assert (by simp [hc]) ?_
  refine wp_peek1 h fun c1 t1 h1 _ hr1 he1 => ?_
  refine wp_loop (fun d t => At cfg start n t ∧ (d.2 = .eof ↔ t.rest = []))
    (fun _ t => t.rest.length) ⟨h1, he1⟩ (by omega) ?_
  rintro ⟨d, c2⟩ t2 ⟨h2, he2⟩
  have hn : ∀ {t : St} c, (none : Option CP) = some c → (c = .eof ∨ t.rest ≠ []) := by
    intro _ _ h; cases h
  refine wp_ite (fun _ => wp_pure hn) (fun _ => wp_ite (fun _ => wp_pure hn) (fun hne => ?_))
  have hne : t2.rest ≠ [] := fun h => hne (he2.mpr h)
  refine wp_ite (fun _ => ?_) (fun _ => wp_ite (fun _ => ?_) (fun _ => wp_ite (fun _ => wp_pure hn) (fun _ => ?_)))
  all_goals
    refine wp_src1 h2 fun _ t3 h3 _ hl3 hlt3 _ => wp_peek1 h3 fun c4 t4 h4 _ hr4 he4 => ?_
    have := hlt3 hne
  · exact wp_pure ⟨⟨h4, he4⟩, by rw [hr4]; omega⟩
  · refine wp_ite (fun _ => wp_pure ?_) (fun _ => wp_pure ⟨⟨h4, he4⟩, by rw [hr4]; omega⟩)
    rintro c ⟨⟩
    by_cases h : t4.rest = []
    · exact Or.inl (he4.mpr h)
    · exact Or.inr h
  · exact wp_pure ⟨⟨h4, he4⟩, by rw [hr4]; omega⟩

theorem fileLoop_wp {c : CP} (h : At cfg start n s) (hc : c = .eof ∨ s.rest ≠ []) :
    wp (EE start.rest) (fileLoop cfg c) s (fun _ t => At cfg start n t) := by
  unfold fileLoop
  refine wp_loop (fun c t => At cfg start n t ∧ (c = .eof ∨ t.rest ≠ []))
    (fun _ t => t.rest.length) ⟨h, hc⟩ (by omega) ?_
  rintro c1 t1 ⟨h1, hc1⟩
  refine wp_ite (fun hp => ?_) (fun _ => wp_ite (fun hp => ?_) (fun _ => wp_pure h1))
  · have hne : t1.rest ≠ [] := hc1.resolve_left (isFileChar_ne_eof hp)
    refine wp_src1 h1 fun _ t3 h3 _ hl3 hlt3 _ => wp_peek1 h3 fun c4 t4 h4 _ hr4 he4 => wp_pure ⟨⟨h4, ?_⟩, ?_⟩
    · by_cases h : t4.rest = []
      · exact Or.inl (he4.mpr h)
      · exact Or.inr h
    · have := hlt3 hne; rw [hr4]; omega
  · have hne : t1.rest ≠ [] := hc1.resolve_left (by rw [hp]; simp [ch])
    refine wp_src1 h1 fun _ t3 h3 _ hl3 hlt3 _ => ?_
    have hlt := hlt3 hne
    refine wp_call (wp_and (fileBrackets_wp h3 hp) (fileBrackets_eof h3 hp)) (fun _ h => h) ?_
    rintro (_ | c5) t5 ⟨⟨h5, hl5⟩, hc5⟩
    · exact wp_pure h5
    · exact wp_pure ⟨⟨h5, hc5 _ rfl⟩, by omega⟩

theorem fileTail_wp {c : CP} (h : At cfg start n s) (hn : n < start.rest.length) (hnl : ¬ onNewline start.rest) (hc : c = .eof ∨ s.rest ≠ []) :
    wp (EE start.rest) (do
      let ok ← fileLoop cfg c
      tok (if ok then .String else .Error_UnterminatedFileString) start) s (OddTok cfg TK.fileKind start) := by
  refine wp_call (fileLoop_wp h hc) (fun _ h => h) fun ok t ht => ?_
  have := ht.len
  refine tok_odd ht.wf ht.reach ?_ ?_ (by omega) ?_ (fun h => absurd h hnl)
  · cases ok <;> rfl
  · cases ok <;> decide
  · cases ok <;> rfl

theorem nextTokenFile_wp (hs : WF s) :
    wp (EE s.rest) (nextTokenFile cfg) s (OddTok cfg TK.fileKind s) := by
  unfold nextTokenFile
  refine wp_mark1 ?_
  refine wp_src1 (n := s.rest.length) ⟨hs, R.refl hs, Nat.le_refl _⟩ fun c t h hf hl hlt hb => ?_
  have e : wp (EE s.rest) (errorTokAt .Error_ExpectedFile s) t (OddTok cfg TK.fileKind s) :=
    wp_errorTokAt (.empty h.reach rfl rfl TK.noConfusion (show TK.isTrivia _ = false by dsimp only; decide) rfl)
  have hne : c ≠ .eof → s.rest ≠ [] := by
    intro hc hr
    rw [hr] at hb
    generalize hr' : ([] : List UInt8) = q at hb
    generalize t.rest = q' at hb
    cases hb with
    | eof => exact hc rfl
    | ascii => cases hr'
    | crlf => cases hr'
    | high h1 h2 h3 => simp at hr'; simp_all
  refine wp_ite (fun _ => e) (fun hc => ?_)
  have hlt := hlt (hne hc)
  refine wp_ite (fun _ => ?_) (fun hc1 => ?_)
  · exact tok_odd hs h.reach rfl (by decide) hlt rfl (fun _ => Or.inl rfl)
  have hnl : ¬ onNewline s.rest := fun h => hc1 (plain_newline hb h)
  have h : At cfg s (s.rest.length - 1) t := ⟨h.wf, h.reach, by omega⟩
  refine wp_ite (fun _ => ?_) (fun _ => wp_ite (fun hc => ?_) (fun _ => ?_))
  · exact tok_odd hs h.reach rfl (by decide) hlt rfl (fun h => absurd h hnl)
  · exact handleString_odd h (by omega) hnl hc rfl rfl
  · unfold stringifyAsFileRest
    have lp : ∀ {c4 : CP} {t4 : St}, (c4 = .eof ↔ t4.rest = []) → (c4 = .eof ∨ t4.rest ≠ []) := by
      intro c4 t4 he4
      by_cases h : t4.rest = []
      · exact Or.inl (he4.mpr h)
      · exact Or.inr h
    refine wp_ite (fun hc => ?_) (fun _ => wp_ite (fun hc => ?_) (fun _ => e))
    · refine wp_peek1 h fun c4 t4 h4 _ hr4 he4 => fileTail_wp h4 (by omega) hnl (lp he4)
    · refine wp_call (wp_and (fileBrackets_wp h hc) (fileBrackets_eof h hc)) (fun _ h => h) ?_
      rintro (_ | c5) t5 ⟨⟨h5, hl5⟩, hc5⟩
      · have := h5.len
        exact tok_odd hs h5.reach rfl (by decide) (by omega) rfl (fun h => absurd h hnl)
      · exact fileTail_wp h5 (by omega) hnl (hc5 _ rfl)

theorem peekTokenTag_wp (hs : WF s) (he : s.eof = false) :
    wp (EE s.rest) (peekTokenTag cfg) s (OddPost cfg TK.tagKind s) := by
  unfold peekTokenTag
  refine wp_mark1 (wp_call (nextTokenTag_wp hs) (fun _ h => h) ?_)
  intro k t h
  exact wp_bind (wp_seek (wp_pure (h.peeked hs he)))

theorem peekTokenFile_wp (hs : WF s) (he : s.eof = false) :
    wp (EE s.rest) (peekTokenFile cfg) s (OddPost cfg TK.fileKind s) := by
  unfold peekTokenFile
  refine wp_mark1 (wp_call (nextTokenFile_wp hs) (fun _ h => h) ?_)
  intro k t h
  exact wp_bind (wp_seek (wp_pure (h.peeked hs he)))

end
end CodeParser
