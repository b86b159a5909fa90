import Verif.Proofs.Token4
/-!
What comments and strings consist of (helper lemmas).
-/
namespace CodeParser
open Spec

section
variable {cfg : Cfg} {pol : Pol} {start s t u : St} {k : Tok} {c : WLC}

/-- Reading an ASCII character that is no backslash. -/
theorem nextWL_direct {b : UInt8} {r : List UInt8} (hs : WF s) (hr : s.rest = b :: r)
    (hb : b.toNat < 0x80) (h92 : b ≠ byte '\\') (h13 : b.toNat = 13 → r.head? ≠ some 10) :
    ∃ t, nextWL cfg s = .ok (⟨.char b.toNat, .none⟩, t) ∧ t.rest = r ∧ R cfg s t := by
  have h := nextWL_spec (cfg := cfg) hs
  unfold wp at h
  cases hn : nextWL cfg s with
  | error e =>
    rw [hn] at h
    obtain ⟨_, q, hq, _⟩ := h
    rw [hr] at hq; cases hq; exact absurd rfl h92
  | ok p =>
    obtain ⟨c, t⟩ := p
    rw [hn] at h
    have hns := ns_byte (cfg := cfg) hs hr hb h13
    have hne : (nextSource cfg s).1 ≠ ch '\\' := by
      rw [hns]; intro h'
      simp only [ch, CP.char.injEq] at h'
      exact h92 (UInt8.toNat_inj.mp h')
    obtain ⟨rfl, ht⟩ := h.plain hne
    have hR := h.reach
    rw [hns] at ht
    subst ht
    rw [hns]
    exact ⟨_, rfl, rfl, hR⟩

theorem loop_inr {α β} {body : β → M (β ⊕ α)} {b : β} {a : α} {s t : St} (h : body b s = .ok (.inr a, t)) :
    M.loop body b s = .ok (a, t) := by
  unfold M.loop M.loopN
  rw [h]

theorem bind_ok {α β} {m : M α} {f : α → M β} {s t : St} {a : α} (h : m s = .ok (a, t)) :
    (m >>= f) s = f a t := by
  show M.bind m f s = _
  unfold M.bind; rw [h]

theorem nextC_direct {b : UInt8} {r : List UInt8} (hs : WF s) (hr : s.rest = b :: r)
    (hb : b.toNat < 0x80) (h92 : b ≠ byte '\\') (h13 : b.toNat = 13 → r.head? ≠ some 10) :
    ∃ t, nextC cfg s = .ok (⟨.char b.toNat, .none⟩, t) ∧ t.rest = r ∧ R cfg s t := by
  obtain ⟨t, h1, h2, h3⟩ := nextWL_direct (cfg := cfg) hs hr hb h92 h13
  refine ⟨t, ?_, h2, h3⟩
  unfold nextC
  rw [bind_ok h1]
  exact loop_inr rfl

theorem wp_direct {β} {E : Err → Prop} {b : UInt8} {r : List UInt8} {f : WLC → M β} {Q : β → St → Prop}
    (hs : WF s) (hr : s.rest = b :: r)
    (hb : b.toNat < 0x80) (h92 : b ≠ byte '\\') (h13 : b.toNat = 13 → r.head? ≠ some 10)
    (h : ∀ t, t.rest = r → R cfg s t → wp E (f ⟨.char b.toNat, .none⟩) t Q) :
    wp E (nextC cfg >>= f) s Q := by
  obtain ⟨t, h1, h2, h3⟩ := nextC_direct (cfg := cfg) hs hr hb h92 h13
  have := h t h2 h3
  unfold wp at this ⊢
  rw [bind_ok h1]
  exact this

/-- Reading in front of anything but a backslash reads one source character. -/
theorem nextC_plain (hs : WF s) (h92 : s.rest.head? ≠ some (byte '\\')) :
    nextC cfg s = .ok (⟨(nextSource cfg s).1, .none⟩, (nextSource cfg s).2) := by
  have h := nextWL_spec (cfg := cfg) hs
  have hwl : nextWL cfg s = .ok (⟨(nextSource cfg s).1, .none⟩, (nextSource cfg s).2) := by
    unfold wp at h
    cases hn : nextWL cfg s with
    | error e =>
      rw [hn] at h
      obtain ⟨_, q, hq, _⟩ := h
      rw [hq] at h92; exact absurd rfl h92
    | ok p =>
      obtain ⟨c, t⟩ := p
      rw [hn] at h
      have hne : (nextSource cfg s).1 ≠ ch '\\' := by
        intro h'
        obtain ⟨b, r, h1, h2, _, _⟩ := ns_char hs h' (by decide)
        rw [h1] at h92
        exact h92 (congrArg some (UInt8.toNat_inj.mp h2))
      obtain ⟨rfl, rfl⟩ := h.plain hne
      rfl
  unfold nextC
  rw [bind_ok hwl]
  refine loop_inr ?_
  rw [if_neg]
  · rfl
  · rw [(plain_nextSource (cfg := cfg) hs).not_lc]; simp

/-- A newline is a token of its own. -/
theorem nextToken_newline (hs : WF s) (h : s.rest.head? = some 10 ∨ s.rest.head? = some 13) :
    ∃ t, nextToken cfg pol s = .ok (tokOf pol.newline s t, t) ∧
      (t.rest = s.rest.drop 1 ∨ (t.rest = s.rest.drop 2 ∧ s.rest.take 2 = [13, 10])) := by
  have h92 : s.rest.head? ≠ some (byte '\\') := by rcases h with h | h <;> (rw [h]; decide)
  have hc := nextC_plain (cfg := cfg) hs h92
  have hp := plain_nextSource (cfg := cfg) hs
  have hR := R_nextSource (cfg := cfg) hs
  refine ⟨(nextSource cfg s).2, ?_, ?_⟩
  · unfold nextToken
    rw [bind_ok (rfl : M.mark s = .ok (s, s)), bind_ok hc]
    have hd : dispatch cfg pol s ⟨(nextSource cfg s).1, .none⟩ = tok pol.newline s := by
      generalize (nextSource cfg s).2.rest = r' at hp
      generalize hr : s.rest = r at hp h
      generalize (nextSource cfg s).1 = p at hp
      cases hp with
      | eof => rcases h with h | h <;> cases h
      | ascii h1 h2 =>
        simp only [List.head?_cons, Option.some.injEq] at h
        rcases h with rfl | rfl <;> rfl
      | crlf => rfl
      | @high pre _ _ h1 h2 h3 =>
        exfalso
        cases pre with
        | nil => exact h1 rfl
        | cons b pre =>
          have := h2 b List.mem_cons_self
          simp only [List.cons_append, List.head?_cons, Option.some.injEq] at h
          rcases h with rfl | rfl <;> exact absurd this (by decide)
    rw [hd]
    unfold tok
    rw [span_new hs hR]
    rfl
  · generalize (nextSource cfg s).2.rest = r' at hp
    generalize hr : s.rest = r at hp h
    generalize (nextSource cfg s).1 = p at hp
    cases hp with
    | eof => rcases h with h | h <;> cases h
    | ascii h1 h2 => exact Or.inl rfl
    | crlf => exact Or.inr ⟨rfl, rfl⟩
    | @high pre _ _ h1 h2 h3 =>
      exfalso
      cases pre with
      | nil => exact h1 rfl
      | cons b pre =>
        have := h2 b List.mem_cons_self
        simp only [List.cons_append, List.head?_cons, Option.some.injEq] at h
        rcases h with rfl | rfl <;> exact absurd this (by decide)

/-! ### Comments -/

theorem Plain.head_ne {r r' p} (h : Plain r p r') {x : Char} (hx : x.toNat < 0x80) (hp : p ≠ ch x)
    (hx13 : x.toNat ≠ 13 := by decide) : r.head? ≠ some (byte x) := by
  have hbx : (byte x).toNat = x.toNat := by
    show (UInt8.ofNat x.toNat).toNat = _
    rw [UInt8.toNat_ofNat']; exact Nat.mod_eq_of_lt (by omega)
  cases h with
  | eof => simp
  | @ascii b _ h1 h2 =>
    intro h
    simp only [List.head?_cons, Option.some.injEq] at h
    subst h
    exact hp (by unfold ch; rw [hbx])
  | crlf =>
    intro h
    simp only [List.head?_cons, Option.some.injEq] at h
    rw [← h] at hbx
    exact hx13 (by rw [← hbx]; rfl)
  | @high pre r p h1 h2 h3 =>
    intro h
    cases pre with
    | nil => exact absurd rfl h1
    | cons b pre =>
      simp only [List.cons_append, List.head?_cons, Option.some.injEq] at h
      have := h2 b List.mem_cons_self
      rw [h, hbx] at this
      omega

theorem Plain.char {r r'} {x : Char} (h : Plain r (ch x) r') (hx : x.toNat < 0x80) : r = byte x :: r' := by
  generalize hp : ch x = p at h
  cases h with
  | eof => cases hp
  | @ascii b _ h1 h2 =>
    simp only [ch, CP.char.injEq] at hp
    congr 1
    have : (byte x).toNat = x.toNat := by
      show (UInt8.ofNat x.toNat).toNat = _
      rw [UInt8.toNat_ofNat']; exact Nat.mod_eq_of_lt (by omega)
    exact UInt8.toNat_inj.mp (by omega)
  | crlf => cases hp
  | high h1 h2 h3 =>
    subst hp
    rcases h3 with h3 | ⟨m, h3, hm⟩
    · simp [CP.isUnsafe, ch] at h3
    · simp only [ch, CP.char.injEq] at h3; omega

theorem commentEnd_skip {d : Nat} {a : UInt8} {r : List UInt8}
    (h1 : a = byte '(' → r.head? ≠ some (byte '*')) (h2 : a = byte '*' → r.head? ≠ some (byte ')')) :
    commentEnd d (a :: r) = commentEnd d r := by
  cases r with
  | nil => rfl
  | cons b r =>
    simp only [List.head?_cons, ne_eq, Option.some.injEq] at h1 h2
    rw [commentEnd]
    rw [if_neg (fun h => h1 h.1 h.2), if_neg (fun h => h2 h.1 h.2)]

theorem commentEnd_high {d : Nat} {pre r : List UInt8} (h : ∀ b ∈ pre, 0x80 ≤ b.toNat) :
    commentEnd d (pre ++ r) = commentEnd d r := by
  induction pre with
  | nil => rfl
  | cons a pre ih =>
    have ha := h a List.mem_cons_self
    rw [List.cons_append, commentEnd_skip, ih fun b hb => h b (List.mem_cons_of_mem _ hb)]
    · rintro rfl; exact absurd ha (by decide)
    · rintro rfl; exact absurd ha (by decide)

theorem Plain.comment_skip {d : Nat} {r r' p} (h : Plain r p r') (h1 : p ≠ ch '(') (h2 : p ≠ ch '*') :
    commentEnd d r = commentEnd d r' := by
  have g1 := h.head_ne (x := '(') (by decide) h1
  have g2 := h.head_ne (x := '*') (by decide) h2
  cases h with
  | eof => rfl
  | ascii _ _ =>
    refine commentEnd_skip (fun h => absurd (by rw [h]; rfl) g1) (fun h => absurd (by rw [h]; rfl) g2)
  | crlf =>
    rw [commentEnd_skip (fun h => absurd h (by decide)) (fun h => absurd h (by decide)), commentEnd_skip (fun h => absurd h (by decide)) (fun h => absurd h (by decide))]
  | high _ h2 _ => exact commentEnd_high h2

/-- What a comment token consists of. -/
def CommentIs (r : List UInt8) (k : Tok) (t : St) : Prop :=
  match commentEnd 1 r with
  | some r' => k.kind = .Comment ∧ t.rest = r'
  | none => k.kind = .Error_UnterminatedComment ∧ t.rest = []

theorem handleComment_text {r : List UInt8} (h0 : WF start) (hR : R cfg start s) (hr : s.rest = byte '*' :: r) :
    wp (fun _ => False) (handleComment cfg start (ch '*')) s
      (fun k t => R cfg start t ∧ k = tokOf k.kind start t ∧ CommentIs r k t) := by
  unfold handleComment
  refine wp_assert rfl (wp_bind (wp_src' hR.wf fun c0 t0 hc0 ht0 hR0 => ?_))
  have hp0 := plain_nextSource (cfg := cfg) hR.wf
  rw [← ht0, ns_byte (cfg := cfg) hR.wf hr (by decide) (fun h => absurd h (by decide))] at hp0
  have hr0 : t0.rest = r := by
    have := hp0.char (x := '*') (by decide)
    rw [hr] at this; simpa using this.symm
  have hRt0 := R.trans h0 hR hR0
  refine wp_bind (wp_src' hRt0.wf fun c1 t1 hc1 ht1 hR1 => ?_)
  have hp1 := plain_nextSource (cfg := cfg) hRt0.wf
  rw [← ht1, ← hc1, hr0] at hp1
  have hRt1 := R.trans h0 hRt0 hR1
  have peof : ∀ {r : List UInt8} {p r'}, Plain r p r' → r = [] → p = .eof ∧ r' = [] := by
    intro r p r' h hr
    cases h with
    | eof => exact ⟨rfl, rfl⟩
    | ascii => cases hr
    | crlf => cases hr
    | high h1 => simp at hr; exact absurd hr.1 h1
  refine wp_bind (wp_mono (Q := fun closed t => R cfg start t ∧
      match commentEnd 1 r with
      | some r' => closed = true ∧ t.rest = r'
      | none => closed = false ∧ t.rest = []) (E := fun _ => False) ?_ (fun _ h => h) ?_)
  · refine wp_loop (fun d t => R cfg start t ∧ 1 ≤ d.1 ∧ ∃ q, Plain q d.2 t.rest ∧ commentEnd 1 r = commentEnd d.1 q)
      (fun d t => if d.2 = .eof then 0 else t.rest.length + 1) ⟨hRt1, Nat.le_refl _, r, hp1, rfl⟩
      (by split <;> omega) ?_
    rintro ⟨d, c⟩ t ⟨hRt, hd, q, hq, he⟩
    simp only at hd hq he ⊢
    have meas : ∀ (c' : CP) (u : St), c ≠ .eof → (t.rest ≠ [] → u.rest.length < t.rest.length) →
        u.rest.length ≤ t.rest.length → (t.rest = [] → c' = .eof) →
        (if c' = CP.eof then 0 else u.rest.length + 1) < if c = CP.eof then 0 else t.rest.length + 1 := by
      intro c' u hc hu hu' he
      rw [if_neg hc]
      by_cases ht : t.rest = []
      · rw [he ht, if_pos rfl]; omega
      · have := hu ht; split <;> omega
    have step : ∀ {t : St} {f : CP → M (Nat × CP ⊕ Bool)} {Q}, R cfg start t →
        (∀ c1 u, R cfg start u → Plain t.rest c1 u.rest → u.rest.length ≤ t.rest.length →
          (t.rest ≠ [] → u.rest.length < t.rest.length) → wp (fun _ => False) (f c1) u Q) →
        wp (fun _ => False) (src cfg >>= f) t Q := by
      intro t f Q ht hf
      refine wp_bind (wp_src' ht.wf fun c1 u hc1 hu hRu => ?_)
      have hp := plain_nextSource (cfg := cfg) ht.wf
      rw [← hc1, ← hu] at hp
      exact hf c1 u (R.trans h0 ht hRu) hp (R.len ht.wf hRu) hp.len
    refine wp_ite (fun hc => ?_) (fun hc1 => wp_ite (fun hc => ?_) (fun hc2 => wp_ite (fun hc => ?_) (fun hc => ?_)))
    · subst hc
      have hqe := hq.char (by decide)
      have hne : ch '(' ≠ .eof := by decide
      refine step hRt fun c1 u hRu hpu hl hl' => wp_ite (fun hs => ?_) (fun hs => ?_)
      · subst hs
        refine step hRu fun c2 v hRv hpv hl2 hl2' => wp_pure ⟨⟨hRv, by omega, u.rest, hpv, ?_⟩, ?_⟩
        · rw [he, hqe, hpu.char (by decide), commentEnd, if_pos ⟨rfl, rfl⟩]
        · have : t.rest ≠ [] := fun h => absurd (peof hpu h).1 (by decide)
          exact meas c2 v hne (fun h => by have := hl' h; omega) (by omega) (fun h => absurd h this)
      · refine wp_pure ⟨⟨hRu, hd, t.rest, hpu, ?_⟩, meas c1 u hne hl' hl fun h => (peof hpu h).1⟩
        rw [he, hqe]
        exact commentEnd_skip (fun _ => hpu.head_ne (by decide) hs) (fun h => absurd h (by decide))
    · subst hc
      have hqe := hq.char (by decide)
      have hne : ch '*' ≠ .eof := by decide
      refine step hRt fun c1 u hRu hpu hl hl' => wp_ite (fun hs => wp_ite (fun h1 => ?_) (fun h1 => ?_)) (fun hs => ?_)
      · subst hs
        refine wp_pure ⟨hRu, ?_⟩
        have : d = 1 := by omega
        subst this
        rw [he, hqe, hpu.char (by decide), commentEnd, if_neg (by decide), if_pos ⟨rfl, rfl⟩, if_pos rfl]
        exact ⟨rfl, rfl⟩
      · subst hs
        refine step hRu fun c2 v hRv hpv hl2 hl2' => wp_pure ⟨⟨hRv, by simp only; omega, u.rest, hpv, ?_⟩, ?_⟩
        · rw [he, hqe, hpu.char (by decide), commentEnd, if_neg (by decide), if_pos ⟨rfl, rfl⟩, if_neg (by omega)]
        · have : t.rest ≠ [] := fun h => absurd (peof hpu h).1 (by decide)
          exact meas c2 v hne (fun h => by have := hl' h; omega) (by omega) (fun h => absurd h this)
      · refine wp_pure ⟨⟨hRu, hd, t.rest, hpu, ?_⟩, meas c1 u hne hl' hl fun h => (peof hpu h).1⟩
        rw [he, hqe]
        exact commentEnd_skip (fun h => absurd h (by decide)) (fun _ => hpu.head_ne (by decide) hs)
    · subst hc
      refine wp_pure ⟨hRt, ?_⟩
      generalize hp : CP.eof = p at hq
      generalize hx : t.rest = x at hq
      cases hq with
      | eof => rw [he]; exact ⟨rfl, rfl⟩
      | ascii => cases hp
      | crlf => cases hp
      | high h1 h2 h3 =>
        subst hp
        rcases h3 with h3 | ⟨_, h3, _⟩
        · simp [CP.isUnsafe] at h3
        · cases h3
    · refine step hRt fun c1 u hRu hpu hl hl' => wp_pure ⟨⟨hRu, hd, t.rest, hpu, ?_⟩, meas c1 u hc hl' hl fun h => (peof hpu h).1⟩
      rw [he]
      exact hq.comment_skip hc1 hc2
  · rintro closed t ⟨hRt, hm⟩
    refine wp_tok' h0 hRt ⟨hRt, rfl, ?_⟩
    unfold CommentIs
    cases hce : commentEnd 1 r with
    | none => rw [hce] at hm; rw [hm.1]; exact ⟨rfl, hm.2⟩
    | some r' => rw [hce] at hm; rw [hm.1]; exact ⟨rfl, hm.2⟩

theorem dispatch_openParen : dispatch cfg pol start ⟨.char 40, .none⟩ = handleOpenParen cfg start ⟨.char 40, .none⟩ := rfl

theorem nextToken_comment {r : List UInt8} (hs : WF s) (hr : s.rest = byte '(' :: byte '*' :: r) :
    wp (fun _ => False) (nextToken cfg pol) s
      (fun k t => R cfg s t ∧ k = tokOf k.kind s t ∧ CommentIs r k t) := by
  unfold nextToken
  refine wp_mark1 (wp_direct hs hr (by decide) (by decide) (fun h => absurd h (by decide)) fun t ht hR => ?_)
  show wp _ (dispatch cfg pol s ⟨.char 40, .none⟩) t _
  rw [dispatch_openParen]
  unfold handleOpenParen
  refine wp_assert rfl (wp_bind (wp_peekSrc' hR.wf fun c u hc hu h1 h2 hRu _ => ?_))
  have hcs : c = ch '*' := by rw [hc]; exact congrArg Prod.fst (ns_byte hR.wf ht (by decide) (fun h => absurd h (by decide)))
  refine wp_ite (fun _ => ?_) (fun h => absurd ⟨rfl, hcs⟩ h)
  rw [hcs]
  exact handleComment_text hs (R.trans hs hR hRu) (by rw [hu, ht])

/-! ### Strings -/

theorem stringEnd_skip {a : UInt8} {r : List UInt8} (h1 : a ≠ byte '"')
    (h2 : a = byte '\\' → r.head? ≠ some (byte '"') ∧ r.head? ≠ some (byte '\\')) :
    stringEnd (a :: r) = stringEnd r := by
  cases r with
  | nil => simp [stringEnd, h1]
  | cons b r =>
    simp only [List.head?_cons, ne_eq, Option.some.injEq] at h2
    rw [stringEnd, if_neg h1, if_neg]
    rintro ⟨h, hb⟩
    rcases hb with hb | hb
    · exact (h2 h).1 hb
    · exact (h2 h).2 hb

theorem stringEnd_skips {pre r : List UInt8} (h : ∀ b ∈ pre, b ≠ byte '"' ∧ b ≠ byte '\\') :
    stringEnd (pre ++ r) = stringEnd r := by
  induction pre with
  | nil => rfl
  | cons a pre ih =>
    have ha := h a List.mem_cons_self
    rw [List.cons_append, stringEnd_skip ha.1 (fun h => absurd h ha.2),
      ih fun b hb => h b (List.mem_cons_of_mem _ hb)]

theorem stringEnd_pair {b : UInt8} {r : List UInt8} (h : b = byte '"' ∨ b = byte '\\') :
    stringEnd (byte '\\' :: b :: r) = stringEnd r := by
  rw [stringEnd, if_neg (by decide), if_pos ⟨rfl, h⟩]

theorem digits_plain {digit : UInt8 → Option Nat} (hd : ∀ b, (digit b).isSome = true → b ≠ byte '"' ∧ b ≠ byte '\\')
    {base : Nat} {ds : List UInt8} {v : Nat} (h : Numeral digit base ds v) : ∀ b ∈ ds, b ≠ byte '"' ∧ b ≠ byte '\\' := by
  induction h with
  | nil => simp
  | snoc _ hb ih =>
    intro b h
    rcases List.mem_append.mp h with h | h
    · exact ih b h
    · simp only [List.mem_singleton] at h; subst h; exact hd _ (by rw [hb]; rfl)

theorem hexDigit_plain (b : UInt8) (h : (hexDigit b).isSome = true) : b ≠ byte '"' ∧ b ≠ byte '\\' := by
  constructor <;> (rintro rfl; revert h; decide)

theorem octDigit_plain (b : UInt8) (h : (octDigit b).isSome = true) : b ≠ byte '"' ∧ b ≠ byte '\\' := by
  constructor <;> (rintro rfl; revert h; decide)

theorem names_plain : ∀ e ∈ longNameTable, ∀ b ∈ bytes e.1, b ≠ byte '"' ∧ b ≠ byte '\\' := by
  have : (longNameTable.all fun e => (bytes e.1).all fun b => b != byte '"' && b != byte '\\') = true := by decide +kernel
  intro e he b hb
  have := List.all_eq_true.mp (List.all_eq_true.mp this e he) b hb
  simpa using this

theorem Spec.Escapes.string_skip {q p e r} (h : Escapes q p e r) : stringEnd (byte '\\' :: q) = stringEnd r := by
  have one : ∀ {b : UInt8} {r : List UInt8}, b ≠ byte '"' → b ≠ byte '\\' →
      stringEnd (byte '\\' :: b :: r) = stringEnd r := by
    intro b r h1 h2
    rw [stringEnd_skip (by decide) (fun _ => by simp [h1, h2]), stringEnd_skip h1 (fun h => absurd h h2)]
  cases h with
  | @single x p r hm =>
    by_cases h : byte x = byte '"' ∨ byte x = byte '\\'
    · exact stringEnd_pair h
    · exact one (fun h' => h (Or.inl h')) (fun h' => h (Or.inr h'))
  | lineFeed => exact one (by decide) (by decide)
  | carriageReturn _ => exact one (by decide) (by decide)
  | crlf =>
    rw [one (by decide) (by decide), stringEnd_skip (by decide) (fun h => absurd h (by decide))]
  | hex2 _ hn => rw [one (by decide) (by decide), stringEnd_skips (digits_plain hexDigit_plain hn)]
  | hex4 _ hn _ => rw [one (by decide) (by decide), stringEnd_skips (digits_plain hexDigit_plain hn)]
  | hex6 _ hn _ => rw [one (by decide) (by decide), stringEnd_skips (digits_plain hexDigit_plain hn)]
  | @octal ds v r hl hn =>
    have hp := digits_plain octDigit_plain hn
    cases ds with
    | nil => simp at hl
    | cons d ds =>
      have := hp d List.mem_cons_self
      rw [List.cons_append, one this.1 this.2, stringEnd_skips fun b hb => hp b (List.mem_cons_of_mem _ hb)]
  | raw hm _ => rw [one (by decide) (by decide), stringEnd_skips (names_plain _ hm), stringEnd_skip (by decide) (fun h => absurd h (by decide))]
  | longName hm _ => rw [one (by decide) (by decide), stringEnd_skips (names_plain _ hm), stringEnd_skip (by decide) (fun h => absurd h (by decide))]

theorem WLB.string_skip {r c r'} (h : WLB r c r') (hc : c.point ≠ ch '"') : stringEnd r = stringEnd r' := by
  rcases h with ⟨q, rfl, h | ⟨rfl, rfl, hno, _⟩⟩ | ⟨hh, h, _⟩
  · exact h.string_skip
  · refine stringEnd_skip (by decide) fun _ => ⟨fun h => ?_, fun h => ?_⟩
    · cases r' with
      | nil => cases h
      | cons b r =>
        simp only [List.head?_cons, Option.some.injEq] at h
        subst h
        exact hno _ _ _ (.single (c := '"') (p := .metaDoubleQuote) (by decide))
    · cases r' with
      | nil => cases h
      | cons b r =>
        simp only [List.head?_cons, Option.some.injEq] at h
        subst h
        exact hno _ _ _ (.single (c := '\\') (p := .metaBackslash) (by decide))
  · have g := h.head_ne (x := '"') (by decide) hc
    generalize c.point = p at h
    cases h with
    | eof => rfl
    | ascii _ _ =>
      refine stringEnd_skip (fun h => absurd (by rw [h]; rfl) g) (fun h => absurd (by rw [h]; rfl) hh)
    | crlf => rw [stringEnd_skip (by decide) (fun h => absurd h (by decide)), stringEnd_skip (by decide) (fun h => absurd h (by decide))]
    | high _ h2 _ =>
      refine stringEnd_skips fun b hb => ?_
      have := h2 b hb
      constructor <;> (rintro rfl; exact absurd this (by decide))

theorem lc_ne_quote {p : CP} (h : p.isLineContinuation = true) : p ≠ ch '"' := by
  rintro rfl; cases h

theorem white_ne_quote {p : CP} (h : p.isWhitespace = true) : p ≠ ch '"' := by
  rintro rfl; cases h

theorem Whites.string_skip {r r'} (h : Whites r r') : stringEnd r = stringEnd r' := by
  induction h with
  | nil => rfl
  | cons h hc _ ih => rw [h.string_skip (white_ne_quote hc), ih]

theorem WLB.quote {r c r'} (h : WLB r c r') (hc : c.point = ch '"') : r = byte '"' :: r' := by
  rcases h with ⟨q, rfl, h | ⟨rfl, rfl, _, _⟩⟩ | ⟨hh, h, _⟩
  · exfalso
    rw [hc] at h
    generalize hp : ch '"' = p at h
    generalize c.escape = e at h
    have canon_ne : ∀ v, ch '"' ≠ canon v := by
      intro v; unfold canon ch; split
      · simp
      · split
        · simp
        · simp only [ne_eq, CP.char.injEq]; intro h; exact absurd h.symm (by assumption)
    have tab : ∀ e ∈ longNameTable, e.2 ≠ ch '"' := by
      have : (longNameTable.all fun e => e.2 != ch '"') = true := by decide +kernel
      intro e he
      simpa using List.all_eq_true.mp this e he
    cases h with
    | single hm =>
      subst hp
      have : ∀ e ∈ singleEscapes, e.2 ≠ ch '"' := by decide
      exact this _ hm rfl
    | lineFeed => cases hp
    | carriageReturn _ => cases hp
    | crlf => cases hp
    | hex2 _ _ => exact canon_ne _ hp
    | hex4 _ _ _ => exact canon_ne _ hp
    | hex6 _ _ _ => exact canon_ne _ hp
    | octal _ _ => exact canon_ne _ hp
    | raw hm _ => subst hp; exact tab _ hm rfl
    | longName hm _ => subst hp; exact tab _ hm rfl
  · simp [backslash, ch] at hc
  · rw [hc] at h; exact h.char (by decide)

/-- Reading one character of a string. -/
theorem NextB.string_step {r c r'} (h : NextB r c r') :
    stringEnd r = if c.point = ch '"' then some r' else if c.point = .eof then none else stringEnd r' := by
  induction h with
  | here h hl =>
    rename_i c r'
    by_cases hc : c.point = ch '"'
    · rw [if_pos hc, h.quote hc]
      cases r' <;> simp [stringEnd]
    · rw [if_neg hc, h.string_skip hc]
      split
      · next he => rw [(NextB.here h hl).eof_rest he]; rfl
      · rfl
  | cont h hl hw _ ih => rw [h.string_skip (lc_ne_quote hl), hw.string_skip, ih]

/-- What a string token consists of. -/
def StringIs (r : List UInt8) (k : Tok) (t : St) : Prop :=
  match stringEnd r with
  | some r' => k.kind = .String ∧ t.rest = r'
  | none => k.kind = .Error_UnterminatedString ∧ t.rest = []

theorem handleString_text (h0 : WF start) (hR : R cfg start s) {c : WLC} (hc : c.point = ch '"') :
    wp (EE start.rest) (handleString cfg start c) s
      (fun k t => R cfg start t ∧ k = tokOf k.kind start t ∧ StringIs s.rest k t) := by
  unfold handleString
  refine wp_assert (by rw [hc]; rfl) ?_
  refine wp_bind (wp_mono (Q := fun closed t => R cfg start t ∧
      match stringEnd s.rest with
      | some r' => closed = true ∧ t.rest = r'
      | none => closed = false ∧ t.rest = []) (E := EE start.rest) ?_ (fun _ h => h) ?_)
  · refine wp_loop (fun _ t => R cfg start t ∧ stringEnd s.rest = stringEnd t.rest) (fun _ t => t.rest.length)
      ⟨hR, rfl⟩ (by omega) ?_
    rintro _ t ⟨hRt, he⟩
    refine wp_call (nextC_wp hRt.wf) (fun _ h => h.of_R h0 hRt) ?_
    rintro c u ⟨hRu, hb⟩
    have hRu' := R.trans h0 hRt hRu
    have hst := hb.string_step
    refine wp_ite (fun hq => wp_pure ⟨hRu', ?_⟩) (fun hq => wp_ite (fun he' => wp_pure ⟨hRu', ?_⟩) (fun hne => wp_pure ⟨⟨hRu', ?_⟩, ?_⟩))
    · rw [he, hst, if_pos hq]; exact ⟨rfl, rfl⟩
    · rw [he, hst, if_neg hq, if_pos he']; exact ⟨rfl, hb.eof_rest he'⟩
    · rw [he, hst, if_neg hq, if_neg hne]
    · exact hb.len (hb.ne_nil hne)
  · rintro closed t ⟨hRt, hm⟩
    refine wp_tok' h0 hRt ⟨hRt, rfl, ?_⟩
    unfold StringIs
    cases hce : stringEnd s.rest with
    | none => rw [hce] at hm; rw [hm.1]; exact ⟨rfl, hm.2⟩
    | some r' => rw [hce] at hm; rw [hm.1]; exact ⟨rfl, hm.2⟩

theorem nextToken_string {r : List UInt8} (hs : WF s) (hr : s.rest = byte '"' :: r) :
    wp (EE s.rest) (nextToken cfg pol) s
      (fun k t => R cfg s t ∧ k = tokOf k.kind s t ∧ StringIs r k t) := by
  unfold nextToken
  refine wp_mark1 (wp_direct hs hr (by decide) (by decide) (fun h => absurd h (by decide)) fun t ht hR => ?_)
  show wp _ (dispatch cfg pol s ⟨.char 34, .none⟩) t _
  have : dispatch cfg pol s ⟨.char 34, .none⟩ = handleString cfg s ⟨.char 34, .none⟩ := rfl
  rw [this, ← ht]
  exact handleString_text hs hR rfl

end
end CodeParser
