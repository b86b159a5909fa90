import Verif.Proofs.TokenSim
import Verif.Spec.Token
/-!
Peeking and skipping tokens; the token loop (helper lemmas).
-/
namespace CodeParser
open Spec

section
variable {cfg : Cfg} {pol : Pol} {s t u : St} {k : Tok}

/-- The state after skipping a token. -/
def Tok.skipSt (k : Tok) (s : St) : St :=
  { s with rest := k.after, loc := k.stop, eof := k.kind == .EndOfFile }

theorem wp_skip {β} {E : Err → Prop} {f : Unit → M β} {Q : β → St → Prop}
    (h : wp E (f ()) (k.skipSt s) Q) : wp E (k.skip >>= f) s Q := wp_bind h

/-- What peeking at a token tells: `t` is the state after it. -/
structure Peeked (cfg : Cfg) (s : St) (k : Tok) (t : St) : Prop where
  reach : R cfg s t
  same : SameAt s t
  split : k.text ++ k.after = s.rest
  start : k.start = s.loc
  skip : R cfg s (k.skipSt t)

theorem tokOf_split (hs : WF s) {K : TK} (h : R cfg s u) :
    (tokOf K s u).text ++ (tokOf K s u).after = s.rest := by
  obtain ⟨pre, hp⟩ := h.suffix hs
  show between s u ++ u.rest = s.rest
  unfold between
  rw [hp]; simp

theorem Peeked.of_tokOf (hs : WF s) {K : TK} (h : R cfg s u) (he : K = .EndOfFile → u.rest = []) :
    Peeked cfg s (tokOf K s u) (u.seek s) := by
  refine ⟨R.seek hs (R.refl hs) h, ⟨rfl, rfl, rfl⟩, tokOf_split hs h, rfl, ?_⟩
  obtain ⟨cs, hp, hu⟩ := h.path
  refine ⟨?_, ⟨cs, hp.congr_right rfl rfl, hu⟩, h.keep, h.blame⟩
  show (K == .EndOfFile) = true → u.rest = []
  intro h; exact he (by simpa using h)

/-- The policy after looking at the group stack. -/
def Pol.inside (pol : Pol) (insideGroup : Bool) : Pol :=
  { pol with toplevel := pol.toplevel && !insideGroup }

/-- What peeking at a token under a policy gives. -/
structure PeekPost (cfg : Cfg) (pol : Pol) (s : St) (k : Tok) (t : St) : Prop extends Peeked cfg s k t where
  kind : k.kind = .EndOfFile ∨ KOK pol k.kind = true
  more : k.kind ≠ .EndOfFile → k.text ≠ []
  eof : k.kind = .EndOfFile → k.after = [] ∧ ∃ c, c.point = .eof ∧ NextB s.rest c []

theorem KOK_not_eof : KOK pol .EndOfFile = false := by
  unfold KOK; rfl

theorem TokPost.peeked (hs : WF s) (h : TokPost cfg pol s k u) : PeekPost cfg pol s k (u.seek s) := by
  cases h with
  | token h hl =>
    have hne : k.kind ≠ .EndOfFile := by
      intro h'; have := h.kind; rw [h', KOK_not_eof] at this; cases this
    have hp : Peeked cfg s k (u.seek s) := by
      rw [h.shape]; exact Peeked.of_tokOf hs h.reach (fun h' => absurd h' hne)
    refine ⟨hp, Or.inr h.kind, fun _ ht => ?_, fun h' => absurd h' hne⟩
    have := hp.split
    rw [ht, h.shape] at this
    have : u.rest = s.rest := this
    rw [this] at hl; omega
  | eof hR hk hr hc hb =>
    subst hk
    refine ⟨Peeked.of_tokOf hs hR (fun _ => hr), Or.inl rfl, fun h => absurd rfl h, fun _ => ⟨hr, _, hc, ?_⟩⟩
    rw [← hr]; exact hb

theorem peekTokenWith_wp {g : Bool} (hs : WF s) :
    wp (EE s.rest) (peekTokenWith cfg pol g) s (PeekPost cfg (pol.inside g) s) := by
  unfold peekTokenWith
  refine wp_mark1 (wp_call (nextToken_wp hs) (fun _ h => h) ?_)
  intro k t h
  exact wp_bind (wp_seek (wp_pure (h.peeked hs)))

theorem Peeked.len (h : Peeked cfg s k t) : k.text.length + k.after.length = s.rest.length := by
  rw [← h.split]; simp

/-- The tokens `ks` lie one behind the other, from the bytes `r` at location `l` to the
bytes `r'` at location `l'`. -/
inductive Laid (cfg : Cfg) : List UInt8 → Loc → List Tok → List UInt8 → Loc → Prop
  | nil {r l} : Laid cfg r l [] r l
  | cons {k : Tok} {ks r' l'} : k.text ≠ [] → Moves cfg k.text k.after k.start k.stop →
      Laid cfg k.after k.stop ks r' l' → Laid cfg (k.text ++ k.after) k.start (k :: ks) r' l'

theorem Laid.snoc {r l ks} {k : Tok} (h : Laid cfg r l ks (k.text ++ k.after) k.start)
    (h1 : k.text ≠ []) (h2 : Moves cfg k.text k.after k.start k.stop) :
    Laid cfg r l (ks ++ [k]) k.after k.stop := by
  generalize hr : k.text ++ k.after = r' at h
  generalize hl : k.start = l' at h
  induction h with
  | nil => subst hr; subst hl; exact .cons h1 h2 .nil
  | cons a b _ ih => exact .cons a b (ih hr hl)

theorem Path.moves {cs : List CP} (h : Path cfg s cs u) : ∀ {s' : St}, WF s → WF s' →
    s'.rest = s.rest → s'.loc = s.loc →
    let r := readN cfg cs.length s'
    (r.1.map Prod.snd).flatten ++ u.rest = s.rest ∧ (∀ p ∈ r.1, p.1 ≠ .eof) ∧
    r.2.rest = u.rest ∧ r.2.loc = u.loc ∧ r.1.map Prod.fst = cs := by
  induction h with
  | nil h1 h2 => intro s' _ _ hr hl; simp [readN, hr, hl, h1, h2]
  | @cons s u cs hne hp ih =>
    intro s' hs hs' hr hl
    obtain ⟨g1, g2, g3⟩ := nextSource_WF_congr (cfg := cfg) hs' hs hr hl
    obtain ⟨i1, i2, i3, i4, i5⟩ := ih (WF_nextSource hs) (WF_nextSource hs') g2 g3
    obtain ⟨pre, hpre, _⟩ := nextSource_rest (cfg := cfg) hs'
    simp only [List.length_cons, readN, List.map_cons, List.flatten_cons]
    refine ⟨?_, ?_, i3, i4, by rw [i5, g1]⟩
    · rw [List.append_assoc, i1, ← g2, ← hr]
      conv => rhs; rw [hpre]
      congr 1
      conv => lhs; rw [hpre]
      simp
    · intro p hp
      rcases List.mem_cons.mp hp with rfl | hp
      · rw [g1]; exact fun h => hne ((ns_eof hs).mp h)
      · exact i2 p hp

theorem Peeked.moves (hs : WF s) (h : Peeked cfg s k t) : Moves cfg k.text k.after k.start k.stop := by
  obtain ⟨cs, hp, _⟩ := h.skip.path
  have := hp.moves (s' := ⟨k.text ++ k.after, k.start, false, none⟩) hs (by intro h; cases h) h.split h.start
  refine ⟨cs.length, ?_, this.2.1, this.2.2.1, this.2.2.2.1⟩
  have h1 := this.1
  rw [← h.split] at h1
  exact List.append_cancel_right h1

/-- What the token loop gives. -/
structure LoopPost (cfg : Cfg) (s : St) (ks : List Tok) (t : St) : Prop where
  reach : R cfg s t
  laid : Laid cfg s.rest s.loc ks t.rest t.loc
  kinds : ∀ k ∈ ks, KOK Pol.top k.kind = true
  tail : ∃ c, c.point = .eof ∧ NextB t.rest c []
  done : ∃ v, R cfg s v ∧ v.rest = [] ∧ v.flag = t.flag

theorem tokenLoop_wp (hs : WF s) : wp (EE s.rest) (tokenLoop cfg) s (LoopPost cfg s) := by
  unfold tokenLoop
  refine wp_loop (fun ks t => R cfg s t ∧ Laid cfg s.rest s.loc ks.reverse t.rest t.loc ∧
      ∀ k ∈ ks, KOK Pol.top k.kind = true) (fun _ t => t.rest.length)
    ⟨R.refl hs, .nil, by simp⟩ (by omega) ?_
  rintro ks t ⟨hR, hL, hK⟩
  refine wp_call (peekTokenWith_wp hR.wf) (fun _ h => h.of_R hs hR) ?_
  intro k u hp
  refine wp_ite (fun he => ?_) (fun hne => ?_)
  · refine wp_pure ⟨R.trans hs hR hp.reach, ?_, by simpa using hK, ?_,
      _, R.trans hs hR hp.skip, (hp.eof he).1, rfl⟩
    · rw [← hp.same.rest, ← hp.same.loc]; exact hL
    · rw [← hp.same.rest]; exact (hp.eof he).2
  · refine wp_skip (wp_pure ⟨⟨R.trans hs hR hp.skip, ?_, ?_⟩, ?_⟩)
    · rw [List.reverse_cons]
      rw [← hp.split, ← hp.start] at hL
      exact hL.snoc (hp.more hne) (hp.moves hR.wf)
    · intro k' hk'
      rcases List.mem_cons.mp hk' with rfl | hk'
      · rcases hp.kind with h | h
        · exact absurd h hne
        · exact h
      · exact hK k' hk'
    · show k.after.length < t.rest.length
      have := hp.len
      have := List.length_pos_iff.mpr (hp.more hne)
      omega

theorem handleFirstLine_wp {f : FirstLine} (hs : WF s) :
    wp (EE s.rest) (handleFirstLine cfg f) s (fun _ t => R cfg s t) := by
  have body : wp (EE s.rest) (handleFirstLine cfg .check) s (fun _ t => R cfg s t) := by
    unfold handleFirstLine
    refine wp_call (peekTokenWith_wp hs) (fun _ h => h) fun k u hp => ?_
    refine wp_ite (fun _ => wp_pure hp.reach) (fun _ => wp_skip ?_)
    refine wp_call (peekTokenWith_wp hp.skip.wf) (fun _ h => h.of_R hs hp.skip) fun k2 u2 hp2 => ?_
    have r2 := R.trans hs hp.skip hp2.reach
    refine wp_ite (fun _ => wp_pure r2) (fun _ => wp_skip ?_)
    have r3 := R.trans hs hp.skip hp2.skip
    refine wp_loop (fun _ t => R cfg s t) (fun _ t => t.rest.length) r3 (by omega) ?_
    rintro _ t hR
    refine wp_call (peekTokenWith_wp hR.wf) (fun _ h => h.of_R hs hR) fun k3 u3 hp3 => ?_
    refine wp_ite (fun _ => wp_pure (R.trans hs hR hp3.reach)) (fun hne => ?_)
    refine wp_ite (fun _ => wp_skip (wp_pure (R.trans hs hR hp3.skip))) (fun _ => ?_)
    refine wp_skip (wp_pure ⟨R.trans hs hR hp3.skip, ?_⟩)
    show k3.after.length < t.rest.length
    have := hp3.len
    have := List.length_pos_iff.mpr (hp3.more hne)
    omega
  cases f with
  | notScript => exact wp_pure (R.refl hs)
  | check => exact body
  | script => exact body

/-- What tokenizing gives. -/
theorem tokens_wp (conv : Conv) (first : FirstLine) (bs : List UInt8) :
    match tokens cfg conv first bs with
    | .error e => EE bs e
    | .ok (ks, t) => ∃ s, R cfg (St.init conv bs) s ∧ LoopPost cfg s ks t := by
  have h := WF_init conv bs
  have := wp_call (E' := EE bs) (handleFirstLine_wp (cfg := cfg) (f := first) h) (fun _ h => h)
    (Q' := fun ks t => ∃ s, R cfg (St.init conv bs) s ∧ LoopPost cfg s ks t) (f := fun _ => tokenLoop cfg)
    fun _ s hR => wp_mono (tokenLoop_wp hR.wf) (fun _ he => he.of_R h hR) fun ks t hL => ⟨s, hR, hL⟩
  unfold wp at this
  unfold tokens
  revert this
  generalize (handleFirstLine cfg first >>= fun _ => tokenLoop cfg : M (List Tok)) (St.init conv bs) = r
  intro this
  cases r with
  | error e => exact this
  | ok p => exact this

theorem tokens_notScript (conv : Conv) (bs : List UInt8) :
    match tokens cfg conv .notScript bs with
    | .error e => EE bs e
    | .ok (ks, t) => LoopPost cfg (St.init conv bs) ks t := by
  have := tokenLoop_wp (cfg := cfg) (WF_init conv bs)
  have he : tokens cfg conv .notScript bs = tokenLoop cfg (St.init conv bs) := rfl
  rw [he]
  unfold wp at this
  revert this
  cases tokenLoop cfg (St.init conv bs) <;> exact id

theorem Laid.text {r l ks r' l'} (h : Laid cfg r l ks r' l') : ks.flatMap Tok.text ++ r' = r := by
  induction h with
  | nil => rfl
  | cons _ _ _ ih => simp [ih]

theorem Laid.start {cfg r l ks r' l'} (h : Laid cfg r l ks r' l') :
    (∀ k, ks.head? = some k → k.start = l) := by
  cases h with
  | nil => simp
  | cons => rintro k ⟨⟩; rfl

theorem Laid.adjacent {cfg r l ks r' l'} (h : Laid cfg r l ks r' l') :
    ∀ i (hi : i + 1 < ks.length), ks[i + 1].start = ks[i].stop := by
  induction h with
  | nil => simp
  | @cons k ks _ _ _ _ hl ih =>
    intro i hi
    cases i with
    | zero =>
      obtain ⟨k', ks', rfl⟩ : ∃ k' ks', ks = k' :: ks' := by
        cases ks with
        | nil => simp at hi
        | cons k' ks' => exact ⟨_, _, rfl⟩
      exact hl.start k' rfl
    | succ i => exact ih i (by simpa using hi)

theorem Laid.moves {cfg r l ks r' l'} (h : Laid cfg r l ks r' l') :
    ∀ k ∈ ks, Moves cfg k.text k.after k.start k.stop := by
  induction h with
  | nil => simp
  | cons _ hm _ ih =>
    intro k hk
    rcases List.mem_cons.mp hk with rfl | hk
    · exact hm
    · exact ih k hk

theorem Laid.after {cfg r l ks r' l'} (h : Laid cfg r l ks r' l') :
    ∀ i (hi : i < ks.length), ks[i].after = (ks.drop (i + 1)).flatMap Tok.text ++ r' := by
  induction h with
  | nil => simp
  | @cons k ks _ _ _ _ hl ih =>
    intro i hi
    cases i with
    | zero => simpa using hl.text.symm
    | succ i => simpa using ih i (by simpa using hi)

theorem Laid.nonempty {cfg r l ks r' l'} (h : Laid cfg r l ks r' l') : ∀ k ∈ ks, k.text ≠ [] := by
  induction h with
  | nil => simp
  | cons h _ _ ih =>
    intro k hk
    rcases List.mem_cons.mp hk with rfl | hk
    · exact h
    · exact ih k hk

theorem isBlank_iff {p : CP} : p.isWhitespace = true ↔ isBlank p := by
  cases p <;> simp [CP.isWhitespace, isBlank, or_assoc]

theorem Plain.blank {r r' p} (h : Plain r p r') (hp : isBlank p) : ∃ b : UInt8, r = b :: r' ∧ isBlank (.char b.toNat) := by
  cases h with
  | eof => exact hp.elim
  | @ascii b _ h1 h2 => exact ⟨b, rfl, hp⟩
  | crlf => exact hp.elim
  | high h1 h2 h3 =>
    rcases h3 with h3 | ⟨n, rfl, hn⟩
    · cases p <;> simp_all [CP.isUnsafe, isBlank]
    · simp only [isBlank] at hp; omega

theorem Whites.blanksTo {r r'} (h : Whites r r') : BlanksTo r r' := by
  induction h with
  | nil => exact .nil
  | cons h hc _ ih =>
    have hc := isBlank_iff.mp hc
    rcases h with ⟨q, rfl, h | ⟨rfl, _⟩⟩ | ⟨_, h, _⟩
    · exact .escaped h hc ih
    · simp [backslash, isBlank] at hc
    · obtain ⟨b, rfl, hb⟩ := h.blank hc
      exact .direct hb ih

theorem NextB.continues {r c r'} (h : NextB r c r') (hc : c.point = .eof) : Continues r [] := by
  induction h with
  | here h hl =>
    have := (NextB.here h hl).eof_rest hc
    subst this
    rcases h with ⟨q, rfl, h | ⟨rfl, _⟩⟩ | ⟨_, h, _⟩
    · exfalso
      have hne : ∀ q p e r, Escapes q p e r → p ≠ .eof := escapes_ne_eof
      exact hne _ _ _ _ h hc
    · cases hc
    · rw [hc] at h
      generalize hp : CP.eof = p at h
      generalize hr : ([] : List UInt8) = r' at h
      cases h with
      | eof => exact .nil
      | ascii => cases hp
      | crlf => cases hp
      | high _ _ h3 =>
        subst hp
        rcases h3 with h3 | ⟨_, h3, _⟩
        · simp [CP.isUnsafe] at h3
        · cases h3
  | cont h hl hw _ ih =>
    rcases h with ⟨q, rfl, h | ⟨rfl, _⟩⟩ | ⟨_, h, _⟩
    · have key := escapes_cont h hl
      obtain ⟨q', hq', rfl⟩ := key
      exact .cons hq' hw.blanksTo (ih hc)
    · cases hl
    · rw [h.not_lc] at hl; cases hl
where
  canon_ne (v : Nat) : canon v ≠ .eof ∧ (canon v).isLineContinuation = false := by
    unfold canon; split <;> [skip; split] <;> simp [CP.isLineContinuation]
  table_ok : ∀ e ∈ longNameTable, e.2 ≠ .eof ∧ e.2.isLineContinuation = false := by
    have : (longNameTable.all fun e => e.2 != .eof && !e.2.isLineContinuation) = true := by decide +kernel
    intro e he
    simpa using List.all_eq_true.mp this e he
  single_ok : ∀ e ∈ singleEscapes, e.2 ≠ .eof ∧ e.2.isLineContinuation = false := by decide
  escapes_ne_eof (q p e r) (h : Escapes q p e r) : p ≠ .eof := by
    cases h with
    | single hm => exact (single_ok _ hm).1
    | lineFeed => simp
    | carriageReturn _ => simp
    | crlf => simp
    | hex2 _ _ => exact (canon_ne _).1
    | hex4 _ _ _ => exact (canon_ne _).1
    | hex6 _ _ _ => exact (canon_ne _).1
    | octal _ _ => exact (canon_ne _).1
    | raw hm _ => exact (table_ok _ hm).1
    | longName hm _ => exact (table_ok _ hm).1
  escapes_cont {q p e r} (h : Escapes q p e r) (hl : p.isLineContinuation = true) :
      ∃ q' ∈ [[10], [13], [13, 10]], q = q' ++ r := by
    cases h with
    | single hm => rw [(single_ok _ hm).2] at hl; cases hl
    | lineFeed => exact ⟨[10], by simp, rfl⟩
    | carriageReturn _ => exact ⟨[13], by simp, rfl⟩
    | crlf => exact ⟨[13, 10], by simp, rfl⟩
    | hex2 _ _ => rw [(canon_ne _).2] at hl; cases hl
    | hex4 _ _ _ => rw [(canon_ne _).2] at hl; cases hl
    | hex6 _ _ _ => rw [(canon_ne _).2] at hl; cases hl
    | octal _ _ => rw [(canon_ne _).2] at hl; cases hl
    | raw hm _ => rw [(table_ok _ hm).2] at hl; cases hl
    | longName hm _ => rw [(table_ok _ hm).2] at hl; cases hl

/-! ### The encoding flag over a whole input -/

theorem nextSource_unsafe_flag (hs : WF s) :
    ((nextSource cfg s).1.isUnsafe = true → (nextSource cfg s).2.flag ≠ none) ∧
    ((nextSource cfg s).1.isUnsafe = false → (nextSource cfg s).2.flag = s.flag) := by
  by_cases hne : s.rest = []
  · rw [nextSource_nil hne]; simp [CP.isUnsafe]
  · have := nextSource_Dec (cfg := cfg) hs hne
    generalize nextSource cfg s = p at this
    cases this with
    | valid c rest h1 h2 h3 => simp [CP.isUnsafe]
    | crlf rest h1 => simp [CP.isUnsafe]
    | invalid c pre rest e u h1 h2 hl h3 h4 => simp [h1]

theorem Path.unsafe_readAll {cs : List CP} (h : Path cfg s cs u) (hs : WF s) : ∀ {n},
    s.rest.length ≤ n → (∃ c ∈ cs, c.isUnsafe = true) → (readAll cfg (n + 1) s).2.flag ≠ none := by
  induction h with
  | nil => rintro n _ ⟨c, hc, _⟩; simp at hc
  | @cons s u cs hne hp ih =>
    rintro n hn ⟨c, hc, hu⟩
    have hlt := ns_len (cfg := cfg) hs hne
    obtain ⟨n, rfl⟩ : ∃ m, n = m + 1 := ⟨n - 1, by omega⟩
    have he : (nextSource cfg s).1 ≠ .eof := fun h => hne ((ns_eof hs).mp h)
    unfold readAll
    simp only [he, if_false]
    rcases List.mem_cons.mp hc with hc | hc
    · exact Props.readAll_flag_some cfg _ _ (WF_nextSource hs)
        ((nextSource_unsafe_flag hs).1 (by rw [← hc]; exact hu))
    · exact ih (WF_nextSource hs) (by omega) ⟨c, hc, hu⟩

theorem Path.readAll_unsafe {cs : List CP} (h : Path cfg s cs u) (hs : WF s) : ∀ {n},
    s.rest.length ≤ n → u.rest = [] → s.flag = none → (readAll cfg (n + 1) s).2.flag ≠ none →
    ∃ c ∈ cs, c.isUnsafe = true := by
  induction h with
  | nil h1 h2 =>
    intro n hn hr hf h
    rw [hr] at h1
    unfold readAll at h
    simp [nextSource_nil h1.symm, hf] at h
  | @cons s u cs hne hp ih =>
    intro n hn hr hf h
    have hlt := ns_len (cfg := cfg) hs hne
    obtain ⟨n, rfl⟩ : ∃ m, n = m + 1 := ⟨n - 1, by omega⟩
    have he : (nextSource cfg s).1 ≠ .eof := fun h => hne ((ns_eof hs).mp h)
    unfold readAll at h
    simp only [he, if_false] at h
    by_cases hu : (nextSource cfg s).1.isUnsafe = true
    · exact ⟨_, List.mem_cons_self, hu⟩
    · obtain ⟨c, hc, hcu⟩ := ih (WF_nextSource hs) (by omega) hr
        (by rw [(nextSource_unsafe_flag hs).2 (by simpa using hu)]; exact hf) h
      exact ⟨c, List.mem_cons_of_mem _ hc, hcu⟩

/-- Reading everything sets the encoding flag if and only if the input is not UTF-8 or
has a byte order mark, whatever was read twice or looked ahead at. -/
theorem R.flag_iff {conv : Conv} {bs : List UInt8} (h : R cfg (St.init conv bs) u) (hr : u.rest = []) :
    u.flag ≠ none ↔ (¬ ValidUTF8 bs ∨ ∃ cs, bs = encode cs ∧ BOM ∈ cs) := by
  rw [← Props.C02_error_iff cfg conv bs]
  have hwf := WF_init conv bs
  have hn : (St.init conv bs).rest.length ≤ bs.length := Nat.le_refl _
  obtain ⟨cs, hp, hu⟩ := h.path
  constructor
  · intro hf
    rcases h.blame hf with h | ⟨ds, c, v, hb, hc⟩
    · exact absurd rfl h
    · exact hb.unsafe_readAll hwf hn ⟨c, by simp, hc⟩
  · intro hf
    exact hu (hp.readAll_unsafe hwf hn hr rfl hf)

end
end CodeParser
