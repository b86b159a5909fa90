import Verif.Proofs.Recover5
/-!
What parsing gives, after recovery (helper lemmas).
-/
namespace CodeParser
open Spec Props Cst

/-! ### Leaves of subtrees -/

theorem leavesL_infix {c : Cst} : ∀ {cs : List Cst}, c ∈ cs → leaves c <:+: leavesL cs
  | [], h => by cases h
  | d :: cs, h => by
    rcases List.mem_cons.mp h with rfl | h
    · exact ⟨[], leavesL cs, by simp [leavesL]⟩
    · obtain ⟨a, b, hab⟩ := leavesL_infix h
      exact ⟨leaves d ++ a, b, by simp [leavesL, ← hab]⟩

theorem infix_append_left {a b c : List Tok} (h : a <:+: b) : a <:+: b ++ c :=
  h.trans ⟨[], c, by simp⟩

theorem infix_append_right {a b c : List Tok} (h : a <:+: c) : a <:+: b ++ c :=
  h.trans ⟨b, [], by simp⟩

theorem sub_infix {n c : Cst} (h : Sub n c) : leaves n <:+: leaves c := by
  induction h with
  | refl => exact List.infix_refl _
  | node hc _ ih => exact ih.trans (leavesL_infix hc)
  | head hc _ ih => exact infix_append_left (ih.trans (leavesL_infix hc))
  | body hc _ ih => exact infix_append_right (ih.trans (leavesL_infix hc))

theorem in_infix {n : Cst} {cs : List Cst} (h : In n cs) : leaves n <:+: leavesL cs := by
  obtain ⟨c, hc, hs⟩ := h
  exact (sub_infix hs).trans (leavesL_infix hc)

/-- The tokens of a parse result are subtrees of it. -/
theorem leaf_in {ρ : GroupOp → List Cst → Prop} {c : Cst} (h : TreeOK ρ c) : ∀ t ∈ leaves c, Sub (.tok t) c := by
  induction h with
  | tok h => intro t ht; rw [List.mem_singleton.mp ht]; exact .refl
  | node _ _ ih =>
    intro t ht
    obtain ⟨c, h1, h2⟩ := leavesL_mem ht
    exact .node h1 (ih c h1 t h2)
  | call _ _ _ ih1 ih2 =>
    intro t ht
    rcases List.mem_append.mp ht with ht | ht
    · obtain ⟨c, h1, h2⟩ := leavesL_mem ht
      exact .head h1 (ih1 c h1 t h2)
    · obtain ⟨c, h1, h2⟩ := leavesL_mem ht
      exact .body h1 (ih2 c h1 t h2)

theorem TreeOK.hullMap {ρ : GroupOp → List Cst → Prop} (hρ : ∀ op cs, ρ op cs → cs ≠ []) {f : Tok → Tok} {c : Cst}
    (h : TreeOK ρ c) : Hull (mapTok f c) := by
  have mem : ∀ {cs : List Cst}, (∀ c ∈ cs, Hull (mapTok f c)) → ∀ c ∈ mapToks f cs, Hull c := by
    intro cs h c hc
    rw [mapToks_eq] at hc
    obtain ⟨d, hd, rfl⟩ := List.mem_map.mp hc
    exact h d hd
  have ne : ∀ {cs : List Cst}, cs ≠ [] → mapToks f cs ≠ [] := by
    intro cs h; rw [mapToks_eq]; simpa using h
  induction h with
  | tok h => exact ⟨by simp [mapTok, leaves], rfl, by simp [mapTok, leaves, stop]⟩
  | @node k cs hn _ ih =>
    have hne := NodeOK.ne hρ hn
    have hs := hullL_stop (ne hne) (mem ih)
    rw [mapTok]
    refine ⟨hs.1, ?_, by unfold stop; exact hs.2⟩
    cases cs with
    | nil => exact absurd rfl hne
    | cons c cs => exact hullL_start (ih c List.mem_cons_self)
  | @call h b op body hc _ _ ih1 ih2 =>
    have hb : body ≠ [] := by
      cases hc with
      | group _ _ _ _ h => exact GroupShape.ne h
      | missing _ _ _ _ h => exact hρ _ _ h
    have hs := hullL_stop (ne hb) (mem ih2)
    rw [mapTok]
    refine ⟨by simp [leaves, hs.1], ?_, ?_⟩
    · have : ∃ l ts, h = l :: ts := by cases hc <;> exact ⟨_, _, rfl⟩
      obtain ⟨l, ts, rfl⟩ := this
      have h1 := hullL_start (cs := mapToks f ts) (ih1 l List.mem_cons_self)
      have hne := (hullL_stop (cs := mapToks f (l :: ts)) (ne (by simp)) (mem ih1)).1
      show (mapTok f l).start = (leavesL (mapToks f (l :: ts)) ++ leavesL (mapToks f body)).head?.map Tok.start
      rw [List.head?_append_of_ne_nil _ hne]
      exact h1
    · show stopL (mapToks f body) = (leavesL (mapToks f h) ++ leavesL (mapToks f body)).getLast?.map Tok.stop
      rw [List.getLast?_append_of_ne_nil _ hs.1]
      exact hs.2

/-! ### Results -/

section
variable {cfg : Cfg} {conv : Conv} {first : FirstLine} {bs : List UInt8}

/-- How a parse result comes about: `cs` are the trees before unterminated tokens are
rewritten by `f`. -/
structure Outcome (cfg : Cfg) (conv : Conv) (first : FirstLine) (bs : List UInt8) (r : ParseResult) (cs : List Cst)
    (f : Tok → Tok) (ks : List Tok) (u : St) (s : PS) : Prop where
  run : doParse ⟨cfg, recoverGroup cfg bs⟩ conv first bs = .ok (cs, s)
  eq : r.syntax' = mapToks f cs
  flag : r.unsafeEncoding = s.st.flag
  kind : ∀ t, (f t).kind = t.kind
  start : ∀ t, (f t).start = t.start
  same : ∀ t, t.unterminated = false → f t = t
  rewritten : ∀ t, f t = t ∨ ∃ input, bs = encode input ∧ fixTok cfg (isStatement cfg) input t = .ok (f t)
  trees : ∀ c ∈ cs, TreeOK Recovered c
  top : ∀ c ∈ cs, Top c
  reach : R cfg (St.init conv bs) u
  skip : first = .notScript → u = St.init conv bs
  lies : Lies cfg u.rest u.loc ks s.st.rest s.st.loc
  sub : (leavesL cs).Sublist ks
  head : (leavesL cs).head? = ks.head?
  all : completeL cs = true → leavesL cs = ks
  tail : Continues s.st.rest []
  quiet : s.groups = [] ∧ s.ctxs = [] ∧ s.stack = []
  reachEnd : R cfg (St.init conv bs) s.st
  newlines : NLs false cs

theorem parse_ok {r : ParseResult} (h : parseBytesCst cfg conv first bs = .ok r) :
    ∃ cs f ks u s, Outcome cfg conv first bs r cs f ks u s := by
  have hp := doParse_wp (U := realSetup cfg conv bs) (conv := conv) (f := first) (bs := bs) rfl
  unfold parseBytesCst at h
  have henv : (realSetup cfg conv bs).env = ⟨cfg, recoverGroup cfg bs⟩ := rfl
  rw [henv] at hp
  cases hd : doParse ⟨cfg, recoverGroup cfg bs⟩ conv first bs with
  | error e => rw [hd] at h; cases h
  | ok p =>
    obtain ⟨cs, s⟩ := p
    rw [hd] at h hp
    simp only at h hp
    obtain ⟨u, hR, hskip, hP⟩ := hp
    obtain ⟨ks, hh, hl, -⟩ := hP.on.spans
    obtain ⟨c, hc, hb⟩ := hP.tail
    have key : ∀ f : Tok → Tok, (∀ t, (f t).kind = t.kind) → (∀ t, (f t).start = t.start) →
        (∀ t, t.unterminated = false → f t = t) →
        (∀ t, f t = t ∨ ∃ input, bs = encode input ∧ fixTok cfg (isStatement cfg) input t = .ok (f t)) →
        r.syntax' = mapToks f cs → r.unsafeEncoding = s.st.flag → Outcome cfg conv first bs r cs f ks u s := by
      intro f h1 h2 h3 h6 h4 h5
      exact ⟨hd, h4, h5, h1, h2, h3, h6, fun c hc => hP.on.trees c (by simpa using hc), hP.top, hR, hskip, hl, hh.sub, hh.head,
        fun hc => hh.all (Or.inr hc), hb.continues hc, ⟨hP.on.groups, hP.on.ctxs, by simpa using hP.on.stack⟩, hP.on.reach, hP.on.newlines⟩
    cases hu : fromUtf8 bs with
    | none =>
      rw [hu] at h
      cases h
      refine ⟨cs, id, ks, u, s, key id (fun _ => rfl) (fun _ => rfl) (fun _ _ => rfl) (fun _ => Or.inl rfl) ?_ rfl⟩
      exact (mapToks_id cs).symm
    | some input =>
      rw [hu] at h
      simp only at h
      rcases fixCsts_cases (cfg := cfg) (isNew := isStatement cfg) (input := input) cs with ⟨e, t, h1, -⟩ | h1
      · rw [h1] at h; cases h
      · rw [h1] at h; cases h
        exact ⟨cs, _, ks, u, s, key _ (fun t => (rewrite_kind t).1) (fun t => (rewrite_kind t).2) (fun t => rewrite_same)
          (fun t => (rewrite_cases t).imp_right fun h => ⟨input, fromUtf8_some hu, h⟩) rfl rfl⟩

/-- What can go wrong in parsing. -/
theorem parse_err {e : Err} (h : parseBytesCst cfg conv first bs = .error e) :
    EE bs e ∨ (∃ op o mid, Opens o.kind op ∧ (∀ c ∈ .tok o :: mid, TreeOK Recovered c) ∧
      Source cfg (St.init conv bs) (.tok o :: mid) ∧ recoverGroup cfg bs op (.tok o :: mid) = .error e) ∨
    ∃ input cs t, bs = encode input ∧ (∀ c ∈ cs, TreeOK Recovered c) ∧ Source cfg (St.init conv bs) cs ∧ t ∈ leavesL cs ∧
      t.unterminated = true ∧ fixTok cfg (isStatement cfg) input t = .error e := by
  have hp := doParse_wp (U := realSetup cfg conv bs) (conv := conv) (f := first) (bs := bs) rfl
  unfold parseBytesCst at h
  have henv : (realSetup cfg conv bs).env = ⟨cfg, recoverGroup cfg bs⟩ := rfl
  rw [henv] at hp
  cases hd : doParse ⟨cfg, recoverGroup cfg bs⟩ conv first bs with
  | error e' =>
    rw [hd] at h hp
    cases h
    rcases hp with hp | ⟨op, cs, ⟨o, mid, rfl, h1, h2⟩, h3, h4, h5⟩
    · exact Or.inl hp
    · exact Or.inr (Or.inl ⟨op, o, mid, h1, h3, h4, h5⟩)
  | ok p =>
    obtain ⟨cs, s⟩ := p
    rw [hd] at h hp
    simp only at h hp
    obtain ⟨u, hR, hskip, hP⟩ := hp
    obtain ⟨ks, hh, hl, -⟩ := hP.on.spans
    cases hu : fromUtf8 bs with
    | none => rw [hu] at h; cases h
    | some input =>
      rw [hu] at h
      simp only at h
      rcases fixCsts_cases (cfg := cfg) (isNew := isStatement cfg) (input := input) cs with ⟨e', t, h1, h2, h3, h4⟩ | h1
      · rw [h1] at h; cases h
        exact Or.inr (Or.inr ⟨input, cs, t, fromUtf8_some hu, fun c hc => hP.on.trees c (by simpa using hc),
          ⟨ks, u, s.st, hh.sub, hh.head, hl, hR, hP.on.reach⟩, h2, h3, h4⟩)
      · rw [h1] at h; cases h

end
end CodeParser
