import Verif.Model.Recover
import Verif.Proofs.Place4
/-!
Positions do not influence parsing: the rewriting of unterminated tokens (helper lemmas).
-/
namespace CodeParser.Place
open Spec

/-- The rewriting of one token: nothing but the text and the position of unterminated tokens changes. -/
def Kept (t u : Tok) : Prop := u.kind = t.kind ∧ (unterminated t.kind = false → u.text = t.text)

theorem isUnterminated_eq (k : TK) : (k.isError && k.isUnterminated) = unterminated k := by cases k <;> rfl

section
variable {cfg : Cfg} {isNew : List Char → Except Err Bool} {input : List Char}

theorem fix_kept {t u : Tok} (h : (if t.unterminated then fixTok cfg isNew input t else .ok t) = .ok u) : Kept t u := by
  by_cases hu : t.unterminated = true
  · rw [if_pos hu] at h
    unfold fixTok at h
    have h1 : unterminated t.kind = true := by rw [← isUnterminated_eq]; exact hu
    rcases hg : goodLines cfg isNew input ⟨t.start, t.stop⟩ with e | ⟨c, l, b⟩ <;> rw [hg] at h
    · cases h
    simp only at h
    rcases hb : betterText cfg input c l b with e | x <;> rw [hb] at h
    · cases h
    cases h
    exact ⟨rfl, fun h => by rw [h1] at h; cases h⟩
  · rw [if_neg hu] at h
    cases h
    exact ⟨rfl, fun _ => rfl⟩

theorem kept_same {t t' u u' : Tok} (h : SameToken t t') (hu : Kept t u) (hu' : Kept t' u') : SameToken u u' := by
  refine ⟨by rw [hu.1, hu'.1, h.1], fun hk => ?_⟩
  rw [hu.1] at hk
  rw [hu.2 hk, hu'.2 (by rw [← h.1]; exact hk), h.2 hk]
end

section
variable {cfg cfg' : Cfg} {isNew isNew' : List Char → Except Err Bool} {input : List Char}

theorem fixToks_same {ts ts' : List Tok} (h : List.Forall₂ SameToken ts ts') : ∀ {us us' : List Tok},
    fixToks cfg isNew input ts = .ok us → fixToks cfg' isNew' input ts' = .ok us' → List.Forall₂ SameToken us us' := by
  induction h with
  | nil => intro us us' h1 h2; cases h1; cases h2; exact .nil
  | @cons t t' ts ts' ht _ ih =>
    intro us us' h1 h2
    unfold fixToks at h1 h2
    rcases ha : (if t.unterminated then fixTok cfg isNew input t else .ok t) with e | u <;> rw [ha] at h1
    · cases h1
    rcases hb : (if t'.unterminated then fixTok cfg' isNew' input t' else .ok t') with e | u' <;> rw [hb] at h2
    · cases h2
    simp only at h1 h2
    rcases hc : fixToks cfg isNew input ts with e | v <;> rw [hc] at h1
    · cases h1
    rcases hd : fixToks cfg' isNew' input ts' with e | v' <;> rw [hd] at h2
    · cases h2
    cases h1; cases h2
    exact .cons (kept_same ht (fix_kept ha) (fix_kept hb)) (ih hc hd)

mutual
theorem fixCst_same : ∀ (c : Cst) {c' d d' : Cst}, SameTree c c' →
    fixCst cfg isNew input c = .ok d → fixCst cfg' isNew' input c' = .ok d' → SameTree d d'
  | .tok t, c', d, d', h, h1, h2 => by
    cases h with
    | @tok _ t' ht =>
      unfold fixCst at h1 h2
      rcases ha : (if t.unterminated then fixTok cfg isNew input t else .ok t) with e | u <;> rw [ha] at h1
      · cases h1
      rcases hb : (if t'.unterminated then fixTok cfg' isNew' input t' else .ok t') with e | u' <;> rw [hb] at h2
      · cases h2
      cases h1; cases h2
      exact .tok (kept_same ht (fix_kept ha) (fix_kept hb))
  | .node k cs, c', d, d', h, h1, h2 => by
    cases h with
    | @node _ _ cs' h =>
      unfold fixCst at h1 h2
      rcases ha : fixCsts cfg isNew input cs with e | u <;> rw [ha] at h1
      · cases h1
      rcases hb : fixCsts cfg' isNew' input cs' with e | u' <;> rw [hb] at h2
      · cases h2
      cases h1; cases h2
      exact .node (fixCsts_same cs h ha hb)
    | @missing op _ cs' =>
      unfold fixCst at h1 h2
      rcases ha : fixCsts cfg isNew input cs with e | u <;> rw [ha] at h1
      · cases h1
      rcases hb : fixCsts cfg' isNew' input cs' with e | u' <;> rw [hb] at h2
      · cases h2
      cases h1; cases h2
      exact .missing
  | .call hd m op b, c', d, d', h, h1, h2 => by
    cases h with
    | @call _ hd' _ _ b' h3 h4 =>
      unfold fixCst at h1 h2
      rcases ha : fixCsts cfg isNew input hd with e | u <;> rw [ha] at h1
      · cases h1
      rcases hb : fixCsts cfg' isNew' input hd' with e | u' <;> rw [hb] at h2
      · cases h2
      simp only at h1 h2
      rcases hc : fixCsts cfg isNew input b with e | v <;> rw [hc] at h1
      · cases h1
      rcases hd : fixCsts cfg' isNew' input b' with e | v' <;> rw [hd] at h2
      · cases h2
      cases h1; cases h2
      exact .call (fixCsts_same _ h3 ha hb) (fixCsts_same _ h4 hc hd)
    | @callMissing _ hd' _ _ b' h3 =>
      unfold fixCst at h1 h2
      rcases ha : fixCsts cfg isNew input hd with e | u <;> rw [ha] at h1
      · cases h1
      rcases hb : fixCsts cfg' isNew' input hd' with e | u' <;> rw [hb] at h2
      · cases h2
      simp only at h1 h2
      rcases hc : fixCsts cfg isNew input b with e | v <;> rw [hc] at h1
      · cases h1
      rcases hd : fixCsts cfg' isNew' input b' with e | v' <;> rw [hd] at h2
      · cases h2
      cases h1; cases h2
      exact .callMissing (fixCsts_same _ h3 ha hb)
  | .callAgg .., _, _, _, h, _, _ => by cases h
  | .box .., _, _, _, h, _, _ => by cases h
  | .code _, _, _, _, h, _, _ => by cases h
theorem fixCsts_same : ∀ (cs : List Cst) {cs' ds ds' : List Cst}, List.Forall₂ SameTree cs cs' →
    fixCsts cfg isNew input cs = .ok ds → fixCsts cfg' isNew' input cs' = .ok ds' → List.Forall₂ SameTree ds ds'
  | [], cs', ds, ds', h, h1, h2 => by
    cases h; cases h1; cases h2; exact .nil
  | c :: cs, cs', ds, ds', h, h1, h2 => by
    cases h with
    | @cons _ c' _ cs' hc hcs =>
      unfold fixCsts at h1 h2
      rcases ha : fixCst cfg isNew input c with e | u <;> rw [ha] at h1
      · cases h1
      rcases hb : fixCst cfg' isNew' input c' with e | u' <;> rw [hb] at h2
      · cases h2
      simp only at h1 h2
      rcases hv : fixCsts cfg isNew input cs with e | v <;> rw [hv] at h1
      · cases h1
      rcases hw : fixCsts cfg' isNew' input cs' with e | v' <;> rw [hw] at h2
      · cases h2
      cases h1; cases h2
      exact .cons (fixCst_same c hc ha hb) (fixCsts_same cs hcs hv hw)
end
end

theorem wide_eq {cfg cfg' : Cfg} (h : cfg.uniAlnum = cfg'.uniAlnum) : cfg' = wide cfg cfg'.tabWidth cfg'.pos := by
  obtain ⟨w, hw, u⟩ := cfg'
  simp only at h
  unfold wide
  simp only [h]

theorem parse_same {cfg cfg' : Cfg} (hu : cfg.uniAlnum = cfg'.uniAlnum) {conv conv' : Conv} {f : FirstLine} {bs : List UInt8}
    {r r' : ParseResult} (h : parseBytesCst cfg conv f bs = .ok r) (h' : parseBytesCst cfg' conv' f bs = .ok r') :
    List.Forall₂ SameTree r.syntax' r'.syntax' ∧ r.unsafeEncoding = r'.unsafeEncoding := by
  have hw := wide_eq hu
  unfold parseBytesCst at h h'
  rcases hd : doParse ⟨cfg, recoverGroup cfg bs⟩ conv f bs with e | ⟨cs, s⟩ <;> rw [hd] at h
  · cases h
  rcases hd' : doParse ⟨cfg', recoverGroup cfg' bs⟩ conv' f bs with e | ⟨cs', s'⟩ <;> rw [hd'] at h'
  · cases h'
  simp only at h h'
  have key : List.Forall₂ SameTree cs cs' ∧ s.st.flag = s'.st.flag := by
    generalize recoverGroup cfg' bs = rcv' at hd'
    rw [hw] at hd'
    exact doParse_same hd hd'
  rcases hf : fromUtf8 bs with _ | input <;> rw [hf] at h h'
  · cases h; cases h'; exact key
  · simp only at h h'
    rcases ha : fixCsts cfg (isStatement cfg) input cs with e | u <;> rw [ha] at h
    · cases h
    rcases hb : fixCsts cfg' (isStatement cfg') input cs' with e | u' <;> rw [hb] at h'
    · cases h'
    cases h; cases h'
    exact ⟨fixCsts_same cs key.1 ha hb, key.2⟩

/-- The result of tokenizing: related tokens, or the same encoding error. -/
theorem tokenize_same {cfg cfg' : Cfg} (hu : cfg.uniAlnum = cfg'.uniAlnum) {conv conv' : Conv} {f : FirstLine} {bs : List UInt8}
    {r r' : Except Unsafe (List Tok)} (h : tokenizeBytes cfg conv f bs = .ok r) (h' : tokenizeBytes cfg' conv' f bs = .ok r') :
    (∃ e, r = .error e ∧ r' = .error e) ∨ ∃ ts ts', r = .ok ts ∧ r' = .ok ts' ∧ List.Forall₂ SameToken ts ts' := by
  have hw := wide_eq hu
  unfold tokenizeBytes tokenizeBytesWith at h h'
  have key : Same (List.Forall₂ SameTok) (tokens cfg conv f bs) (tokens cfg' conv' f bs) := by
    rw [hw]; exact tokens_same
  rcases hd : tokens cfg conv f bs with e | ⟨ts, s⟩ <;> rw [hd] at h key
  · cases h
  rcases hd' : tokens cfg' conv' f bs with e | ⟨ts', s'⟩ <;> rw [hd'] at h' key
  · cases h'
  simp only at h h'
  obtain ⟨k1, k2⟩ := key
  rw [k2.flag] at h
  have k3 : List.Forall₂ SameToken ts ts' := k1.imp fun _ _ h => h.weak
  rcases hfl : s'.flag with _ | e <;> rw [hfl] at h h'
  · rcases hf : fromUtf8 bs with _ | input <;> rw [hf] at h h'
    · cases h; cases h'; exact Or.inr ⟨_, _, rfl, rfl, k3⟩
    · simp only at h h'
      rcases ha : fixToks cfg (isStatement cfg) input ts with e | u <;> rw [ha] at h
      · cases h
      rcases hb : fixToks cfg' (isStatement cfg') input ts' with e | u' <;> rw [hb] at h'
      · cases h'
      cases h; cases h'
      exact Or.inr ⟨_, _, rfl, rfl, fixToks_same k3 ha hb⟩
  · cases h; cases h'; exact Or.inl ⟨_, rfl, rfl⟩

mutual
theorem bare_eq : ∀ (c : Cst) {c' : Cst}, SameTree c c' → complete c = true →
    (∀ t ∈ c.leaves, unterminated t.kind = false) → bare c = bare c'
  | .tok t, c', h, hc, ht => by
    cases h with
    | tok h =>
      have hk := ht t (by simp [Cst.leaves])
      simp only [bare, bareTok]
      rw [h.1, h.2 hk]
  | .node k cs, c', h, hc, ht => by
    cases h with
    | node h =>
      have h1 : completeL cs = true := by cases k <;> simp_all [complete]
      simp only [bare]
      rw [bares_eq cs h h1 ht]
    | missing => simp [complete] at hc
  | .call hd m op b, c', h, hc, ht => by
    cases h with
    | call h1 h2 =>
      simp only [complete, Bool.and_eq_true] at hc
      simp only [bare]
      rw [bares_eq hd h1 hc.1.2 (fun t h => ht t (by simp only [Cst.leaves]; exact List.mem_append_left _ h)),
        bares_eq b h2 hc.2 (fun t h => ht t (by simp only [Cst.leaves]; exact List.mem_append_right _ h))]
    | callMissing _ => simp [complete] at hc
  | .callAgg .., _, h, _, _ => by cases h
  | .box .., _, h, _, _ => by cases h
  | .code _, _, h, _, _ => by cases h
theorem bares_eq : ∀ (cs : List Cst) {cs' : List Cst}, List.Forall₂ SameTree cs cs' → completeL cs = true →
    (∀ t ∈ Cst.leavesL cs, unterminated t.kind = false) → bares cs = bares cs'
  | [], _, h, _, _ => by cases h; rfl
  | c :: cs, _, h, hc, ht => by
    cases h with
    | cons h1 h2 =>
      simp only [completeL, Bool.and_eq_true] at hc
      simp only [bares]
      rw [bare_eq c h1 hc.1 (fun t h => ht t (by simp only [Cst.leavesL]; exact List.mem_append_left _ h)),
        bares_eq cs h2 hc.2 (fun t h => ht t (by simp only [Cst.leavesL]; exact List.mem_append_right _ h))]
end

end CodeParser.Place
