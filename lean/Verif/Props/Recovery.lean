import Verif.Proofs.Recover8
import Verif.Props.Tokenize
/-!
Property C51: where recovery cuts off what is left open.
-/
namespace CodeParser.Props
open CodeParser Spec Cst

variable {cfg : Cfg} {first : FirstLine} {input : List Char}

/-- What happens to one token: only unterminated ones change. -/
def Kept (cfg : Cfg) (input : List Char) (k k' : Tok) : Prop :=
  if unterminated k.kind = true then CutOff cfg input k k' else k' = k

theorem fixTok_kept {k k' : Tok} (hp : Placed cfg input (.lineCol 1 1) k) (hk : TokOK k)
    (h : (if k.unterminated then fixTok cfg (isStatement cfg) input k else .ok k) = .ok k') : Kept cfg input k k' := by
  unfold Kept
  rw [← unterminated_kind]
  split at h
  · next hu =>
    rw [if_pos hu]
    have hkind := unterminated_kinds k.kind (by rw [← unterminated_kind]; exact hu)
    exact fixTok_cut hp (hk.solid hkind.1) (fun h => hkind.2 (hk.line h)) h
  · next hu =>
    rw [if_neg hu]
    cases h; rfl

theorem fixToks_kept : ∀ {ts ts' : List Tok}, (∀ k ∈ ts, Placed cfg input (.lineCol 1 1) k ∧ TokOK k) →
    fixToks cfg (isStatement cfg) input ts = .ok ts' → List.Forall₂ (Kept cfg input) ts ts'
  | [], ts', _, h => by cases h; exact .nil
  | t :: ts, ts', hk, h => by
    unfold fixToks at h
    split at h
    · cases h
    · next t' ht =>
      split at h
      · cases h
      · next r hr =>
        cases h
        obtain ⟨h1, h2⟩ := hk t List.mem_cons_self
        exact .cons (fixTok_kept h1 h2 ht) (fixToks_kept (fun k h => hk k (List.mem_cons_of_mem _ h)) hr)

/-- C51 for `tokenize_bytes`: the result has the tokens that are read from the text, one for
one; those that are terminated are unchanged, and an unterminated one is cut off at the end
of the last line with text before the next statement. -/
theorem C51_tokens {ts : List Tok} (h : tokenizeBytes cfg .lineColumn first (encode input) = .ok (.ok ts)) :
    ∃ ts0 s, tokens cfg .lineColumn first (encode input) = .ok (ts0, s) ∧ List.Forall₂ (Kept cfg input) ts0 ts := by
  unfold tokenizeBytes tokenizeBytesWith at h
  cases hT : tokens cfg .lineColumn first (encode input) with
  | error e => rw [hT] at h; cases h
  | ok p =>
    obtain ⟨ts0, s⟩ := p
    have hk := tokens_lineCol hT
    rw [hT] at h
    simp only [fromUtf8_encode] at h
    refine ⟨ts0, s, rfl, ?_⟩
    cases hf : s.flag with
    | some f => rw [hf] at h; cases h
    | none =>
      rw [hf] at h
      simp only at h
      cases hx : fixToks cfg (isStatement cfg) input ts0 with
      | error e => rw [hx] at h; cases h
      | ok ts' =>
        rw [hx] at h; cases h
        exact fixToks_kept hk hx

theorem keepLeaves_filter {S B : Loc} : ∀ {ts : List Tok} {cs : List Cst}, (∀ t ∈ ts, S.le t.start = true) →
    (∀ t ∈ ts, t.start.le t.stop = true) → keepLeaves ⟨S, B⟩ ts = .ok cs →
    leavesL cs = ts.filter fun t => t.start.le B
  | [], cs, _, _, h => by cases h; rfl
  | t :: ts, cs, hs, hl, h => by
    unfold keepLeaves at h
    split at h
    · cases h
    · next x hx =>
      have e := overlaps_eq (hs t List.mem_cons_self) (hl t List.mem_cons_self) hx
      split at h
      · cases h
      · next r hr =>
        have ih := keepLeaves_filter (fun u hu => hs u (List.mem_cons_of_mem _ hu)) (fun u hu => hl u (List.mem_cons_of_mem _ hu)) hr
        cases h
        cases x with
        | true => rw [List.filter_cons, if_pos e.symm, ← ih]; rfl
        | false => simp [List.filter_cons, ← e, ih]

/-- C51 for groups: of a group that starts with its opening bracket, and the tokens of which
come in the order of their positions, recovery keeps exactly the tokens that begin before
the end of the last line with text before the next statement, or there. -/
theorem C51_group {op : GroupOp} {o : Tok} {mid cs' : List Cst} {l c l' c' : Nat}
    (ho : (leavesL (.tok o :: mid)).Pairwise fun a b => a.stop.le b.start = true)
    (hl : ∀ t ∈ leavesL (.tok o :: mid), t.start.le t.stop = true)
    (hs : o.start = .lineCol l c) (he : stopL (.tok o :: mid) = some (.lineCol l' c')) (h1 : 1 ≤ l) (h2 : 1 ≤ l')
    (h : recoverGroup cfg (encode input) op (.tok o :: mid) = .ok cs') :
    ∃ n e x, CutAt cfg input l l' n e ∧ lineAt input n = some x ∧
      leavesL cs' = (leavesL (.tok o :: mid)).filter fun t => t.start.le (.lineCol n (columnOf cfg.tabWidth x.1)) := by
  unfold recoverGroup at h
  rw [fromUtf8_encode] at h
  simp only at h
  cases hsrc : sourceOf (.tok o :: mid) with
  | error e => rw [hsrc] at h; cases h
  | ok src =>
    rw [hsrc] at h
    simp only at h
    have hsp : src = ⟨.lineCol l c, .lineCol l' c'⟩ := by
      unfold sourceOf at hsrc
      simp only [Cst.start, he, hs] at hsrc
      unfold Span.new at hsrc
      split at hsrc
      · next hn => cases hsrc; split at hn <;> cases hn; rfl
      · cases hsrc
    subst hsp
    cases hg : goodLines cfg (isStatement cfg) input ⟨.lineCol l c, .lineCol l' c'⟩ with
    | error e => rw [hg] at h; cases h
    | ok p =>
      obtain ⟨chunk, i, better⟩ := p
      rw [hg] at h
      simp only at h
      obtain ⟨-, -, g1, x, g2, rfl⟩ := goodLines_cut h1 h2 hg
      refine ⟨_, _, x, g1, g2, keepLeaves_filter (fun t ht => ?_) hl h⟩
      rw [← hs]
      have : leavesL (.tok o :: mid) = o :: leavesL mid := rfl
      rw [this] at ht ho hl
      rcases List.mem_cons.mp ht with rfl | ht
      · exact Loc.le_refl _
      · exact Loc.le_trans (hl o List.mem_cons_self) ((List.pairwise_cons.mp ho).1 t ht)

section
variable {isNew : List Char → Except Err Bool}

mutual
theorem fixCst_each : ∀ {c c' : Cst}, fixCst cfg isNew input c = .ok c' → ∀ t ∈ leaves c,
    (if t.unterminated then fixTok cfg isNew input t else .ok t) = .ok (rewrite cfg isNew input t)
  | .tok t, c', h, t', ht => by
    have : t' = t := by simpa [leaves] using ht
    subst this
    unfold fixCst at h
    unfold rewrite
    by_cases hu : t'.unterminated = true
    · simp only [hu, if_true] at h ⊢
      cases hx : fixTok cfg isNew input t' with
      | error e => rw [hx] at h; cases h
      | ok t'' => rfl
    · rw [if_neg hu, if_neg hu]
  | .node k cs, c', h, t', ht => by
    unfold fixCst at h
    split at h
    · cases h
    · next hh => exact fixCsts_each hh t' (by simpa [leaves] using ht)
  | .call hd m op b, c', h, t', ht => by
    unfold fixCst at h
    split at h
    · cases h
    · next hh =>
      split at h
      · cases h
      · next hb =>
        rcases List.mem_append.mp (show t' ∈ leavesL hd ++ leavesL b by simpa [leaves] using ht) with ht | ht
        · exact fixCsts_each hh t' ht
        · exact fixCsts_each hb t' ht
  | .callAgg hd m op b, c', h, t', ht => by
    unfold fixCst at h
    split at h
    · cases h
    · next hh =>
      split at h
      · cases h
      · next hb =>
        rcases List.mem_append.mp (show t' ∈ leaves hd ++ leavesL b by simpa [leaves] using ht) with ht | ht
        · exact fixCst_each hh t' ht
        · exact fixCsts_each hb t' ht
  | .box k cs, c', h, t', ht => by
    unfold fixCst at h
    split at h
    · cases h
    · next hh => exact fixCsts_each hh t' (by simpa [leaves] using ht)
  | .code n, c', h, t', ht => by simp [leaves] at ht
theorem fixCsts_each : ∀ {cs cs' : List Cst}, fixCsts cfg isNew input cs = .ok cs' → ∀ t ∈ leavesL cs,
    (if t.unterminated then fixTok cfg isNew input t else .ok t) = .ok (rewrite cfg isNew input t)
  | [], _, _, t', ht => by cases ht
  | c :: cs, cs', h, t', ht => by
    unfold fixCsts at h
    split at h
    · cases h
    · next hh =>
      split at h
      · cases h
      · next hb =>
        rcases List.mem_append.mp (show t' ∈ leaves c ++ leavesL cs by simpa [leavesL] using ht) with ht | ht
        · exact fixCst_each hh t' ht
        · exact fixCsts_each hb t' ht
end
end

/-- C51 for `parse_bytes_cst_seq`: the leaves of the result are, one for one, tokens that were
read from the text (in their order, see C34), the unterminated ones cut off as above. -/
theorem C51_parse {r : ParseResult} (h : parseBytesCst cfg .lineColumn first (encode input) = .ok r) :
    ∃ us ks skipped tail, List.Forall₂ (Kept cfg input) us (leavesL r.syntax') ∧ us.Sublist ks ∧
      skipped ++ (ks.flatMap Tok.text ++ tail) = encode input ∧
      (∀ i (hi : i + 1 < ks.length), ks[i + 1].start = ks[i].stop) := by
  have h0 := h
  obtain ⟨cs, f, ks, u, s, o⟩ := parse_ok h
  obtain ⟨pre, hp⟩ := o.reach.suffix (WF_init .lineColumn (encode input))
  have hp' : encode input = pre ++ u.rest := hp
  refine ⟨leavesL cs, ks, pre, s.st.rest, ?_, o.sub, by rw [o.lies.text, ← hp'], o.lies.adjacent⟩
  obtain ⟨xs, hpath, -⟩ := o.reach.path
  obtain ⟨ds, e1, e2⟩ := hpath.steps (WF_init _ _) rfl
  have hplaced := o.lies.placed e1 e2
  have hk : ∀ k ∈ leavesL cs, Placed cfg input (.lineCol 1 1) k ∧ TokOK k := fun k hk =>
    ⟨hplaced k (o.sub.subset hk), TreeOKL.toks o.trees k hk⟩
  unfold parseBytesCst at h0
  rw [o.run] at h0
  simp only [fromUtf8_encode] at h0
  rcases fixCsts_cases (cfg := cfg) (isNew := isStatement cfg) (input := input) cs with ⟨e, t, h1, -⟩ | h1
  · rw [h1] at h0; cases h0
  · rw [h1] at h0; cases h0
    rw [leavesL_map]
    refine List.forall₂_map_right_iff.mpr (List.forall₂_same.mpr fun k hkm => ?_)
    obtain ⟨k1, k2⟩ := hk k hkm
    refine fixTok_kept k1 k2 ?_
    exact fixCsts_each h1 k hkm

/-! ### Examples -/

/-- A string that is not closed, an empty line, and a definition. -/
private def openString : List Char := ['a', '\n', '"', 'b', '\n', 'c', '\n', '\n', 'x', ' ', ':', '=', '1']

/-- The string is cut off behind the line `c`; the lines from the definition on are not part
of it. -/
example : (match tokenizeBytes Cfg.default .lineColumn .notScript (encode openString) with
    | .ok (.ok [_, _, k]) => unterminated k.kind && k.start == .lineCol 2 1 && k.stop == .lineCol 3 2 &&
        k.text == encode ['"', 'b']
    | _ => false) = true := by
  decide +kernel

/-- The same as a tree. -/
example : (match parseBytesCst Cfg.default .lineColumn .notScript (encode openString) with
    | .ok r => (leavesL r.syntax').any fun k => unterminated k.kind && k.stop == .lineCol 3 2
    | _ => false) = true := by
  decide +kernel

/-- The group of `{a`, newline, `b`, newline, `f[x] = 1` meets the hypotheses of `C51_group`. -/
example : (match doParse ⟨Cfg.default, fun _ cs => .ok cs⟩ .lineColumn .notScript
      (encode ['{', 'a', '\n', 'b', '\n', 'f', '[', 'x', ']', '=', '1']) with
    | .ok ([.node (.groupMissingCloser op) (.tok o :: mid)], _) =>
      decide ((leavesL (.tok o :: mid)).Pairwise fun a b => a.stop.le b.start = true) &&
      (leavesL (.tok o :: mid)).all (fun t => t.start.le t.stop) && o.start == .lineCol 1 1 &&
      stopL (.tok o :: mid) == some (.lineCol 3 7) &&
      (match recoverGroup Cfg.default (encode ['{', 'a', '\n', 'b', '\n', 'f', '[', 'x', ']', '=', '1']) op (.tok o :: mid) with
        | .ok cs' => (leavesL cs').map Tok.text == [[123], [97], [10], [], [98], [10]]
        | .error _ => false)
    | _ => false) = true := by
  decide +kernel

end CodeParser.Props
