import Verif.Proofs.Words2
import Verif.Proofs.Abstract2
/-!
The words of a text in its abstract syntax trees (helper lemmas): abstraction, function by function.
-/
namespace CodeParser.Words
open CodeParser Spec Cst Props Abs Spot

section
variable {env : AEnv} {rec : Req → A Ast} {H : Marks} {out : Tok → Prop} {data : ASrc}

/-- The tree has the words. -/
abbrev Gives (env : AEnv) (out : Tok → Prop) (T : Multiset Tok) (a : Ast) : Prop := Like env.debug out T (wa a)

/-- Abstraction of the parts keeps their words. -/
structure Good (env : AEnv) (rec : Req → A Ast) (H : Marks) (out : Tok → Prop) : Prop where
  cst {c} : Plain H c → Sat (Gives env out (wc c)) (rec (.cst c))
  neg {g d} : PlainN H g → Sat (Gives env out (wn g)) (rec (.neg g d))
  commas {cs} : Sat (fun a => ∃ as d, a = .callS .CodeParser_Comma as d) (rec (.cst (.node (.infix .CodeParser_Comma) cs)))

theorem Sat.eq {α : Type} {P : α → Prop} {x y : A α} (h : Sat P x) (e : y = x) : Sat P y := e ▸ h

theorem Gives.fewer {c : Cst} {T : Multiset Tok} {a : Ast} (h : Fewer H out T c) (ha : Gives env out (wc c) a) : Gives env out T a := by
  obtain ⟨-, D, rfl, hD⟩ := h
  obtain ⟨K, E, e, h1, h2⟩ := ha
  refine ⟨K, E + D, by rw [e, add_assoc], h1, fun t ht => ?_⟩
  rcases Multiset.mem_add.mp ht with ht | ht
  · exact h2 t ht
  · exact hD t ht

theorem Like.short (O : Outs env H out) {T T' : Multiset Tok} {L : Multiset Leaf} (h : Short H T T') (h' : Like env.debug out T' L) :
    Like env.debug out T L := by
  obtain ⟨D, rfl, hD⟩ := h
  obtain ⟨K, E, rfl, h1, h2⟩ := h'
  refine ⟨K, E + D, add_assoc _ _ _, h1, fun t ht => ?_⟩
  rcases Multiset.mem_add.mp ht with ht | ht
  · exact h2 t ht
  · exact O.crowd (hD t ht)

theorem recs (G : Good env rec H out) {cs : List Cst} (h : ∀ c ∈ cs, Plain H c) :
    Sat (fun as => Like env.debug out (wcL cs) (waL as)) (mapA (recC rec) cs) := by
  have := Like.mapA (q := env.debug) (out := out) (w := wc) (f := recC rec) (bs := cs) fun c hc => G.cst (h c hc)
  rwa [sum_wc] at this

theorem recip_gives (G : Good env rec H out) {c : Cst} (h : Plain H c) : Sat (Gives env out (wc c)) (recipAst rec c data) := by
  unfold recipAst
  exact Sat.bind (G.cst h) fun a ha => Sat.ok (ha.to rfl (by simp))

theorem operand_gives (G : Good env rec H out) {f : Cst → A Cst} (hf : ∀ c, Plain H c → Sat (Fewer H out (wc c)) (f c)) (o : AOperand)
    (h : PlainO H o) : Sat (Gives env out (wo o)) (operandAst rec f o) := by
  cases o with
  | cst c => exact Sat.bind (hf c h) fun d hd => (G.cst hd.1).mono fun a ha => .fewer hd ha
  | recip c d => exact recip_gives G h
  | negOne => exact Sat.ok (Like.zero.to rfl (by simp))
  | neg g d => exact G.neg h

theorem operands_give (G : Good env rec H out) (O : Outs env H out) {f : Cst → A Cst} (hf : ∀ c, Plain H c → Sat (Fewer H out (wc c)) (f c)) {T : Multiset Tok}
    {os : List AOperand} (h : OpsAre H T os) : Sat (fun as => Like env.debug out T (waL as)) (mapA (operandAst rec f) os) := by
  have := Like.mapA (q := env.debug) (out := out) (w := wo) (f := operandAst rec f) (bs := os) fun o ho => operand_gives G hf o (h.1 o ho)
  exact this.mono fun as ha => Like.short O h.2 ha

theorem times_gives (G : Good env rec H out) (O : Outs env H out) {cs : List Cst} (h : ∀ c ∈ cs, Plain H c) :
    Sat (fun a => ∃ as d, a = .callS .System_Times as d ∧ Like env.debug out (wcL cs) (waL as)) (timesAst env rec cs data) := by
  unfold timesAst
  exact Sat.bind (flatL_are cs h) fun os ho => Sat.bind (operands_give G O (fun c hc => binaryAt_is O (op := .Times) c hc) ho) fun as ha => Sat.ok ⟨_, _, rfl, ha⟩

theorem divide_gives (G : Good env rec H out) (O : Outs env H out) {l r : Cst} (hl : Plain H l) (hr : Plain H r) :
    Sat (Gives env out (wc l + wc r)) (divideAst env rec l r data) := by
  unfold divideAst
  exact Sat.bind (flat_are l hl) fun os ho => Sat.bind (operands_give G O (fun c hc => Sat.ok (.self hc)) ho) fun as ha =>
    Sat.bind (recip_gives G hr) fun b hb => Sat.ok ((ha.add hb).to rfl (by simp))

theorem negated_gives (G : Good env rec H out) (O : Outs env H out) {g : Negated} (h : PlainN H g) :
    Sat (Gives env out (wn g)) (negatedAst env rec g data) := by
  cases g with
  | zero => exact Sat.ok (Like.zero.to rfl (wa_none rfl))
  | integer t => exact Sat.any fun s => Sat.ok (Like.zero.to rfl (wa_none rfl))
  | real t => exact Sat.any fun s => Sat.ok (Like.zero.to rfl (wa_none rfl))
  | times cs =>
    refine Sat.bind (times_gives G O h) fun a ha => ?_
    obtain ⟨as, d, rfl, ha⟩ := ha
    exact Sat.ok (ha.to rfl (by simp))

theorem pairs_are : ∀ {c : Cst} {cs : List Cst}, Alt (c :: cs) → (∀ d ∈ cs, Plain H d) →
    Sat (fun ps => (∀ p ∈ ps, Plain H p.2) ∧ (ps.map fun p => wc p.2).sum = wcL cs) (pairs cs)
  | _, [], _, _ => Sat.ok ⟨by simp, rfl⟩
  | _, [_], h, _ => by cases h with | more _ h => cases h
  | _, o :: d :: cs, h, hp => by
    cases h with
    | more ho h =>
      unfold pairs
      refine Sat.bind (pairs_are h fun x hx => hp x (by simp [hx])) fun ps h1 => Sat.ok ⟨fun p hp' => ?_, ?_⟩
      · rcases List.mem_cons.mp hp' with rfl | hp'
        · exact hp _ (by simp)
        · exact h1.1 p hp'
      · simp [h1.2, wc_quiet ho]

theorem plus_gives (G : Good env rec H out) (O : Outs env H out) {cs : List Cst} (ha : Alt cs) (h : ∀ c ∈ cs, Plain H c) :
    Sat (Gives env out (wcL cs)) (plusAst env rec cs data) := by
  unfold plusAst
  split
  · exact Sat.fail
  · rename_i c cs
    have hf : ∀ c, Plain H c → Sat (Fewer H out (wc c)) (do let c ← binaryAt env Sym.System_Plus.short c; flattenPlus c) := fun c hc =>
      Sat.bind (binaryAt_is O (op := .Plus) c hc) fun d hd => (flattenPlus_is d hd.1).mono fun e he => ⟨he.1, by rw [he.2]; exact hd.2⟩
    refine Sat.bind (pairs_are ha fun d hd => h d (by simp [hd])) fun ps hps => Sat.bind (operand_gives G hf (.cst c) (h c (by simp))) fun a ha =>
      Sat.bind (P := fun as => Like env.debug out (ps.map fun p => wc p.2).sum (waL as)) (Like.mapA fun p hp => ?_) fun as has => Sat.ok ?_
    · have hp' := hps.1 p hp
      obtain ⟨o, r⟩ := p
      cases o with
      | tok t =>
        refine Sat.bind (P := fun o => PlainO H o ∧ Short H (wc r) (wo o)) ?_ fun o ho => (operand_gives G hf o ho.1).mono fun a ha => Like.short O ho.2 ha
        exact Sat.ite (fun _ => Sat.ok ⟨hp', .of rfl⟩) fun _ => Sat.ite (fun _ => Sat.any fun _ => Sat.any fun _ => Sat.bind (negate_is r hp') fun g hg => Sat.ok hg)
          fun _ => Sat.fail
      | _ => exact Sat.err
    · rw [hps.2] at has
      exact (Like.add ha has).to (by simp [wo]) (by simp)

theorem quirk_gives (G : Good env rec H out) (O : Outs env H out) {op : InfixOp} {c : Cst} (h : Plain H c) :
    Sat (Gives env out (wc c)) (quirkAst env rec op.toSymbol.short c) := by
  unfold quirkAst
  exact Sat.bind (binaryAt_is O c h) fun d hd => (G.cst hd.1).mono fun a ha => .fewer hd ha

theorem quirks_give (G : Good env rec H out) (O : Outs env H out) {op : InfixOp} {cs : List Cst} (h : ∀ c ∈ cs, Plain H c) :
    Sat (fun as => Like env.debug out (wcL cs) (waL as)) (mapA (quirkAst env rec op.toSymbol.short) cs) := by
  have := Like.mapA (q := env.debug) (out := out) (w := wc) (f := quirkAst env rec op.toSymbol.short) (bs := cs) fun c hc => quirk_gives G O (h c hc)
  rwa [sum_wc] at this

theorem message_gives (G : Good env rec H out) {cs : List Cst} (h : ∀ c ∈ cs, Plain H c) : Sat (Gives env out (wcL cs)) (messageAst env rec cs data) := by
  unfold messageAst
  split
  · exact Sat.fail
  · rename_i l rest
    refine Sat.bind (G.cst (h l (by simp))) fun a ha => Sat.bind (P := fun as => Like env.debug out (rest.map wc).sum (waL as))
      (Like.mapA fun c hc => ?_) fun as has => Sat.ok ?_
    · have hc' := h c (by simp [hc])
      split
      · rename_i t
        refine Sat.ite (fun hk => Sat.with fun s hs => Sat.ok ?_) fun _ => G.cst hc'
        cases Build.asStr_ok hs
        exact tok_stands hk (Or.inr (Or.inr rfl))
      · exact G.cst hc'
    · rw [sum_wc] at has
      exact (Like.add ha has).to (by simp) (by simp)

theorem simplify_words {first : Ast} {rest : List (Sym × Ast)} {aff : Option Bool} :
    wa (simplify first rest aff data) = wa first + waL (rest.map (·.2)) := by
  have h1 : waL (rest.flatMap fun r => [.symbol r.1, r.2]) = waL (rest.map (·.2)) := by
    induction rest with
    | nil => rfl
    | cons r rest ih => simp only [List.flatMap_cons, waL_append, ih, List.map_cons, waL_cons, waL_nil, wa_symbol, zero_add, add_zero]
  unfold simplify
  dsimp only
  split
  · simp
  · simp
  · split <;> simp [h1]

theorem loop_gives (G : Good env rec H out) : ∀ {ps : List (Tok × Cst)} {first : Ast} {rest : List (Sym × Ast)} {aff : Option Bool} {T : Multiset Tok},
    Like env.debug out T (wa first + waL (rest.map (·.2))) → (∀ p ∈ ps, Plain H p.2) →
    Sat (Gives env out (T + (ps.map fun p => wc p.2).sum)) (inequalityLoop rec data ps first rest aff)
  | [], first, rest, aff, T, h, _ => Sat.ok (h.to (by simp) simplify_words)
  | (o, c) :: ps, first, rest, aff, T, h, hp => by
    unfold inequalityLoop
    split
    · exact Sat.fail
    · rename_i s hs
      refine Sat.bind (G.cst (hp (o, c) (by simp))) fun a ha => ?_
      have hp' : ∀ p ∈ ps, Plain H p.2 := fun p h' => hp p (by simp [h'])
      simp only [List.map_cons, List.sum_cons, ← add_assoc]
      have h1 : ∀ s, Like env.debug out (T + wc c) (wa first + waL ((rest ++ [(s, a)]).map fun x : Sym × Ast => x.2)) := fun s =>
        (h.add ha).to rfl (by simp [add_assoc])
      split
      · exact Sat.fail
      · exact loop_gives G (h1 _) hp'
      · refine Sat.ite (fun _ => loop_gives G ((h.add ha).to rfl ?_) hp') fun _ => loop_gives G (h1 _) hp'
        rw [simplify_words]
        simp

theorem inequality_gives (G : Good env rec H out) {cs : List Cst} (ha : Alt cs) (h : ∀ c ∈ cs, Plain H c) :
    Sat (Gives env out (wcL cs)) (inequalityAst rec cs data) := by
  unfold inequalityAst
  split
  · exact Sat.fail
  · rename_i c cs
    refine Sat.bind (G.cst (h c (by simp))) fun a ha' => Sat.bind (pairs_are ha fun d hd => h d (by simp [hd])) fun ps hps =>
      Sat.bind (P := fun qs => qs.map (·.2) = ps.map (·.2)) ?_ fun qs hqs => ?_
    · clear hps
      induction ps with
      | nil => exact Sat.ok rfl
      | cons p ps ih =>
        intro qs hq
        unfold mapA at hq
        rcases e1 : withTok p with x | y <;> rw [e1] at hq
        · cases hq
        simp only at hq
        rcases e2 : mapA withTok ps with x | ys <;> rw [e2] at hq
        · cases hq
        cases hq
        have := ih _ e2
        unfold withTok at e1
        split at e1
        · cases e1
          simp [this]
        · cases e1
    · have e : (qs.map fun p => wc p.2) = ps.map fun p => wc p.2 := by
        have := congrArg (List.map wc) hqs
        rw [List.map_map, List.map_map] at this
        exact this
      refine (loop_gives G (T := wc c) (ha'.to rfl (by simp)) fun p hp => ?_).mono fun b hb => hb.to (by rw [e, hps.2]; simp) rfl
      have : p.2 ∈ ps.map (·.2) := hqs ▸ List.mem_map_of_mem hp
      obtain ⟨p', h1, h2⟩ := List.mem_map.mp this
      rw [← h2]
      exact hps.1 p' h1

theorem tildeRest_gives (G : Good env rec H out) : ∀ {cs : List Cst} {a : Ast} {T : Multiset Tok} {d : AMeta}, Gives env out T a → (∀ c ∈ cs, Plain H c) →
    Sat (Gives env out (T + wcL cs)) (Abs.tildeRest rec d a cs)
  | [], _, _, _, _, _ => Sat.fail
  | [m], a, T, d, h, hp => by
    unfold Abs.tildeRest
    exact Sat.bind (G.cst (hp m (by simp))) fun m hm => Sat.ok ((h.add hm).to (by simp) (by simp))
  | [m, r], a, T, d, h, hp => by
    unfold Abs.tildeRest
    exact Sat.bind (G.cst (hp m (by simp))) fun m hm => Sat.bind (G.cst (hp r (by simp))) fun r hr =>
      Sat.ok ((hm.add (h.add hr)).to (by simp [add_left_comm]) (by simp))
  | m :: r :: x :: cs, a, T, d, h, hp => by
    unfold Abs.tildeRest
    refine Sat.bind (G.cst (hp m (by simp))) fun m' hm => Sat.bind (G.cst (hp r (by simp))) fun r' hr => ?_
    refine (tildeRest_gives G (T := wc m + (T + wc r)) ((hm.add (h.add hr)).to rfl (by simp)) fun c hc => hp c (by simp at hc ⊢; tauto)).mono fun b hb => hb.to ?_ rfl
    simp only [wcL_cons, add_assoc, add_left_comm]

theorem tilde_gives (G : Good env rec H out) {cs : List Cst} {d : AMeta} (h : ∀ c ∈ cs, Plain H c) : Sat (Gives env out (wcL cs)) (tildeAst rec d cs) := by
  unfold tildeAst
  split
  · exact Sat.bind (G.cst (h _ (by simp))) fun a ha => Sat.bind (G.cst (h _ (by simp))) fun b hb => Sat.ok ((ha.add hb).to (by simp) (by simp))
  · exact Sat.bind (G.cst (h _ (by simp))) fun a ha => (tildeRest_gives G ha fun c hc => h c (by simp at hc ⊢; tauto)).mono fun b hb => hb.to (by simp) rfl
  · exact Sat.bind (G.cst (h _ (by simp))) fun a ha => Sat.bind (tildeRest_gives G ha fun c hc => h c (by simp at hc ⊢; tauto)) fun b hb =>
      (tildeRest_gives G hb fun c hc => h c (by simp at hc ⊢; tauto)).mono fun c hc => hc.to (by simp [add_assoc]) rfl
  · exact Sat.fail

theorem comma_text : Sym.CodeParser_Comma.text = utf8 "CodeParser`Comma".toList := by decide +kernel
theorem comma_other : utf8 "CodeParser`Comma".toList ≠ utf8 "All".toList ∧ utf8 "CodeParser`Comma".toList ≠ utf8 "Null".toList := by decide +kernel

theorem comma_word {q : List UInt8 → List UInt8} {p : ASrc} {t : Tok} (h : Stands q (.Symbol, Sym.CodeParser_Comma.text, p) t) :
    t.kind = .Symbol ∧ nameText t.text = utf8 "CodeParser`Comma".toList := by
  have h2 := h.2
  have no : ∀ {P : Prop}, Sym.CodeParser_Comma.text = utf8 "Null".toList → P := fun e => absurd (comma_text.symm.trans e) comma_other.2
  split at h2
  · rename_i hk
    rcases h2 with h2 | h2
    · exact ⟨hk, h2.2.symm.trans comma_text⟩
    · cases h2.1
  · cases h2.1
  · exact absurd (comma_text.symm.trans h2.2) comma_other.1
  · rcases h2 with h2 | h2
    · exact no h2.2
    · cases h2.1
  · exact no h2.2

theorem select_gives (O : Outs env H out) {a : Ast} {T : Multiset Tok} (h : Gives env out T a) : Like env.debug out T (waL (selectChildren a)) := by
  have one : ∀ {a : Ast}, Gives env out T a → Like env.debug out T (waL [a]) := fun h => h.to rfl (by simp)
  unfold selectChildren
  split
  · split
    · rename_i k s d
      split
      · rename_i hk
        obtain ⟨rfl, rfl⟩ := hk
        obtain ⟨src, is⟩ := d
        cases src with
        | none => exact Like.to h rfl (by simp)
        | some p =>
          refine Like.drop (l := (.Symbol, Sym.CodeParser_Comma.text, p)) h fun t ht => ?_
          obtain ⟨h1, h2⟩ := comma_word ht
          exact O.comma h1 h2
      · exact one h
    · exact one h
  · exact one h

theorem group_args (G : Good env rec H out) (O : Outs env H out) {cs : List Cst} (h : ∀ c ∈ cs, Plain H c) :
    Sat (fun as => Like env.debug out (wcL cs) (waL as)) (groupArgs rec cs) := by
  unfold groupArgs
  refine Sat.with fun as has => Sat.ok ?_
  induction cs generalizing as with
  | nil => cases has; exact Like.zero
  | cons c cs ih =>
    unfold mapA at has
    rcases e1 : recC rec c with x | a <;> rw [e1] at has
    · cases has
    simp only at has
    rcases e2 : mapA (recC rec) cs with x | as' <;> rw [e2] at has
    · cases has
    cases has
    simp only [wcL_cons, List.flatMap_cons, waL_append]
    exact (select_gives O (G.cst (h c (by simp)) _ e1)).add (ih (fun c hc => h c (by simp [hc])) as' e2)

theorem ends {o c : Tok} {mid : List Cst} (ho : Quiet o) (hc : Quiet c) : wcL (.tok o :: (mid ++ [.tok c])) = wcL mid := by
  simp [wc_quiet ho, wc_quiet hc]

theorem dropEnds_mid {o c : Cst} {mid : List Cst} : dropEnds (o :: (mid ++ [c])) = .ok mid := by
  cases mid with
  | nil => rfl
  | cons m mid =>
    show Except.ok ((m :: (mid ++ [c])).dropLast) = _
    rw [← List.cons_append, List.dropLast_concat]

theorem group_gives (G : Good env rec H out) (O : Outs env H out) {o c : Tok} {mid : List Cst} (ho : Quiet o) (hc : Quiet c)
    (h : ∀ x ∈ mid, Plain H x) : Sat (fun r => Like env.debug out (wcL (.tok o :: (mid ++ [.tok c]))) (waL r.2)) (groupAst rec (.tok o :: (mid ++ [.tok c]))) := by
  unfold groupAst
  rw [dropEnds_mid, ends ho hc]
  exact Sat.any fun _ => Sat.bind (P := fun m => m = mid) (Sat.ok rfl) fun m hm => Sat.bind (group_args G O (hm ▸ h)) fun as ha => Sat.ok (hm ▸ ha)

theorem missing_gives (G : Good env rec H out) (O : Outs env H out) {o : Tok} {cs : List Cst} (ho : Quiet o)
    (h : ∀ x ∈ cs, Plain H x) : Sat (fun r => Like env.debug out (wcL (.tok o :: cs)) (waL r.2)) (missingAst rec (.tok o :: cs)) := by
  unfold missingAst
  rw [wcL_cons, wc_quiet ho, zero_add]
  exact Sat.any fun _ => Sat.bind (group_args G O h) fun as ha => Sat.ok ha

theorem comma_list (G : Good env rec H out) {ds : List Cst} (h : Plain H (.node (.infix .CodeParser_Comma) ds)) :
    Sat (fun as => Like env.debug out (wc (.node (.infix .CodeParser_Comma) ds)) (waL as)) (mapA (recC rec) (evens ds)) := by
  have := recs G (cs := evens ds) fun c hc => h.kids c (evens_mem' hc)
  cases h.shape with
  | «infix» ha => rwa [alt_evens ha] at this

theorem mid_one {o c m : Cst} {o' c' : Tok} {mid : List Cst} (h : [o, m, c] = .tok o' :: (mid ++ [.tok c'])) : mid = [m] := by
  obtain ⟨rfl, h4⟩ := List.cons.inj h
  rcases mid with _ | ⟨m', _ | ⟨m'', mid⟩⟩
  · simp at h4
  · simp only [List.cons_append, List.nil_append, List.cons.injEq, and_true] at h4
    rw [h4.1]
  · have := congrArg List.length h4
    simp at this

theorem naked_gives (G : Good env rec H out) {err : AbstractError} {o c : Tok} {mid : List Cst} (ho : Quiet o) (hc : Quiet c)
    (h : ∀ x ∈ mid, Plain H x) : Sat (Gives env out (wcL (.tok o :: (mid ++ [.tok c])))) (nakedAst rec err (.tok o :: (mid ++ [.tok c])) data) := by
  rw [ends ho hc]
  rcases mid with _ | ⟨m, _ | ⟨m', mid⟩⟩
  · exact Sat.ok (Like.zero.to rfl (by simp))
  · have hm := h m (by simp)
    rw [wcL_one]
    unfold nakedAst
    simp only [List.cons_append, List.nil_append]
    split
    · exact Sat.bind (comma_list G hm) fun as ha => Sat.ok (ha.to rfl (by simp))
    · exact Sat.bind (G.cst hm) fun a ha => Sat.ok (ha.to rfl (by simp))
  · unfold nakedAst
    split
    · rename_i he; have := congrArg List.length he; simp at this
    · rename_i he; have := congrArg List.length he; simp at this
    · exact Sat.fail

theorem paren_gives (G : Good env rec H out) {o c : Tok} {mid : List Cst} (ho : Quiet o) (hc : Quiet c)
    (h : ∀ x ∈ mid, Plain H x) : Sat (Gives env out (wcL (.tok o :: (mid ++ [.tok c])))) (parenAst rec (.tok o :: (mid ++ [.tok c])) data) := by
  rw [ends ho hc]
  rcases mid with _ | ⟨m, _ | ⟨m', mid⟩⟩
  · exact Sat.ok (Like.zero.to rfl (by simp))
  · have hm := h m (by simp)
    rw [wcL_one]
    unfold parenAst
    simp only [List.cons_append, List.nil_append]
    split
    · exact Sat.bind (comma_list G hm) fun as ha => Sat.ok (ha.to rfl (by simp))
    · exact G.cst hm
  · unfold parenAst
    split
    · rename_i he; have := congrArg List.length he; simp at this
    · rw [dropEnds_mid]
      refine Sat.bind (P := fun x => x = m :: m' :: mid) (Sat.ok rfl) fun x hx => ?_
      subst hx
      exact Sat.bind (recs G h) fun as ha => Sat.ok (ha.to rfl (by simp))

theorem compound_gives (G : Good env rec H out) {op : CompoundOp} {cs : List Cst} (h : Plain H (.node (.compound op) cs)) :
    Sat (Gives env out (wcL cs)) (compoundAst env rec op cs data) := by
  have hk := h.kids
  cases h.shape with
  | @compound _ c d hl =>
  have hc := hk c (by simp)
  have hd := hk d (by simp)
  have lead : leading op = true → wcL [c, d] = wc d := fun ho => by
    obtain ⟨t, rfl, ht⟩ := hl ho
    simp [wc_quiet ht]
  have one : ∀ {op' : Sym}, leading op = true → Sat (Gives env out (wcL [c, d])) (do let a ← rec (.cst d); .ok (.callS op' [a] (.of data))) := fun ho => by
    rw [lead ho]
    exact Sat.bind (G.cst hd) fun a ha => Sat.ok (ha.to rfl (by simp))
  have two : Sat (Gives env out (wcL [c, d])) (do let a ← rec (.cst c); let b ← rec (.cst d); .ok (.callS .System_Pattern [a, b] (.of data))) :=
    Sat.bind (G.cst hc) fun a ha => Sat.bind (G.cst hd) fun b hb => Sat.ok ((ha.add hb).to (by simp) (by simp))
  cases op with
  | Blank => exact one rfl
  | BlankSequence => exact one rfl
  | BlankNullSequence => exact one rfl
  | CodeParser_PatternBlank => exact two
  | CodeParser_PatternBlankSequence => exact two
  | CodeParser_PatternBlankNullSequence => exact two
  | CodeParser_PatternOptionalDefault =>
    show Sat _ (match d with | .tok t => _ | _ => _)
    split
    · rename_i t
      refine Sat.ite (fun ht => Sat.bind (G.cst hc) fun a ha => Sat.ok (ha.to ?_ (by simp))) fun _ => Sat.fail
      simp [wc_kind ht rfl]
    · exact Sat.fail
  | Slot =>
    rw [lead rfl]
    show Sat _ (match d with | .tok t => _ | _ => _)
    split
    · rename_i t
      refine Sat.ite (fun ht => Sat.bind (tokenAst_like t) fun a ha => Sat.ok (ha.to rfl (by simp))) fun _ =>
        Sat.ite (fun ht => Sat.with fun s hs => Sat.ok ?_) fun _ => Sat.fail
      cases Build.asStr_ok hs
      rcases ht with ht | ht
      · rw [wc_word (by rw [ht]; rfl)]
        refine Like.to (Like.one (l := (.String, escapeSymbol env t.text, (t.start, t.stop))) ?_) rfl ?_
        · refine ⟨rfl, ?_⟩
          rw [ht]
          exact Or.inr ⟨rfl, rfl⟩
        · simp only [wa_callS, waL_cons, waL_nil, add_zero]
          exact wa_leaf rfl
      · exact (tok_stands ht (Or.inr (Or.inr rfl))).to rfl (by simp; rfl)
    · exact Sat.fail
  | SlotSequence => exact Sat.ite (fun _ => one rfl) fun _ => Sat.fail
  | Out => exact Sat.ite (fun _ => one rfl) fun _ => Sat.fail

theorem file_gives {c : Cst} : Sat (Gives env out (wc c)) (fileAst env c) := by
  unfold fileAst
  split
  · refine Sat.ite (fun hk => Sat.with fun s hs => Sat.ok ?_) fun _ => Sat.fail
    cases Build.asStr_ok hs
    exact tok_stands hk (Or.inr (Or.inl rfl))
  · exact Sat.fail

theorem two_children {β : Type} {Q : β → Prop} {a b : Cst} {f : Cst × Cst → A β} (h : Sat Q (f (a, b))) : Sat Q (expect2 [a, b] >>= f) := h

theorem prefix_gives (G : Good env rec H out) (O : Outs env H out) {op : PrefixOp} {cs : List Cst} (h : Plain H (.node (.prefix op) cs)) :
    Sat (Gives env out (wcL cs)) (prefixAst env rec op cs data) := by
  obtain ⟨o, c, rfl, ho⟩ := prefix2 h
  have hc := h.kids c (by simp)
  have hoc := h.kids (.tok o) (by simp)
  have he := prefix_words h
  unfold prefixAst
  split
  · rw [he]
    refine two_children ?_
    exact Sat.bind (negate_is c hc) fun g hg => (G.neg hg.1).mono fun a ha => Like.short O hg.2 ha
  · rw [he]
    refine two_children ?_
    exact Sat.bind (flattenPlus_is c hc) fun d hd => Sat.bind (G.cst hd.1) fun a ha => Sat.ok (ha.to hd.2.symm (by simp))
  · rw [he]
    refine two_children ?_
    exact Sat.any fun _ => Sat.bind (G.cst hc) fun a ha => Sat.ok (ha.to rfl (by simp))
  · refine Sat.ite (fun _ => Sat.bind (G.cst hoc) fun a ha => Sat.bind (G.cst hc) fun b hb => Sat.ok ((ha.add hb).to (by simp) (by simp))) fun _ => ?_
    rw [he]
    exact Sat.bind (G.cst hc) fun a ha => Sat.ok (ha.to rfl (by simp))
  · rw [he]
    refine two_children ?_
    exact Sat.bind file_gives fun a ha => Sat.ok (ha.to rfl (by simp))
  · rw [he]
    refine two_children ?_
    exact Sat.bind (G.cst hc) fun a ha => Sat.ok (ha.to rfl (by simp))

theorem postfix_gives (G : Good env rec H out) {op : PostfixOp} {cs : List Cst} (h : Plain H (.node (.postfix op) cs)) :
    Sat (Gives env out (wcL cs)) (postfixAst rec op cs data) := by
  have hk := h.kids
  cases h.shape with
  | @«postfix» _ c o ho =>
  have hc := hk c (by simp)
  have he : wcL [c, .tok o] = wc c := by simp [wc_quiet ho]
  rw [he]
  show Sat _ (match op with | .HermitianConjugate => _ | .Derivative => _ | op => _)
  split
  · exact Sat.bind (G.cst hc) fun a ha => Sat.ok (ha.to rfl (by simp))
  · refine Sat.ite (fun _ => Sat.bind (derivativeBody_is c hc) fun r hr => Sat.bind (G.cst hr.1) fun a ha => Sat.ok (ha.to hr.2.symm (by simp))) fun _ =>
      Sat.ite (fun _ => Sat.any fun s => Sat.bind (G.cst hc) fun a ha => Sat.ok (ha.to rfl (by simp))) fun _ => Sat.fail
  · exact Sat.bind (G.cst hc) fun a ha => Sat.ok (ha.to rfl (by simp))

theorem binary_gives (G : Good env rec H out) (O : Outs env H out) {op : BinaryOp} {cs : List Cst} (h : Plain H (.node (.binary op) cs)) :
    Sat (Gives env out (wcL cs)) (binaryAst env rec op cs data) := by
  have hk := h.kids
  cases h.shape with
  | @binary _ l o r ho _ =>
  have hl := hk l (by simp)
  have hr := hk r (by simp)
  have he : wcL [l, .tok o, r] = wc l + wc r := by simp [wc_quiet ho]
  rw [he]
  unfold binaryAst
  show Sat _ (match op with | .Divide => _ | .CodeParser_BinaryAt => _ | .MapApply => _ | .CodeParser_BinarySlashSlash => _ | .Put | .PutAppend => _ | .Unset => _ | op => _)
  split
  · exact divide_gives G O hl hr
  · exact Sat.bind (G.cst hl) fun a ha => Sat.bind (G.cst hr) fun b hb => Sat.ok ((ha.add hb).to rfl (by simp))
  · exact Sat.bind (G.cst hl) fun a ha => Sat.bind (G.cst hr) fun b hb => Sat.ite (fun _ => Sat.ok ((ha.add hb).to rfl (by simp))) fun _ => Sat.ok ((ha.add hb).to rfl (by simp))
  · exact Sat.bind (G.cst hr) fun a ha => Sat.bind (G.cst hl) fun b hb => Sat.ok ((ha.add hb).to (add_comm _ _) (by simp))
  · exact Sat.bind file_gives fun a ha => Sat.bind (G.cst hl) fun b hb => Sat.ok ((hb.add ha).to rfl (by simp))
  · exact Sat.bind file_gives fun a ha => Sat.bind (G.cst hl) fun b hb => Sat.ok ((hb.add ha).to rfl (by simp))
  · refine Sat.ite (fun hd => Sat.bind (G.cst hl) fun a ha => Sat.ok (ha.to ?_ (by simp))) fun _ => Sat.fail
    simp only [Bool.and_eq_true] at hd
    rw [wc_isTok hd.2 rfl, add_zero]
  · exact Sat.bind (G.cst hl) fun a ha => Sat.bind (G.cst hr) fun b hb => Sat.ite (fun _ => Sat.ok ((ha.add hb).to rfl (by simp))) fun _ => Sat.ok ((ha.add hb).to rfl (by simp))

theorem wcL_reverse (cs : List Cst) : wcL cs.reverse = wcL cs := by
  induction cs with
  | nil => rfl
  | cons c cs ih => simp [ih, add_comm]

theorem infix_gives (G : Good env rec H out) (O : Outs env H out) {op : InfixOp} {cs : List Cst} (h : Plain H (.node (.infix op) cs)) :
    Sat (Gives env out (wcL cs)) (infixAst env rec op cs data) := by
  have hk := h.kids
  have he : ∀ c ∈ evens cs, Plain H c := fun c hc => hk c (evens_mem' hc)
  cases h.shape with
  | «infix» ha =>
  unfold infixAst
  split
  · exact inequality_gives G ha hk
  · exact plus_gives G O ha hk
  · rw [← alt_evens ha]
    refine (times_gives G O he).mono fun a h1 => ?_
    obtain ⟨as, d, rfl, h1⟩ := h1
    exact h1.to rfl (by simp)
  · rw [← alt_evens ha, ← wcL_reverse]
    exact Sat.bind (quirks_give G O (op := .Divisible) fun c hc => he c (by simpa using hc)) fun as h1 => Sat.ok (h1.to rfl (by simp))
  · rw [← alt_evens ha, ← sum_wc]
    refine Sat.bind (P := fun as => Like env.debug out ((evens cs).map wc).sum (waL as)) (Like.mapA fun c hc => ?_) fun as h1 => Sat.ok (h1.to rfl (by simp))
    split
    · rename_i t
      refine Sat.ite (fun ht => Sat.ok ?_) fun _ => G.cst (he _ hc)
      refine Like.to (Like.one (l := (.Symbol, Sym.System_Null.text, (t.start, t.stop))) ?_) (wc_word (by rw [ht]; rfl)) (wa_leaf rfl)
      refine ⟨rfl, ?_⟩
      rw [ht]
      exact Or.inl ⟨rfl, sym_Null⟩
    · exact G.cst (he _ hc)
  · rw [← alt_evens ha]
    exact message_gives G he
  · rw [← alt_evens ha]
    exact tilde_gives G he
  · rw [← alt_evens ha]
    exact Sat.ite (fun _ => Sat.ite (fun _ => Sat.bind (recs G he) fun as h1 => Sat.ok (h1.to rfl (by simp))) fun _ =>
      Sat.bind (quirks_give G O he) fun as h1 => Sat.ok (h1.to rfl (by simp))) fun _ => Sat.fail

theorem five_children {β : Type} {Q : β → Prop} {a b c d e : Cst} {f : Cst × Cst × Cst × Cst × Cst → A β} (h : Sat Q (f (a, b, c, d, e))) :
    Sat Q (expect5 [a, b, c, d, e] >>= f) := h

theorem ternary_gives (G : Good env rec H out) {op : TernaryOp} {cs : List Cst} (h : Plain H (.node (.ternary op) cs)) :
    Sat (Gives env out (wcL cs)) (ternaryAst rec op cs data) := by
  have hk := h.kids
  cases h.shape with
  | @ternary _ l o m o' r ho ho' =>
  have hl := hk l (by simp)
  have hm := hk m (by simp)
  have hr := hk r (by simp)
  have he : wcL [l, .tok o, m, .tok o', r] = wc l + (wc m + wc r) := by simp [wc_quiet ho, wc_quiet ho']
  rw [he]
  have three : ∀ {s : Sym}, Sat (Gives env out (wc l + (wc m + wc r)))
      (do let a ← rec (.cst l); let b ← rec (.cst m); let c ← rec (.cst r); .ok (.callS s [a, b, c] (.of data))) :=
    Sat.bind (G.cst hl) fun a ha => Sat.bind (G.cst hm) fun b hb => Sat.bind (G.cst hr) fun c hc => Sat.ok ((ha.add (hb.add hc)).to rfl (by simp))
  cases op with
  | CodeParser_TernaryTilde =>
    refine Sat.ite (fun hn => ?_) fun _ => ?_
    · cases m with
      | node k ds =>
        simp only [isNode, decide_eq_true_eq] at hn
        subst hn
        refine Sat.with fun b hb => ?_
        obtain ⟨as, d, rfl⟩ := G.commas b hb
        have hb' := G.cst hm _ hb
        refine Sat.bind (P := fun r => r.1 = as) (Sat.ok rfl) fun r hr' => Sat.bind (G.cst hl) fun a ha => Sat.bind (G.cst hr) fun c hc => Sat.ok ?_
        refine (hb'.add (ha.add hc)).to (by rw [add_left_comm]) ?_
        simp [hr']
      | _ => cases hn
    · exact Sat.bind (G.cst hm) fun b hb => Sat.bind (G.cst hl) fun a ha => Sat.bind (G.cst hr) fun c hc =>
        Sat.ok ((hb.add (ha.add hc)).to (by rw [add_left_comm]) (by simp))
  | TagUnset =>
    refine Sat.ite (fun hd => Sat.bind (G.cst hl) fun a ha => Sat.bind (G.cst hm) fun b hb => Sat.ok ((ha.add hb).to ?_ (by simp))) fun _ => Sat.fail
    simp only [Bool.and_eq_true] at hd
    rw [wc_isTok hd.2 rfl, add_zero]
  | CodeParser_TernaryOptionalPattern =>
    exact five_children (Sat.bind (G.cst hl) fun a ha => Sat.bind (G.cst hm) fun b hb => Sat.bind (G.cst hr) fun c hc =>
      Sat.ok ((ha.add (hb.add hc)).to rfl (by simp [add_assoc])))
  | TagSet => exact three
  | TagSetDelayed => exact three
  | Span => exact three

theorem integrate_gives (G : Good env rec H out) {op : PrefixBinaryOp} {cs : List Cst} (h : Plain H (.node (.prefixBinary op) cs)) :
    Sat (Gives env out (wcL cs)) (prefixBinaryAst rec op cs data) := by
  have hk := h.kids
  cases h.shape with
  | @integrate _ o cs ho =>
  rcases cs with _ | ⟨c, _ | ⟨d, _ | ⟨e, cs⟩⟩⟩
  · exact Sat.err
  · exact Sat.err
  · have hc := hk c (by simp)
    have hd := hk d (by simp)
    have he : wcL [.tok o, c, d] = wc c + wc d := by simp [wc_quiet ho]
    rw [he]
    have diff : ∀ {op' : PrefixOp} {ds : List Cst}, d = .node (.prefix op') ds → Sat (Gives env out (wc c + wc d))
        (do let (_, v) ← expect2 ds; let a ← rec (.cst c); let b ← rec (.cst v); .ok (.callS op.toSymbol [a, b] (.of data))) := by
      rintro op' ds rfl
      obtain ⟨o', v, rfl, ho'⟩ := prefix2 hd
      rw [wc_node, prefix_words hd]
      exact two_children (Sat.bind (G.cst hc) fun a ha => Sat.bind (G.cst (hd.kids v (by simp))) fun b hb => Sat.ok ((ha.add hb).to rfl (by simp)))
    show Sat _ (match d with | .node (.prefix .DifferentialD) ds => _ | .node (.prefix .CapitalDifferentialD) ds => _ | d => _)
    split
    · exact diff rfl
    · exact diff rfl
    · exact Sat.bind (G.cst hc) fun a ha => Sat.bind (G.cst hd) fun b hb => Sat.ok ((ha.add hb).to rfl (by simp))
  · exact Sat.err

theorem groupNode_gives (G : Good env rec H out) (O : Outs env H out) {op : GroupOp} {cs : List Cst} (h : Plain H (.node (.group op) cs)) :
    Sat (Gives env out (wcL cs)) (groupNodeAst rec op cs data) := by
  have hk := h.kids
  cases h.shape with
  | @group _ o mid c ho hc _ =>
  have hm : ∀ x ∈ mid, Plain H x := fun x hx => hk x (by simp [hx])
  unfold groupNodeAst
  split
  · exact paren_gives G ho hc hm
  · exact naked_gives G ho hc hm
  · exact naked_gives G ho hc hm
  · exact naked_gives G ho hc hm
  · exact Sat.bind (group_gives G O ho hc hm) fun r hr => Sat.ok (hr.to rfl (by simp))

theorem error_gives (G : Good env rec H out) {err : SyntaxErrorKind} {cs : List Cst} (h : Plain H (.node (.syntaxError err) cs)) :
    Sat (Gives env out (wcL cs)) (syntaxErrorAst rec err cs data) := by
  have hk := h.kids
  cases h.shape with
  | @error _ l o r ho =>
  have he : wcL [l, .tok o, r] = wc l + wc r := by simp [wc_quiet ho]
  rw [he]
  exact Sat.bind (G.cst (hk l (by simp))) fun a ha => Sat.bind (G.cst (hk r (by simp))) fun b hb => Sat.ok ((ha.add hb).to rfl (by simp))

theorem call_gives (G : Good env rec H out) (O : Outs env H out) {h : Cst} {m : Bool} {op : CallOp} {cs : List Cst} (hh : Plain H h)
    (hs : CallShape m cs) (hk : ∀ c ∈ cs, Plain H c) : Sat (Gives env out (wc h + wcL cs)) (callAst rec h m op cs data) := by
  cases hs with
  | @group o mid c ho hc =>
    have hm : ∀ x ∈ mid, Plain H x := fun x hx => hk x (by simp [hx])
    cases op with
    | CodeParser_GroupSquare =>
      show Sat _ (match (Cst.tok o :: (mid ++ [.tok c]))[1]? with | none => _ | some c => _)
      split
      · exact Sat.fail
      · split
        · rename_i x ds hx
          rcases mid with _ | ⟨m, _ | ⟨m', mid⟩⟩
          · cases hx
          · have hx' : m = .node (.group .CodeParser_GroupSquare) ds := by simpa using hx
            subst hx'
            have hd := hm _ (List.mem_singleton.mpr rfl)
            have he : wcL (.tok o :: ([.node (.group .CodeParser_GroupSquare) ds] ++ [.tok c])) = wcL ds := by simp [wc_quiet ho, wc_quiet hc]
            rw [he]
            have hkd := hd.kids
            cases hd.shape with
            | @group _ o' mid' c' ho' hc' _ =>
            exact Sat.any fun _ => Sat.any fun _ => Sat.bind (G.cst hh) fun a ha => Sat.bind (group_gives G O ho' hc' fun x hx => hkd x (by simp [hx])) fun r hr =>
              Sat.ok ((ha.add hr).to rfl (by simp))
          · exact Sat.with fun x hx => by cases mid <;> cases hx
        · exact Sat.any fun _ => Sat.bind (G.cst hh) fun a ha => Sat.bind (group_gives G O ho hc hm) fun r hr => Sat.ok ((ha.add hr).to rfl (by simp))
    | CodeParser_GroupTypeSpecifier =>
      exact Sat.ite (fun _ => Sat.any fun _ => Sat.bind (G.cst hh) fun a ha => Sat.bind (group_gives G O ho hc hm) fun r hr => Sat.ok ((ha.add hr).to rfl (by simp)))
        fun _ => Sat.any fun _ => Sat.any fun _ => Sat.bind (G.cst hh) fun a ha => Sat.bind (group_gives G O ho hc hm) fun r hr => Sat.ok ((ha.add hr).to rfl (by simp))
    | CodeParser_GroupDoubleBracket =>
      exact Sat.any fun _ => Sat.bind (G.cst hh) fun a ha => Sat.bind (group_gives G O ho hc hm) fun r hr => Sat.ok ((ha.add hr).to rfl (by simp))
  | @missing o cs ho =>
    have hm : ∀ x ∈ cs, Plain H x := fun x hx => hk x (by simp [hx])
    cases op with
    | CodeParser_GroupSquare =>
      exact Sat.bind (G.cst hh) fun a ha => Sat.bind (missing_gives G O ho hm) fun r hr => Sat.ok ((ha.add hr).to rfl (by simp))
    | CodeParser_GroupTypeSpecifier =>
      exact Sat.bind (G.cst hh) fun a ha => Sat.bind (missing_gives G O ho hm) fun r hr => Sat.ok ((ha.add hr).to rfl (by simp))
    | CodeParser_GroupDoubleBracket =>
      exact Sat.bind (G.cst hh) fun a ha => Sat.bind (missing_gives G O ho hm) fun r hr => Sat.ok ((ha.add hr).to rfl (by simp))

theorem node_gives (G : Good env rec H out) (O : Outs env H out) {k : NodeKind} {cs : List Cst} (h : Plain H (.node k cs)) :
    Sat (Gives env out (wcL cs)) (nodeAst env rec k cs data) := by
  unfold nodeAst
  split
  · exact prefix_gives G O h
  · exact infix_gives G O h
  · exact postfix_gives G h
  · exact binary_gives G O h
  · exact ternary_gives G h
  · exact integrate_gives G h
  · exact compound_gives G h
  · exact groupNode_gives G O h
  · have hk := h.kids
    cases h.shape with
    | missing ho => exact Sat.bind (missing_gives G O ho fun x hx => hk x (by simp [hx])) fun r hr => Sat.ok (hr.to rfl (by simp))
  · cases h.shape
  · exact error_gives G h

theorem step_good (G : Good env rec H out) (O : Outs env H out) : Good env (Abs.step env rec) H out where
  cst {c} h := by
    unfold Abs.step
    refine Sat.any fun data => ?_
    cases h with
    | tok => exact tokenAst_like _
    | node h1 h2 => exact node_gives G O (.node h1 h2)
    | call h1 h2 h3 =>
      rw [wc_call]
      exact call_gives G O h1 h2 h3
  neg h := negated_gives G O h
  commas := by
    intro cs a h
    unfold Abs.step at h
    simp only at h
    cases h1 : getSource (.node (.infix .CodeParser_Comma) cs) with
    | error e => rw [h1] at h; cases h
    | ok s =>
      rw [h1] at h
      simp only [ok_bind, nodeAst, infixAst] at h
      split at h
      · rw [if_neg (by simp)] at h
        cases h2 : mapA (quirkAst env rec InfixOp.CodeParser_Comma.toSymbol.short) (evens cs) with
        | error e => rw [h2] at h; cases h
        | ok as =>
          rw [h2] at h
          cases h
          exact ⟨_, _, rfl⟩
      · cases h

theorem run_good (O : Outs env H out) : ∀ n, Good env (Abs.run env n) H out
  | 0 => ⟨fun _ => Sat.err, fun _ => Sat.err, Sat.err⟩
  | n + 1 => step_good (run_good O n) O

theorem abstractCst_gives (O : Outs env H out) {c : Cst} (h : Plain H c) : Sat (Gives env out (wc c)) (abstractCst env c) := (run_good O _).cst h
end
end CodeParser.Words
