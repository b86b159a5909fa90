import Verif.Proofs.Meaning2
/-!
Abstraction of written expressions: the forms one by one (helper lemmas for C50).
-/
namespace CodeParser.Mean
open CodeParser Spec Props Abs

variable {env : AEnv}

theorem runs_node {k : NodeKind} {cs : List Cst} {a : Ast} (h : Runs env (.cst (.node k cs)) a) :
    ∃ rec : Req → A Ast, (∀ r a, rec r = .ok a → Runs env r a) ∧ ∃ data, nodeAst env rec k cs data = .ok a := by
  obtain ⟨rec, hrec, h⟩ := h.step
  simp only [Abs.step, bind_ok] at h
  obtain ⟨data, -, h⟩ := h
  exact ⟨rec, hrec, data, h⟩

theorem runs_call {hd : Cst} {m : Bool} {op : CallOp} {cs : List Cst} {a : Ast} (h : Runs env (.cst (.callAgg hd m op cs)) a) :
    ∃ rec : Req → A Ast, (∀ r a, rec r = .ok a → Runs env r a) ∧ ∃ data, callAst rec hd m op cs data = .ok a := by
  obtain ⟨rec, hrec, h⟩ := h.step
  simp only [Abs.step, bind_ok] at h
  obtain ⟨data, -, h⟩ := h
  exact ⟨rec, hrec, data, h⟩

/-! ### Names -/

def nameByte (b : UInt8) : Bool := isNameChar b.toNat || b == 96

theorem renamed_odd : ∀ r ∈ renamed, ∃ b ∈ utf8 r.1, nameByte b = false := by decide +kernel

theorem name_char {c : Char} (h : isNameChar c.toNat = true) : nameByte (byte c) = true := by
  unfold nameByte byte
  have : c.toNat < 256 := by
    simp only [isNameChar, isNameStart, Bool.or_eq_true, Bool.and_eq_true, decide_eq_true_eq, beq_iff_eq] at h
    omega
  rw [UInt8.toNat_ofNat', Nat.mod_eq_of_lt this, h]; rfl

theorem segment_bytes {s : List Char} (h : Segment s) : ∀ c ∈ s, nameByte (byte c) = true := by
  obtain ⟨c, q, rfl, h1, h2⟩ := h
  intro x hx
  rcases List.mem_cons.mp hx with rfl | hx
  · exact name_char (by unfold isNameChar; rw [h1]; rfl)
  · exact name_char (h2 x hx)

theorem contexts_bytes {segs : List (List Char)} (h : ∀ s ∈ segs, Segment s) : ∀ c ∈ contexts segs, nameByte (byte c) = true := by
  intro c hc
  simp only [contexts, List.mem_flatMap] at hc
  obtain ⟨s, hs, hc⟩ := hc
  rcases List.mem_cons.mp hc with rfl | hc
  · decide
  · exact segment_bytes (h s hs) c hc

theorem name_bytes {n : List Char} (h : Name n) : ∀ b ∈ bytes n, nameByte b = true := by
  intro b hb
  obtain ⟨c, hc, rfl⟩ := List.mem_map.mp hb
  cases h with
  | plain h1 h2 =>
    rcases List.mem_append.mp hc with hc | hc
    · exact segment_bytes h1 c hc
    · exact contexts_bytes h2 c hc
  | relative h1 h2 => exact contexts_bytes h2 c hc

theorem renamed_list : renamed.map (fun r => (r.1, r.2.text)) =
    constants.flatMap (fun c => (spellings c.1 c.2.1).map fun s => (s, utf8 c.2.2.toList)) := by decide +kernel

theorem find_flat {α β γ : Type} (f : α → List β) (p : β → Bool) (g : α → β → γ) : ∀ l : List α,
    ((l.flatMap fun c => (f c).map fun s => (s, g c s)).find? fun r => p r.1) = (l.find? fun c => (f c).any p).bind fun c =>
      ((f c).map fun s => (s, g c s)).find? fun r => p r.1
  | [] => rfl
  | c :: l => by
    rw [List.flatMap_cons, List.find?_append, List.find?_cons]
    cases h : (f c).any p with
    | true =>
      have : (((f c).map fun s => (s, g c s)).find? fun r => p r.1).isSome = true := by
        rw [List.find?_isSome]
        obtain ⟨s, h1, h2⟩ := List.any_eq_true.mp h
        exact ⟨(s, g c s), List.mem_map.mpr ⟨s, h1, rfl⟩, h2⟩
      obtain ⟨x, hx⟩ := Option.isSome_iff_exists.mp this
      show _ = Option.bind (some c) _
      rw [hx]
      exact hx.symm
    | false =>
      have : (((f c).map fun s => (s, g c s)).find? fun r => p r.1) = none := by
        rw [List.find?_eq_none]
        intro x hx hp
        obtain ⟨s, h1, rfl⟩ := List.mem_map.mp hx
        rw [List.any_eq_false] at h
        exact h s h1 hp
      rw [this]
      exact find_flat f p g l

theorem renamed_find (text : List UInt8) : (renamed.find? fun r => decide (utf8 r.1 = text)).map (fun r => r.2.text) =
    (constant text).map fun s => utf8 s.toList := by
  have h1 : (renamed.find? fun r => decide (utf8 r.1 = text)).map (fun r => (r.1, r.2.text)) =
      (renamed.map fun r => (r.1, r.2.text)).find? fun r => utf8 r.1 == text := by
    rw [List.find?_map]
    congr 2
    funext r
    show _ = (utf8 r.1 == text)
    exact (beq_eq_decide _ _).symm
  have h2 : (renamed.find? fun r => decide (utf8 r.1 = text)).map (fun r => r.2.text) =
      ((renamed.find? fun r => decide (utf8 r.1 = text)).map (fun r => (r.1, r.2.text))).map (·.2) := by
    rw [Option.map_map]; rfl
  rw [h2, h1, renamed_list, find_flat (fun c : Nat × String × String => spellings c.1 c.2.1) (fun s => utf8 s == text) (fun c _ => utf8 c.2.2.toList)]
  unfold constant
  rcases hc : constants.find? (fun c => (spellings c.1 c.2.1).any fun s => utf8 s == text) with _ | c
  · rw [hc]; rfl
  · have hs := List.find?_some hc
    rw [hc]
    show Option.map _ (List.find? _ _) = _
    have : (((spellings c.1 c.2.1).map fun s => (s, utf8 c.2.2.toList)).find? fun r => utf8 r.1 == text).isSome = true := by
      rw [List.find?_isSome]
      obtain ⟨s, h1, h2⟩ := List.any_eq_true.mp hs
      exact ⟨(s, _), List.mem_map.mpr ⟨s, h1, rfl⟩, h2⟩
    obtain ⟨x, hx⟩ := Option.isSome_iff_exists.mp this
    rw [hx]
    obtain ⟨s, -, rfl⟩ := List.mem_map.mp (List.mem_of_find?_eq_some hx)
    rfl

theorem renamed_none {text : List UInt8} (h : renamed.find? (fun r => decide (utf8 r.1 = text)) = none) : constant text = none := by
  have := renamed_find text
  rw [h] at this
  cases hc : constant text with
  | none => rfl
  | some s => rw [hc] at this; cases this

theorem renamed_some {text : List UInt8} {r : List Char × Sym} (h : renamed.find? (fun r => decide (utf8 r.1 = text)) = some r) :
    ∃ s, constant text = some s ∧ ∀ data, erase (.symbol r.2 data) = word s := by
  have := renamed_find text
  rw [h] at this
  cases hc : constant text with
  | none => rw [hc] at this; cases this
  | some s =>
    rw [hc] at this
    refine ⟨s, rfl, fun data => ?_⟩
    show Expr.leaf .Symbol r.2.text = Expr.leaf .Symbol _
    have e : r.2.text = utf8 s.toList := Option.some.inj this
    rw [e]

theorem name_renamed {n : List Char} (h : Name n) : renamed.find? (fun r => decide (utf8 r.1 = bytes n)) = none := by
  rw [List.find?_eq_none]
  intro r hr he
  obtain ⟨b, hb, h1⟩ := renamed_odd r hr
  rw [of_decide_eq_true he] at hb
  rw [name_bytes h b hb] at h1
  cases h1

/-! ### Atoms -/

theorem matches_none {p : UInt8} {ps : List UInt8} (h : p ≠ 37) : ∀ n, countMatches (p :: ps) 0 (List.replicate n 37) = 0
  | 0 => rfl
  | n + 1 => by
    rw [List.replicate_succ, countMatches, if_neg (by simp [h]), matches_none h n]

theorem matches_all : ∀ n, countMatches [37] 0 (List.replicate n 37) = n
  | 0 => rfl
  | n + 1 => by
    rw [List.replicate_succ, countMatches, if_pos (by simp)]
    show countMatches [37] 0 _ + 1 = _
    rw [matches_all n]

theorem percents_all (n : Nat) : Abs.percents (List.replicate n 37) = n := by
  have e1 : utf8 ['%'] = [37] := by decide
  have e2 : utf8 ['\\','.','2','5'] = 92 :: utf8 ['.','2','5'] := by decide
  have e3 : utf8 ['\\',':','0','0','2','5'] = 92 :: utf8 [':','0','0','2','5'] := by decide
  have e4 : utf8 ['\\','|','0','0','0','0','2','5'] = 92 :: utf8 ['|','0','0','0','0','2','5'] := by decide
  have e5 : utf8 ['\\','0','4','5'] = 92 :: utf8 ['0','4','5'] := by decide
  have e6 : utf8 ['\\','[','R','a','w','P','e','r','c','e','n','t',']'] = 92 :: utf8 ['[','R','a','w','P','e','r','c','e','n','t',']'] := by
    decide
  unfold Abs.percents
  rw [e1, e2, e3, e4, e5, e6, matches_all, matches_none (by decide), matches_none (by decide), matches_none (by decide),
    matches_none (by decide), matches_none (by decide)]
  omega

/-- The text of `%%`. -/
def OkLex (x : Lexeme) : Prop :=
    (x.1 = .PercentPercent → ∃ n, x.2 = List.replicate (n + 1) (byte '%'))

theorem atom_value {x : Lexeme} {t : Tok} (ha : atomKind x.1 = true) (hx : OkLex x) (h1 : t.kind = x.1) (h2 : t.text = x.2) {a : Ast}
    (h : Runs env (.cst (.tok t)) a) : erase a = atomExpr x := by
  obtain ⟨rec, hrec, h⟩ := h.step
  simp only [Abs.step, bind_ok] at h
  obtain ⟨data, -, h⟩ := h
  have hp := hx
  obtain ⟨k, s⟩ := x
  simp only at h1 h2 ha hp
  subst h1 h2
  have hk : t.kind = .Symbol ∨ (t.kind = .String ∨ t.kind = .Integer ∨ t.kind = .Real ∨ t.kind = .Rational) ∨
      t.kind = .PercentPercent ∨ t.kind = .Under ∨ t.kind = .UnderUnder ∨ t.kind = .UnderUnderUnder ∨ t.kind = .UnderDot ∨
      t.kind = .Hash ∨ t.kind = .HashHash ∨ t.kind = .Percent := by
    revert ha
    cases t.kind <;> simp [atomKind]
  unfold atomExpr
  rcases hk with hk | hk | hk | hk
  · simp only [tokenAst, hk] at h
    rw [if_neg (by decide), if_pos trivial] at h
    simp only [bind_ok] at h
    obtain ⟨s, h1, h⟩ := h
    obtain rfl := asStr_ok' h1
    rw [hk]
    show _ = match constant t.text with | some s => word s | none => .leaf .Symbol t.text
    rcases hc : renamed.find? (fun r => decide (utf8 r.1 = t.text)) with _ | r
    · rw [hc] at h
      rw [renamed_none hc]
      cases h
      rw [← hk]
      rfl
    · rw [hc] at h
      obtain ⟨s, h1, h2⟩ := renamed_some hc
      rw [h1]
      cases h
      exact h2 _
  · rcases hk with hk | hk | hk | hk
    all_goals
      simp only [tokenAst, hk] at h
      rw [if_neg (by decide), if_neg (by decide)] at h
      cases h
      rw [hk]; rfl
  · simp only [tokenAst, hk, bind_ok] at h
    obtain ⟨s, h1, h⟩ := h
    obtain rfl := asStr_ok' h1
    obtain ⟨n, e⟩ := hp hk
    have e : t.text = _ := e
    cases h
    simp only [hk]
    rw [e, show List.replicate (n + 1) (byte '%') = List.replicate (n + 1) 37 from rfl, percents_all, List.length_replicate, erase_callS,
      w_Out]
    rfl
  · rcases hk with hk | hk | hk | hk | hk | hk | hk
    all_goals
      simp only [tokenAst, hk] at h
      cases h
      simp only [hk, blankExpr, slotExpr]
      simp only [erase_callS, w_Blank, w_BlankSequence, w_BlankNullSequence, w_Optional, w_Slot, w_SlotSequence, w_Out, List.map_cons,
        List.map_nil, erase_nat]

theorem tok_calm {t : Tok} : Calm env (.tok t) :=
  ⟨fun _ => rfl, fun _ => by unfold binaryAt; split <;> rfl, rfl, rfl⟩

theorem sound_atom (hq : env.flattenTimes = false) {x : Lexeme} {t : Tok} (ha : atomKind x.1 = true) (hx : OkLex x) (h1 : t.kind = x.1)
    (h2 : t.text = x.2) : Sound env (.atom x) (.tok t) := by
  have hv : ∀ a, Runs env (.cst (.tok t)) a → erase a = (Form.atom x).expr (quirks env) .value := fun a h => atom_value ha hx h1 h2 h
  refine sound_calm tok_calm ?_ ?_ ?_ ?_ hv
  · intro r hr
    cases r <;> first | rfl | exact absurd rfl hr
  · intro g s a hg h
    rw [negate] at hg
    rw [Form.expr]
    by_cases hi : t.kind = .Integer
    · simp only [hi, if_true, bind_ok] at hg
      obtain ⟨u, hu, hg⟩ := hg
      obtain rfl := asStr_ok' hu
      rw [← h1, hi]
      simp only [true_or, if_true, negativeNumber, ← h1, hi, true_and, ← h2]
      rw [show ([byte '0'] : List UInt8) = [48] from rfl]
      cases hg
      obtain ⟨rec, hrec, h⟩ := h.step
      by_cases h0 : t.text = [48]
      · rw [if_pos h0] at h
        simp only [Abs.step, negatedAst] at h
        cases h
        rw [if_pos h0, h0]; rfl
      · rw [if_neg h0] at h
        simp only [Abs.step, negatedAst, bind_ok] at h
        obtain ⟨s, h3, h⟩ := h
        obtain rfl := asStr_ok' h3
        cases h
        rw [if_neg h0]; rfl
    · rw [if_neg hi] at hg
      by_cases hr : t.kind = .Real
      · rw [if_pos hr] at hg
        cases hg
        obtain ⟨rec, hrec, h⟩ := h.step
        simp only [Abs.step, negatedAst, bind_ok] at h
        obtain ⟨s, h3, h⟩ := h
        obtain rfl := asStr_ok' h3
        cases h
        simp only [← h1, hr, or_true, if_true, negativeNumber, ← h2]
        rfl
      · rw [if_neg hr] at hg
        cases hg
        obtain ⟨b, h3, h4⟩ := runs_times hq h rfl (tok_calm.at' _)
        rw [h4, atom_value ha hx h1 h2 h3]
        rw [← h1, if_neg (by simp [hi, hr])]
  · intro b hb
    rw [numberQ] at hb
    cases hb
    rw [Form.isNumber, ← h1]
    by_cases hi : t.kind = .Integer <;> by_cases hr : t.kind = .Real <;> simp [hi, hr]
  · intro b hb
    rw [zeroQ] at hb
    rw [Form.isZero, ← h1, ← h2]
    split at hb
    · next hi =>
      simp only [bind_ok] at hb
      obtain ⟨s, h3, hb⟩ := hb
      obtain rfl := asStr_ok' h3
      cases hb
      by_cases h0 : t.text = [48]
      · rw [hi, h0]; rfl
      · have : (t.text == [byte '0']) = false := by
          rw [show ([byte '0'] : List UInt8) = [48] from rfl]; simpa using h0
        rw [this]; simp [h0]
    · next hi =>
      cases hb
      simp [hi]

/-! ### What is between brackets -/

/-- What is between brackets is sound. -/
def SoundB (env : AEnv) (b : Body) (mid : List Cst) : Prop :=
  ∀ rec : Req → A Ast, (∀ r a, rec r = .ok a → Runs env r a) → ∀ as, groupArgs rec mid = .ok as → as.map erase = b.exprs (quirks env)

theorem select_single {a : Ast} (h : isComma (erase a) = false) : selectChildren a = [a] := by
  unfold selectChildren
  split
  · split
    · split
      · next k s _ hk =>
        rw [erase_call] at h
        simp only [erase, isComma, hk.1, hk.2, BEq.rfl, Bool.true_and] at h
        exact absurd h (by decide +kernel)
      · rfl
    · rfl
  · rfl

theorem soundB_empty : SoundB env .empty [] := by
  intro rec hrec as h
  simp only [groupArgs, bind_ok] at h
  obtain ⟨bs, h1, h2⟩ := h
  obtain rfl := mapA_nil_ok h1
  cases h2
  rfl

theorem soundB_one {f : Spec.Form} {c : Cst} (hs : Sound env f c) (hc : isComma (f.expr (quirks env) .value) = false) :
    SoundB env (.one f) [c] := by
  intro rec hrec as h
  simp only [groupArgs, bind_ok] at h
  obtain ⟨bs, h1, h2⟩ := h
  obtain ⟨x, xs, h3, h4, rfl⟩ := mapA_cons_ok h1
  obtain rfl := mapA_nil_ok h4
  cases h2
  have hx := hs.value x (hrec _ _ h3)
  rw [List.flatMap_cons, select_single (hx ▸ hc)]
  show [erase x] = _
  rw [hx]; rfl

theorem operand_value {q : Quirks} {f : Spec.Form} {name : List UInt8} (h : q.operandAt = true → f.isAt name = false) :
    f.expr q (.operand name) = f.expr q .value := by
  cases f with
  | binary l o r =>
    simp only [Form.expr, Role.swallows]
    rw [if_neg]
    · rfl
    · rintro ⟨h1, h2, h3⟩
      have := h h1
      simp [Form.isAt, h2, h3] at this
  | atom => rfl
  | group o b =>
    simp only [Form.expr]
    split
    · cases b <;> rfl
    · rfl
  | call f o b =>
    simp only [Form.expr]
    split <;> rfl
  | chain op p f t =>
    simp only [Form.expr]
    split <;> rfl
  | «prefix» o f =>
    simp only [Form.expr]
    split <;> rfl
  | «postfix» f o =>
    simp only [Form.expr]
    split <;> rfl
  | compound | semi | ternary | unset | tagUnset | pattern | optional | span | spanFrom => rfl

/-- An operator whose operands are not special. -/
theorem infix_other {op : InfixOp} (h : op ≠ .CodeParser_InfixInequality ∧ op ≠ .Plus ∧ op ≠ .Times ∧ op ≠ .Divisible ∧
    op ≠ .CompoundExpression ∧ op ≠ .MessageName ∧ op ≠ .CodeParser_InfixTilde ∧ op ≠ .SameQ ∧ op ≠ .UnsameQ)
    {rec : Req → A Ast} {cs : List Cst} {data : ASrc} {a : Ast} (ha : infixAst env rec op cs data = .ok a) :
    ∃ as, mapA (quirkAst env rec op.toSymbol.short) (evens cs) = .ok as ∧ a = .callS op.toSymbol as (.of data) := by
  unfold infixAst at ha
  split at ha
  any_goals simp at h
  split at ha
  · rw [if_neg (by simp [h])] at ha
    simp only [bind_ok] at ha
    obtain ⟨as, h1, h2⟩ := ha
    cases h2
    exact ⟨as, h1, rfl⟩
  · cases ha

theorem soundB_many {f : Spec.Form} {t : Tail} {c : Cst} {cs : List Cst} (hs : Sound env f c) (ht : SoundT env t cs)
    (hc : env.infixBinaryAt = true → f.isAt (utf8 "Comma".toList) = false ∧ t.Each fun _ f => f.isAt (utf8 "Comma".toList) = false) :
    SoundB env (.many f t) [.node (.infix .CodeParser_Comma) (c :: cs)] := by
  intro rec hrec as h
  simp only [groupArgs, bind_ok] at h
  obtain ⟨bs, h1, h2⟩ := h
  obtain ⟨x, xs, h3, h4, rfl⟩ := mapA_cons_ok h1
  obtain rfl := mapA_nil_ok h4
  cases h2
  obtain ⟨rec', hrec', data, h5⟩ := runs_node (hrec _ _ h3)
  have h5 : infixAst env rec' .CodeParser_Comma (c :: cs) data = .ok x := h5
  obtain ⟨as, h6, rfl⟩ := infix_other (by decide) h5
  obtain ⟨ps, rfl, hps⟩ := ht
  rw [evens_links] at h6
  obtain ⟨y, ys, h7, h8, rfl⟩ := mapA_cons_ok h6
  have e1 : InfixOp.CodeParser_Comma.toSymbol.short = utf8 "Comma".toList := by decide +kernel
  rw [e1] at h7 h8
  have e2 := operands hrec' hps h8
  simp only [quirkAst, bind_ok] at h7
  obtain ⟨d', h7, h9⟩ := h7
  have e3 := hs.operand _ _ _ h7 (hrec' _ _ h9)
  have e4 : selectChildren (.callS InfixOp.CodeParser_Comma.toSymbol (y :: ys) (.of data)) = y :: ys := by
    simp only [Ast.callS, Ast.symbol, selectChildren]
    rw [if_pos ⟨trivial, rfl⟩]
  rw [List.flatMap_cons, e4, List.flatMap_nil, List.append_nil, List.map_cons, e2, e3, Body.exprs, exprs_list]
  congr 1
  · exact operand_value fun h => (hc h).1
  · refine List.map_congr_left fun x hx => operand_value fun h => each_list (hc h).2 x hx

/-! ### Brackets and calls -/

theorem group_ordinary {op : GroupOp} {cs : List Cst} (h : op ≠ .CodeParser_GroupParen) : Ordinary (.node (.group op) cs) := by
  refine ⟨by simp, by simp, by simp, by simp, by simp, ?_⟩
  intro h'
  cases h'
  exact h rfl

theorem groupNode_other {op : GroupOp} (h1 : op ≠ .CodeParser_GroupParen) (h2 : op ≠ .CodeParser_GroupSquare)
    (h3 : op ≠ .CodeParser_GroupDoubleBracket) (h4 : op ≠ .CodeParser_GroupTypeSpecifier) {rec : Req → A Ast} {cs : List Cst}
    {data : ASrc} {a : Ast} (h : groupNodeAst rec op cs data = .ok a) :
    ∃ d as, groupAst rec cs = .ok (d, as) ∧ a = .call (.symbol op.toSymbol) as (.of d) := by
  unfold groupNodeAst at h
  split at h
  · exact absurd rfl h1
  · exact absurd rfl h2
  · exact absurd rfl h4
  · exact absurd rfl h3
  · simp only [bind_ok] at h
    obtain ⟨⟨d, as⟩, h5, h6⟩ := h
    cases h6
    exact ⟨d, as, h5, rfl⟩

theorem groupAst_mid {rec : Req → A Ast} {s e : Tok} {mid : List Cst} {d : ASrc} {as : List Ast}
    (h : groupAst rec (.tok s :: (mid ++ [.tok e])) = .ok (d, as)) : groupArgs rec mid = .ok as := by
  simp only [groupAst, bind_ok, dropEnds_ok] at h
  obtain ⟨_, -, _, h1, as', h2, h3⟩ := h
  cases h1
  cases h3
  exact h2

theorem sound_group (hq : env.flattenTimes = false) {o : Bracket} {b : Body} {s e : Tok} {mid : List Cst}
    (h1 : o.op ≠ .CodeParser_GroupParen) (h2 : o.op ≠ .CodeParser_GroupSquare)
    (h3 : o.op ≠ .CodeParser_GroupDoubleBracket) (h4 : o.op ≠ .CodeParser_GroupTypeSpecifier) (hb : SoundB env b mid) :
    Sound env (.group o b) (.node (.group o.op) (.tok s :: (mid ++ [.tok e]))) := by
  refine sound_ordinary hq (group_ordinary h1) (fun r => ?_) ?_ ?_ fun a h => ?_
  · simp only [Form.expr, if_neg h1]; rfl
  · cases b <;> simp [Form.isNumber, h1]
  · cases b <;> simp [Form.isZero, h1]
  · obtain ⟨rec, hrec, data, h⟩ := runs_node h
    obtain ⟨d, as, h5, rfl⟩ := groupNode_other h1 h2 h3 h4 h
    rw [erase_call, hb rec hrec as (groupAst_mid h5), Form.expr, if_neg h1]
    rfl

theorem rep_compound {c : Compound} {d : Cst} (h : RepC c d) : ∃ op cs, d = .node (.compound op) cs := by
  cases c with
  | blank => obtain ⟨_, _, rfl, -⟩ := h; exact ⟨_, _, rfl⟩
  | named => obtain ⟨_, _, rfl, -⟩ := h; exact ⟨_, _, rfl⟩
  | typed => obtain ⟨_, _, _, rfl, -⟩ := h; exact ⟨_, _, rfl⟩
  | slot => obtain ⟨_, _, rfl, -⟩ := h; exact ⟨_, _, rfl⟩
  | slotName => obtain ⟨_, _, rfl, -⟩ := h; exact ⟨_, _, rfl⟩

theorem reach_kind (e : Reach) : e.kind = .binary .Span ∨ e.kind = .ternary .Span := by
  cases e <;> simp [Reach.kind]

/-- The tree is not a list with commas. -/
theorem rep_comma {f : Spec.Form} {c : Cst} (hr : Rep f c) (hf : ∀ p g t, f ≠ .chain .CodeParser_Comma p g t) :
    ∀ ds, c ≠ .node (.infix .CodeParser_Comma) ds := by
  rintro ds rfl
  cases f with
  | chain op p g t =>
    obtain ⟨_, _, h, -⟩ := hr
    cases h
    exact hf _ _ _ rfl
  | atom => obtain ⟨_, h, -⟩ := hr; cases h
  | group => obtain ⟨_, _, _, h, -⟩ := hr; cases h
  | call => obtain ⟨_, _, _, _, h, -⟩ := hr; cases h
  | binary => obtain ⟨_, _, _, h, -⟩ := hr; cases h
  | «prefix» => obtain ⟨_, _, h, -⟩ := hr; cases h
  | «postfix» => obtain ⟨_, _, h, -⟩ := hr; cases h
  | compound => obtain ⟨_, _, h⟩ := rep_compound hr; cases h
  | semi => obtain ⟨_, _, h, -⟩ := hr; cases h
  | ternary => obtain ⟨_, _, _, _, _, h, -⟩ := hr; cases h
  | unset => obtain ⟨_, _, _, h, -⟩ := hr; cases h
  | tagUnset => obtain ⟨_, _, _, _, _, h, -⟩ := hr; cases h
  | pattern => obtain ⟨_, _, _, h, -⟩ := hr; cases h
  | optional => obtain ⟨_, _, _, h, -⟩ := hr; cases h
  | span _ _ e | spanFrom _ e => obtain ⟨_, _, _, h, -⟩ := hr; rcases reach_kind e with he | he <;> (rw [he] at h; cases h)

theorem sound_paren (hq : env.flattenTimes = false) {o : Bracket} {f : Spec.Form} {s e : Tok} {c : Cst}
    (h1 : o.op = .CodeParser_GroupParen) (hs : Sound env f c) (hc : ∀ ds, c ≠ .node (.infix .CodeParser_Comma) ds) :
    Sound env (.group o (.one f)) (.node (.group o.op) [.tok s, c, .tok e]) := by
  rw [h1]
  have hcalm : Calm env (.node (.group .CodeParser_GroupParen) [.tok s, c, .tok e]) :=
    ⟨fun _ => rfl, fun _ => by unfold binaryAt; split <;> rfl, rfl, rfl⟩
  have hv : ∀ a, Runs env (.cst (.node (.group .CodeParser_GroupParen) [.tok s, c, .tok e])) a → erase a = f.expr (quirks env) .value := by
    intro a h
    obtain ⟨rec, hrec, data, h⟩ := runs_node h
    simp only [nodeAst, groupNodeAst, parenAst] at h
    exact hs.value a (hrec _ _ h)
  refine sound_calm hcalm ?_ ?_ ?_ ?_ fun a h => ?_
  · intro r hr
    rw [Form.expr, if_pos h1, Form.expr, if_pos h1, Body.inParens, Body.inParens]
    · rfl
    · intro h; cases h
    · exact hr
  · intro g s' a hg h
    rw [Form.expr, if_pos h1, Body.inParens]
    simp only [negate, if_true, bind_ok] at hg
    obtain ⟨z, hz, hg⟩ := hg
    obtain rfl := hs.zero z hz
    cases hzf : f.isZero with
    | true =>
      rw [hzf, if_pos rfl] at hg
      simp only [or_true, if_true]
      exact hs.neg g s' a hg h
    | false =>
      rw [hzf, if_neg (by decide)] at hg
      simp only [bind_ok] at hg
      obtain ⟨n, hn, hg⟩ := hg
      obtain rfl := hs.number n hn
      cases hnf : f.isNumber with
      | true =>
        rw [hnf, if_pos rfl] at hg
        simp only [true_or, if_true]
        exact hs.neg g s' a hg h
      | false =>
        rw [hnf, if_neg (by decide)] at hg
        cases hg
        obtain ⟨b, h3, h4⟩ := runs_times hq h (hcalm.flat _) (hcalm.at' _)
        rw [h4, hv b h3]
        simp
  · intro b hb
    rw [numberQ, if_pos rfl] at hb
    rw [Form.isNumber, hs.number b hb, h1]; rfl
  · intro b hb
    rw [zeroQ, if_pos rfl] at hb
    rw [Form.isZero, hs.zero b hb, h1]; rfl
  · rw [hv a h, Form.expr, if_pos h1]; rfl


theorem call_ordinary {h : Cst} {m : Bool} {op : CallOp} {cs : List Cst} : Ordinary (.callAgg h m op cs) := trivial

/-- The tree is not a group with square brackets. -/
theorem rep_square {b : Body} {mid : List Cst} (hr : RepB b mid) (hb : b.double = false) :
    ∀ ds, mid[0]? ≠ some (.node (.group .CodeParser_GroupSquare) ds) := by
  intro ds h
  cases b with
  | empty => cases hr; cases h
  | many f t => obtain ⟨_, _, rfl, -⟩ := hr; cases h
  | gaps f t => obtain ⟨_, _, rfl⟩ := hr; cases h
  | gap t => obtain ⟨_, _, rfl⟩ := hr; cases h
  | one f =>
    obtain ⟨c, rfl, hr⟩ := hr
    cases h
    cases f with
    | group o b =>
      obtain ⟨_, _, _, h, -⟩ := hr
      simp only [Body.double, beq_eq_false_iff_ne, ne_eq] at hb
      simp only [Cst.node.injEq, NodeKind.group.injEq] at h
      exact hb h.1.symm
    | atom => obtain ⟨_, h, -⟩ := hr; cases h
    | chain => obtain ⟨_, _, h, -⟩ := hr; cases h
    | call => obtain ⟨_, _, _, _, h, -⟩ := hr; cases h
    | binary => obtain ⟨_, _, _, h, -⟩ := hr; cases h
    | «prefix» => obtain ⟨_, _, h, -⟩ := hr; cases h
    | «postfix» => obtain ⟨_, _, h, -⟩ := hr; cases h
    | compound => obtain ⟨_, _, h⟩ := rep_compound hr; cases h
    | semi => obtain ⟨_, _, h, -⟩ := hr; cases h
    | ternary => obtain ⟨_, _, _, _, _, h, -⟩ := hr; cases h
    | unset => obtain ⟨_, _, _, h, -⟩ := hr; cases h
    | tagUnset => obtain ⟨_, _, _, _, _, h, -⟩ := hr; cases h
    | pattern => obtain ⟨_, _, _, h, -⟩ := hr; cases h
    | optional => obtain ⟨_, _, _, h, -⟩ := hr; cases h
    | span _ _ e | spanFrom _ e => obtain ⟨_, _, _, h, -⟩ := hr; rcases reach_kind e with he | he <;> (rw [he] at h; cases h)

theorem getElem_mid {s e : Tok} {mid : List Cst} : (Cst.tok s :: (mid ++ [Cst.tok e]))[1]? = (mid ++ [Cst.tok e])[0]? := rfl

theorem call_single {rec : Req → A Ast} {h : Cst} {s e : Tok} {mid : List Cst} {data : ASrc} {a : Ast} {op : CallOp}
    (hsq : op = .CodeParser_GroupSquare → ∀ ds, mid[0]? ≠ some (.node (.group .CodeParser_GroupSquare) ds))
    (ha : callAst rec h false op (.tok s :: (mid ++ [.tok e])) data = .ok a) :
    ∃ x as, rec (.cst h) = .ok x ∧ groupArgs rec mid = .ok as ∧ erase a = callExpr op false (erase x) (as.map erase) := by
  cases op with
  | CodeParser_GroupSquare =>
    simp only [callAst] at ha
    split at ha
    · cases ha
    · next c hc =>
      split at ha
      · next ds =>
        exfalso
        rw [getElem_mid] at hc
        cases mid with
        | nil => cases hc
        | cons m mid => exact hsq rfl ds hc
      · simp only [bind_ok] at ha
        obtain ⟨_, -, x, hx, ⟨d, as⟩, hg, ha⟩ := ha
        cases ha
        exact ⟨x, as, hx, groupAst_mid hg, by rw [erase_call]; rfl⟩
  | CodeParser_GroupTypeSpecifier =>
    have key : ∀ dt, (do
        let a ← rec (.cst h)
        let (_, as) ← groupAst rec (Cst.tok s :: (mid ++ [Cst.tok e]))
        (.ok (Ast.call (.callS .System_TypeSpecifier [a] .none) as dt) : A Ast)) = .ok a →
        ∃ x as, rec (.cst h) = .ok x ∧ groupArgs rec mid = .ok as ∧
          erase a = callExpr .CodeParser_GroupTypeSpecifier false (erase x) (as.map erase) := by
      intro dt ha
      simp only [bind_ok] at ha
      obtain ⟨x, hx, ⟨d, as⟩, hg, ha⟩ := ha
      cases ha
      refine ⟨x, as, hx, groupAst_mid hg, ?_⟩
      rw [erase_call, erase_callS, w_TypeSpecifier]; rfl
    simp only [callAst] at ha
    split at ha
    · exact key _ ha
    · rw [bind_ok] at ha
      obtain ⟨s, -, ha⟩ := ha
      exact key _ ha
  | CodeParser_GroupDoubleBracket =>
    simp only [callAst, bind_ok] at ha
    obtain ⟨_, -, x, hx, ⟨d, as⟩, hg, ha⟩ := ha
    cases ha
    refine ⟨x, as, hx, groupAst_mid hg, ?_⟩
    rw [erase_callS, w_Part]; rfl

theorem call_double {rec : Req → A Ast} {h : Cst} {s e s' e' : Tok} {mid : List Cst} {data : ASrc} {a : Ast}
    (ha : callAst rec h false .CodeParser_GroupSquare [.tok s, .node (.group .CodeParser_GroupSquare) (.tok s' :: (mid ++ [.tok e'])), .tok e] data = .ok a) :
    ∃ x as, rec (.cst h) = .ok x ∧ groupArgs rec mid = .ok as ∧ erase a = callExpr .CodeParser_GroupSquare true (erase x) (as.map erase) := by
  simp only [callAst, List.getElem?_cons_succ, List.getElem?_cons_zero, bind_ok] at ha
  obtain ⟨_, -, _, -, x, hx, ⟨d, as⟩, hg, ha⟩ := ha
  cases ha
  refine ⟨x, as, hx, groupAst_mid hg, ?_⟩
  rw [erase_callS, w_Part]; rfl

theorem call_expr_single {q : Quirks} {r : Role} {f : Spec.Form} {o : CallBracket} {b : Body}
    (h : o.op = .CodeParser_GroupSquare → b.double = false) :
    (Spec.Form.call f o b).expr q r = r.of (callExpr o.op false (f.expr q .value) (b.exprs q)) := by
  rw [Form.expr]
  split
  · next h1 h2 => rw [h h1] at h2; cases h2
  · rfl

theorem call_expr_double {q : Quirks} {r : Role} {f : Spec.Form} {o : CallBracket} {b : Body}
    (h : o.op = .CodeParser_GroupSquare) (hb : b.double = true) :
    (Spec.Form.call f o b).expr q r = r.of (callExpr .CodeParser_GroupSquare true (f.expr q .value) (b.inner q)) := by
  rw [Form.expr, h, hb]

theorem sound_call (hq : env.flattenTimes = false) {f : Spec.Form} {o : CallBracket} {b : Body} {h : Cst} {s e : Tok} {mid : List Cst}
    (hd : o.op = .CodeParser_GroupSquare → b.double = false) (hr : RepB b mid) (hs : Sound env f h) (hb : SoundB env b mid) :
    Sound env (.call f o b) (.callAgg h false o.op (.tok s :: (mid ++ [.tok e]))) := by
  refine sound_ordinary hq call_ordinary (fun r => ?_) rfl rfl fun a ha => ?_
  · rw [call_expr_single hd, call_expr_single hd]; rfl
  · obtain ⟨rec, hrec, data, ha⟩ := runs_call ha
    obtain ⟨x, as, h1, h2, h3⟩ := call_single (fun h => rep_square hr (hd h)) ha
    rw [h3, call_expr_single hd, hs.value x (hrec _ _ h1), hb rec hrec as h2]
    rfl

theorem sound_part (hq : env.flattenTimes = false) {f : Spec.Form} {o : CallBracket} {o' : Bracket} {b : Body} {h : Cst} {s e s' e' : Tok}
    {mid : List Cst} (h1 : o.op = .CodeParser_GroupSquare) (h2 : o'.op = .CodeParser_GroupSquare) (hs : Sound env f h)
    (hb : SoundB env b mid) : Sound env (.call f o (.one (.group o' b)))
      (.callAgg h false o.op [.tok s, .node (.group o'.op) (.tok s' :: (mid ++ [.tok e'])), .tok e]) := by
  have hd : (Body.one (.group o' b)).double = true := by simp [Body.double, h2]
  rw [h1, h2]
  refine sound_ordinary hq call_ordinary (fun r => ?_) rfl rfl fun a ha => ?_
  · rw [call_expr_double h1 hd, call_expr_double h1 hd]; rfl
  · obtain ⟨rec, hrec, data, ha⟩ := runs_call ha
    obtain ⟨x, as, h3, h4, h5⟩ := call_double ha
    rw [h5, call_expr_double h1 hd, hs.value x (hrec _ _ h3), hb rec hrec as h4]
    rfl

end CodeParser.Mean
