import Verif.Proofs.Abstract1
/-!
Abstraction does not panic on trees it can handle (helper lemmas).
-/
namespace CodeParser.Abs
open Spec Props Cst

/-- The computation does not fail. -/
def Ok (x : A α) : Prop := ∃ a, x = .ok a

theorem ok_bind {a : α} {f : α → A β} : ((.ok a : A α) >>= f) = f a := rfl

theorem Ok.ret {a : α} : Ok (.ok a : A α) := ⟨a, rfl⟩

theorem Ok.bind {m : A α} {f : α → A β} (h : Ok m) (hf : ∀ a, m = .ok a → Ok (f a)) : Ok (m >>= f) := by
  obtain ⟨a, rfl⟩ := h
  exact hf a rfl

theorem mapA_ok {f : α → A β} : ∀ {as : List α}, (∀ a ∈ as, Ok (f a)) → Ok (mapA f as)
  | [], _ => ⟨[], rfl⟩
  | a :: as, h => by
    obtain ⟨b, hb⟩ := h a (by simp)
    obtain ⟨bs, hbs⟩ := mapA_ok (f := f) (as := as) fun a ha => h a (by simp [ha])
    exact ⟨b :: bs, by rw [mapA, hb]; simp only [hbs]⟩

/-- A tree that abstraction can handle: its shape, the order of its tokens and their texts. -/
structure Good (q : Bool) (c : Cst) : Prop where
  ready : Ready' q c
  order : Ordered (leaves c)
  text : ∀ t ∈ leaves c, (fromUtf8 t.text).isSome = true

/-- The same for a negated tree. -/
def GoodG (q : Bool) : Negated → Prop
  | .zero => True
  | .integer t | .real t => (fromUtf8 t).isSome = true
  | .times cs => ∀ c ∈ cs, Good q c

/-- The same for what has still to be abstracted. -/
def GoodR (q : Bool) : Req → Prop
  | .cst c => Good q c
  | .neg g _ => GoodG q g

theorem Good.sub {q : Bool} {k : NodeKind} {c : Cst} {cs : List Cst} (h : Good q (.node k cs)) (hc : c ∈ cs) : Good q c := by
  obtain ⟨h1, h2, h3⟩ := h
  cases h1 with
  | node _ h => exact ⟨h c hc, h2.sub (leaves_sublist hc), fun t ht => h3 t (mem_leavesL hc t ht)⟩

theorem Good.fit {q : Bool} {k : NodeKind} {cs : List Cst} (h : Good q (.node k cs)) : Fit q k cs := by
  cases h.ready with
  | node h _ => exact h

theorem Good.tokText {q : Bool} {t : Tok} (h : Good q (.tok t)) : (fromUtf8 t.text).isSome = true := h.text t (by simp [leaves])

theorem csize_pos (c : Cst) : 0 < csize c := by cases c <;> simp only [csize] <;> omega

theorem csize_mem {c : Cst} {cs : List Cst} (h : c ∈ cs) : csize c ≤ csizeL cs := by
  induction cs with
  | nil => cases h
  | cons d cs ih =>
    simp only [csizeL]
    rcases List.mem_cons.mp h with rfl | h
    · omega
    · have := ih h; omega

theorem evens_mem {a : α} : ∀ {as : List α}, a ∈ evens as → a ∈ as
  | [], h => by cases h
  | [_], h => h
  | _ :: _ :: as, h => by
    simp only [evens, List.mem_cons] at h ⊢
    rcases h with h | h
    · exact Or.inl h
    · exact Or.inr (Or.inr (evens_mem h))

theorem asStr_ok {t : List UInt8} (h : (fromUtf8 t).isSome = true) : asStr t = .ok t := by
  unfold asStr; rw [if_pos h]

theorem tokenAst_ok {t : Tok} (h : (fromUtf8 t.text).isSome = true) : Ok (tokenAst t) := by
  unfold tokenAst
  simp only [asStr_ok h]
  split
  · exact .ret
  all_goals try exact .ret
  split
  · exact .ret
  · split
    · refine Ok.bind .ret fun s _ => ?_
      split <;> exact .ret
    · exact .ret

section
variable {q : Bool}

/-! ### Negation -/

theorem Fit.paren {cs : List Cst} (h : Fit q (.group .CodeParser_GroupParen) cs) : ∃ o m c, cs = [.tok o, m, .tok c] := by
  cases h with
  | @group _ o mid c h1 h2 =>
    have := h1 rfl
    match mid, this with
    | [m], _ => exact ⟨o, m, c, rfl⟩

theorem Fit.prefix2 {op : PrefixOp} {cs : List Cst} (h : Fit q (.prefix op) cs) : ∃ o r, cs = [.tok o, r] := by
  cases h with
  | prefixOp => exact ⟨_, _, rfl⟩
  | get => exact ⟨_, _, rfl⟩

theorem numberQ_other {k : NodeKind} {cs : List Cst} (h : k ≠ .group .CodeParser_GroupParen) : numberQ (.node k cs) = .ok false := by
  unfold numberQ
  split <;> simp_all

theorem numberQ_ok : ∀ {c : Cst}, Good q c → Ok (numberQ c)
  | .tok t, _ => by unfold numberQ; exact .ret
  | .node k cs, h => by
    by_cases hk : k = .group .CodeParser_GroupParen
    · subst hk
      obtain ⟨o, m, c, rfl⟩ := Fit.paren h.fit
      unfold numberQ
      rw [if_pos rfl]
      exact numberQ_ok (h.sub (by simp))
    · exact ⟨_, numberQ_other hk⟩
  | .callAgg .., _ => by unfold numberQ; exact .ret
  | .call .., h => by cases h.ready
  | .box .., h => by cases h.ready
  | .code .., h => by cases h.ready

theorem zeroQ_other {k : NodeKind} {cs : List Cst} (h : k ≠ .group .CodeParser_GroupParen) (h' : k ≠ .prefix .Minus) :
    zeroQ (.node k cs) = .ok false := by
  unfold zeroQ
  split <;> simp_all

theorem zeroQ_ok : ∀ {c : Cst}, Good q c → Ok (zeroQ c)
  | .tok t, h => by
    unfold zeroQ
    rw [asStr_ok h.tokText]
    split <;> exact .ret
  | .node k cs, h => by
    by_cases hk : k = .group .CodeParser_GroupParen
    · subst hk
      obtain ⟨o, m, c, rfl⟩ := Fit.paren h.fit
      unfold zeroQ
      rw [if_pos rfl]
      exact zeroQ_ok (h.sub (by simp))
    · by_cases hk' : k = .prefix .Minus
      · subst hk'
        obtain ⟨o, r, rfl⟩ := Fit.prefix2 h.fit
        unfold zeroQ
        rw [if_neg hk, if_pos rfl]
        exact zeroQ_ok (h.sub (by simp))
      · exact ⟨_, zeroQ_other hk hk'⟩
  | .callAgg .., _ => by unfold zeroQ; exact .ret
  | .call .., h => by cases h.ready
  | .box .., h => by cases h.ready
  | .code .., h => by cases h.ready

/-- The size of a negated tree. -/
def gsize : Negated → Nat
  | .times cs => csizeL cs
  | _ => 0

theorem meas_neg (g : Negated) (d : ASrc) : (Req.neg g d).meas = 2 * gsize g + 1 := by cases g <;> rfl

theorem negate_other {k : NodeKind} {cs : List Cst} (h : k ≠ .group .CodeParser_GroupParen) (h' : k ≠ .prefix .Minus) :
    negate (.node k cs) = .ok (.times (if k = .infix .Times then cs else [.node k cs])) := by
  unfold negate
  split
  · simp_all
  · rename_i heq; cases heq; simp only [h, h', if_false]; split <;> rfl
  · rename_i heq; cases heq; simp only [h, h', if_false]; split <;> rfl
  · rename_i heq; cases heq; simp only [h, h', if_false]; split <;> rfl
  · simp_all

theorem negate_ok : ∀ {c : Cst}, Good q c → ∃ g, negate c = .ok g ∧ GoodG q g ∧ gsize g ≤ csize c
  | .tok t, h => by
    unfold negate
    rw [asStr_ok h.tokText]
    split
    · by_cases h0 : t.text = [48]
      · exact ⟨.zero, by simp [h0, ok_bind], trivial, by simp [gsize]⟩
      · exact ⟨.integer t.text, by simp [h0, ok_bind], h.tokText, by simp [gsize]⟩
    · split
      · exact ⟨_, rfl, h.tokText, by simp [gsize]⟩
      · exact ⟨_, rfl, by simpa [GoodG] using h, by simp [gsize, csizeL]⟩
  | .node k cs, h => by
    have self : GoodG q (.times [.node k cs]) ∧ gsize (.times [.node k cs]) ≤ csize (.node k cs) :=
      ⟨by simpa [GoodG] using h, by simp [gsize, csizeL]⟩
    by_cases hk : k = .group .CodeParser_GroupParen
    · subst hk
      obtain ⟨o, m, c, rfl⟩ := Fit.paren h.fit
      have hm := h.sub (c := m) (by simp)
      obtain ⟨z, hz⟩ := zeroQ_ok hm
      obtain ⟨n, hn⟩ := numberQ_ok hm
      obtain ⟨g, h1, h2, h3⟩ := negate_ok hm
      have hs : csize m ≤ csize (.node (.group .CodeParser_GroupParen) [.tok o, m, .tok c]) := by
        simp only [csize, csizeL]; omega
      unfold negate
      rw [if_pos rfl, hz, hn]
      cases z
      · cases n
        · exact ⟨_, rfl, self⟩
        · exact ⟨g, h1, h2, by omega⟩
      · exact ⟨g, h1, h2, by omega⟩
    · by_cases hk' : k = .prefix .Minus
      · subst hk'
        obtain ⟨o, r, rfl⟩ := Fit.prefix2 h.fit
        have hm := h.sub (c := r) (by simp)
        obtain ⟨z, hz⟩ := zeroQ_ok hm
        obtain ⟨g, h1, h2, h3⟩ := negate_ok hm
        have hs : csize r ≤ csize (.node (.prefix .Minus) [.tok o, r]) := by
          simp only [csize, csizeL]; omega
        unfold negate
        rw [if_neg hk, if_pos rfl, hz]
        cases z
        · exact ⟨_, rfl, self⟩
        · exact ⟨g, h1, h2, by omega⟩
      · refine ⟨_, negate_other hk hk', ?_⟩
        split
        · exact ⟨fun c hc => h.sub hc, by simp [gsize, csize]⟩
        · exact self
  | .callAgg .., h => ⟨_, by rw [negate] <;> simp, by simpa [GoodG] using h, by simp [gsize, csizeL]⟩
  | .call .., h => by cases h.ready
  | .box .., h => by cases h.ready
  | .code .., h => by cases h.ready

/-! ### Operands -/

/-- An operand that abstraction can handle, of at most a given size. -/
def GoodO (q : Bool) (n : Nat) : AOperand → Prop
  | .cst c => Good q c ∧ csize c ≤ n
  | .recip c _ => Good q c ∧ csize c ≤ n
  | .negOne => True
  | .neg g _ => GoodG q g ∧ gsize g < n

theorem GoodO.mono {n m : Nat} (h : n ≤ m) : ∀ {o : AOperand}, GoodO q n o → GoodO q m o
  | .cst _, h' => ⟨h'.1, h'.2.trans h⟩
  | .recip _ _, h' => ⟨h'.1, h'.2.trans h⟩
  | .negOne, _ => trivial
  | .neg _ _, h' => ⟨h'.1, lt_of_lt_of_le h'.2 h⟩

theorem Fit.binary3 {op : BinaryOp} {cs : List Cst} (h : Fit q (.binary op) cs) : ∃ l o r, cs = [l, .tok o, r] := by
  cases h <;> exact ⟨_, _, _, rfl⟩

mutual
theorem flat_ok (fl : Bool) (d : ASrc) : ∀ {c : Cst}, Good q c → ∃ os, flat fl d c = .ok os ∧ ∀ o ∈ os, GoodO q (csize c) o
  | .node k cs, h => by
    have self : ∀ o ∈ [AOperand.cst (.node k cs)], GoodO q (csize (.node k cs)) o := by
      intro o ho
      cases List.mem_singleton.mp ho
      exact ⟨h, le_refl _⟩
    unfold flat
    split
    · rename_i hk; subst hk
      obtain ⟨o, r, rfl⟩ := Fit.prefix2 h.fit
      have hr := h.sub (c := r) (by simp)
      have hs : csize (.node (.prefix .Minus) [.tok o, r]) = csize r + 2 := by simp only [csize, csizeL]; omega
      obtain ⟨n, hn⟩ := numberQ_ok hr
      unfold flatMinus
      rw [hn]
      cases n
      · cases fl
        · exact ⟨_, rfl, self⟩
        · obtain ⟨os, h1, h2⟩ := flat_ok true d hr
          refine ⟨.negOne :: os, by simp only [h1]; rfl, ?_⟩
          intro o ho
          rcases List.mem_cons.mp ho with rfl | ho
          · trivial
          · exact (h2 o ho).mono (by omega)
      · obtain ⟨g, h1, h2, h3⟩ := negate_ok hr
        refine ⟨[.neg g d], by simp only [h1]; rfl, ?_⟩
        intro o ho
        cases List.mem_singleton.mp ho
        exact ⟨h2, by omega⟩
    · split
      · obtain ⟨os, h1, h2⟩ := flatEvens_ok fl d (cs := cs) fun c hc => h.sub hc
        exact ⟨os, h1, fun o ho => (h2 o ho).mono (by simp [csize])⟩
      · split
        · rename_i hk; subst hk
          obtain ⟨l, o, r, rfl⟩ := Fit.binary3 h.fit
          have hs : csize (.node (.binary .Divide) [l, .tok o, r]) = csize l + csize r + 2 := by simp only [csize, csizeL]; omega
          unfold flatDivide
          split
          · obtain ⟨os, h1, h2⟩ := flat_ok fl d (h.sub (c := l) (by simp))
            refine ⟨os ++ [.recip r d], by simp only [h1]; rfl, ?_⟩
            intro o ho
            rcases List.mem_append.mp ho with ho | ho
            · exact (h2 o ho).mono (by omega)
            · cases List.mem_singleton.mp ho
              exact ⟨h.sub (by simp), by omega⟩
          · exact ⟨_, rfl, self⟩
        · exact ⟨_, rfl, self⟩
  | .tok t, h => ⟨_, by rw [flat] <;> simp, fun o ho => by cases List.mem_singleton.mp ho; exact ⟨h, le_refl _⟩⟩
  | .callAgg .., h => ⟨_, by rw [flat] <;> simp, fun o ho => by cases List.mem_singleton.mp ho; exact ⟨h, le_refl _⟩⟩
  | .call .., h => by cases h.ready
  | .box .., h => by cases h.ready
  | .code .., h => by cases h.ready
theorem flatEvens_ok (fl : Bool) (d : ASrc) : ∀ {cs : List Cst}, (∀ c ∈ cs, Good q c) →
    ∃ os, flatEvens fl d cs = .ok os ∧ ∀ o ∈ os, GoodO q (csizeL cs) o
  | [], _ => ⟨[], rfl, by simp⟩
  | [c], h => by
    obtain ⟨os, h1, h2⟩ := flat_ok fl d (h c (by simp))
    exact ⟨os, h1, fun o ho => (h2 o ho).mono (by simp [csizeL])⟩
  | c :: e :: cs, h => by
    obtain ⟨os, h1, h2⟩ := flat_ok fl d (h c (by simp))
    obtain ⟨ps, h3, h4⟩ := flatEvens_ok fl d (cs := cs) fun c hc => h c (by simp [hc])
    refine ⟨os ++ ps, by rw [flatEvens, h1, h3]; rfl, ?_⟩
    intro o ho
    simp only [csizeL]
    rcases List.mem_append.mp ho with ho | ho
    · exact (h2 o ho).mono (by omega)
    · exact (h4 o ho).mono (by omega)
end

theorem flatL_ok (fl : Bool) (d : ASrc) {n : Nat} : ∀ {cs : List Cst}, (∀ c ∈ cs, Good q c ∧ csize c ≤ n) →
    ∃ os, flatL fl d cs = .ok os ∧ ∀ o ∈ os, GoodO q n o
  | [], _ => ⟨[], rfl, by simp⟩
  | c :: cs, h => by
    obtain ⟨os, h1, h2⟩ := flat_ok fl d (h c (by simp)).1
    obtain ⟨ps, h3, h4⟩ := flatL_ok fl d (n := n) (cs := cs) fun c hc => h c (by simp [hc])
    refine ⟨os ++ ps, by rw [flatL, h1, h3]; rfl, ?_⟩
    intro o ho
    rcases List.mem_append.mp ho with ho | ho
    · exact (h2 o ho).mono (h c (by simp)).2
    · exact h4 o ho

theorem flattenPlus_ok : ∀ {c : Cst}, Good q c → ∃ d, flattenPlus c = .ok d ∧ Good q d ∧ csize d ≤ csize c
  | .node k cs, h => by
    by_cases hk : k = .prefix .Plus
    · subst hk
      obtain ⟨o, r, rfl⟩ := Fit.prefix2 h.fit
      obtain ⟨d, h1, h2, h3⟩ := flattenPlus_ok (h.sub (c := r) (by simp))
      refine ⟨d, by rw [flattenPlus, if_pos rfl, h1], h2, ?_⟩
      simp only [csize, csizeL]; omega
    · refine ⟨.node k cs, ?_, h, le_refl _⟩
      unfold flattenPlus
      split <;> simp_all
  | .tok t, h => ⟨_, by rw [flattenPlus] <;> simp, h, le_refl _⟩
  | .callAgg .., h => ⟨_, by rw [flattenPlus] <;> simp, h, le_refl _⟩
  | .call .., h => by cases h.ready
  | .box .., h => by cases h.ready
  | .code .., h => by cases h.ready

theorem derivativeBody_ok : ∀ {c : Cst}, Good q c → ∃ n d, derivativeBody c = .ok (n, d) ∧ Good q d ∧ csize d ≤ csize c
  | .node k cs, h => by
    by_cases hk : k = .postfix .Derivative
    · subst hk
      have : ∃ l o, cs = [l, .tok o] := by
        cases h.fit
        exact ⟨_, _, rfl⟩
      obtain ⟨l, o, rfl⟩ := this
      obtain ⟨n, d, h1, h2, h3⟩ := derivativeBody_ok (h.sub (c := l) (by simp))
      refine ⟨n + 1, d, by rw [derivativeBody, if_pos rfl, h1]; rfl, h2, ?_⟩
      simp only [csize, csizeL]; omega
    · refine ⟨0, .node k cs, ?_, h, le_refl _⟩
      unfold derivativeBody
      split <;> simp_all
  | .tok t, h => ⟨_, _, by rw [derivativeBody] <;> simp, h, le_refl _⟩
  | .callAgg .., h => ⟨_, _, by rw [derivativeBody] <;> simp, h, le_refl _⟩
  | .call .., h => by cases h.ready
  | .box .., h => by cases h.ready
  | .code .., h => by cases h.ready

theorem binaryAt_ok {env : AEnv} {op : InfixOp} {c : Cst} (h : Good env.infixBinaryAt c) :
    ∃ d, binaryAt env op.toSymbol.short c = .ok d ∧ Good env.infixBinaryAt d ∧ csize d ≤ csize c := by
  unfold binaryAt
  split
  · exact ⟨c, rfl, h, le_refl _⟩
  · rename_i hq
    split
    · rename_i k cs
      split
      · rename_i hk
        subst hk
        obtain ⟨l, o, r, rfl⟩ := Fit.binary3 h.fit
        simp only [expect3, ok_bind]
        split
        · rename_i t
          split
          · rename_i hsym
            rw [asStr_ok (h.sub (c := .tok t) (by simp)).tokText]
            simp only [ok_bind]
            split
            · rename_i hname
              have : isTok .At (.tok o) = true := by
                have := h.fit
                cases this with
                | binary _ _ _ h4 => simp [isTok, h4 rfl (by simpa using hq) t rfl hsym op hname]
                | put e _ => rcases e with e | e <;> cases e
              rw [if_pos this]
              exact ⟨r, rfl, h.sub (by simp), by simp only [csize, csizeL]; omega⟩
            · exact ⟨_, rfl, h, le_refl _⟩
          · exact ⟨_, rfl, h, le_refl _⟩
        · exact ⟨_, rfl, h, le_refl _⟩
      · exact ⟨_, rfl, h, le_refl _⟩
    · exact ⟨_, rfl, h, le_refl _⟩

end

section
variable {env : AEnv} {rec : Req → A Ast} {M : Nat}

/-- What is known about the abstraction of the parts. -/
def Parts (env : AEnv) (rec : Req → A Ast) (M : Nat) : Prop := ∀ r, GoodR env.infixBinaryAt r → r.meas < M → Ok (rec r)

theorem Parts.cst (H : Parts env rec M) {c : Cst} (h : Good env.infixBinaryAt c) (hs : 2 * csize c < M) : Ok (rec (.cst c)) :=
  H (.cst c) h hs

theorem Parts.neg (H : Parts env rec M) {g : Negated} {d : ASrc} (h : GoodG env.infixBinaryAt g) (hs : 2 * gsize g + 1 < M) :
    Ok (rec (.neg g d)) := H (.neg g d) h (by rw [meas_neg]; exact hs)

theorem recipAst_ok (H : Parts env rec M) {c : Cst} {d : ASrc} (h : Good env.infixBinaryAt c) (hs : 2 * csize c < M) :
    Ok (recipAst rec c d) := by
  unfold recipAst
  exact (H.cst h hs).bind fun _ _ => .ret

/-- `f` keeps what abstraction can handle. -/
def Keeps (env : AEnv) (f : Cst → A Cst) : Prop :=
  ∀ c, Good env.infixBinaryAt c → ∃ d, f c = .ok d ∧ Good env.infixBinaryAt d ∧ csize d ≤ csize c

theorem keeps_ok : Keeps env .ok := fun c h => ⟨c, rfl, h, le_refl _⟩

theorem keeps_binaryAt (op : InfixOp) : Keeps env (binaryAt env op.toSymbol.short) := fun _ h => binaryAt_ok h

/-- An operand whose abstraction does not fail. -/
def GoodM (env : AEnv) (M : Nat) : AOperand → Prop
  | .cst c => Good env.infixBinaryAt c ∧ 2 * csize c < M
  | .recip c _ => Good env.infixBinaryAt c ∧ 2 * csize c < M
  | .negOne => True
  | .neg g _ => GoodG env.infixBinaryAt g ∧ 2 * gsize g + 1 < M

theorem GoodO.goodM {n : Nat} (hn : 2 * n < M) : ∀ {o : AOperand}, GoodO env.infixBinaryAt n o → GoodM env M o
  | .cst _, h => ⟨h.1, by have := h.2; omega⟩
  | .recip _ _, h => ⟨h.1, by have := h.2; omega⟩
  | .negOne, _ => trivial
  | .neg _ _, h => ⟨h.1, by have := h.2; omega⟩

theorem operandAst_ok (H : Parts env rec M) {f : Cst → A Cst} (hf : Keeps env f) :
    ∀ {o : AOperand}, GoodM env M o → Ok (operandAst rec f o)
  | .cst c, h => by
    obtain ⟨d, h1, h2, h3⟩ := hf c h.1
    have := h.2
    rw [operandAst, h1]
    exact H.cst h2 (by omega)
  | .recip c d, h => recipAst_ok H h.1 (by have := h.2; omega)
  | .negOne, _ => .ret
  | .neg g d, h => H.neg h.1 (by have := h.2; omega)

theorem timesAst_ok (H : Parts env rec M) {cs : List Cst} {d : ASrc} {n : Nat} (hn : 2 * n < M)
    (h : ∀ c ∈ cs, Good env.infixBinaryAt c ∧ csize c ≤ n) :
    ∃ as, timesAst env rec cs d = .ok (.callS .System_Times as (.of d)) := by
  obtain ⟨os, h1, h2⟩ := flatL_ok env.flattenTimes d h
  obtain ⟨as, h3⟩ := mapA_ok (f := operandAst rec (binaryAt env Sym.System_Times.short)) (as := os)
    fun o ho => operandAst_ok H (keeps_binaryAt .Times) ((h2 o ho).goodM hn)
  exact ⟨as, by unfold timesAst; rw [h1, ok_bind, h3]; rfl⟩

theorem divideAst_ok (H : Parts env rec M) {l r : Cst} {d : ASrc} (hl : Good env.infixBinaryAt l) (hr : Good env.infixBinaryAt r)
    (h1 : 2 * csize l < M) (h2 : 2 * csize r < M) : Ok (divideAst env rec l r d) := by
  unfold divideAst
  obtain ⟨os, h3, h4⟩ := flat_ok env.flattenTimes d hl
  rw [h3, ok_bind]
  refine (mapA_ok fun o ho => operandAst_ok H keeps_ok ((h4 o ho).goodM h1)).bind fun _ _ => ?_
  exact (recipAst_ok H hr h2).bind fun _ _ => .ret

theorem negatedAst_ok (H : Parts env rec M) {g : Negated} {d : ASrc} (h : GoodG env.infixBinaryAt g) (hs : 2 * gsize g < M) :
    Ok (negatedAst env rec g d) := by
  cases g with
  | zero => exact .ret
  | integer t => rw [negatedAst, asStr_ok h]; exact .ret
  | real t => rw [negatedAst, asStr_ok h]; exact .ret
  | times cs =>
    obtain ⟨as, h1⟩ := timesAst_ok (d := d) H hs (cs := evens cs) fun c hc => ⟨h c (evens_mem hc), csize_mem (evens_mem hc)⟩
    rw [negatedAst, h1]
    exact .ret

/-! ### Nodes -/

variable {cs : List Cst} {d : ASrc} {n : Nat}

/-- Trees that abstraction can handle, of at most a given size. -/
def GoodL (env : AEnv) (M : Nat) (cs : List Cst) : Prop := ∀ c ∈ cs, Good env.infixBinaryAt c ∧ 2 * csize c + 1 < M

theorem GoodL.recs (H : Parts env rec M) (h : GoodL env M cs) : ∀ c ∈ cs, Ok (rec (.cst c)) :=
  fun c hc => H.cst (h c hc).1 (by have := (h c hc).2; omega)

theorem GoodL.evens (h : GoodL env M cs) : GoodL env M (evens cs) := fun c hc => h c (evens_mem hc)

theorem map_ok (H : Parts env rec M) (h : GoodL env M cs) : Ok (mapA (recC rec) cs) := mapA_ok (h.recs H)

theorem quirkAst_ok (H : Parts env rec M) (op : InfixOp) (h : GoodL env M cs) : ∀ c ∈ cs, Ok (quirkAst env rec op.toSymbol.short c) := by
  intro c hc
  obtain ⟨e, h1, h2, h3⟩ := binaryAt_ok (op := op) (h c hc).1
  have := (h c hc).2
  unfold quirkAst
  rw [h1]
  exact H.cst h2 (by omega)

theorem pairs_ok : ∀ {op : InfixOp} {l : Cst} {cs : List Cst}, Links op (l :: cs) → ∃ ps, pairs cs = .ok ps ∧
    ∀ p ∈ ps, ∃ o r, p = (.tok o, r) ∧ InfixOf o.kind op ∧ [.tok o, r].Sublist cs
  | _, _, [], _ => ⟨[], rfl, by simp⟩
  | _, _, [_], h => by cases h with | more _ h => cases h
  | _, _, _ :: c :: cs, h => by
    cases h with
    | more ho h =>
      obtain ⟨ps, h1, h2⟩ := pairs_ok h
      refine ⟨_, by rw [pairs, h1]; rfl, ?_⟩
      intro p hp
      rcases List.mem_cons.mp hp with rfl | hp
      · exact ⟨_, _, rfl, ho, by simp⟩
      · obtain ⟨o, r, h3, h4, h5⟩ := h2 p hp
        exact ⟨o, r, h3, h4, (h5.cons _).cons _⟩

theorem leavesL_sublist {a b : List Cst} (h : a.Sublist b) : (leavesL a).Sublist (leavesL b) := by
  induction h with
  | slnil => exact .slnil
  | cons _ _ ih => simp only [leavesL]; exact ih.trans (List.sublist_append_right _ _)
  | cons_cons _ _ ih => simp only [leavesL]; exact (List.Sublist.refl _).append ih

theorem plusPair_ok {o : Tok} {r : Cst} (ho : InfixOf o.kind .Plus) (hr : Good env.infixBinaryAt r) (hs : 2 * csize r + 1 < M)
    (hO : Ordered (o :: leaves r)) : ∃ p, plusPair (.tok o, r) = .ok p ∧ GoodM env M p := by
  rw [plusPair]
  by_cases hk : o.kind = .Plus ∨ o.kind = .LongName_ImplicitPlus
  · rw [if_pos hk]
    exact ⟨.cst r, rfl, hr, by omega⟩
  · rw [if_neg hk]
    have : o.kind = .Minus ∨ o.kind = .LongName_Minus := by
      rcases infixOf_plus ho with h | h | h | h
      · exact absurd (Or.inl h) hk
      · exact absurd (Or.inr h) hk
      · exact Or.inl h
      · exact Or.inr h
    rw [if_pos this]
    obtain ⟨s, h1, h2⟩ := getSource_ok hr.ready hr.order
    obtain ⟨u, h3, -⟩ := hull_append (a := [o]) (s := (o.start, o.stop)) hO ⟨o, o, rfl, rfl, rfl⟩ h2
    obtain ⟨g, h4, h5, h6⟩ := negate_ok hr
    rw [h1, ok_bind, h3, ok_bind, h4]
    exact ⟨.neg g u, rfl, h5, by omega⟩

theorem keeps_plus : Keeps env (fun c => do
    let c ← binaryAt env Sym.System_Plus.short c
    flattenPlus c) := by
  intro c hc
  obtain ⟨e, e1, e2, e3⟩ := binaryAt_ok (op := .Plus) hc
  rw [show InfixOp.Plus.toSymbol.short = Sym.System_Plus.short from rfl] at e1
  obtain ⟨f, f1, f2, f3⟩ := flattenPlus_ok e2
  exact ⟨f, by simp only [e1, ok_bind, f1], f2, by omega⟩

theorem plusAst_ok (H : Parts env rec M) (hl : Links .Plus cs) (h : GoodL env M cs) (hO : Ordered (leavesL cs)) :
    Ok (plusAst env rec cs d) := by
  cases cs with
  | nil => cases hl
  | cons c cs =>
    obtain ⟨ps, h1, h2⟩ := pairs_ok hl
    have hc := h c (by simp)
    unfold plusAst
    simp only [h1, ok_bind]
    refine (operandAst_ok H keeps_plus (o := .cst c) ⟨hc.1, by omega⟩).bind fun _ _ => ?_
    refine (mapA_ok fun p hp => ?_).bind fun _ _ => .ret
    obtain ⟨o, r, rfl, h3, h4⟩ := h2 p hp
    have hr := h r (List.mem_cons_of_mem _ (h4.subset (by simp)))
    obtain ⟨p, h5, h6⟩ := plusPair_ok h3 hr.1 hr.2 (hO.sub (by
      have := leavesL_sublist (h4.cons c)
      simpa [leavesL, leaves] using this))
    rw [h5, ok_bind]
    exact operandAst_ok H keeps_plus h6

theorem messageAst_ok (H : Parts env rec M) (h0 : cs ≠ []) (h : GoodL env M cs) : Ok (messageAst env rec cs d) := by
  cases cs with
  | nil => exact absurd rfl h0
  | cons c0 cs =>
    unfold messageAst
    refine (h.recs H c0 (by simp)).bind fun _ _ => ?_
    refine (mapA_ok fun c hc => ?_).bind fun _ _ => .ret
    have hc' := List.mem_cons_of_mem c0 hc
    split
    · split
      · rw [asStr_ok (h _ hc').1.tokText]; exact .ret
      · exact h.recs H _ hc'
    · exact h.recs H _ hc'

theorem inequalityLoop_ok {rec : Req → A Ast} {d : ASrc} : ∀ {ps : List (Tok × Cst)} {a : Ast} {l : List (Sym × Ast)} {f : Option Bool},
    (∀ p ∈ ps, InfixOf p.1.kind .CodeParser_InfixInequality ∧ Ok (rec (.cst p.2))) → Ok (inequalityLoop rec d ps a l f)
  | [], _, _, _, _ => .ret
  | (o, c) :: ps, a, l, f, h => by
    obtain ⟨h1, h2⟩ := h (o, c) (by simp)
    obtain ⟨s, b, h3, h4⟩ := infixOf_inequality h1
    have ih := fun {a l f} => inequalityLoop_ok (rec := rec) (d := d) (ps := ps) (a := a) (l := l) (f := f)
      fun p hp => h p (by simp [hp])
    unfold inequalityLoop
    simp only [h3]
    refine h2.bind fun _ _ => ?_
    simp only [h4]
    cases b with
    | none => exact ih
    | some b =>
      simp only
      split <;> exact ih

theorem withTok_ok : ∀ {ps : List (Cst × Cst)} {op : InfixOp} {cs : List Cst},
    (∀ p ∈ ps, ∃ o r, p = (.tok o, r) ∧ InfixOf o.kind op ∧ [.tok o, r].Sublist cs) →
    ∃ qs, mapA withTok ps = .ok qs ∧ ∀ p ∈ qs, InfixOf p.1.kind op ∧ p.2 ∈ cs
  | [], _, _, _ => ⟨[], rfl, by simp⟩
  | p :: ps, op, cs, h => by
    obtain ⟨o, r, rfl, h1, h2⟩ := h p (by simp)
    obtain ⟨qs, h3, h4⟩ := withTok_ok (ps := ps) (op := op) (cs := cs) fun p hp => h p (by simp [hp])
    refine ⟨(o, r) :: qs, by rw [mapA, withTok]; simp only [h3], ?_⟩
    intro p hp
    rcases List.mem_cons.mp hp with rfl | hp
    · exact ⟨h1, h2.subset (by simp)⟩
    · exact h4 p hp

theorem inequalityAst_ok (H : Parts env rec M) (hl : Links .CodeParser_InfixInequality cs) (h : GoodL env M cs) :
    Ok (inequalityAst rec cs d) := by
  cases cs with
  | nil => cases hl
  | cons c cs =>
    obtain ⟨ps, h1, h2⟩ := pairs_ok hl
    obtain ⟨qs, h3, h4⟩ := withTok_ok h2
    unfold inequalityAst
    refine (h.recs H c (by simp)).bind fun _ _ => ?_
    simp only [h1, ok_bind, h3]
    exact inequalityLoop_ok fun p hp => ⟨(h4 p hp).1, h.recs H _ (List.mem_cons_of_mem _ (h4 p hp).2)⟩

theorem groupArgs_ok (H : Parts env rec M) (h : GoodL env M cs) : Ok (groupArgs rec cs) :=
  (map_ok H h).bind fun _ _ => .ret

theorem dropEnds_ok {o c : Tok} {mid : List Cst} : dropEnds (.tok o :: (mid ++ [.tok c])) = .ok mid := by
  cases mid with
  | nil => rfl
  | cons m mid =>
    show (.ok (m :: (mid ++ [.tok c])).dropLast : A (List Cst)) = _
    rw [← List.cons_append, List.dropLast_concat]

theorem groupAst_ok (H : Parts env rec M) {o c : Tok} {mid : List Cst} (hcs : cs = .tok o :: (mid ++ [.tok c]))
    (h : GoodL env M cs) (hO : Ordered (leavesL cs)) : Ok (groupAst rec cs) := by
  obtain ⟨s, h1, -⟩ := seqSource_ok (cs := cs) (by rw [hcs]; simp) (fun c hc => (h c hc).1.ready) hO
  unfold groupAst
  rw [h1, ok_bind, hcs, dropEnds_ok, ok_bind]
  refine (groupArgs_ok H fun c hc => ?_).bind fun _ _ => .ret
  exact h c (by rw [hcs]; simp [hc])

theorem missingAst_ok (H : Parts env rec M) (h0 : cs ≠ []) (h : GoodL env M cs) (hO : Ordered (leavesL cs)) :
    Ok (missingAst rec cs) := by
  obtain ⟨s, h1, -⟩ := seqSource_ok h0 (fun c hc => (h c hc).1.ready) hO
  unfold missingAst
  rw [h1, ok_bind]
  cases cs with
  | nil => exact absurd rfl h0
  | cons c cs => exact (groupArgs_ok H fun c hc => h c (by simp [hc])).bind fun _ _ => .ret

/-- The size of what stands between commas. -/
theorem comma_ok (H : Parts env rec M) {k : NodeKind} {ds : List Cst} (h : Good env.infixBinaryAt (.node k ds))
    (hs : 2 * csize (.node k ds) < M) : Ok (mapA (recC rec) (evens ds)) := by
  refine map_ok H fun c hc => ⟨h.sub (evens_mem hc), ?_⟩
  have := csize_mem (evens_mem hc)
  simp only [csize] at hs
  omega

theorem nakedAst_ok (H : Parts env rec M) {err : AbstractError} {o c : Tok} {mid : List Cst} (hcs : cs = .tok o :: (mid ++ [.tok c]))
    (hm : mid.length ≤ 1) (h : GoodL env M cs) : Ok (nakedAst rec err cs d) := by
  match mid, hm with
  | [], _ => rw [hcs]; exact .ret
  | [m], _ =>
    have hg := h m (by rw [hcs]; simp)
    rw [hcs]
    simp only [List.cons_append, List.nil_append, nakedAst]
    split
    · exact (comma_ok H hg.1 (by omega)).bind fun _ _ => .ret
    · exact (H.cst hg.1 (by omega)).bind fun _ _ => .ret

theorem parenAst_ok (H : Parts env rec M) {o c : Tok} {m : Cst} (hcs : cs = [.tok o, m, .tok c]) (h : GoodL env M cs) :
    Ok (parenAst rec cs d) := by
  have hg := h m (by rw [hcs]; simp)
  rw [hcs]
  simp only [parenAst]
  split
  · exact (comma_ok H hg.1 (by omega)).bind fun _ _ => .ret
  · exact H.cst hg.1 (by omega)

theorem fileAst_ok {t : Tok} (h : Good env.infixBinaryAt (.tok t)) (hk : t.kind = .String) : Ok (fileAst env (.tok t)) := by
  unfold fileAst
  simp only [hk, if_true, asStr_ok h.tokText]
  exact .ret

theorem compoundAst_ok (H : Parts env rec M) {op : CompoundOp} (hf : Fit env.infixBinaryAt (.compound op) cs) (h : GoodL env M cs) :
    Ok (compoundAst env rec op cs d) := by
  cases hf with
  | @compound _ c e h1 h2 h3 =>
    have hc := h.recs H c (by simp)
    have he := h.recs H e (by simp)
    unfold compoundAst
    simp only [expect2, ok_bind]
    cases op with
    | Blank => exact he.bind fun _ _ => .ret
    | BlankSequence => exact he.bind fun _ _ => .ret
    | BlankNullSequence => exact he.bind fun _ _ => .ret
    | CodeParser_PatternBlank => exact hc.bind fun _ _ => he.bind fun _ _ => .ret
    | CodeParser_PatternBlankSequence => exact hc.bind fun _ _ => he.bind fun _ _ => .ret
    | CodeParser_PatternBlankNullSequence => exact hc.bind fun _ _ => he.bind fun _ _ => .ret
    | CodeParser_PatternOptionalDefault =>
      obtain ⟨t, rfl, ht⟩ := h1 rfl
      simp only [ht, if_true]
      exact hc.bind fun _ _ => .ret
    | Slot =>
      obtain ⟨t, rfl, ht⟩ := h2 rfl
      have htx := (h (.tok t) (by simp)).1.tokText
      rcases ht with ht | ht
      · simp only [ht, if_true]
        exact (tokenAst_ok htx).bind fun _ _ => .ret
      · simp only [ht, asStr_ok htx]
        exact .ret
    | SlotSequence =>
      obtain ⟨t, rfl, ht⟩ := h3 (by simp)
      simp only [isTok, ht, decide_true, if_true]
      exact he.bind fun _ _ => .ret
    | Out =>
      obtain ⟨t, rfl, ht⟩ := h3 (by simp)
      simp only [isTok, ht, decide_true, if_true]
      exact he.bind fun _ _ => .ret

theorem prefixAst_ok (H : Parts env rec M) {op : PrefixOp} (hf : Fit env.infixBinaryAt (.prefix op) cs) (h : GoodL env M cs) :
    Ok (prefixAst env rec op cs d) := by
  cases hf with
  | @prefixOp _ o r hg =>
    have hr := h r (by simp)
    have ho := h.recs H (.tok o) (by simp)
    have hR := h.recs H r (by simp)
    unfold prefixAst
    simp only [expect2, ok_bind]
    split
    · obtain ⟨g, h1, h2, h3⟩ := negate_ok hr.1
      simp only [h1, ok_bind]
      exact H.neg h2 (by omega)
    · obtain ⟨e, h1, h2, h3⟩ := flattenPlus_ok hr.1
      simp only [h1, ok_bind]
      exact (H.cst h2 (by omega)).bind fun _ _ => .ret
    · simp only [getSource, ok_bind]
      exact hR.bind fun _ _ => .ret
    · split
      · exact ho.bind fun _ _ => hR.bind fun _ _ => .ret
      · exact hR.bind fun _ _ => .ret
    · exact absurd rfl hg
    · exact hR.bind fun _ _ => .ret
  | @get o f hk =>
    unfold prefixAst
    simp only [expect2, ok_bind]
    exact (fileAst_ok (h (.tok f) (by simp)).1 hk).bind fun _ _ => .ret

theorem postfixAst_ok (H : Parts env rec M) {op : PostfixOp} (hf : Fit env.infixBinaryAt (.postfix op) cs) (h : GoodL env M cs) :
    Ok (postfixAst rec op cs d) := by
  cases hf with
  | @«postfix» _ l o hk =>
    have hl := h l (by simp)
    have hL := h.recs H l (by simp)
    unfold postfixAst
    simp only [expect2, ok_bind]
    split
    · exact hL.bind fun _ _ => .ret
    · obtain ⟨n, e, h1, h2, h3⟩ := derivativeBody_ok hl.1
      simp only [hk rfl, if_true, h1, ok_bind]
      exact (H.cst h2 (by omega)).bind fun _ _ => .ret
    · exact hL.bind fun _ _ => .ret

theorem binaryAst_ok (H : Parts env rec M) {op : BinaryOp} (hf : Fit env.infixBinaryAt (.binary op) cs) (h : GoodL env M cs) :
    Ok (binaryAst env rec op cs d) := by
  cases hf with
  | @binary _ l o r h1 h2 h3 h4 =>
    have hl := h l (by simp)
    have hr := h r (by simp)
    have hL := h.recs H l (by simp)
    have hR := h.recs H r (by simp)
    unfold binaryAst
    simp only [expect3, ok_bind]
    split
    · exact divideAst_ok H hl.1 hr.1 (by omega) (by omega)
    · exact hL.bind fun _ _ => hR.bind fun _ _ => .ret
    · refine hL.bind fun _ _ => hR.bind fun _ _ => ?_
      split <;> exact .ret
    · exact hR.bind fun _ _ => hL.bind fun _ _ => .ret
    · exact absurd rfl h2
    · exact absurd rfl h3
    · exact absurd rfl h1
    · refine hL.bind fun _ _ => hR.bind fun _ _ => ?_
      split <;> exact .ret
  | @unset l o e h1 h2 =>
    unfold binaryAst
    simp only [expect3, ok_bind, isTok, h1, h2, decide_true, Bool.and_self, if_true]
    exact (h.recs H l (by simp)).bind fun _ _ => .ret
  | @put _ l o f h1 h2 =>
    have hF := fileAst_ok (h (.tok f) (by simp)).1 h2
    have hL := h.recs H l (by simp)
    rcases h1 with rfl | rfl <;>
    · unfold binaryAst
      simp only [expect3, ok_bind]
      exact hF.bind fun _ _ => hL.bind fun _ _ => .ret

theorem links_odd {op : InfixOp} {cs : List Cst} (h : Links op cs) : cs.length % 2 = 1 := by
  induction h with
  | one => rfl
  | more _ _ ih => simp only [List.length_cons]; omega

theorem links_evens {op : InfixOp} {cs : List Cst} (h : Links op cs) : evens cs ≠ [] := by cases h <;> simp [Abs.evens]

theorem infixAst_ok (H : Parts env rec M) {op : InfixOp} (hf : Links op cs) (ht : op ≠ .CodeParser_InfixTilde)
    (h : GoodL env M cs) (hO : Ordered (leavesL cs)) : Ok (infixAst env rec op cs d) := by
  unfold infixAst
  split
  · exact inequalityAst_ok H hf h
  · exact plusAst_ok H hf h hO
  · obtain ⟨as, h1⟩ := timesAst_ok (cs := evens cs) (d := d) (n := (M - 1) / 2) H (by
        cases hf with
        | one => have := (h _ List.mem_cons_self).2; omega
        | more => have := (h _ List.mem_cons_self).2; omega)
      fun c hc => ⟨(h.evens c hc).1, by have := (h.evens c hc).2; omega⟩
    exact ⟨_, h1⟩
  · refine (mapA_ok ?_).bind fun _ _ => .ret
    intro c hc
    exact quirkAst_ok H .Divisible h.evens c (by simpa using hc)
  · refine (mapA_ok ?_).bind fun _ _ => .ret
    intro c hc
    split
    · split
      · exact .ret
      · exact h.evens.recs H _ hc
    · exact h.evens.recs H _ hc
  · exact messageAst_ok H (links_evens hf) h.evens
  · exact absurd rfl ht
  · rw [if_pos (links_odd hf)]
    split
    · exact (map_ok H h.evens).bind fun _ _ => .ret
    · exact (mapA_ok (quirkAst_ok H _ h.evens)).bind fun _ _ => .ret

/-- Abstraction of a sequence with commas gives a call. -/
def Commas (rec : Req → A Ast) : Prop :=
  ∀ cs a, rec (.cst (.node (.infix .CodeParser_Comma) cs)) = .ok a → ∃ h as d, a = .call h as d

theorem ternaryAst_ok (H : Parts env rec M) (HC : Commas rec) {op : TernaryOp} (hf : Fit env.infixBinaryAt (.ternary op) cs)
    (h : GoodL env M cs) : Ok (ternaryAst rec op cs d) := by
  cases hf with
  | @ternary _ l o m o' r hop =>
    have hl := h.recs H l (by simp)
    have hm := h.recs H m (by simp)
    have hr := h.recs H r (by simp)
    unfold ternaryAst
    simp only [expect5, ok_bind]
    split
    · split
      · rename_i hn
        refine hm.bind fun b hb => ?_
        have : ∃ cs, m = .node (.infix .CodeParser_Comma) cs := by
          unfold isNode at hn
          split at hn
          · exact ⟨_, by rw [of_decide_eq_true hn]⟩
          · cases hn
        obtain ⟨cs, rfl⟩ := this
        obtain ⟨h, as, d, rfl⟩ := HC cs b hb
        simp only [childrenSource, ok_bind]
        exact hl.bind fun _ _ => hr.bind fun _ _ => .ret
      · exact hm.bind fun _ _ => hl.bind fun _ _ => hr.bind fun _ _ => .ret
    · exact absurd rfl hop
    · exact hl.bind fun _ _ => hm.bind fun _ _ => hr.bind fun _ _ => .ret
    all_goals exact hl.bind fun _ _ => hm.bind fun _ _ => hr.bind fun _ _ => .ret
  | @tagUnset l o m o' r h1 h2 =>
    have hl := h.recs H l (by simp)
    have hm := h.recs H m (by simp)
    unfold ternaryAst
    simp only [expect5, ok_bind, isTok, h1, h2, decide_true, Bool.and_self, if_true]
    exact hl.bind fun _ _ => hm.bind fun _ _ => .ret

theorem prefixBinaryAst_ok (H : Parts env rec M) {op : PrefixBinaryOp} (hf : Fit env.infixBinaryAt (.prefixBinary op) cs)
    (h : GoodL env M cs) : Ok (prefixBinaryAst rec op cs d) := by
  cases hf with
  | @integrate _ o r e =>
    have hr := h.recs H r (by simp)
    have he := h e (by simp)
    unfold prefixBinaryAst
    simp only [expect3, ok_bind]
    have : ∀ {op' : PrefixOp} {ds : List Cst}, e = .node (.prefix op') ds →
        Ok (expect2 ds >>= fun x => rec (.cst r) >>= fun a => rec (.cst x.2) >>= fun b =>
          (.ok (Ast.callS op.toSymbol [a, b] (.of d)) : A Ast)) := by
      rintro op' ds rfl
      obtain ⟨o, v, rfl⟩ := Fit.prefix2 he.1.fit
      simp only [expect2, ok_bind]
      refine hr.bind fun _ _ => (H.cst (he.1.sub (by simp)) ?_).bind fun _ _ => .ret
      have := he.2
      simp only [csize, csizeL] at this
      omega
    split
    · exact this rfl
    · exact this rfl
    · exact hr.bind fun _ _ => (H.cst he.1 (by omega)).bind fun _ _ => .ret

theorem groupNodeAst_ok (H : Parts env rec M) {op : GroupOp} (hf : Fit env.infixBinaryAt (.group op) cs) (h : GoodL env M cs)
    (hO : Ordered (leavesL cs)) : Ok (groupNodeAst rec op cs d) := by
  unfold groupNodeAst
  split
  · obtain ⟨o, m, c, hcs⟩ := Fit.paren hf
    exact parenAst_ok H hcs h
  all_goals
    generalize hcs : cs = cs' at hf
    cases hf with
    | @group _ o mid c h1 h2 =>
      rw [← hcs]
      first
      | exact nakedAst_ok H hcs (h2 rfl) h
      | exact (groupAst_ok H hcs h hO).bind fun _ _ => .ret

theorem syntaxErrorAst_ok (H : Parts env rec M) {err : SyntaxErrorKind} (hf : Fit env.infixBinaryAt (.syntaxError err) cs)
    (h : GoodL env M cs) : Ok (syntaxErrorAst rec err cs d) := by
  cases hf with
  | @error _ l o r =>
    exact (h.recs H l (by simp)).bind fun _ _ => (h.recs H r (by simp)).bind fun _ _ => .ret

theorem issueAt_ok (h0 : cs ≠ []) (h : GoodL env M cs) (hO : Ordered (leavesL cs)) {i : Option (AIssueTag × Severity)} :
    Ok (issueAt i cs d) := by
  obtain ⟨a, x, -, -, h1⟩ := firstSource_ok h0 (fun c hc => (h c hc).1.ready) hO
  obtain ⟨y, b, -, -, h2⟩ := lastSource_ok h0 (fun c hc => (h c hc).1.ready) hO
  unfold issueAt
  split
  · exact .ret
  · simp only [h1, h2, ok_bind]
    exact .ret

theorem callAst_ok (H : Parts env rec M) {hd : Cst} {m : Bool} {op : CallOp} (hf : FitCall m op cs) (hh : Good env.infixBinaryAt hd)
    (hs : 2 * csize hd < M) (h : GoodL env M cs) (hO : Ordered (leavesL cs)) : Ok (callAst rec hd m op cs d) := by
  have hH := H.cst hh hs
  obtain ⟨s, hS, -⟩ := getSource_ok hh.ready hh.order
  have h0 := hf.ne
  have hM := missingAst_ok H h0 h hO
  have hI : ∀ {i}, Ok (issueAt i cs d) := issueAt_ok h0 h hO
  generalize hcs : cs = cs' at hf
  cases hf with
  | @group _ o mid c hm =>
    have hG := groupAst_ok H hcs h hO
    unfold callAst
    rw [← hcs]
    cases op with
    | CodeParser_GroupSquare =>
      simp only
      have : ∃ c, cs[1]? = some c ∧ c ∈ cs := by
        rw [hcs]
        cases mid with
        | nil => exact ⟨.tok c, rfl, by simp⟩
        | cons m mid => exact ⟨m, rfl, by simp⟩
      obtain ⟨c1, h1, h2⟩ := this
      rw [h1]
      simp only
      split
      · rename_i ds
        have hg := h _ h2
        have hlen : ∃ m, mid = [m] := by
          match mid, hm rfl with
          | [], _ => rw [hcs] at h1; cases h1
          | [m], _ => exact ⟨m, rfl⟩
        obtain ⟨m1, rfl⟩ := hlen
        have he : expect3 cs = .ok (.tok o, m1, .tok c) := by rw [hcs]; rfl
        simp only [he, ok_bind]
        refine hI.bind fun _ _ => hH.bind fun _ _ => ?_
        have hfit := hg.1.fit
        have hord := hg.1.order
        rw [leaves] at hord
        have hgl : GoodL env M ds := fun c hc => ⟨hg.1.sub hc, by
          have := hg.2
          have := csize_mem hc
          simp only [csize] at *
          omega⟩
        have : Ok (groupAst rec ds) := by
          generalize hds : ds = ds' at hfit
          cases hfit with
          | group => rw [← hds]; exact groupAst_ok H hds hgl hord
        exact this.bind fun _ _ => .ret
      · exact hI.bind fun _ _ => hH.bind fun _ _ => hG.bind fun _ _ => .ret
    | CodeParser_GroupTypeSpecifier =>
      simp only
      split
      · exact hH.bind fun _ _ => hG.bind fun _ _ => .ret
      · simp only [hS, ok_bind]
        exact hH.bind fun _ _ => hG.bind fun _ _ => .ret
    | CodeParser_GroupDoubleBracket =>
      exact hI.bind fun _ _ => hH.bind fun _ _ => hG.bind fun _ _ => .ret
  | missing =>
    unfold callAst
    rw [← hcs]
    cases op <;> exact hH.bind fun _ _ => hM.bind fun _ _ => .ret

theorem nodeAst_ok (H : Parts env rec M) (HC : Commas rec) {k : NodeKind} (hf : Fit env.infixBinaryAt k cs)
    (h : GoodL env M cs) (hO : Ordered (leavesL cs)) : Ok (nodeAst env rec k cs d) := by
  unfold nodeAst
  cases k with
  | «prefix» op => exact prefixAst_ok H hf h
  | «infix» op => cases hf with | «infix» h1 h2 => exact infixAst_ok H h1 h2 h hO
  | «postfix» op => exact postfixAst_ok H hf h
  | binary op => exact binaryAst_ok H hf h
  | ternary op => exact ternaryAst_ok H HC hf h
  | prefixBinary op => exact prefixBinaryAst_ok H hf h
  | compound op => exact compoundAst_ok H hf h
  | group op => exact groupNodeAst_ok H hf h hO
  | groupMissingCloser op => exact (missingAst_ok H hf.ne h hO).bind fun _ _ => .ret
  | groupMissingOpener op => cases hf
  | syntaxError err => exact syntaxErrorAst_ok H hf h

theorem step_ok (H : Parts env rec M) (HC : Commas rec) {r : Req} (h : GoodR env.infixBinaryAt r) (hs : r.meas ≤ M) :
    Ok (step env rec r) := by
  cases r with
  | neg g u =>
    rw [meas_neg] at hs
    exact negatedAst_ok H h (by omega)
  | cst c =>
    have h : Good env.infixBinaryAt c := h
    obtain ⟨s, h1, -⟩ := getSource_ok h.ready h.order
    unfold step
    simp only [h1, ok_bind]
    cases hr : h.ready with
    | tok => exact tokenAst_ok h.tokText
    | @node k cs h2 h3 =>
      refine nodeAst_ok H HC h2 (fun c hc => ⟨h.sub hc, ?_⟩) h.order
      have := csize_mem hc
      simp only [Req.meas, csize] at hs
      omega
    | @call hd m op b h2 h3 h4 =>
      have ho := h.order
      rw [leaves] at ho
      have ho2 := ho.sub (List.sublist_append_right (leaves hd) (leavesL b))
      have ht := h.text
      rw [leaves] at ht
      simp only [Req.meas, csize] at hs
      refine callAst_ok H h3 ⟨h2, ho.sub (List.sublist_append_left _ _), fun t ht' => ht t (List.mem_append_left _ ht')⟩ (by omega)
        (fun c hc => ⟨⟨h4 c hc, ho2.sub (leaves_sublist hc), fun t ht' => ht t (List.mem_append_right _ (mem_leavesL hc t ht'))⟩, ?_⟩) ho2
      have := csize_mem hc
      omega

theorem commas_step : Commas (step env rec) := by
  intro cs a h
  unfold step at h
  simp only at h
  cases h1 : getSource (.node (.infix .CodeParser_Comma) cs) with
  | error e => rw [h1] at h; cases h
  | ok s =>
    rw [h1] at h
    simp only [ok_bind, nodeAst, infixAst] at h
    split at h
    · rw [if_neg (by simp)] at h
      cases h2 : mapA (quirkAst env rec InfixOp.CodeParser_Comma.toSymbol.short) (evens cs) with
      | error e => rw [h2] at h; cases h
      | ok as =>
        rw [h2] at h
        cases h
        exact ⟨_, _, _, rfl⟩
    · cases h

theorem run_ok : ∀ {n : Nat} {r : Req}, GoodR env.infixBinaryAt r → r.meas < n → Ok (run env n r)
  | 0, _, _, h => absurd h (Nat.not_lt_zero _)
  | n + 1, r, h, hs => by
    rw [run]
    refine step_ok (M := n) (fun r h hs => run_ok h hs) ?_ h (by omega)
    cases n with
    | zero => intro cs a h; cases h
    | succ n => exact commas_step

theorem abstractCst_ok {c : Cst} (h : Good env.infixBinaryAt c) : Ok (abstractCst env c) :=
  run_ok (r := .cst c) h (by omega)

end
end CodeParser.Abs
