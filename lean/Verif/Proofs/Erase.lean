import Verif.Model.Abstract
/-!
Abstraction does not look at the model's record of what follows a token (helper lemmas).
-/
namespace CodeParser.Erase
open Abs

/-- A token without the record of what follows it. -/
def erT (t : Tok) : Tok := { t with after := [] }

mutual
/-- A tree without the record of what follows its tokens. -/
def er : Cst → Cst
  | .tok t => .tok (erT t)
  | .node k cs => .node k (ers cs)
  | .call h m op b => .call (ers h) m op (ers b)
  | .callAgg h m op b => .callAgg (er h) m op (ers b)
  | .box k cs => .box k (ers cs)
  | .code n => .code n
/-- The same for trees. -/
def ers : List Cst → List Cst
  | [] => []
  | c :: cs => er c :: ers cs
end

theorem ers_eq : ∀ cs, ers cs = cs.map er
  | [] => rfl
  | c :: cs => by rw [ers, ers_eq cs]; rfl

/-- The same for negated trees. -/
def erN : Negated → Negated
  | .times cs => .times (ers cs)
  | g => g

/-- The same for operands. -/
def erO : AOperand → AOperand
  | .cst c => .cst (er c)
  | .recip c d => .recip (er c) d
  | .negOne => .negOne
  | .neg g d => .neg (erN g) d

/-- The same for what has to be abstracted. -/
def erR : Req → Req
  | .cst c => .cst (er c)
  | .neg g d => .neg (erN g) d

/-! ### Computations -/

theorem ok_bind {α β : Type} (a : α) (f : α → A β) : ((.ok a : A α) >>= f) = f a := rfl
theorem err_bind {α β : Type} (e : AErr) (f : α → A β) : ((.error e : A α) >>= f) = .error e := rfl
theorem fail_bind {α β : Type} (e : APanic) (f : α → A β) : ((Abs.fail e : A α) >>= f) = Abs.fail e := rfl
theorem map_ok {α β : Type} (a : α) (f : α → β) : Except.map f (.ok a : A α) = .ok (f a) := rfl
theorem map_fail {α β : Type} (e : APanic) (f : α → β) : Except.map f (Abs.fail e : A α) = Abs.fail e := rfl
theorem map_err {α β : Type} (e : AErr) (f : α → β) : Except.map f (.error e : A α) = .error e := rfl

theorem map_bind {α β γ : Type} (x : A α) (f : α → β) (g : β → A γ) : (Except.map f x >>= g) = (x >>= fun a => g (f a)) := by
  cases x <;> rfl

theorem bind_map {α β γ : Type} (x : A α) (f : α → A β) (g : β → γ) : Except.map g (x >>= f) = (x >>= fun a => Except.map g (f a)) := by
  cases x <;> rfl

theorem map_ite {α β : Type} (c : Prop) [Decidable c] (x y : A α) (f : α → β) :
    Except.map f (if c then x else y) = if c then Except.map f x else Except.map f y := by split <;> rfl

theorem bind_congr {α β : Type} {x : A α} {f g : α → A β} (h : ∀ a, f a = g a) : (x >>= f) = (x >>= g) := by
  cases x with
  | error e => rfl
  | ok a => exact h a

theorem mapA_map {α β γ : Type} {f : β → A γ} {g : α → β} : ∀ as : List α, mapA f (as.map g) = mapA (fun a => f (g a)) as
  | [] => rfl
  | a :: as => by simp only [List.map_cons, Abs.mapA]; rw [mapA_map as]

theorem mapA_congr {α β : Type} {f g : α → A β} (h : ∀ a, f a = g a) (as : List α) : mapA f as = mapA g as := by
  have : f = g := funext h
  rw [this]

/-! ### Sources -/

mutual
theorem getSource_er : ∀ c, getSource (er c) = getSource c
  | .tok t => rfl
  | .node _ cs => by simp only [er, getSource]; rw [firstSource_er cs, lastSource_er cs]
  | .call h _ _ cs => by simp only [er, getSource]; rw [firstSource_er h, firstSource_er cs, lastSource_er cs]
  | .callAgg h _ _ cs => by simp only [er, getSource]; rw [getSource_er h, firstSource_er cs, lastSource_er cs]
  | .box _ _ => by simp only [er, getSource]
  | .code _ => by simp only [er]
theorem firstSource_er : ∀ cs, firstSource (ers cs) = firstSource cs
  | [] => rfl
  | c :: _ => by simp only [ers, firstSource]; exact getSource_er c
theorem lastSource_er : ∀ cs, lastSource (ers cs) = lastSource cs
  | [] => rfl
  | [c] => by simp only [ers, lastSource]; exact getSource_er c
  | _ :: c :: cs => by
    have := lastSource_er (c :: cs)
    simp only [ers] at this
    simp only [ers, lastSource]
    exact this
end

theorem seqSource_er (cs : List Cst) : seqSource (ers cs) = seqSource cs := by
  unfold seqSource; rw [firstSource_er, lastSource_er]

/-! ### Children -/

theorem tokenAst_er (t : Tok) : tokenAst (erT t) = tokenAst t := rfl

theorem expect2_er (cs : List Cst) : expect2 (ers cs) = (expect2 cs).map fun p => (er p.1, er p.2) := by
  rcases cs with _ | ⟨a, _ | ⟨b, _ | ⟨c, cs⟩⟩⟩ <;> rfl

theorem expect3_er (cs : List Cst) : expect3 (ers cs) = (expect3 cs).map fun p => (er p.1, er p.2.1, er p.2.2) := by
  rcases cs with _ | ⟨a, _ | ⟨b, _ | ⟨c, _ | ⟨d, cs⟩⟩⟩⟩ <;> rfl

theorem expect5_er (cs : List Cst) :
    expect5 (ers cs) = (expect5 cs).map fun p => (er p.1, er p.2.1, er p.2.2.1, er p.2.2.2.1, er p.2.2.2.2) := by
  rcases cs with _ | ⟨a, _ | ⟨b, _ | ⟨c, _ | ⟨d, _ | ⟨e, _ | ⟨f, cs⟩⟩⟩⟩⟩⟩ <;> rfl

theorem evens_er : ∀ cs : List Cst, evens (ers cs) = ers (evens cs)
  | [] => rfl
  | [a] => rfl
  | a :: _ :: as => by simp only [ers, evens]; rw [evens_er as]

theorem dropLast_er (cs : List Cst) : (ers cs).dropLast = ers cs.dropLast := by rw [ers_eq, ers_eq, List.map_dropLast]

theorem reverse_er (cs : List Cst) : (ers cs).reverse = ers cs.reverse := by rw [ers_eq, ers_eq, List.map_reverse]

theorem length_er (cs : List Cst) : (ers cs).length = cs.length := by rw [ers_eq, List.length_map]

theorem dropEnds_er (cs : List Cst) : dropEnds (ers cs) = (dropEnds cs).map ers := by
  rcases cs with _ | ⟨a, _ | ⟨b, cs⟩⟩
  · rfl
  · rfl
  · simp only [ers, dropEnds, map_ok]
    rw [← dropLast_er]; rfl

theorem pairs_er : ∀ cs : List Cst, pairs (ers cs) = (pairs cs).map (List.map fun p => (er p.1, er p.2))
  | [] => rfl
  | [_] => rfl
  | a :: b :: cs => by
    simp only [ers, pairs]
    rw [pairs_er cs, map_bind, bind_map]; rfl

theorem isTok_er (k : TK) (c : Cst) : isTok k (er c) = isTok k c := by cases c <;> simp only [er] <;> rfl

theorem isNode_er (k : NodeKind) (c : Cst) : isNode k (er c) = isNode k c := by cases c <;> simp only [er] <;> rfl

theorem mapA_er {β : Type} (f : Cst → A β) (cs : List Cst) : mapA f (ers cs) = mapA (fun c => f (er c)) cs := by
  rw [ers_eq, mapA_map]

/-! ### Negation and products -/

theorem numberQ_er : ∀ c, numberQ (er c) = numberQ c
  | .tok t => rfl
  | .node k [_, c, _] => by simp only [er, ers, numberQ]; rw [numberQ_er c]
  | .node k [] => rfl
  | .node k [_] => rfl
  | .node k [_, _] => rfl
  | .node k (_ :: _ :: _ :: _ :: _) => rfl
  | .call .. => rfl
  | .callAgg .. => rfl
  | .box .. => rfl
  | .code _ => rfl

theorem zeroQ_er : ∀ c, zeroQ (er c) = zeroQ c
  | .tok t => rfl
  | .node k [_, c, _] => by simp only [er, ers, zeroQ]; rw [zeroQ_er c]
  | .node k [] => rfl
  | .node k [_] => rfl
  | .node k [_, c] => by simp only [er, ers, zeroQ]; rw [zeroQ_er c]
  | .node k (_ :: _ :: _ :: _ :: _) => rfl
  | .call .. => rfl
  | .callAgg .. => rfl
  | .box .. => rfl
  | .code _ => rfl

theorem negate_er : ∀ c, negate (er c) = (negate c).map erN
  | .tok t => by
    simp only [er, negate]
    show (if t.kind = .Integer then _ else if t.kind = .Real then _ else _) = _
    rw [map_ite, map_ite, bind_map]
    congr 1
    refine bind_congr fun s => ?_
    show _ = (.ok (erN (if s = [48] then .zero else .integer t.text)) : A Negated)
    split <;> rfl
  | .node k [o, c, e] => by
    simp only [er, ers, negate, zeroQ_er, numberQ_er, negate_er c, map_ite, bind_map, map_ok, erN]
  | .node k [] => by simp only [er, ers, negate, map_ite, map_fail, map_ok, erN]
  | .node k [_] => by simp only [er, ers, negate, map_ite, map_fail, map_ok, erN]
  | .node k [_, c] => by simp only [er, ers, negate, zeroQ_er, negate_er c, map_ite, bind_map, map_ok, map_fail, erN]
  | .node k (_ :: c :: _ :: _ :: _) => by
    simp only [er, ers, negate, zeroQ_er, negate_er c, map_ite, bind_map, map_ok, map_fail, erN]
  | .call .. => by simp only [er, negate, map_ok, erN, ers]
  | .callAgg .. => by simp only [er, negate, map_ok, erN, ers]
  | .box .. => by simp only [er, negate, map_ok, erN, ers]
  | .code _ => by simp only [er, negate, map_ok, erN, ers]

mutual
theorem flat_er (q : Bool) (d : ASrc) : ∀ c, flat q d (er c) = (flat q d c).map (List.map erO)
  | .node k cs => by
    have h1 := flatMinus_er q d (.node k cs) cs
    have h2 := flatDivide_er q d (.node k cs) cs
    simp only [er] at h1 h2
    simp only [er, flat, map_ite, map_ok]
    rw [h1, h2, flatEvens_er q d cs]
    rfl
  | .tok _ => rfl
  | .call .. => by simp only [er, flat, map_ok, List.map_cons, List.map_nil, erO]
  | .callAgg .. => by simp only [er, flat, map_ok, List.map_cons, List.map_nil, erO]
  | .box .. => by simp only [er, flat, map_ok, List.map_cons, List.map_nil, erO]
  | .code _ => by simp only [er, flat, map_ok, List.map_cons, List.map_nil, erO]
theorem flatEvens_er (q : Bool) (d : ASrc) : ∀ cs, flatEvens q d (ers cs) = (flatEvens q d cs).map (List.map erO)
  | [] => rfl
  | [c] => by simp only [ers, flatEvens]; exact flat_er q d c
  | c :: _ :: cs => by
    simp only [ers, flatEvens]
    rw [flat_er q d c, flatEvens_er q d cs]
    simp only [map_bind, bind_map, map_ok, List.map_append]
theorem flatMinus_er (q : Bool) (d : ASrc) (n : Cst) : ∀ cs, flatMinus q d (er n) (ers cs) = (flatMinus q d n cs).map (List.map erO)
  | [] => rfl
  | [_] => rfl
  | [_, c] => by
    simp only [ers, flatMinus]
    rw [numberQ_er, flat_er q d c, negate_er]
    simp only [map_bind, bind_map, map_ite, map_ok, List.map_cons, List.map_nil, erO]
  | _ :: _ :: _ :: _ => rfl
theorem flatDivide_er (q : Bool) (d : ASrc) (n : Cst) : ∀ cs, flatDivide q d (er n) (ers cs) = (flatDivide q d n cs).map (List.map erO)
  | [] => by simp only [ers, flatDivide, map_ite, map_ok, map_fail, List.map_cons, List.map_nil, erO]
  | [_] => by simp only [ers, flatDivide, map_ite, map_ok, map_fail, List.map_cons, List.map_nil, erO]
  | [_, _] => by simp only [ers, flatDivide, map_ite, map_ok, map_fail, List.map_cons, List.map_nil, erO]
  | [l, _, r] => by
    simp only [ers, flatDivide]
    rw [flat_er q d l]
    simp only [map_bind, bind_map, map_ite, map_ok, List.map_append, List.map_cons, List.map_nil, erO]
  | _ :: _ :: _ :: _ :: _ => by simp only [ers, flatDivide, map_ite, map_ok, map_fail, List.map_cons, List.map_nil, erO]
end

theorem flatL_er (q : Bool) (d : ASrc) : ∀ cs, flatL q d (ers cs) = (flatL q d cs).map (List.map erO)
  | [] => rfl
  | c :: cs => by
    simp only [ers, flatL]
    rw [flat_er q d c, flatL_er q d cs]
    simp only [map_bind, bind_map, map_ok, List.map_append]

theorem flattenPlus_er : ∀ c, flattenPlus (er c) = (flattenPlus c).map er
  | .node k [o, c] => by simp only [er, ers, flattenPlus]; rw [flattenPlus_er c]; simp only [map_ite, map_ok, er, ers]
  | .node k [] => by simp only [er, ers, flattenPlus, map_ite, map_ok, map_fail]
  | .node k [_] => by simp only [er, ers, flattenPlus, map_ite, map_ok, map_fail]
  | .node k (_ :: _ :: _ :: _) => by simp only [er, ers, flattenPlus, map_ite, map_ok, map_fail]
  | .tok _ => by simp only [er, flattenPlus, map_ok]
  | .call .. => by simp only [er, flattenPlus, map_ok]
  | .callAgg .. => by simp only [er, flattenPlus, map_ok]
  | .box .. => by simp only [er, flattenPlus, map_ok]
  | .code _ => by simp only [er, flattenPlus, map_ok]

theorem derivativeBody_er : ∀ c, derivativeBody (er c) = (derivativeBody c).map fun p => (p.1, er p.2)
  | .node k [r, o] => by
    simp only [er, ers, derivativeBody]
    rw [derivativeBody_er r]
    simp only [map_bind, bind_map, map_ite, map_ok, er, ers]
  | .node k [] => by simp only [er, ers, derivativeBody, map_ite, map_ok, map_fail]
  | .node k [_] => by simp only [er, ers, derivativeBody, map_ite, map_ok, map_fail]
  | .node k (_ :: _ :: _ :: _) => by simp only [er, ers, derivativeBody, map_ite, map_ok, map_fail]
  | .tok _ => by simp only [er, derivativeBody, map_ok]
  | .call .. => by simp only [er, derivativeBody, map_ok]
  | .callAgg .. => by simp only [er, derivativeBody, map_ok]
  | .box .. => by simp only [er, derivativeBody, map_ok]
  | .code _ => by simp only [er, derivativeBody, map_ok]

theorem binaryAt_er (env : AEnv) (name : List UInt8) (c : Cst) : binaryAt env name (er c) = (binaryAt env name c).map er := by
  unfold binaryAt
  rw [map_ite]
  congr 1
  cases c with
  | node k cs =>
    simp only [er]
    rw [expect3_er, map_ite, map_bind, bind_map]
    congr 1
    · refine bind_congr fun p => ?_
      obtain ⟨l, m, r⟩ := p
      dsimp only
      rw [isTok_er]
      cases l with
      | tok t =>
        simp only [er]
        show (if t.kind = .Symbol then _ else _) = _
        rw [map_ite, bind_map]
        congr 1
        refine bind_congr fun s => ?_
        rw [map_ite, map_ite]
        rfl
      | _ => rfl
    
  | _ => rfl

/-! ### Calls -/

theorem fineHead_er (c : Cst) : fineHead (er c) = fineHead c := by
  cases c with
  | node k cs => cases k <;> rfl
  | _ => rfl

theorem slotsHead_er (c : Cst) : slotsHead (er c) = slotsHead c := by
  cases c with
  | node k cs => cases k <;> rfl
  | _ => rfl

theorem callIssue_er (c : Cst) : callIssue (er c) = callIssue c := by
  unfold callIssue
  rw [slotsHead_er, fineHead_er]
  cases c <;> rfl

theorem partIssue_er (c : Cst) : partIssue (er c) = partIssue c := by
  unfold partIssue
  rw [slotsHead_er, fineHead_er]
  cases c <;> rfl

theorem issueAt_er (i : Option (AIssueTag × Severity)) (cs : List Cst) (d : ASrc) : issueAt i (ers cs) d = issueAt i cs d := by
  unfold issueAt
  rw [firstSource_er, lastSource_er]

section
variable {env : AEnv} {rec : Req → A Ast} (hr : ∀ r, rec (erR r) = rec r)
include hr

theorem recC_er (c : Cst) : rec (.cst (er c)) = rec (.cst c) := hr (.cst c)

theorem recN_er (g : Negated) (d : ASrc) : rec (.neg (erN g) d) = rec (.neg g d) := hr (.neg g d)

theorem recipAst_er (c : Cst) (d : ASrc) : recipAst rec (er c) d = recipAst rec c d := by
  unfold recipAst; rw [recC_er hr]

theorem operandAst_er {f : Cst → A Cst} (hf : ∀ c, f (er c) = (f c).map er) (o : AOperand) :
    operandAst rec f (erO o) = operandAst rec f o := by
  cases o with
  | cst c =>
    simp only [erO, operandAst]
    rw [hf, map_bind]
    exact bind_congr fun c => recC_er hr c
  | recip c d => exact recipAst_er hr c d
  | negOne => rfl
  | neg g d => exact recN_er hr g d

theorem timesAst_er (cs : List Cst) (d : ASrc) : timesAst env rec (ers cs) d = timesAst env rec cs d := by
  unfold timesAst
  rw [flatL_er, map_bind]
  refine bind_congr fun os => ?_
  rw [mapA_map, mapA_congr fun o => operandAst_er hr (binaryAt_er _ _) o]

theorem divideAst_er (l r : Cst) (d : ASrc) : divideAst env rec (er l) (er r) d = divideAst env rec l r d := by
  unfold divideAst
  rw [flat_er, map_bind]
  refine bind_congr fun os => ?_
  rw [mapA_map, mapA_congr fun o => operandAst_er hr (f := .ok) (fun _ => rfl) o, recipAst_er hr]

theorem negatedAst_er (g : Negated) (d : ASrc) : negatedAst env rec (erN g) d = negatedAst env rec g d := by
  cases g with
  | times cs => simp only [erN, negatedAst]; rw [evens_er, timesAst_er hr]
  | _ => rfl

theorem plusPair_er (p : Cst × Cst) : plusPair (er p.1, er p.2) = (plusPair p).map erO := by
  obtain ⟨a, b⟩ := p
  cases a with
  | tok o =>
    simp only [er, plusPair]
    rw [getSource_er, negate_er]
    simp only [map_ite, map_bind, bind_map, map_ok, map_fail, erO]
    rfl
  | _ => rfl

theorem plusAst_er (cs : List Cst) (d : ASrc) : plusAst env rec (ers cs) d = plusAst env rec cs d := by
  cases cs with
  | nil => rfl
  | cons c cs =>
    have hf := operandAst_er hr (f := fun c => do
      let c ← binaryAt env Sym.System_Plus.short c
      flattenPlus c) (fun c => by
        rw [binaryAt_er, map_bind, bind_map]
        exact bind_congr fun c => flattenPlus_er c)
    simp only [ers, plusAst]
    rw [pairs_er, map_bind]
    refine bind_congr fun ps => ?_
    have h1 := hf (.cst c)
    simp only [erO] at h1
    rw [h1, mapA_map]
    refine bind_congr fun a => ?_
    rw [mapA_congr (g := _) fun p => ?_]
    rw [plusPair_er hr, map_bind]
    exact bind_congr fun o => hf o

theorem quirkAst_er (name : List UInt8) (c : Cst) : quirkAst env rec name (er c) = quirkAst env rec name c := by
  unfold quirkAst
  rw [binaryAt_er, map_bind]
  exact bind_congr fun c => recC_er hr c

theorem messageAst_er (cs : List Cst) (d : ASrc) : messageAst env rec (ers cs) d = messageAst env rec cs d := by
  cases cs with
  | nil => rfl
  | cons l rest =>
    simp only [ers, messageAst]
    rw [recC_er hr, length_er, mapA_er]
    refine bind_congr fun a => ?_
    rw [mapA_congr fun c => ?_]
    have := recC_er hr c
    cases c with
    | tok t =>
      simp only [er] at this ⊢
      rw [this]; rfl
    | _ => exact this

theorem inequalityLoop_er (d : ASrc) : ∀ (ps : List (Tok × Cst)) (first : Ast) (rest : List (Sym × Ast)) (affinity : Option Bool),
    inequalityLoop rec d (ps.map fun p => (erT p.1, er p.2)) first rest affinity = inequalityLoop rec d ps first rest affinity
  | [], _, _, _ => rfl
  | (o, c) :: ps, first, rest, affinity => by
    simp only [List.map_cons, inequalityLoop]
    rw [recC_er hr]
    have hk : (erT o).kind = o.kind := rfl
    rw [hk]
    cases inequalityOperatorToSymbol o.kind with
    | none => rfl
    | some s =>
      refine bind_congr fun a => ?_
      simp only [inequalityLoop_er d ps]

theorem withTok_er (p : Cst × Cst) : withTok (er p.1, er p.2) = (withTok p).map fun p => (erT p.1, er p.2) := by
  obtain ⟨a, b⟩ := p
  cases a <;> rfl

theorem mapA_out {α β γ : Type} {f : α → A β} {g : β → γ} : ∀ as : List α,
    mapA (fun a => (f a).map g) as = (mapA f as).map (List.map g)
  | [] => rfl
  | a :: as => by
    simp only [Abs.mapA]
    rw [mapA_out as]
    cases f a with
    | error e => rfl
    | ok b => cases Abs.mapA f as <;> rfl

theorem inequalityAst_er (cs : List Cst) (d : ASrc) : inequalityAst rec (ers cs) d = inequalityAst rec cs d := by
  cases cs with
  | nil => rfl
  | cons c cs =>
    simp only [ers, inequalityAst]
    rw [recC_er hr, pairs_er]
    refine bind_congr fun a => ?_
    rw [map_bind]
    refine bind_congr fun ps => ?_
    rw [mapA_map, mapA_congr fun p => withTok_er hr p, mapA_out hr, map_bind]
    exact bind_congr fun ps => inequalityLoop_er hr d ps _ _ _

theorem tildeRest_er (d : AMeta) : ∀ (a : Ast) (cs : List Cst), Abs.tildeRest rec d a (ers cs) = Abs.tildeRest rec d a cs
  | _, [] => rfl
  | a, [m] => by simp only [ers, Abs.tildeRest]; rw [recC_er hr]
  | a, [m, r] => by simp only [ers, Abs.tildeRest]; rw [recC_er hr, recC_er hr]
  | a, m :: r :: s :: rest => by
    simp only [ers, Abs.tildeRest]
    rw [recC_er hr, recC_er hr]
    refine bind_congr fun m => bind_congr fun r => ?_
    exact tildeRest_er d _ (s :: rest)

theorem tildeAst_er (d : AMeta) (cs : List Cst) : tildeAst rec d (ers cs) = tildeAst rec d cs := by
  rcases cs with _ | ⟨l, _ | ⟨m, _ | ⟨r, _ | ⟨s, rest⟩⟩⟩⟩
  · rfl
  · rfl
  · simp only [ers, tildeAst]; rw [recC_er hr, recC_er hr]
  · simp only [ers, tildeAst]; rw [recC_er hr]
    exact bind_congr fun l => tildeRest_er hr d l [m, r]
  · simp only [ers, tildeAst]; rw [recC_er hr]
    refine bind_congr fun l => ?_
    have h1 := tildeRest_er hr .none l [m, r]
    simp only [ers] at h1
    rw [h1]
    exact bind_congr fun a => tildeRest_er hr d a (s :: rest)

theorem groupArgs_er (cs : List Cst) : groupArgs rec (ers cs) = groupArgs rec cs := by
  unfold groupArgs
  rw [mapA_er, mapA_congr fun c => recC_er hr c]

theorem groupAst_er (cs : List Cst) : groupAst rec (ers cs) = groupAst rec cs := by
  unfold groupAst
  rw [seqSource_er, dropEnds_er]
  refine bind_congr fun d => ?_
  rw [map_bind]
  refine bind_congr fun cs => ?_
  rw [groupArgs_er hr]

theorem missingAst_er (cs : List Cst) : missingAst rec (ers cs) = missingAst rec cs := by
  unfold missingAst
  rw [seqSource_er]
  refine bind_congr fun d => ?_
  cases cs with
  | nil => rfl
  | cons c cs => simp only [ers]; rw [groupArgs_er hr]

theorem args_er (cs : List Cst) : mapA (recC rec) (ers cs) = mapA (recC rec) cs := by
  rw [mapA_er]; exact mapA_congr (fun c => recC_er hr c) cs

theorem nakedAst_er (err : AbstractError) (cs : List Cst) (d : ASrc) : nakedAst rec err (ers cs) d = nakedAst rec err cs d := by
  rcases cs with _ | ⟨l, _ | ⟨c, _ | ⟨r, _ | ⟨s, rest⟩⟩⟩⟩
  · rfl
  · rfl
  · rfl
  · have h := recC_er hr c
    simp only [ers, nakedAst]
    cases c with
    | node k ds =>
      simp only [er] at h ⊢
      cases k with
      | «infix» op => cases op <;> first | (simp only [h]; done) | (simp only; rw [evens_er, args_er hr])
      | _ => simp only [h]
    | tok t => simp only [er] at h ⊢; simp only [h]
    | call => simp only [er] at h ⊢; simp only [h]
    | callAgg => simp only [er] at h ⊢; simp only [h]
    | box => simp only [er] at h ⊢; simp only [h]
    | code => rfl
  · rfl

theorem parenAst_er (cs : List Cst) (d : ASrc) : parenAst rec (ers cs) d = parenAst rec cs d := by
  have many : ∀ cs : List Cst, (do let cs ← dropEnds (ers cs); let as ← mapA (recC rec) cs; .ok (.abstractError .OpenParen as (.of d)) : A Ast) =
      (do let cs ← dropEnds cs; let as ← mapA (recC rec) cs; .ok (.abstractError .OpenParen as (.of d))) := by
    intro cs
    rw [dropEnds_er, map_bind]
    refine bind_congr fun cs => ?_
    rw [args_er hr]
  rcases cs with _ | ⟨l, _ | ⟨c, _ | ⟨r, _ | ⟨s, rest⟩⟩⟩⟩
  · exact many []
  · exact many [l]
  · exact many [l, c]
  · have h := recC_er hr c
    simp only [ers, parenAst]
    cases c with
    | node k ds =>
      simp only [er] at h ⊢
      cases k with
      | «infix» op => cases op <;> first | (simp only [h]; done) | (simp only; rw [evens_er, args_er hr])
      | _ => simp only [h]
    | tok t => simp only [er] at h ⊢; simp only [h]
    | call => simp only [er] at h ⊢; simp only [h]
    | callAgg => simp only [er] at h ⊢; simp only [h]
    | box => simp only [er] at h ⊢; simp only [h]
    | code => rfl
  · exact many (l :: c :: r :: s :: rest)

theorem compoundAst_er (op : CompoundOp) (cs : List Cst) (d : ASrc) : compoundAst env rec op (ers cs) d = compoundAst env rec op cs d := by
  unfold compoundAst
  rw [expect2_er]
  cases op <;> simp only [map_bind] <;> refine bind_congr fun p => ?_
  all_goals obtain ⟨a, b⟩ := p
  all_goals dsimp only
  all_goals try rw [isTok_er]
  all_goals try simp only [recC_er hr]
  all_goals cases b <;> rfl

theorem fileAst_er (c : Cst) : fileAst env (er c) = fileAst env c := by cases c <;> rfl

theorem prefixAst_er (op : PrefixOp) (cs : List Cst) (d : ASrc) : prefixAst env rec op (ers cs) d = prefixAst env rec op cs d := by
  unfold prefixAst
  rw [expect2_er]
  by_cases hb : op = .CodeParser_PrefixLinearSyntaxBang
  · subst hb
    simp only
    rcases cs with _ | ⟨a, _ | ⟨b, _ | ⟨c, cs⟩⟩⟩
    · rfl
    · rfl
    · simp only [ers]; rw [isTok_er, recC_er hr, recC_er hr]
    · rfl
  · cases op <;> first | exact absurd rfl hb | skip
    all_goals simp only [map_bind]
    all_goals refine bind_congr fun p => ?_
    all_goals try simp only [recC_er hr]
    all_goals first
      | (rw [fileAst_er hr]; done)
      | (rw [getSource_er]; done)
      | (rw [negate_er, map_bind]; exact bind_congr fun g => recN_er hr g d)
      | (rw [flattenPlus_er, map_bind]; simp only [recC_er hr])

theorem postfixAst_er (op : PostfixOp) (cs : List Cst) (d : ASrc) : postfixAst rec op (ers cs) d = postfixAst rec op cs d := by
  unfold postfixAst
  rw [expect2_er, map_bind]
  refine bind_congr fun p => ?_
  obtain ⟨a, b⟩ := p
  cases op <;> simp only [recC_er hr]
  cases b with
  | tok t =>
    simp only [er]
    rw [derivativeBody_er, map_bind]
    simp only [recC_er hr]
    rfl
  | _ => rfl

theorem binaryAst_er (op : BinaryOp) (cs : List Cst) (d : ASrc) : binaryAst env rec op (ers cs) d = binaryAst env rec op cs d := by
  unfold binaryAst
  rw [expect3_er, map_bind]
  refine bind_congr fun p => ?_
  obtain ⟨a, b, c⟩ := p
  cases op <;> simp only [recC_er hr, isTok_er, isNode_er, fileAst_er hr, divideAst_er hr]

theorem infixAst_er (op : InfixOp) (cs : List Cst) (d : ASrc) : infixAst env rec op (ers cs) d = infixAst env rec op cs d := by
  unfold infixAst
  have hq : ∀ (n : List UInt8) (cs : List Cst), mapA (quirkAst env rec n) (ers cs) = mapA (quirkAst env rec n) cs := by
    intro n cs
    rw [mapA_er]; exact mapA_congr (fun c => quirkAst_er hr n c) cs
  by_cases hb : op = .CompoundExpression
  · subst hb
    simp only
    rw [evens_er, mapA_er]
    refine congrArg (· >>= _) (mapA_congr (fun c => ?_) _)
    have h := recC_er hr c
    cases c with
    | tok t => simp only [er] at h ⊢; rw [h]; rfl
    | code => rfl
    | _ => simp only [er] at h ⊢; rw [h]
  · cases op <;> first | exact absurd rfl hb | skip
    all_goals simp only [evens_er, reverse_er, length_er, hq, args_er hr, inequalityAst_er hr, plusAst_er hr, timesAst_er hr,
      messageAst_er hr, tildeAst_er hr]

theorem ternaryAst_er (op : TernaryOp) (cs : List Cst) (d : ASrc) : ternaryAst rec op (ers cs) d = ternaryAst rec op cs d := by
  unfold ternaryAst
  rw [expect5_er, map_bind]
  refine bind_congr fun p => ?_
  obtain ⟨a, b, c, e, f⟩ := p
  cases op <;> simp only [recC_er hr, isTok_er, isNode_er]

theorem prefixBinaryAst_er (op : PrefixBinaryOp) (cs : List Cst) (d : ASrc) :
    prefixBinaryAst rec op (ers cs) d = prefixBinaryAst rec op cs d := by
  unfold prefixBinaryAst
  rw [expect3_er, map_bind]
  refine bind_congr fun p => ?_
  obtain ⟨a, b, c⟩ := p
  dsimp only
  have h := recC_er hr c
  cases c with
  | node k ds =>
    simp only [er] at h ⊢
    rw [recC_er hr]
    cases k with
    | «prefix» o => cases o <;> simp only [h, expect2_er, map_bind, recC_er hr]
    | _ => simp only [h]
  | tok t => simp only [er] at h ⊢; rw [recC_er hr, h]
  | call => simp only [er] at h ⊢; rw [recC_er hr, h]
  | callAgg => simp only [er] at h ⊢; rw [recC_er hr, h]
  | box => simp only [er] at h ⊢; rw [recC_er hr, h]
  | code => simp only [er]; rw [recC_er hr]

theorem groupNodeAst_er (op : GroupOp) (cs : List Cst) (d : ASrc) : groupNodeAst rec op (ers cs) d = groupNodeAst rec op cs d := by
  unfold groupNodeAst
  simp only [parenAst_er hr, nakedAst_er hr, groupAst_er hr]

theorem syntaxErrorAst_er (err : SyntaxErrorKind) (cs : List Cst) (d : ASrc) :
    syntaxErrorAst rec err (ers cs) d = syntaxErrorAst rec err cs d := by
  rcases cs with _ | ⟨l, _ | ⟨c, _ | ⟨r, _ | ⟨s, rest⟩⟩⟩⟩
  · rfl
  · rfl
  · rfl
  · simp only [ers, syntaxErrorAst]; rw [recC_er hr, recC_er hr]
  · rfl

theorem callAst_er (h : Cst) (m : Bool) (op : CallOp) (cs : List Cst) (d : ASrc) :
    callAst rec (er h) m op (ers cs) d = callAst rec h m op cs d := by
  unfold callAst
  simp only [recC_er hr, groupAst_er hr, missingAst_er hr, issueAt_er, partIssue_er, callIssue_er, isTok_er, getSource_er]
  cases m with
  | true => cases op <;> rfl
  | false =>
    cases op with
    | CodeParser_GroupSquare =>
      simp only
      have : (ers cs)[1]? = (cs[1]?).map er := by rw [ers_eq, List.getElem?_map]
      rw [this]
      cases cs[1]? with
      | none => rfl
      | some c =>
        simp only [Option.map_some]
        cases c with
        | node k ds =>
          simp only [er]
          cases k with
          | group o =>
            cases o <;> simp only [expect3_er, map_bind, groupAst_er hr]
          | _ => rfl
        | _ => rfl
    | _ => rfl

theorem nodeAst_er (k : NodeKind) (cs : List Cst) (d : ASrc) : nodeAst env rec k (ers cs) d = nodeAst env rec k cs d := by
  unfold nodeAst
  simp only [prefixAst_er hr, infixAst_er hr, postfixAst_er hr, binaryAst_er hr, ternaryAst_er hr, prefixBinaryAst_er hr,
    compoundAst_er hr, groupNodeAst_er hr, missingAst_er hr, dropLast_er, groupArgs_er hr, syntaxErrorAst_er hr]

theorem step_er (r : Req) : Abs.step env rec (erR r) = Abs.step env rec r := by
  cases r with
  | neg g d => exact negatedAst_er hr g d
  | cst c =>
    simp only [erR, Abs.step]
    rw [getSource_er]
    refine bind_congr fun d => ?_
    cases c with
    | tok t => rfl
    | node k cs => exact nodeAst_er hr k cs d
    | callAgg h m op cs => exact callAst_er hr h m op cs d
    | _ => rfl
end

theorem run_er (env : AEnv) : ∀ (n : Nat) (r : Req), Abs.run env n (erR r) = Abs.run env n r
  | 0, _ => rfl
  | n + 1, r => step_er (run_er env n) r

mutual
theorem csize_er : ∀ c, csize (er c) = csize c
  | .tok _ => rfl
  | .node _ cs => by simp only [er, csize]; rw [csizeL_er cs]
  | .call h _ _ b => by simp only [er, csize]; rw [csizeL_er h, csizeL_er b]
  | .callAgg h _ _ b => by simp only [er, csize]; rw [csize_er h, csizeL_er b]
  | .box _ cs => by simp only [er, csize]; rw [csizeL_er cs]
  | .code _ => rfl
theorem csizeL_er : ∀ cs, csizeL (ers cs) = csizeL cs
  | [] => rfl
  | c :: cs => by simp only [ers, csizeL]; rw [csize_er c, csizeL_er cs]
end

/-- Abstraction does not look at what follows tokens. -/
theorem abstractCst_er (env : AEnv) (c : Cst) : abstractCst env (er c) = abstractCst env c := by
  unfold abstractCst abstractR
  have : (Req.cst (er c)).meas = (Req.cst c).meas := by simp only [Req.meas]; rw [csize_er]
  rw [this]
  exact run_er env _ (.cst c)

end CodeParser.Erase
