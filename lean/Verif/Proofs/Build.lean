import Verif.Proofs.Stop3
import Verif.Proofs.Spot4
import Verif.Spec.Build
/-!
C80 (helper lemmas): what each function of abstraction gives.
-/
namespace CodeParser.Build
open Abs Spec Cst Spot

theorem bind_ok {α β : Type} {x : A α} {f : α → A β} {b : β} (h : (x >>= f) = .ok b) : ∃ a, x = .ok a ∧ f a = .ok b := by
  cases x with
  | error e => cases h
  | ok a => exact ⟨a, rfl, h⟩

theorem asStr_ok {t s : List UInt8} (h : asStr t = .ok s) : s = t := by
  unfold asStr at h
  split at h
  · cases h; rfl
  · cases h

theorem expect2_ok {cs : List Cst} {p : Cst × Cst} (h : expect2 cs = .ok p) : cs = [p.1, p.2] := by
  unfold expect2 at h
  split at h
  · cases h; rfl
  · cases h

theorem expect3_ok {cs : List Cst} {p : Cst × Cst × Cst} (h : expect3 cs = .ok p) : cs = [p.1, p.2.1, p.2.2] := by
  unfold expect3 at h
  split at h
  · cases h; rfl
  · cases h

theorem dropEnds_ok {cs ds : List Cst} (h : dropEnds cs = .ok ds) : ∃ o e, cs = o :: (ds ++ [e]) := by
  unfold dropEnds at h
  split at h
  · cases h
    rename_i a c cs
    exact ⟨a, (c :: cs).getLast (by simp), by rw [List.dropLast_append_getLast]⟩
  · cases h

theorem evens_operands : ∀ (cs : List Cst), evens cs = operands cs
  | [] => rfl
  | [_] => rfl
  | _ :: _ :: cs => by simp only [evens, operands, evens_operands cs]

theorem select_elements (a : Ast) : selectChildren a = elements a := by
  have ht : Sym.CodeParser_Comma.text = utf8 "CodeParser`Comma".toList := by decide +kernel
  cases a with
  | call h as d =>
    cases h with
    | leaf k s m => simp only [selectChildren, elements, ht]
    | _ => rfl
  | _ => rfl

theorem select_eq : selectChildren = elements := funext select_elements

section
variable {rec : Req → A Ast}

/-- What `rec` gives. -/
def Gives (rec : Req → A Ast) (c : Cst) (a : Ast) : Prop := rec (.cst c) = .ok a

theorem recs_ok {cs : List Cst} {as : List Ast} (h : mapA (recC rec) cs = .ok as) : List.Forall₂ (Gives rec) cs as :=
  mapA_forall h fun _ _ _ hb => hb

theorem groupArgs_ok {cs : List Cst} {as : List Ast} (h : groupArgs rec cs = .ok as) :
    ∃ bs, List.Forall₂ (Gives rec) cs bs ∧ as = bs.flatMap elements := by
  obtain ⟨bs, h1, h2⟩ := bind_ok h
  cases h2
  exact ⟨bs, recs_ok h1, by rw [select_eq]⟩

theorem groupAst_ok {cs : List Cst} {p : ASrc × List Ast} (h : groupAst rec cs = .ok p) :
    ∃ o ds e bs, cs = o :: (ds ++ [e]) ∧ List.Forall₂ (Gives rec) ds bs ∧ p.2 = bs.flatMap elements ∧ seqSource cs = .ok p.1 := by
  obtain ⟨s, h1, h⟩ := bind_ok h
  obtain ⟨ds, h2, h⟩ := bind_ok h
  obtain ⟨as, h3, h⟩ := bind_ok h
  cases h
  obtain ⟨o, e, rfl⟩ := dropEnds_ok h2
  obtain ⟨bs, h4, rfl⟩ := groupArgs_ok h3
  exact ⟨o, ds, e, bs, rfl, h4, rfl, h1⟩

theorem missingAst_ok {cs : List Cst} {p : ASrc × List Ast} (h : missingAst rec cs = .ok p) :
    ∃ o ds bs, cs = o :: ds ∧ List.Forall₂ (Gives rec) ds bs ∧ p.2 = bs.flatMap elements ∧ seqSource cs = .ok p.1 := by
  obtain ⟨s, h1, h⟩ := bind_ok h
  cases cs with
  | nil => cases h
  | cons o ds =>
    obtain ⟨as, h3, h⟩ := bind_ok h
    cases h
    obtain ⟨bs, h4, rfl⟩ := groupArgs_ok h3
    exact ⟨o, ds, bs, rfl, h4, rfl, h1⟩

theorem issueAt_ok {i : Option (AIssueTag × Severity)} {cs : List Cst} {d : ASrc} {m : AMeta} (h : issueAt i cs d = .ok m) :
    CallData i cs d m := by
  unfold issueAt at h
  unfold CallData
  split at h
  · cases h; rfl
  · obtain ⟨s, h1, h⟩ := bind_ok h
    obtain ⟨s', h2, h⟩ := bind_ok h
    cases h
    obtain ⟨o, ds, rfl, h3⟩ := first_is h1
    obtain ⟨e, es, h5, h4⟩ := last_is h2
    exact ⟨o, e, s, s', rfl, by rw [h5]; simp, getSource_hull _ h3, getSource_hull _ h4, rfl⟩

theorem callIssue_eq (h : Cst) : callIssue h = strangeCall h := by
  cases h with
  | tok t =>
    obtain ⟨k, x, y, z⟩ := t
    cases k <;> rfl
  | node k cs =>
    cases k with
    | compound op => cases op <;> rfl
    | group op => cases op <;> rfl
    | «infix» op => cases op <;> rfl
    | «prefix» op => cases op <;> rfl
    | «postfix» op => cases op <;> rfl
    | binary op => cases op <;> rfl
    | _ => rfl
  | _ => rfl

theorem partIssue_eq (h : Cst) : partIssue h = strangePart h := by
  cases h with
  | tok t =>
    obtain ⟨k, x, y, z⟩ := t
    cases k <;> rfl
  | node k cs =>
    cases k with
    | compound op => cases op <;> rfl
    | group op => cases op <;> rfl
    | «infix» op => cases op <;> rfl
    | «prefix» op => cases op <;> rfl
    | «postfix» op => cases op <;> rfl
    | binary op => cases op <;> rfl
    | _ => rfl
  | _ => rfl

variable {env : AEnv} {d : ASrc} {a : Ast}

theorem fileAst_ok {c : Cst} (h : fileAst env c = .ok a) : ∃ t, c = .tok t ∧ t.kind = .String ∧ a = stringAt (inQuotes env.debug t.text) t := by
  unfold fileAst at h
  split at h
  · rename_i t
    split at h
    · obtain ⟨s, h1, h⟩ := bind_ok h
      cases h
      cases asStr_ok h1
      exact ⟨t, rfl, by assumption, rfl⟩
    · cases h
  · cases h

theorem messageAst_ok {cs : List Cst} (h : messageAst env rec cs d = .ok a) :
    ∃ l rest b bs, cs = l :: rest ∧ Gives rec l b ∧ List.Forall₂ (Tag (Gives rec) env.debug) rest bs ∧
      a = .call (named "MessageName") (b :: bs)
        ⟨some d, if rest.length > 2 then [⟨.SyntaxUndocumentedMessageName, .error, d, []⟩] else []⟩ := by
  unfold messageAst at h
  split at h
  · cases h
  · rename_i l rest
    obtain ⟨b, h1, h⟩ := bind_ok h
    obtain ⟨bs, h2, h⟩ := bind_ok h
    cases h
    refine ⟨l, rest, b, bs, rfl, h1, mapA_forall h2 ?_, rfl⟩
    intro c _ b hb
    unfold Tag
    split at hb
    · rename_i t
      split at hb
      · rename_i hk
        obtain ⟨s, h3, hb⟩ := bind_ok hb
        cases hb
        cases asStr_ok h3
        simp only
        rw [if_pos hk]
        rfl
      · rename_i hk
        simp only
        rw [if_neg hk]
        exact hb
    · rename_i hne
      split
      · exact absurd rfl (hne _)
      · exact hb

theorem tildeRest_ok {m : AMeta} : ∀ {x : Ast} {cs : List Cst}, Abs.tildeRest rec m x cs = .ok a →
    ∃ as, List.Forall₂ (Gives rec) cs as ∧ tildes m x as = some a
  | _, [], h => by unfold Abs.tildeRest at h; cases h
  | x, [f], h => by
    unfold Abs.tildeRest at h
    obtain ⟨b, h1, h⟩ := bind_ok h
    cases h
    exact ⟨[b], .cons h1 .nil, rfl⟩
  | x, [f, y], h => by
    unfold Abs.tildeRest at h
    obtain ⟨b, h1, h⟩ := bind_ok h
    obtain ⟨c, h2, h⟩ := bind_ok h
    cases h
    exact ⟨[b, c], .cons h1 (.cons h2 .nil), rfl⟩
  | x, f :: y :: z :: zs, h => by
    unfold Abs.tildeRest at h
    obtain ⟨b, h1, h⟩ := bind_ok h
    obtain ⟨c, h2, h⟩ := bind_ok h
    obtain ⟨as, h3, h4⟩ := tildeRest_ok (cs := z :: zs) h
    cases h3 with
    | cons h5 h6 => exact ⟨b :: c :: _ :: _, .cons h1 (.cons h2 (.cons h5 h6)), h4⟩

theorem tildeAst_ok {m : AMeta} {cs : List Cst} (h : tildeAst rec m cs = .ok a) :
    ∃ l rest b as, cs = l :: rest ∧ Gives rec l b ∧ List.Forall₂ (Gives rec) rest as ∧ tildes m b as = some a := by
  unfold tildeAst at h
  split at h
  · obtain ⟨b, h1, h⟩ := bind_ok h
    obtain ⟨c, h2, h⟩ := bind_ok h
    cases h
    exact ⟨_, _, b, [c], rfl, h1, .cons h2 .nil, rfl⟩
  · obtain ⟨b, h1, h⟩ := bind_ok h
    obtain ⟨as, h2, h3⟩ := tildeRest_ok h
    exact ⟨_, _, b, as, rfl, h1, h2, h3⟩
  · rename_i l f r rest hne
    obtain ⟨b, h1, h⟩ := bind_ok h
    obtain ⟨x, h2, h⟩ := bind_ok h
    obtain ⟨as, h3, h4⟩ := tildeRest_ok h2
    obtain ⟨bs, h5, h6⟩ := tildeRest_ok h
    cases h3 with
    | cons g1 h3 =>
      cases h3 with
      | cons g2 h3 =>
        cases h3
        cases h4
        refine ⟨_, _, b, _ :: _ :: bs, rfl, h1, .cons g1 (.cons g2 h5), ?_⟩
        cases h5 with
        | nil => exact absurd rfl hne
        | cons => exact h6
  · cases h

theorem nakedAst_ok {op : GroupOp} {err : AbstractError} {cs : List Cst} (he : nakedError op = some err) (hp : op ≠ .CodeParser_GroupParen)
    (h : nakedAst rec err cs d = .ok a) : Built (Gives rec) env.debug d (.node (.group op) cs) a := by
  unfold nakedAst at h
  split at h
  · split at h
    · obtain ⟨as, h1, h⟩ := bind_ok h
      cases h
      rw [evens_operands] at h1
      exact .nakedCommas he (recs_ok h1)
    · rename_i hne
      obtain ⟨b, h1, h⟩ := bind_ok h
      cases h
      refine .naked he hp ?_ h1
      unfold isCommas
      split
      · exact absurd rfl (hne _)
      · rfl
  · cases h
    exact .nakedNothing he
  · cases h

theorem parenAst_ok {cs : List Cst} (hl : cs.length ≤ 3) (h : parenAst rec cs d = .ok a) :
    Built (Gives rec) env.debug d (.node (.group .CodeParser_GroupParen) cs) a := by
  unfold parenAst at h
  split at h
  · split at h
    · obtain ⟨as, h1, h⟩ := bind_ok h
      cases h
      rw [evens_operands] at h1
      exact .nakedCommas rfl (recs_ok h1)
    · rename_i hne
      refine .paren ?_ h
      unfold isCommas
      split
      · exact absurd rfl (hne _)
      · rfl
  · rename_i hne
    obtain ⟨ds, h1, h⟩ := bind_ok h
    obtain ⟨as, h2, h⟩ := bind_ok h
    cases h
    obtain ⟨o, e, rfl⟩ := dropEnds_ok h1
    cases ds with
    | nil => cases h2; exact .nakedNothing rfl
    | cons x ds =>
      cases ds with
      | nil => exact absurd rfl (hne _ _ _)
      | cons => simp at hl

theorem groupNodeAst_ok {op : GroupOp} {cs : List Cst} (hl : op = .CodeParser_GroupParen → cs.length ≤ 3)
    (hd : seqSource cs = .ok d) (h : groupNodeAst rec op cs d = .ok a) : Built (Gives rec) env.debug d (.node (.group op) cs) a := by
  unfold groupNodeAst at h
  split at h
  · exact parenAst_ok (hl rfl) h
  · exact nakedAst_ok rfl nofun h
  · exact nakedAst_ok rfl nofun h
  · exact nakedAst_ok rfl nofun h
  · rename_i h1 h2 h3 h4
    obtain ⟨p, h5, h⟩ := bind_ok h
    cases h
    obtain ⟨o, ds, e, bs, rfl, h6, h7, h8⟩ := groupAst_ok h5
    rw [hd] at h8
    cases h8
    rw [h7]
    refine .group ?_ h6
    unfold nakedError
    split
    · exact absurd rfl h2
    · exact absurd rfl h3
    · exact absurd rfl h4
    · exact absurd rfl h1
    · rfl

theorem isTok_eq {k : TK} {c : Cst} (h : isTok k c = true) : ∃ t, c = .tok t ∧ t.kind = k := by
  cases c with
  | tok t => exact ⟨t, rfl, by simpa [isTok] using h⟩
  | _ => cases h

theorem isTok_ne {k : TK} {c : Cst} (h : ¬ isTok k c = true) : ∀ t, c = .tok t → t.kind ≠ k := by
  rintro t rfl hk
  exact h (by simp [isTok, hk])

theorem isNode_test (c : Cst) : isNode (.binary .PatternTest) c = isPatternTest c := by
  cases c with
  | node k cs =>
    cases k with
    | binary op => cases op <;> rfl
    | _ => rfl
  | _ => rfl

theorem callAst_ok {hd : Cst} {m : Bool} {op : CallOp} {cs : List Cst} (h : callAst rec hd m op cs d = .ok a) :
    Built (Gives rec) env.debug d (.callAgg hd m op cs) a := by
  unfold callAst at h
  split at h
  · split at h
    · cases h
    · rename_i c hc
      split at h
      · rename_i ds
        obtain ⟨p, h1, h⟩ := bind_ok h
        obtain ⟨m, h2, h⟩ := bind_ok h
        obtain ⟨b, h3, h⟩ := bind_ok h
        obtain ⟨q, h4, h⟩ := bind_ok h
        cases h
        obtain ⟨o, es, e, bs, rfl, h6, h7, h8⟩ := groupAst_ok h4
        obtain ⟨x, y, z⟩ := p
        have h9 := expect3_ok h1
        subst h9
        simp only [List.getElem?_cons_succ, List.getElem?_cons_zero, Option.some.injEq] at hc
        subst hc
        rw [partIssue_eq] at h2
        rw [h7]
        exact .part (cs := [x, _, z]) rfl h3 h6 (issueAt_ok h2)
      · rename_i hne
        obtain ⟨m, h2, h⟩ := bind_ok h
        obtain ⟨b, h3, h⟩ := bind_ok h
        obtain ⟨q, h4, h⟩ := bind_ok h
        cases h
        obtain ⟨o, es, e, bs, rfl, h6, h7, h8⟩ := groupAst_ok h4
        rw [callIssue_eq] at h2
        rw [h7]
        refine .call ?_ h3 h6 (issueAt_ok h2)
        unfold innerSquare
        split
        · rename_i heq
          rw [heq] at hc
          simp only [List.getElem?_cons_succ, List.getElem?_cons_zero, Option.some.injEq] at hc
          exact absurd hc.symm (hne _)
        · rfl
  · have tail : ∀ {m : AMeta}, (do let a ← rec (.cst hd); let (_, as) ← groupAst rec cs; .ok (.call (.callS .System_TypeSpecifier [a] .none) as m) : A Ast) = .ok a →
        ∃ b o es e bs, Gives rec hd b ∧ cs = o :: (es ++ [e]) ∧ List.Forall₂ (Gives rec) es bs ∧
          a = .call (.call (named "TypeSpecifier") [b] .none) (bs.flatMap elements) m := by
      intro m h
      obtain ⟨b, h3, h⟩ := bind_ok h
      obtain ⟨q, h4, h⟩ := bind_ok h
      cases h
      obtain ⟨o, es, e, bs, rfl, h6, h7, h8⟩ := groupAst_ok h4
      rw [h7]
      exact ⟨b, o, es, e, bs, h3, rfl, h6, rfl⟩
    by_cases hs : isTok .String hd = true
    · rw [if_pos hs] at h
      obtain ⟨b, o, es, e, bs, h1, rfl, h2, rfl⟩ := tail h
      obtain ⟨t, rfl, hk⟩ := isTok_eq hs
      exact .type hk h1 h2
    · rw [if_neg hs] at h
      obtain ⟨s, h0, h⟩ := bind_ok h
      obtain ⟨b, o, es, e, bs, h1, rfl, h2, rfl⟩ := tail h
      exact .typeOther (isTok_ne hs) (getSource_hull _ h0) h1 h2
  · obtain ⟨m, h2, h⟩ := bind_ok h
    obtain ⟨b, h3, h⟩ := bind_ok h
    obtain ⟨q, h4, h⟩ := bind_ok h
    cases h
    obtain ⟨o, es, e, bs, rfl, h6, h7, h8⟩ := groupAst_ok h4
    rw [partIssue_eq] at h2
    rw [h7]
    exact .partLong h3 h6 (issueAt_ok h2)
  · obtain ⟨b, h3, h⟩ := bind_ok h
    obtain ⟨q, h4, h⟩ := bind_ok h
    cases h
    obtain ⟨o, es, bs, rfl, h6, h7, h8⟩ := missingAst_ok h4
    rw [h7]
    exact .callUnclosed h3 h6
  · obtain ⟨b, h3, h⟩ := bind_ok h
    obtain ⟨q, h4, h⟩ := bind_ok h
    cases h
    obtain ⟨o, es, bs, rfl, h6, h7, h8⟩ := missingAst_ok h4
    rw [h7]
    exact .typeUnclosed h3 h6
  · obtain ⟨b, h3, h⟩ := bind_ok h
    obtain ⟨q, h4, h⟩ := bind_ok h
    cases h
    obtain ⟨o, es, bs, rfl, h6, h7, h8⟩ := missingAst_ok h4
    rw [h7]
    exact .partUnclosed h3 h6

theorem prefixBinaryAst_ok {op : PrefixBinaryOp} {cs : List Cst} (h : prefixBinaryAst rec op cs d = .ok a) :
    Built (Gives rec) env.debug d (.node (.prefixBinary op) cs) a := by
  unfold prefixBinaryAst at h
  obtain ⟨⟨o, x, y⟩, h1, h0⟩ := bind_ok h
  clear h
  rename _ => h
  cases expect3_ok h1
  simp only at h
  split at h
  · obtain ⟨⟨i, v⟩, h2, h⟩ := bind_ok h
    obtain ⟨b, h3, h⟩ := bind_ok h
    obtain ⟨c, h4, h⟩ := bind_ok h
    cases h
    exact .integral rfl (expect2_ok h2) h3 h4
  · obtain ⟨⟨i, v⟩, h2, h⟩ := bind_ok h
    obtain ⟨b, h3, h⟩ := bind_ok h
    obtain ⟨c, h4, h⟩ := bind_ok h
    cases h
    exact .integral rfl (expect2_ok h2) h3 h4
  · rename_i h5 h6
    obtain ⟨b, h3, h⟩ := bind_ok h
    obtain ⟨c, h4, h⟩ := bind_ok h
    cases h
    refine .integralOf ?_ h3 h4
    show differential y = none
    clear h3 h4 h1
    unfold differential
    split
    · exact (h5 _ rfl).elim
    · exact (h6 _ rfl).elim
    · rfl

theorem expect5_ok {cs : List Cst} {p : Cst × Cst × Cst × Cst × Cst} (h : expect5 cs = .ok p) : cs = [p.1, p.2.1, p.2.2.1, p.2.2.2.1, p.2.2.2.2] := by
  unfold expect5 at h
  split at h
  · cases h; rfl
  · cases h

theorem isNode_commas (c : Cst) : isNode (.infix .CodeParser_Comma) c = isCommas c := by
  cases c with
  | node k cs =>
    cases k with
    | «infix» op => cases op <;> rfl
    | _ => rfl
  | _ => rfl

theorem childrenSource_ok {f : Ast} {p : List Ast × Option ASrc} (h : childrenSource f = .ok p) : arguments f = some p := by
  cases f <;> cases h <;> rfl

theorem ternaryAst_ok {cs : List Cst} (h : ternaryAst rec .CodeParser_TernaryTilde cs d = .ok a) :
    Built (Gives rec) env.debug d (.node (.ternary .CodeParser_TernaryTilde) cs) a := by
  unfold ternaryAst at h
  obtain ⟨⟨l, o, m, o', r⟩, h1, h0⟩ := bind_ok h
  clear h
  rename _ => h
  have h2 := expect5_ok h1
  subst h2
  simp only [isNode_commas] at h
  split at h
  · obtain ⟨f, h3, h⟩ := bind_ok h
    obtain ⟨p, h4, h⟩ := bind_ok h
    obtain ⟨b, h5, h⟩ := bind_ok h
    obtain ⟨c, h6, h⟩ := bind_ok h
    cases h
    exact .tildeCommas (by assumption) h5 h3 (childrenSource_ok h4) h6
  · obtain ⟨f, h3, h⟩ := bind_ok h
    obtain ⟨b, h5, h⟩ := bind_ok h
    obtain ⟨c, h6, h⟩ := bind_ok h
    cases h
    exact .tilde3 (eq_false_of_ne_true (by assumption)) h5 h3 h6

theorem nodeAst_ok {k : NodeKind} {cs : List Cst} (hb : inBuilt (.node k cs) = true) (hs : getSource (.node k cs) = .ok d)
    (h : nodeAst env rec k cs d = .ok a) : Built (Gives rec) env.debug d (.node k cs) a := by
  have hs' : seqSource cs = .ok d := by unfold getSource at hs; exact hs
  cases k with
  | «infix» op =>
    cases op <;> first | cases hb | skip
    · obtain ⟨l, rest, b, bs, h1, h2, h3, rfl⟩ := messageAst_ok h
      rw [evens_operands] at h1
      exact .message h1 h2 h3
    · obtain ⟨l, rest, b, as, h1, h2, h3, h4⟩ := tildeAst_ok h
      rw [evens_operands] at h1
      exact .tilde h1 h2 h3 h4
  | «prefix» op =>
    have two : ∀ {f : Cst × Cst → A Ast}, (expect2 cs >>= f) = .ok a → ∃ x y, cs = [x, y] ∧ f (x, y) = .ok a := by
      intro f h
      obtain ⟨⟨x, y⟩, h1, h⟩ := bind_ok h
      exact ⟨x, y, expect2_ok h1, h⟩
    cases op <;> first | cases hb | skip
    · obtain ⟨o, c, rfl, h1⟩ := two h
      obtain ⟨b, h2, h1⟩ := bind_ok h1
      cases h1
      obtain ⟨t, rfl, hk, rfl⟩ := fileAst_ok h2
      exact .get hk
    · obtain ⟨o, c, rfl, h1⟩ := two h
      obtain ⟨s, h2, h1⟩ := bind_ok h1
      obtain ⟨b, h3, h1⟩ := bind_ok h1
      cases h1
      exact .notNot (getSource_hull _ h2) h3
    · simp only [nodeAst, prefixAst] at h
      split at h
      · split at h
        · rename_i hk
          obtain ⟨t, rfl, hk'⟩ := isTok_eq hk
          obtain ⟨b, h3, h⟩ := bind_ok h
          obtain ⟨c, h4, h⟩ := bind_ok h
          cases h
          exact .bang hk' h3 h4
        · rename_i hk
          obtain ⟨b, h3, h⟩ := bind_ok h
          cases h
          exact .bangOther (isTok_ne hk) h3
      · cases h
  | binary op =>
    obtain ⟨⟨l, o, r⟩, h1, h2⟩ := bind_ok (show (expect3 cs >>= _) = _ from h)
    clear h
    cases expect3_ok h1
    simp only at h2
    cases op <;> first | cases hb | skip
    · obtain ⟨b, h3, h2⟩ := bind_ok h2
      obtain ⟨c, h4, h2⟩ := bind_ok h2
      cases h2
      obtain ⟨t, rfl, hk, rfl⟩ := fileAst_ok h3
      exact .put hk h4
    · obtain ⟨b, h3, h2⟩ := bind_ok h2
      obtain ⟨c, h4, h2⟩ := bind_ok h2
      cases h2
      obtain ⟨t, rfl, hk, rfl⟩ := fileAst_ok h3
      exact .putAppend hk h4
    · simp only [isNode_test, true_and] at h2
      obtain ⟨b, h3, h2⟩ := bind_ok h2
      obtain ⟨c, h4, h2⟩ := bind_ok h2
      split at h2
      · cases h2
        exact .testTest (by assumption) h3 h4
      · cases h2
        exact .test (eq_false_of_ne_true (by assumption)) h3 h4
  | compound op =>
    cases op <;> first | cases hb | skip
    obtain ⟨⟨x, y⟩, h1, h2⟩ := bind_ok (show (expect2 cs >>= _) = _ from h)
    clear h
    cases expect2_ok h1
    cases y with
    | tok t =>
      have hk : t.kind = .Symbol ∨ t.kind = .String := by simpa [inBuilt] using hb
      simp only at h2
      have hi : ¬ t.kind = .Integer := by rcases hk with hk | hk <;> rw [hk] <;> decide
      rw [if_neg hi, if_pos hk] at h2
      obtain ⟨s, h3, h2⟩ := bind_ok h2
      cases h2
      cases asStr_ok h3
      exact .slotName hk
    | _ => cases hb
  | group op =>
    refine groupNodeAst_ok ?_ hs' h
    rintro rfl
    simpa [inBuilt] using hb
  | ternary op =>
    cases op <;> first | cases hb | skip
    exact ternaryAst_ok h
  | prefixBinary op => exact prefixBinaryAst_ok h
  | syntaxError err =>
    change syntaxErrorAst rec err cs d = .ok a at h
    unfold syntaxErrorAst at h
    split at h
    · obtain ⟨b, h3, h⟩ := bind_ok h
      obtain ⟨c, h4, h⟩ := bind_ok h
      cases h
      exact .wrong h3 h4
    · cases h
  | groupMissingCloser op =>
    obtain ⟨p, h1, h⟩ := bind_ok h
    cases h
    obtain ⟨o, es, bs, rfl, h6, h7, h8⟩ := missingAst_ok h1
    rw [hs'] at h8
    cases h8
    rw [h7]
    exact .unclosed h6
  | groupMissingOpener op =>
    obtain ⟨as, h1, h⟩ := bind_ok h
    cases h
    obtain ⟨bs, h2, rfl⟩ := groupArgs_ok h1
    rcases List.eq_nil_or_concat cs with rfl | ⟨ds, e, rfl⟩
    · cases hs'
    · rw [List.concat_eq_append, List.dropLast_concat] at h2
      rw [List.concat_eq_append]
      exact .unopened h2
  | _ => cases hb

end

theorem step_ok {env : AEnv} {rec : Req → A Ast} {c : Cst} {a : Ast} (hb : inBuilt c = true) (h : Abs.step env rec (.cst c) = .ok a) :
    ∃ d, Hulls (leaves c) d ∧ Built (Gives rec) env.debug d c a := by
  obtain ⟨d, h1, h2⟩ := bind_ok (show (getSource c >>= _) = _ from h)
  refine ⟨d, getSource_hull c h1, ?_⟩
  cases c with
  | node k cs => exact nodeAst_ok hb h1 h2
  | callAgg => exact callAst_ok h2
  | _ => cases hb

theorem forall_unique {α β : Type} {R : α → β → Prop} (hu : ∀ a b b', R a b → R a b' → b = b') {as : List α} {bs bs' : List β}
    (h : List.Forall₂ R as bs) (h' : List.Forall₂ R as bs') : bs = bs' := by
  induction h generalizing bs' with
  | nil => cases h'; rfl
  | cons h1 _ ih =>
    cases h' with
    | cons h2 h3 => rw [hu _ _ _ h1 h2, ih h3]

theorem hulls_unique {ts : List Tok} {s s' : ASrc} (h : Hulls ts s) (h' : Hulls ts s') : s = s' := by
  obtain ⟨a, b, h1, h2, rfl⟩ := h
  obtain ⟨a', b', h3, h4, rfl⟩ := h'
  rw [h1] at h3
  rw [h2] at h4
  cases h3
  cases h4
  rfl

theorem callData_unique {i : Option (AIssueTag × Severity)} {cs : List Cst} {d : ASrc} {m m' : AMeta} (h : CallData i cs d m) (h' : CallData i cs d m') :
    m = m' := by
  unfold CallData at h h'
  split at h
  · rw [h, h']
  · obtain ⟨o, e, s, s', h1, h2, h3, h4, rfl⟩ := h
    obtain ⟨o', e', u, u', g1, g2, g3, g4, rfl⟩ := h'
    rw [h1] at g1
    rw [h2] at g2
    cases g1
    cases g2
    rw [hulls_unique h3 g3, hulls_unique h4 g4]

section
variable {G : Cst → Ast → Prop} {quote : List UInt8 → List UInt8} (hG : ∀ c a b, G c a → G c b → a = b)
include hG

theorem tag_unique (c : Cst) (a b : Ast) (h : Tag G quote c a) (h' : Tag G quote c b) : a = b := by
  unfold Tag at h h'
  split at h
  · simp only at h'
    split at h
    · rename_i hk
      rw [if_pos hk] at h'
      rw [h, h']
    · rename_i hk
      rw [if_neg hk] at h'
      exact hG _ _ _ h h'
  · rename_i hne
    split at h'
    · exact (hne _ rfl).elim
    · exact hG _ _ _ h h'

omit hG in
theorem inner_append {o e : Cst} {cs cs' : List Cst} {o' e' : Cst} (h : o :: (cs ++ [e]) = o' :: (cs' ++ [e'])) : o = o' ∧ cs = cs' ∧ e = e' := by
  obtain ⟨h1, h2⟩ := List.cons.inj h
  obtain ⟨h3, h4⟩ := List.append_inj' h2 rfl
  exact ⟨h1, h3, (List.cons.inj h4).1⟩

set_option maxHeartbeats 2000000 in
theorem built_unique {d : ASrc} {c : Cst} {a b : Ast} (h : Built G quote d c a) (h' : Built G quote d c b) : a = b := by
  have F : ∀ {cs as as'}, List.Forall₂ G cs as → List.Forall₂ G cs as' → as = as' := fun h h' => forall_unique hG h h'
  have T : ∀ {cs as as'}, List.Forall₂ (Tag G quote) cs as → List.Forall₂ (Tag G quote) cs as' → as = as' := fun h h' => forall_unique (tag_unique hG) h h'
  have N : ∀ {o e o' e' : Cst} {cs cs'}, o :: (cs ++ [e]) = o' :: (cs' ++ [e']) → o = o' ∧ cs = cs' ∧ e = e' := fun h => inner_append h
  generalize hc : c = c' at h'
  cases h <;> cases h' <;> first | (exfalso; simp at hc; done) | skip
  all_goals
    simp only [Cst.node.injEq, Cst.callAgg.injEq, true_and, NodeKind.group.injEq, List.cons.injEq, and_true, NodeKind.prefixBinary.injEq, NodeKind.syntaxError.injEq,
      NodeKind.groupMissingOpener.injEq, NodeKind.groupMissingCloser.injEq, Cst.tok.injEq] at hc
  all_goals
    try (repeat' (obtain ⟨rfl, hc⟩ := hc))
    try subst hc
  all_goals try grind [hulls_unique, callData_unique]
  all_goals first
    | (obtain ⟨h1, h2⟩ := List.append_inj' hc rfl
       cases h2
       subst h1
       first | grind [hulls_unique] | skip)
    | (simp_all [isCommas, nakedError]; done)
    | skip
end

end CodeParser.Build
