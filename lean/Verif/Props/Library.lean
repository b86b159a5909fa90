import Verif.Spec.Library
import Verif.Props.Link
import Verif.Props.CheckParse
import Verif.Proofs.Recover4
/-!
C82: the functions of the library.  What they are asked for is what they do, and what they send is one
complete expression; whatever is not in order ends in a panic.
-/
namespace CodeParser.Props.Library
open CodeParser CodeParser.Spec CodeParser.Wll CodeParser.Spec.Link CodeParser.Spec.Library CodeParser.Props.Link CodeParser.LinkP

/-! ### Arguments -/

theorem some_bind {α β : Type} (a : α) (f : α → Option β) : (some a >>= f) = f a := rfl

theorem convOf_number (c : Conv) : convOf (convNumber c) = some c := by cases c <;> rfl

theorem firstOf_number (f : FirstLine) : firstOf (firstNumber f) = some f := by cases f <;> rfl

theorem stringifyOf_number (m : Stringify) : stringifyOf (modeNumber m) = some m := by cases m <;> rfl

theorem encodingOf_number (b : Bool) : encodingOf (encodingNumber b) = some b := by cases b <;> rfl

theorem convOf_eq {v : Int} {c : Conv} (h : convOf v = some c) : v = convNumber c := by
  unfold convOf at h
  split at h
  · cases h; assumption
  · split at h
    · cases h; assumption
    · cases h

theorem firstOf_eq {v : Int} {c : FirstLine} (h : firstOf v = some c) : v = firstNumber c := by
  unfold firstOf at h
  split at h
  · cases h; assumption
  · split at h
    · cases h; assumption
    · split at h
      · cases h; assumption
      · cases h

theorem stringifyOf_eq {v : Int} {c : Stringify} (h : stringifyOf v = some c) : v = modeNumber c := by
  unfold stringifyOf at h
  split at h
  · cases h; assumption
  · split at h
    · cases h; assumption
    · split at h
      · cases h; assumption
      · cases h

theorem encodingOf_eq {v : Int} {c : Bool} (h : encodingOf v = some c) : v = encodingNumber c := by
  unfold encodingOf at h
  split at h
  · cases h; assumption
  · split at h
    · cases h; assumption
    · cases h

theorem int_eq {a : Arg} {v : Int} (h : a.int = some v) : a = int v := by
  unfold Arg.int at h
  split at h
  · cases h; rfl
  · cases h

theorem session_eq {a : Arg} {u : Unit} (h : a.session = some u) : ∃ n : Nat, a = int n := by
  unfold Arg.session at h
  cases hv : a.int with
  | none => rw [hv] at h; cases h
  | some v =>
    rw [hv, some_bind] at h
    split at h
    · next hr => exact ⟨v.toNat, by rw [int_eq hv, Int.toNat_of_nonneg hr.1]⟩
    · cases h

theorem session_ok {n : Nat} (h : n < 2 ^ 63) : (int n).session = some () := by
  unfold Arg.session
  simp only [int, Arg.int, some_bind]
  rw [if_pos ⟨Int.natCast_nonneg n, by rw [Int.toNat_natCast]; exact h⟩]

theorem input_eq {a : Arg} {bs : List UInt8} (h : a.input = some bs) : a = .bytes bs := by
  cases a with
  | bytes _ => cases h; rfl
  | expr _ => cases h

theorem path_eq {a : Arg} {bs : List UInt8} (h : a.path = some bs) : a = .expr (.str bs) := by
  unfold Arg.path at h
  split at h
  · cases h; rfl
  · cases h

theorem get_eq {a : Arg} {e : Expr} (h : a.get = some e) : a = .expr e := by
  cases a with
  | expr _ => cases h; rfl
  | bytes _ => cases h

/-! ### Quirks -/

/-- The keys are the right ones. -/
def Keyed (rs : List (Expr × Expr)) : Prop := ∀ r ∈ rs, ∃ n ∈ quirkNames, r.1 = text n

theorem quirkRules_ok : ∀ (rs : List (Expr × Expr)) (q : Option Expr × Option Expr × Option Expr), Keyed rs →
    ∃ q', quirkRules rs q = .ok q'
  | [], q, _ => ⟨q, rfl⟩
  | (k, v) :: rs, (a, b, c), h => by
    have ih := fun q => quirkRules_ok rs q fun r hr => h r (by simp [hr])
    obtain ⟨n, hn, hk⟩ := h (k, v) (by simp)
    simp only at hk
    subst hk
    unfold quirkRules
    simp only [text]
    simp only [quirkNames, List.mem_cons, List.not_mem_nil, or_false] at hn
    rcases hn with rfl | rfl | rfl
    · rw [if_pos rfl]; exact ih _
    · rw [if_neg (by decide), if_pos rfl]; exact ih _
    · rw [if_neg (by decide), if_neg (by decide), if_pos rfl]; exact ih _

theorem quirkRules_keyed : ∀ (rs : List (Expr × Expr)) (q q' : Option Expr × Option Expr × Option Expr),
    quirkRules rs q = .ok q' → Keyed rs
  | [], _, _, _ => fun _ h => by cases h
  | (k, v) :: rs, (a, b, c), q', h => by
    unfold quirkRules at h
    split at h
    · cases ‹_ = ([] : List (Expr × Expr))›
    · next k' v' rs' a' b' c' h1 h2 =>
      cases h1
      have done : ∀ {q q'}, quirkRules rs q = .ok q' → (∃ n ∈ quirkNames, Expr.str k' = text n) → Keyed ((.str k', v) :: rs) := by
        intro q q' hq hk r hr
        rcases List.mem_cons.mp hr with rfl | hr
        · exact hk
        · exact quirkRules_keyed rs _ _ hq r hr
      split at h
      · next hk => exact done h ⟨cs! "InfixBinaryAt", by simp [quirkNames], by rw [hk]; rfl⟩
      · split at h
        · next hk => exact done h ⟨cs! "FlattenTimes", by simp [quirkNames], by rw [hk]; rfl⟩
        · split at h
          · next hk => exact done h ⟨cs! "OldAtAtAt", by simp [quirkNames], by rw [hk]; rfl⟩
          · cases h
    · cases h

theorem name_list : Sym.System_List.name = cs! "System`List" := by decide +kernel
theorem name_rule : Sym.System_Rule.name = cs! "System`Rule" := by decide +kernel
theorem name_assoc : Sym.System_Association.name = cs! "System`Association" := by decide +kernel

theorem ruleOf_rule (a b : Expr) : ruleOf (rule a b) = .ok (a, b) := by
  unfold ruleOf rule withHead
  simp only [name_rule, if_true]

theorem ruleOf_eq {e : Expr} {r : Expr × Expr} (h : ruleOf e = .ok r) : e = rule r.1 r.2 := by
  unfold ruleOf withHead at h
  split at h
  · cases h
  · next a b hw =>
    cases h
    split at hw
    · split at hw
      · next hn => cases hw; simp only [rule, ← name_rule, hn]
      · cases hw
    · cases hw
  · cases h

theorem mapR_rules : ∀ rs : List (Expr × Expr), mapR ruleOf (rs.map fun r => rule r.1 r.2) = .ok rs
  | [] => rfl
  | (a, b) :: rs => by
    rw [List.map_cons, mapR, ruleOf_rule, mapR_rules rs]

theorem mapR_eq : ∀ {es : List Expr} {rs : List (Expr × Expr)}, mapR ruleOf es = .ok rs → es = rs.map fun r => rule r.1 r.2
  | [], _, h => by cases h; rfl
  | e :: es, rs, h => by
    unfold mapR at h
    split at h
    · cases h
    · next r hr =>
      split at h
      · cases h
      · next rs' hrs =>
        cases h
        rw [List.map_cons, ← ruleOf_eq hr, ← mapR_eq hrs]

theorem assocOf_assoc (rs : List (Expr × Expr)) : assocOf (assoc (rs.map fun r => rule r.1 r.2)) = .ok rs := by
  unfold assocOf assoc withHead
  simp only [name_assoc, if_true, mapR_rules]

theorem assocOf_eq {e : Expr} {rs : List (Expr × Expr)} (h : assocOf e = .ok rs) :
    e = assoc (rs.map fun r => rule r.1 r.2) := by
  unfold assocOf withHead at h
  split at h
  · cases h
  · next es hw =>
    split at hw
    · split at hw
      · next hn => cases hw; rw [mapR_eq h, assoc, ← name_assoc, hn]
      · cases hw
    · cases hw

theorem quirkRules_last : ∀ (rules : List (List Char × Expr)) (a b c : Option Expr), (∀ r ∈ rules, r.1 ∈ quirkNames) →
    quirkRules (rules.map fun r => (text r.1, r.2)) (a, b, c) =
      .ok ((lastValue (cs! "InfixBinaryAt") rules).or a, (lastValue (cs! "FlattenTimes") rules).or b,
        (lastValue (cs! "OldAtAtAt") rules).or c)
  | [], a, b, c, _ => rfl
  | (n, v) :: rules, a, b, c, h => by
    have ih := fun a b c => quirkRules_last rules a b c fun r hr => h r (by simp [hr])
    have hn : n ∈ quirkNames := h (n, v) (by simp)
    simp only [quirkNames, List.mem_cons, List.not_mem_nil, or_false] at hn
    rw [List.map_cons]
    simp only [text, quirkRules, lastValue]
    rcases hn with rfl | rfl | rfl
    · rw [if_pos rfl]
      exact (ih _ _ _).trans (by simp [Option.or_assoc])
    · rw [if_neg (by decide), if_pos rfl]
      exact (ih _ _ _).trans (by simp [Option.or_assoc])
    · rw [if_neg (by decide), if_neg (by decide), if_pos rfl]
      exact (ih _ _ _).trans (by simp [Option.or_assoc])

theorem setting_same (d : Bool) (o : Option Expr) : (o.bind boolOf).getD d = setting d o := by
  cases o with
  | none => rfl
  | some e =>
    cases e with
    | sym n =>
      simp only [Option.bind_some, boolOf, setting]
      split
      · rfl
      · split <;> rfl
    | _ => rfl

theorem quirks_ok {q : Arg} (h : QuirkArg q) : ∃ e qs, q.get = some e ∧ quirksOf e = .ok qs := by
  obtain ⟨rules, hr⟩ := h
  have hk : Keyed (rules.map fun r => (text r.1, r.2)) := by
    intro r hm
    obtain ⟨x, hx, rfl⟩ := List.mem_map.mp hm
    exact ⟨x.1, hr x hx, rfl⟩
  obtain ⟨⟨a, b, c⟩, h1⟩ := quirkRules_ok _ (none, none, none) hk
  have h2 := assocOf_assoc (rules.map fun r => (text r.1, r.2))
  rw [List.map_map] at h2
  refine ⟨_, ⟨(a.bind boolOf).getD true, (b.bind boolOf).getD false, (c.bind boolOf).getD false⟩, rfl, ?_⟩
  unfold quirksOf
  show (assocOf (assoc (rules.map ((fun r => rule r.1 r.2) ∘ fun r => (text r.1, r.2)))) >>= _) = _
  rw [h2]
  show (quirkRules _ _ >>= _) = _
  rw [h1]
  rfl

theorem quirks_eq {q : Arg} {e : Expr} {qs : Quirks} (h : q.get = some e) (h1 : quirksOf e = .ok qs) : QuirkArg q := by
  unfold quirksOf at h1
  cases h2 : assocOf e with
  | error x => rw [h2] at h1; cases h1
  | ok rs =>
    rw [h2] at h1
    replace h1 : (quirkRules rs (none, none, none) >>= _) = _ := h1
    cases h3 : quirkRules rs (none, none, none) with
    | error x => rw [h3] at h1; cases h1
    | ok q' =>
      have hk := quirkRules_keyed _ _ _ h3
      obtain rfl := get_eq h
      rw [assocOf_eq h2]
      clear h1 h2 h3
      suffices ∃ rules : List (List Char × Expr), (∀ r ∈ rules, r.1 ∈ quirkNames) ∧ rs = rules.map fun r => (text r.1, r.2) by
        obtain ⟨rules, h4, rfl⟩ := this
        rw [List.map_map]
        exact .intro rules h4
      clear h
      induction rs with
      | nil => exact ⟨[], by simp, rfl⟩
      | cons r rs ih =>
        obtain ⟨rules, h4, rfl⟩ := ih fun x hx => hk x (by simp [hx])
        obtain ⟨n, hn, he⟩ := hk r (by simp)
        refine ⟨(n, r.2) :: rules, ?_, ?_⟩
        · intro x hx
          rcases List.mem_cons.mp hx with rfl | hx
          · exact hn
          · exact h4 x hx
        · rw [List.map_cons, ← he]

/-! ### Options -/

theorem options_ok {s : Settings} (pos : 0 < s.tab) (ht : s.tab < 2 ^ 32) {q : Arg} (hq : QuirkArg q) :
    ∃ o, optionsOf (int (convNumber s.conv)) (int s.tab) (int (firstNumber s.first)) q (some s.normal) = some o ∧
      o.conv = s.conv ∧ o.first = s.first ∧ ∀ H, o.env H = s.env H pos := by
  obtain ⟨e, qs, h1, h2⟩ := quirks_ok hq
  have hp : 0 < (s.tab : Int).toNat ∧ (s.tab : Int).toNat < 2 ^ 32 := by rw [Int.toNat_natCast]; exact ⟨pos, ht⟩
  refine ⟨⟨s.conv, (s.tab : Int).toNat, hp.1, s.first, s.normal, qs⟩, ?_, rfl, rfl, fun H => rfl⟩
  unfold optionsOf
  simp only [int, Arg.int, some_bind, convOf_number, firstOf_number, h1, h2, Except.toOption]
  rw [dif_pos hp]
  rfl

theorem options_eq {c t f q : Arg} {n : Option Bool} {o : Options} (h : optionsOf c t f q n = some o) :
    ∃ s : Settings, n = some s.normal ∧ s.tab < 2 ^ 32 ∧ c = int (convNumber s.conv) ∧ t = int s.tab ∧
      f = int (firstNumber s.first) ∧ QuirkArg q := by
  unfold optionsOf at h
  cases h1 : c.int with
  | none => rw [h1] at h; cases h
  | some v1 =>
    rw [h1, some_bind] at h
    cases h2 : convOf v1 with
    | none => rw [h2] at h; cases h
    | some c' =>
      rw [h2, some_bind] at h
      cases h3 : t.int with
      | none => rw [h3] at h; cases h
      | some v2 =>
        rw [h3, some_bind] at h
        cases h4 : f.int with
        | none => rw [h4] at h; cases h
        | some v3 =>
          rw [h4, some_bind] at h
          cases h5 : firstOf v3 with
          | none => rw [h5] at h; cases h
          | some f' =>
            rw [h5, some_bind] at h
            cases n with
            | none => cases h
            | some n =>
              rw [some_bind] at h
              cases h6 : q.get with
              | none => rw [h6] at h; cases h
              | some e =>
                rw [h6, some_bind] at h
                cases h7 : quirksOf e with
                | error x => rw [h7] at h; cases h
                | ok qs =>
                  rw [h7] at h
                  simp only [Except.toOption, some_bind] at h
                  split at h
                  · next hp =>
                    refine ⟨⟨c', v2.toNat, f', n⟩, rfl, ?_, ?_, ?_, ?_, quirks_eq h6 h7⟩
                    · exact hp.2
                    · rw [int_eq h1, convOf_eq h2]
                    · rw [int_eq h3]
                      show int v2 = int ((v2.toNat : Nat) : Int)
                      rw [Int.toNat_of_nonneg (by have := hp.1; omega)]
                    · rw [int_eq h4, firstOf_eq h5]
                  · cases h

/-! ### Issues -/

theorem severity_same (s : Severity) : s.text = severityText s := by cases s <;> rfl

theorem tag_same (t : Chk.Tag) : (tagOf t).text = tagText t := by cases t <;> rfl

theorem maker_same (m : Chk.Maker) : (makerSym m).name = makerName m := by cases m <;> decide +kernel

theorem fix_same (H : Host) (a : Chk.Action) : actionExpr (actionOfReport H a) = fixExpr H a := by
  cases a <;> simp only [actionExpr, actionOfReport, fixExpr, spanRule, Chk.Action.span] <;>
    cases spanExpr _ _ <;> rfl

theorem all_map {α β : Type} (f : β → Option Expr) (g : α → β) : ∀ as : List α, all f (as.map g) = all (fun a => f (g a)) as
  | [] => rfl
  | a :: as => by rw [List.map_cons, all, all, all_map f g as]

theorem issue_same (H : Host) (r : Chk.Report) : issueExpr H.compat (issueOfReport H r) = reportExpr H r := by
  unfold issueExpr reportExpr
  simp only [issueOfReport, all_map, fix_same, tag_same, severity_same, symbol, maker_same, dataExpr, sourceRule, omitted,
    sourceExpr, spanRule]
  cases spanExpr r.span.start r.span.stop with
  | none => rfl
  | some e =>
    cases all (fixExpr H) r.actions with
    | none => rfl
    | some es => simp [all, listRule]

theorem unsafe_same (u : Unsafe) : u.missingReason = cs! "UnsafeCharacterEncoding_" ++ u.text := by
  unfold Unsafe.missingReason
  cases u <;> rfl

theorem answer_same (H : Host) (trees : Option Expr) (r : Chk.Par.Result) :
    resultExpr H.compat trees (extraOf H r) = answerExpr H trees r := by
  unfold resultExpr answerExpr issuesExpr
  have hi : (if (extraOf H r).fatal = [] then (extraOf H r).nonFatal else (extraOf H r).fatal) =
      (if r.fatal = [] then r.nonFatal else r.fatal).map (issueOfReport H) := by
    by_cases h : r.fatal = []
    · have h' : (extraOf H r).fatal = [] := by simp [extraOf, h]
      rw [if_pos h', if_pos h]
      rfl
    · have h' : (extraOf H r).fatal ≠ [] := by simpa [extraOf] using h
      rw [if_neg h', if_neg h]
      rfl
  rw [hi, all_map]
  have : (fun a => issueExpr H.compat (issueOfReport H a)) = reportExpr H := funext (issue_same H)
  rw [this]
  simp only [extraOf, firstPart]
  cases r.unsafeEncoding with
  | none =>
    cases trees with
    | none => rfl
    | some t =>
      cases all (reportExpr H) _ <;> rfl
  | some u => cases all (reportExpr H) _ <;> rfl

/-! ### Expressions for the results of parsing -/

theorem moves_le {cfg : Cfg} {a b : List UInt8} {l m : Loc} (h : Moves cfg a b l m) : l.le m = true := by
  obtain ⟨n, -, -, -, rfl⟩ := h
  exact readN_le n ⟨a ++ b, l, false, none⟩ (by intro h; cases h)

theorem piece_span {cfg : Cfg} {bs : List UInt8} {conv : Conv} {sp : Span} (h : Piece cfg bs conv.start sp) :
    ∃ e, spanExpr sp.start sp.stop = some e := by
  obtain ⟨x, y, z, -, h1, h2⟩ := h
  have h1 := moves_le h1
  have h2 := moves_le h2
  revert h1 h2
  cases conv <;> cases h3 : sp.start <;> cases h4 : sp.stop <;> simp [Conv.start, Loc.le, spanExpr]
  next i j =>
    intro hi hj
    cases j with
    | zero => omega
    | succ j => exact ⟨_, rfl⟩

theorem all_some {α : Type} {f : α → Option Expr} : ∀ {as : List α}, (∀ a ∈ as, ∃ e, f a = some e) → ∃ es, all f as = some es
  | [], _ => ⟨[], rfl⟩
  | a :: as, h => by
    obtain ⟨e, he⟩ := h a (by simp)
    obtain ⟨es, hes⟩ := all_some (as := as) fun b hb => h b (by simp [hb])
    exact ⟨e :: es, by rw [all, he, hes]; rfl⟩

theorem report_some (H : Host) {cfg : Cfg} {bs : List UInt8} {conv : Conv} {r : Chk.Report}
    (h : Piece cfg bs conv.start r.span ∧ ∀ a ∈ r.actions, Piece cfg bs conv.start a.span) : ∃ e, reportExpr H r = some e := by
  obtain ⟨e, he⟩ := piece_span h.1
  obtain ⟨es, hes⟩ := all_some (f := fixExpr H) (as := r.actions) fun a ha => by
    obtain ⟨e, he⟩ := piece_span (h.2 a ha)
    cases a <;> simp only [fixExpr, spanRule, Chk.Action.span] at he ⊢ <;> rw [he] <;> exact ⟨_, rfl⟩
  exact ⟨_, by rw [reportExpr, spanRule, he, hes]; rfl⟩

theorem result_some (H : Host) {E : Chk.Env} {conv : Conv} {first : FirstLine} {bs : List UInt8} {r : Chk.Par.Result}
    (h : Chk.Par.parseBytesCst E conv first bs = .ok r) :
    ∃ e, answerExpr H ((treesExpr H.compat (ofCsts r.syntax')).map list) r = some e := by
  obtain ⟨q, t, es, hq, hr, -, -, hf, -⟩ := parse_inv (Chk.off_law E) h
  have hi := C67_issues E conv first bs r h
  obtain ⟨is, his⟩ := all_some (f := reportExpr H) (as := if r.fatal = [] then r.nonFatal else r.fatal) fun i him =>
    report_some H (hi i (by split at him <;> simp [him]))
  have h1 : ∃ f, treesPart ((treesExpr H.compat (ofCsts r.syntax')).map list) r.unsafeEncoding = some f := by
    cases hu : r.unsafeEncoding with
    | some u => exact ⟨_, rfl⟩
    | none =>
      subst hr
      have hv : q.unsafeEncoding = none := by
        by_cases hn : q.unsafeEncoding = none
        · exact hn
        · exact absurd hu (hf hn)
      have hv := (C44_parse hq).not.mp (fun h => h hv)
      simp only [not_or, Classical.not_not] at hv
      obtain ⟨input, rfl⟩ := hv.1
      obtain ⟨hw, hse⟩ := result_sendable hq
      obtain ⟨es', he⟩ := trees_sendable H.compat hw hse
      exact ⟨_, by
        show ((treesExpr H.compat (ofCsts q.syntax')).map list) = _
        rw [he]; rfl⟩
  obtain ⟨f, hf⟩ := h1
  exact ⟨_, by rw [answerExpr, hf, his]; rfl⟩

/-! ### C82 -/

/-- C82: a parse request with any settings and any text is answered with the result of parsing that text
with these settings, as one complete expression; whatever the session and the quirks.  It panics if
parsing does (see C35, C66). -/
theorem C82_parse (H : Host) (session : Nat) (hs : session < 2 ^ 63) (bs : List UInt8) (s : Settings)
    (hn : s.normal = true) (pos : 0 < s.tab) (ht : s.tab < 2 ^ 32) {q : Arg} (hq : QuirkArg q) :
    let call := serve H .concreteParseBytes ([int session, .bytes bs] ++ s.args ++ [q])
    (∀ r, Chk.Par.parseBytesCst (s.env H pos) s.conv s.first bs = .ok r →
      ∃ e, answerExpr H ((treesExpr H.compat (ofCsts r.syntax')).map list) r = some e ∧ Sends call (some e)) ∧
    ∀ x, Chk.Par.parseBytesCst (s.env H pos) s.conv s.first bs = .error x → Panics call := by
  obtain ⟨o, h1, h2, h3, h4⟩ := options_ok pos ht hq
  have hc : serve H .concreteParseBytes ([int session, .bytes bs] ++ s.args ++ [q]) = orPanic (parseAnswer H o bs) := by
    show orPanic (parseBytes H [int session, .bytes bs, int (convNumber s.conv), int s.tab, int (firstNumber s.first), q]) = _
    rw [hn] at h1
    simp only [parseBytes, session_ok hs, some_bind, Arg.input, h1]
  intro call
  have hc : call = _ := hc
  rw [hc, parseAnswer, h2, h3, h4 H]
  constructor
  · intro r hr
    obtain ⟨e, he⟩ := result_some H hr
    refine ⟨e, he, ?_⟩
    rw [hr]
    have := C52_result H.compat (ofCsts r.syntax') (named_ofCsts _) (extraOf H r)
    rw [answer_same, he] at this
    exact this
  · intro x hx
    rw [hx]
    exact fun _ _ => rfl

/-- C82: the quirks are those the association gives: for each name the last value, if it is `True` or `False`, and
otherwise the default. -/
theorem C82_quirks (rules : List (List Char × Expr)) (h : ∀ r ∈ rules, r.1 ∈ quirkNames) :
    quirksOf (assoc (rules.map fun r => rule (text r.1) r.2)) = .ok {
      infixBinaryAt := setting true (lastValue (cs! "InfixBinaryAt") rules)
      flattenTimes := setting false (lastValue (cs! "FlattenTimes") rules)
      oldAtAtAt := setting false (lastValue (cs! "OldAtAtAt") rules) } := by
  have h1 := quirkRules_last rules none none none h
  have h2 := assocOf_assoc (rules.map fun r => (text r.1, r.2))
  rw [List.map_map] at h2
  unfold quirksOf
  show (assocOf (assoc (rules.map ((fun r => rule r.1 r.2) ∘ fun r => (text r.1, r.2)))) >>= _) = _
  rw [h2]
  show (quirkRules _ _ >>= _) = _
  rw [h1]
  simp only [Option.or_none, ← setting_same]
  rfl

/-- C82: a text without escaped surrogates, byte order marks and blank lines, with positions by line and
column, is always answered. -/
theorem C82_answered (H : Host) (session : Nat) (hs : session < 2 ^ 63) (input : List Char) (s : Settings)
    (hn : s.normal = true) (pos : 0 < s.tab) (ht : s.tab < 2 ^ 32) (hl : s.conv = .lineColumn) {q : Arg} (hq : QuirkArg q)
    (h1 : ¬ HasSurrogateEscape (encode input)) (h2 : BOM ∉ input) (h3 : ¬ HasBlank input) :
    ∃ e, Sends (serve H .concreteParseBytes ([int session, .bytes (encode input)] ++ s.args ++ [q])) (some e) := by
  obtain ⟨r, hr⟩ := C66_returns (s.env H pos) s.first input h1 h2 h3
  rw [← hl] at hr
  obtain ⟨e, -, he⟩ := (C82_parse H session hs _ s hn pos ht hq).1 r hr
  exact ⟨e, he⟩

/-- C82: a request for tokens is answered with the tokens of the text, or with the reason why there are
none.  It panics if tokenizing does. -/
theorem C82_tokens (H : Host) (session : Nat) (hs : session < 2 ^ 63) (bs : List UInt8) (s : Settings)
    (hn : s.normal = true) (pos : 0 < s.tab) (ht : s.tab < 2 ^ 32) {q : Arg} (hq : QuirkArg q) :
    let call := serve H .tokenizeBytes ([int session, .bytes bs] ++ s.args ++ [q])
    let E := s.env H pos
    let result := Chk.Par.tokenizeBytesWith (Chk.Par.isStatement E) E s.conv s.first bs
    (∀ ts, result = .ok (.ok ts) → Sends call ((all (tokExpr H.compat) ts).map list)) ∧
    (∀ u, result = .ok (.error u) → Sends call (some (list [unsafeExpr u]))) ∧
    ∀ x, result = .error x → Panics call := by
  obtain ⟨o, h1, h2, h3, h4⟩ := options_ok pos ht hq
  have hc : serve H .tokenizeBytes ([int session, .bytes bs] ++ s.args ++ [q]) = orPanic (tokensAnswer H o bs) := by
    show orPanic (tokenizeBytesFn H [int session, .bytes bs, int (convNumber s.conv), int s.tab, int (firstNumber s.first), q]) = _
    rw [hn] at h1
    simp only [tokenizeBytesFn, session_ok hs, some_bind, Arg.input, h1]
  intro call E result
  have hc : call = _ := hc
  rw [hc, tokensAnswer, h2, h3, h4 H]
  refine ⟨fun ts hr => ?_, fun u hr => ?_, fun x hr => ?_⟩ <;> simp only [result, E] at hr <;> rw [hr]
  · exact C52_tokens H.compat ts
  · refine sends_of_den (o := some (list [unsafeExpr u])) ?_ ?_
    · have := den_missing u.missingReason
      rw [unsafe_same] at this
      show Den CutL (W.fn Sym.System_List.name 1 ;> W.fn Sym.System_Missing.name 1 ;> W.lit u.missingReason) _
      rw [unsafe_same]
      exact this
    · intro e he
      cases he
      simp [list, unsafeExpr, text, Full, FullL]
  · exact fun _ _ => rfl

/-- C82: a request for the first token of a text is answered with that token, read as asked for. -/
theorem C82_leaf (H : Host) (session : Nat) (hs : session < 2 ^ 63) (bs : List UInt8) (mode : Stringify) (s : Settings)
    (pos : 0 < s.tab) (ht : s.tab < 2 ^ 32) {q : Arg} (hq : QuirkArg q) :
    let call := serve H .concreteParseLeaf
      ([int session, .bytes bs, int (modeNumber mode)] ++ s.args ++ [int (encodingNumber s.normal), q])
    let result := firstToken (s.env H pos) s.first mode (St.init s.conv bs)
    (∀ t u es, result = .ok (t, u, es) →
      Sends call (answerExpr H ((all (tokExpr H.compat) [t]).map list) (Chk.Par.resultOf [] u.flag es))) ∧
    ∀ x, result = .error x → Panics call := by
  obtain ⟨o, h1, h2, h3, h4⟩ := options_ok pos ht hq
  have hc : serve H .concreteParseLeaf
      ([int session, .bytes bs, int (modeNumber mode)] ++ s.args ++ [int (encodingNumber s.normal), q]) =
      orPanic (leafAnswer H o mode bs) := by
    show orPanic (parseLeaf H [int session, .bytes bs, int (modeNumber mode), int (convNumber s.conv), int s.tab,
      int (firstNumber s.first), int (encodingNumber s.normal), q]) = _
    have hm : (int (modeNumber mode)).int = some (modeNumber mode) := rfl
    have he : (int (encodingNumber s.normal)).int.map encodingOf = some (some s.normal) := by
      show some (encodingOf (encodingNumber s.normal)) = _
      rw [encodingOf_number]
    simp only [parseLeaf, session_ok hs, some_bind, Arg.input, hm, he, h1, stringifyOf_number]
  intro call result
  have hc : call = _ := hc
  have hp : parseToToken (s.env H pos) s.conv s.first mode bs =
      match result with
      | .error e => .error e
      | .ok (t, u, es) => .ok (t, Chk.Par.resultOf [] u.flag es) := by
    cases mode <;> rfl
  rw [hc, leafAnswer, h2, h3, h4 H, hp]
  constructor
  · intro t u es hr
    rw [hr]
    have := C52_result_tokens H.compat [t] (extraOf H (Chk.Par.resultOf [] u.flag es))
    rw [answer_same] at this
    exact this
  · intro x hx
    rw [hx]
    exact fun _ _ => rfl

/-- C82: a request for a safe string is answered with the text itself, if it is valid UTF-8 without a byte order
mark, and otherwise with a reason. -/
theorem C82_safe (H : Host) (session : Nat) (hs : session < 2 ^ 63) (bs : List UInt8) :
    let call := serve H .safeString [int session, .bytes bs]
    ((∃ cs, bs = encode cs ∧ BOM ∉ cs) → Sends call (some (.str bs))) ∧
    ((¬ ∃ cs, bs = encode cs ∧ BOM ∉ cs) → ∃ u, Sends call (some (unsafeExpr u)) ∧ (ValidUTF8 bs → u = .bom)) := by
  have hc : serve H .safeString [int session, .bytes bs] = orPanic (safeAnswer H bs) := by
    show orPanic (safeStringFn H [int session, .bytes bs]) = _
    simp only [safeStringFn, session_ok hs, some_bind, Arg.input]
  intro call
  have hc : call = _ := hc
  rw [hc, safeAnswer]
  have h1 := C02_safeString_ok ⟨4, by decide, H.uniAlnum⟩ .lineColumn bs
  have h2 := C02_safeString_err ⟨4, by decide, H.uniAlnum⟩ .lineColumn bs
  constructor
  · intro hb
    obtain ⟨t, ht⟩ := h1.1.mpr hb
    rw [ht]
    obtain rfl := h1.2.1 t ht
    exact sends_of_den (o := some (.str t)) (Den.put rfl) (by intro e he; cases he; trivial)
  · intro hb
    rcases hr : safeString ⟨4, by decide, H.uniAlnum⟩ .lineColumn bs with _ | u | t
    · exact absurd hr h1.2.2
    · refine ⟨u, ?_, fun hv => (h2 u hr).resolve_left (fun h => h hv)⟩
      refine sends_of_den (o := some (unsafeExpr u)) ?_ ?_
      · simp only [orPanic, putUnsafe]
        rw [unsafe_same]
        exact Den.one (h := cs! "System`Missing") Den.lit
      · intro e he
        cases he
        simp [unsafeExpr, text, Full, FullL]
    · exact absurd (h1.1.mp ⟨t, hr⟩) hb

/-- C82: whether tokens of some kind are empty is told for every kind of tokens. -/
theorem C82_empty (H : Host) (k : TK) :
    Sends (serve H .tokenIsEmpty [.expr (symbol k.toSymbol)])
      (some (.sym (if k.isEmpty then cs! "System`True" else cs! "System`False"))) := by
  have hb : (backKind k).isEmpty = k.isEmpty := by cases k <;> decide +kernel
  have hc : serve H .tokenIsEmpty [.expr (symbol k.toSymbol)] =
      W.expr (.sym (if k.isEmpty then cs! "System`True" else cs! "System`False")) := by
    show orPanic (tokenIsEmpty _) = _
    simp only [tokenIsEmpty, Arg.get, some_bind, kindOf_name, Except.toOption, hb]
    rfl
  rw [hc]
  refine sends_of_den (o := some _) (Den.put rfl) ?_
  intro e he
  cases he
  split <;> simp [Full]

/-- C82: making a session is answered with the number 0. -/
theorem C82_create (H : Host) : Sends (serve H .createParserSession []) (some (.int 0)) :=
  sends_of_den (o := some (.int 0)) (Den.put rfl) (by intro e he; cases he; trivial)

/-- A violation: there is no way to end a session, every call ends in a panic. -/
theorem C82_destroy_never (H : Host) (args : List Arg) : Panics (serve H .destroyParserSession args) := by
  intro ab k
  match args with
  | [] | _ :: _ :: _ | [.bytes _] | [.expr (.sym _)] | [.expr (.str _)] | [.expr (.int _)] | [.expr (.real _)]
  | [.expr (.normal _ _)] => rfl

/-- C82: a `Failure` is given back as it is, any other container is read and sent again. -/
theorem C82_round_trip (H : Host) :
    (∀ as, Full (.normal (.sym (cs! "System`Failure")) as) →
      Sends (serve H .roundTripTest [.expr (.normal (.sym (cs! "System`Failure")) as)])
        (some (.normal (.sym (cs! "System`Failure")) as))) ∧
    ∀ c : Container, NamedContainer c → FitsContainer H.compat c → ∀ e, containerExpr H.compat c = some e →
      serve H .roundTripTest [.expr (flat e)] = (backContainer H.compat c).put H.compat := by
  constructor
  · intro as hf
    have hc : serve H .roundTripTest [.expr (.normal (.sym (cs! "System`Failure")) as)] =
        W.expr (.normal (.sym (cs! "System`Failure")) as) := rfl
    rw [hc]
    exact sends_of_den (o := some _) (Den.put rfl) (by intro e he; cases he; exact hf)
  · intro c hn hf e he
    have h1 := containerOf_ok H.f64 he hf
    show orPanic (roundTrip H [.expr (flat e)]) = _
    unfold roundTrip
    simp only [Arg.get, some_bind]
    split
    · next n as hx =>
      rw [if_neg]
      · rw [h1]; rfl
      · rintro rfl
        rw [hx] at h1
        cases h1
    · rw [h1]; rfl

/-- C82: only calls that are in order are answered. -/
theorem C82_only (H : Host) (f : Fn) (args : List Arg) (h : ¬ Panics (serve H f args)) : InOrder f args := by
  have key : ∀ o : Option W, ¬ Panics (orPanic o) → ∃ w, o = some w := by
    intro o ho
    cases o with
    | none => exact absurd (fun _ _ => rfl) ho
    | some w => exact ⟨w, rfl⟩
  have step : ∀ {α : Type} {o : Option α} {g : α → Option W} {w : W}, (o >>= g) = some w → ∃ a, o = some a ∧ g a = some w := by
    intro α o g w hw
    cases o with
    | none => cases hw
    | some a => exact ⟨a, rfl, hw⟩
  obtain ⟨w, hw⟩ := key _ h
  cases f with
  | createParserSession =>
    match args, hw with
    | [], _ => exact .create
  | destroyParserSession => exact absurd (C82_destroy_never H args) h
  | roundTripTest =>
    match args, hw with
    | [a], hw =>
      obtain ⟨e, he, -⟩ := step hw
      obtain rfl := get_eq he
      exact .roundTrip e
  | concreteParseBytes =>
    match args, hw with
    | [s, b, c, t, f, q], hw =>
      obtain ⟨_, h1, hw⟩ := step hw
      obtain ⟨bs, h2, hw⟩ := step hw
      obtain ⟨o, h3, -⟩ := step hw
      obtain ⟨n, rfl⟩ := session_eq h1
      obtain rfl := input_eq h2
      obtain ⟨s, -, ht, rfl, rfl, rfl, hq⟩ := options_eq h3
      exact .parseBytes n bs s ht hq
  | concreteParseFile =>
    match args, hw with
    | [s, b, c, t, f, q], hw =>
      obtain ⟨_, h1, hw⟩ := step hw
      obtain ⟨bs, h2, hw⟩ := step hw
      obtain ⟨o, h3, -⟩ := step hw
      obtain ⟨n, rfl⟩ := session_eq h1
      obtain rfl := path_eq h2
      obtain ⟨s, -, ht, rfl, rfl, rfl, hq⟩ := options_eq h3
      exact .parseFile n bs s ht hq
  | tokenizeBytes =>
    match args, hw with
    | [s, b, c, t, f, q], hw =>
      obtain ⟨_, h1, hw⟩ := step hw
      obtain ⟨bs, h2, hw⟩ := step hw
      obtain ⟨o, h3, -⟩ := step hw
      obtain ⟨n, rfl⟩ := session_eq h1
      obtain rfl := input_eq h2
      obtain ⟨s, -, ht, rfl, rfl, rfl, hq⟩ := options_eq h3
      exact .tokenizeBytes n bs s ht hq
  | tokenizeFile =>
    match args, hw with
    | [s, b, c, t, f, q], hw =>
      obtain ⟨_, h1, hw⟩ := step hw
      obtain ⟨bs, h2, hw⟩ := step hw
      obtain ⟨o, h3, -⟩ := step hw
      obtain ⟨n, rfl⟩ := session_eq h1
      obtain rfl := path_eq h2
      obtain ⟨s, -, ht, rfl, rfl, rfl, hq⟩ := options_eq h3
      exact .tokenizeFile n bs s ht hq
  | concreteParseLeaf =>
    match args, hw with
    | [s, b, m, c, t, f, x, q], hw =>
      obtain ⟨_, h1, hw⟩ := step hw
      obtain ⟨bs, h2, hw⟩ := step hw
      obtain ⟨v, h3, hw⟩ := step hw
      obtain ⟨n?, h4, hw⟩ := step hw
      obtain ⟨o, h5, hw⟩ := step hw
      obtain ⟨mode, h6, -⟩ := step hw
      obtain ⟨n, rfl⟩ := session_eq h1
      obtain rfl := input_eq h2
      obtain ⟨s, rfl, ht, rfl, rfl, rfl, hq⟩ := options_eq h5
      obtain ⟨v', h7, h8⟩ := Option.map_eq_some_iff.mp h4
      rw [int_eq h3, stringifyOf_eq h6, int_eq h7, encodingOf_eq h8]
      exact .parseLeaf n bs mode s ht hq
  | safeString =>
    match args, hw with
    | [s, b], hw =>
      obtain ⟨_, h1, hw⟩ := step hw
      obtain ⟨bs, h2, -⟩ := step hw
      obtain ⟨n, rfl⟩ := session_eq h1
      obtain rfl := input_eq h2
      exact .safeString n bs
  | tokenIsEmpty =>
    match args, hw with
    | [a], hw =>
      obtain ⟨e, h1, hw⟩ := step hw
      obtain ⟨k, h2, -⟩ := step hw
      obtain rfl := get_eq h1
      have : e = symbol k.toSymbol := by
        unfold kindOf at h2
        split at h2
        · split at h2
          · next k' hk =>
            cases h2
            have := List.find?_some hk
            simp only [beq_iff_eq] at this
            rw [symbol, this]
          · cases h2
        · cases h2
      rw [this]
      exact .tokenIsEmpty k

/-- C82: a file is treated like its contents, and a file that cannot be read ends in a panic. -/
theorem C82_file (H : Host) (session : Arg) (path : List UInt8) (rest : List Arg) :
    (∀ bs, H.file path = some bs →
      serve H .concreteParseFile (session :: .expr (.str path) :: rest) =
        serve H .concreteParseBytes (session :: .bytes bs :: rest) ∧
      serve H .tokenizeFile (session :: .expr (.str path) :: rest) =
        serve H .tokenizeBytes (session :: .bytes bs :: rest)) ∧
    (H.file path = none → Panics (serve H .concreteParseFile (session :: .expr (.str path) :: rest)) ∧
      Panics (serve H .tokenizeFile (session :: .expr (.str path) :: rest))) := by
  constructor
  · intro bs hb
    match rest with
    | [] | [_] | [_, _] | [_, _, _] | _ :: _ :: _ :: _ :: _ :: _ => exact ⟨rfl, rfl⟩
    | [c, t, f, q] => simp [serve, parseFile, parseBytes, tokenizeFileFn, tokenizeBytesFn, Arg.path, Arg.input, hb]
  · intro hb
    have key : ∀ {α β : Type} (o : Option α) (f : α → Option β), (∀ a, f a = none) → (o >>= f) = none := by
      intro α β o f h
      cases o
      · rfl
      · exact h _
    match rest with
    | [] | [_] | [_, _] | [_, _, _] | _ :: _ :: _ :: _ :: _ :: _ => exact ⟨fun _ _ => rfl, fun _ _ => rfl⟩
    | [c, t, f, q] =>
      have h1 : parseFile H [session, .expr (.str path), c, t, f, q] = none := by
        refine key _ _ fun _ => ?_
        show (optionsOf c t f q (some true) >>= fun o => H.file path >>= fun bs => parseAnswer H o bs) = none
        refine key _ _ fun _ => ?_
        rw [hb]; rfl
      have h2 : tokenizeFileFn H [session, .expr (.str path), c, t, f, q] = none := by
        refine key _ _ fun _ => ?_
        show (optionsOf c t f q (some true) >>= fun o => H.file path >>= fun bs => tokensAnswer H o bs) = none
        refine key _ _ fun _ => ?_
        rw [hb]; rfl
      constructor
      · intro ab k
        show orPanic (parseFile H _) ab k = none
        rw [h1]; rfl
      · intro ab k
        show orPanic (tokenizeFileFn H _) ab k = none
        rw [h2]; rfl

/-! ### Examples -/

/-- A library that reads no files, for the examples. -/
def host : Host where
  compat := true
  uniAlnum := fun _ => false
  dist := fun _ _ => 0
  message := fun _ => []
  descs := fun _ => []
  label := fun _ => []
  level := id
  file := fun p => if p = utf8 (cs! "a.m") then some (utf8 (cs! "a")) else none
  f64 := fun _ => 0

/-- `<|"FlattenTimes" -> True, "OldAtAtAt" -> 1, "FlattenTimes" -> False|>`. -/
def quirkRulesOf : List (List Char × Expr) :=
  [(cs! "FlattenTimes", .sym (cs! "System`True")), (cs! "OldAtAtAt", .int 1), (cs! "FlattenTimes", .sym (cs! "System`False"))]

/-- Positions by character, no special first line. -/
def byCharacter : Settings := ⟨.characterIndex, 4, .notScript, true⟩

/-- The strings that are sent if nobody aborts; `none` is a panic. -/
def strings (w : W) : Option (List (List UInt8)) :=
  (w (fun _ => false) 0).map fun p => p.1.filterMap fun
    | .str t => some t
    | _ => none

theorem quirkRulesOf_ok : ∀ r ∈ quirkRulesOf, r.1 ∈ quirkNames := by decide

/-- A request to parse `a:b` followed by an unknown character name is answered with the texts of the
tokens, and with the issue. -/
example : strings (serve host .concreteParseBytes ([int 7, .bytes (utf8 (cs! "a:b\\[Foo]"))] ++ byCharacter.args ++
      [.expr (assoc (quirkRulesOf.map fun r => rule (text r.1) r.2))])) =
    some ([cs! "a", cs! ":", cs! "b", cs! "\\[Foo]", cs! "UnhandledCharacter", [], cs! "Fatal", [], cs! "ReplacementText",
      cs! "\\[RawTab]"].map utf8) := by decide +kernel

/-- The hypotheses of `C82_parse` for this request. -/
example : byCharacter.normal = true ∧ 0 < byCharacter.tab ∧ byCharacter.tab < 2 ^ 32 ∧
    QuirkArg (.expr (assoc (quirkRulesOf.map fun r => rule (text r.1) r.2))) :=
  ⟨rfl, by decide, by decide, .intro _ quirkRulesOf_ok⟩

example : quirksOf (assoc (quirkRulesOf.map fun r => rule (text r.1) r.2)) = .ok ⟨true, false, false⟩ :=
  C82_quirks _ quirkRulesOf_ok

/-- The first token as the name of a file. -/
example : strings (serve host .concreteParseLeaf [int 7, .bytes (utf8 (cs! "a.m b")), int 2, int 1, int 4, int 0, int 0,
    .expr (assoc [])]) = some ([cs! "a.m"].map utf8) := by decide +kernel

/-- The first token as it is. -/
example : strings (serve host .concreteParseLeaf [int 7, .bytes (utf8 (cs! "a.m b")), int 0, int 1, int 4, int 0, int 0,
    .expr (assoc [])]) = some ([cs! "a"].map utf8) := by decide +kernel

/-- The contents of a file. -/
example : strings (serve host .tokenizeFile [int 7, .expr (.str (utf8 (cs! "a.m"))), int 0, int 4, int 0, .expr (assoc [])]) =
    some ([cs! "a"].map utf8) := by decide +kernel

/-- A call with a convention that does not exist panics. -/
example : (serve host .tokenizeBytes [int 7, .bytes [97], int 2, int 4, int 0, .expr (assoc [])] (fun _ => false) 0).isNone := by
  decide +kernel

/-- A quirk that does not exist. -/
example : (serve host .tokenizeBytes [int 7, .bytes [97], int 1, int 4, int 0,
    .expr (assoc [rule (text (cs! "Other")) (.sym (cs! "System`True"))])] (fun _ => false) 0).isNone := by decide +kernel

/-- A byte that is not UTF-8. -/
example : strings (serve host .safeString [int 7, .bytes [97, 255]]) =
    some [utf8 (cs! "UnsafeCharacterEncoding_IncompleteUTF8Sequence")] := by decide +kernel

/-- A text that meets the hypotheses of `C82_answered`. -/
example : ¬ HasSurrogateEscape (encode "f[x".toList) ∧ BOM ∉ "f[x".toList ∧ ¬ HasBlank "f[x".toList := by
  refine ⟨no_numeral (by decide) (by decide), by decide, ?_⟩
  rintro ⟨l, h1, h2⟩
  revert l
  decide +kernel

end CodeParser.Props.Library
