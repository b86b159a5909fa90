import Verif.Spec.Print
import Verif.Proofs.Link3
import Verif.Proofs.Recover1
/-!
Printed trees can be cut into their parts again.
-/
namespace CodeParser.LinkP
open CodeParser Wll Spec

theorem utf8_inj {a b : List Char} (h : utf8 a = utf8 b) : a = b := by
  have h1 : fromUtf8 (utf8 a) = some a := fromUtf8_encode a
  have h2 : fromUtf8 (utf8 b) = some b := fromUtf8_encode b
  rw [h, h2] at h1
  cases h1; rfl

theorem cut_at {d : UInt8} : ∀ {x y r s : List UInt8}, d ∉ x → d ∉ y → x ++ d :: r = y ++ d :: s → x = y ∧ r = s
  | [], [], _, _, _, _, h => by cases h; exact ⟨rfl, rfl⟩
  | [], b :: y, _, _, _, hy, h => by cases h; simp at hy
  | a :: x, [], _, _, hx, _, h => by cases h; simp at hx
  | a :: x, b :: y, _, _, hx, hy, h => by
    rw [List.cons_append, List.cons_append] at h
    injection h with h1 h2
    obtain ⟨rfl, rfl⟩ := cut_at (fun m => hx (List.mem_cons_of_mem _ m)) (fun m => hy (List.mem_cons_of_mem _ m)) h2
    exact ⟨by rw [h1], rfl⟩

/-! ### Names and numbers -/

def plainName (s : Sym) : Bool := !(utf8 s.name).contains 91 && !(utf8 s.name).contains 44

theorem plainName_range : ((List.range 853).all fun i => plainName (Sym.ofNat i)) = true := by decide +kernel

theorem plainName_all (s : Sym) : plainName s = true := by
  have := List.all_eq_true.mp plainName_range s.ctorIdx (List.mem_range.mpr (ctorIdx_lt s))
  rwa [Sym.ofNat_ctorIdx] at this

def plainStart (s : Sym) : Bool := (utf8 s.name).head? != some 93

theorem plainStart_range : ((List.range 853).all fun i => plainStart (Sym.ofNat i)) = true := by decide +kernel

theorem plainStart_all (s : Sym) : plainStart s = true := by
  have := List.all_eq_true.mp plainStart_range s.ctorIdx (List.mem_range.mpr (ctorIdx_lt s))
  rwa [Sym.ofNat_ctorIdx] at this

theorem no_bracket (s : Sym) : (91 : UInt8) ∉ utf8 s.name := by
  have := plainName_all s
  simp [plainName] at this
  exact this.1

theorem no_comma (s : Sym) : (44 : UInt8) ∉ utf8 s.name := by
  have := plainName_all s
  simp [plainName] at this
  exact this.2

theorem head_cut {s t : Sym} {r q : List UInt8} (h : utf8 s.name ++ 91 :: r = utf8 t.name ++ 91 :: q) : s = t ∧ r = q := by
  obtain ⟨h1, h2⟩ := cut_at (no_bracket s) (no_bracket t) h
  exact ⟨name_inj (utf8_inj h1), h2⟩

theorem op_cut {s t : Sym} {r q : List UInt8} (h : utf8 s.name ++ (comma ++ r) = utf8 t.name ++ (comma ++ q)) : s = t ∧ r = q := by
  obtain ⟨h1, h2⟩ := cut_at (no_comma s) (no_comma t) h
  exact ⟨name_inj (utf8_inj h1), by injection h2⟩

theorem digit_byte {n : Nat} {b : UInt8} (h : b ∈ decimal n) : 48 ≤ b.toNat ∧ b.toNat ≤ 57 := by
  unfold decimal utf8 at h
  obtain ⟨c, hc, hb⟩ := List.mem_flatMap.mp h
  have hd := Nat.isDigit_of_mem_toDigits (by omega) (by omega) hc
  simp only [Char.isDigit, Bool.and_eq_true, decide_eq_true_eq] at hd
  have h1 : 48 ≤ c.toNat := hd.1
  have h2 : c.toNat ≤ 57 := hd.2
  have : String.utf8EncodeChar c = [UInt8.ofNat c.toNat] := by
    unfold String.utf8EncodeChar
    simp only [show c.val.toNat = c.toNat from rfl]
    rw [if_pos (by omega)]
  rw [this, List.mem_singleton] at hb
  rw [hb, UInt8.toNat_ofNat']
  omega

theorem decimal_inj {m n : Nat} (h : decimal m = decimal n) : m = n := by
  have h1 := utf8_inj h
  have h2 := congrArg (fun l => Nat.ofDigitChars 10 l 0) h1
  simpa [Nat.ofDigitChars_ten_toDigits] using h2

theorem decimal_cut {m n : Nat} {d : UInt8} (hd : d.toNat < 48 ∨ 57 < d.toNat) {r q : List UInt8}
    (h : decimal m ++ d :: r = decimal n ++ d :: q) : m = n ∧ r = q := by
  obtain ⟨h1, h2⟩ := cut_at (fun m => by have := digit_byte m; omega) (fun m => by have := digit_byte m; omega) h
  exact ⟨decimal_inj h1, h2⟩

/-! ### Texts -/

theorem stringEnd_more {q : List UInt8} : ∀ {b r : List UInt8}, stringEnd b = some r → stringEnd (b ++ q) = some (r ++ q)
  | [], _, h => by cases h
  | [a], r, h => by
    unfold stringEnd at h
    split at h
    · cases h
      cases q with
      | nil => simp_all [stringEnd]
      | cons c q => simp_all [stringEnd]
    · cases h
  | a :: b :: r, _, h => by
    rw [stringEnd] at h
    show stringEnd (a :: b :: (r ++ q)) = _
    rw [stringEnd]
    split at h
    · next hq => cases h; rw [if_pos hq]; rfl
    · next hq =>
      rw [if_neg hq]
      split at h
      · next he => rw [if_pos he]; exact stringEnd_more h
      · next he => rw [if_neg he]; exact stringEnd_more (b := b :: r) h

theorem commentEnd_more {q : List UInt8} : ∀ {d : Nat} {b r : List UInt8}, commentEnd d b = some r → commentEnd d (b ++ q) = some (r ++ q)
  | _, [], _, h => by cases h
  | _, [a], r, h => by cases h
  | d, a :: b :: r, _, h => by
    rw [commentEnd] at h
    show commentEnd d (a :: b :: (r ++ q)) = _
    rw [commentEnd]
    split at h
    · next hq => rw [if_pos hq]; exact commentEnd_more h
    · next hq =>
      rw [if_neg hq]
      split at h
      · next he =>
        rw [if_pos he]
        split at h
        · next h1 => rw [if_pos h1]; cases h; rfl
        · next h1 => rw [if_neg h1]; exact commentEnd_more h
      · next he => rw [if_neg he]; exact commentEnd_more (b := b :: r) h

theorem text_cut {k : TK} {t t' r r' : List UInt8} (ht : Delimited k t) (ht' : Delimited k t')
    (h : t ++ 34 :: r = t' ++ 34 :: r') : t = t' ∧ r = r' := by
  have close : ∀ {x y : List UInt8}, x ++ 34 :: r = y ++ 34 :: r' → (34 :: r : List UInt8) = 34 :: r' → x = y ∧ r = r' := by
    intro x y h1 h2
    rw [h2] at h1
    exact ⟨List.append_cancel_right h1, by injection h2⟩
  cases ht with
  | string hb =>
    cases ht' with
    | string hb' =>
      refine close h ?_
      simp only [List.cons_append] at h
      injection h with _ h
      have h1 := stringEnd_more (q := 34 :: r) hb
      rw [h, stringEnd_more hb'] at h1
      simpa using h1.symm
    | plain _ h2 h3 =>
      cases t' with
      | nil => exact absurd rfl (h2 rfl)
      | cons c t' =>
        injection h with h4 _
        exact absurd (by rw [h4]; exact List.mem_cons_self) h3
  | comment hb =>
    cases ht' with
    | comment hb' =>
      refine close h ?_
      simp only [List.cons_append] at h
      injection h with _ h
      injection h with _ h
      have h1 := commentEnd_more (q := 34 :: r) hb
      rw [h, commentEnd_more hb'] at h1
      simpa using h1.symm
    | plain h1 => exact absurd rfl h1
  | plain h1 h2 h3 =>
    cases ht' with
    | string hb' =>
      cases t with
      | nil => exact absurd rfl (h2 rfl)
      | cons c t =>
        injection h with h4 _
        exact absurd (by rw [← h4]; exact List.mem_cons_self) h3
    | comment hb' => exact absurd rfl h1
    | plain _ _ h6 => exact cut_at h3 h6 h

/-! ### Sources -/

theorem loc_cut {l c l' c' : Nat} {r q : List UInt8} (h : printLoc (.lineCol l c) ++ r = printLoc (.lineCol l' c') ++ q) :
    l = l' ∧ c = c' ∧ r = q := by
  simp only [printLoc, comma, List.cons_append, List.append_assoc, List.nil_append] at h
  injection h with _ h1
  obtain ⟨rfl, h2⟩ := decimal_cut (by decide) h1
  injection h2 with _ h3
  obtain ⟨rfl, h4⟩ := decimal_cut (by decide) h3
  exact ⟨rfl, rfl, h4⟩

theorem source_cut {s s' : Wll.Source} {p p' r r' : List UInt8} (hp : printSource s = some p) (hp' : printSource s' = some p')
    (h : p ++ r = p' ++ r') : s = s' ∧ r = r' := by
  have key : ∀ {s : Wll.Source} {p : List UInt8}, printSource s = some p → ∃ l c l' c', s = .span (.lineCol l c) (.lineCol l' c') ∧
      p = 123 :: (printLoc (.lineCol l c) ++ (comma ++ (printLoc (.lineCol l' c') ++ [125]))) := by
    intro s p h
    unfold printSource at h
    split at h
    · unfold printSpan at h
      split at h
      · cases h; exact ⟨_, _, _, _, rfl, rfl⟩
      · cases h
    · cases h
    · cases h
  obtain ⟨l, c, m, d, rfl, rfl⟩ := key hp
  obtain ⟨l', c', m', d', rfl, rfl⟩ := key hp'
  simp only [comma, List.cons_append, List.append_assoc, List.nil_append] at h
  injection h with _ h1
  obtain ⟨rfl, rfl, h2⟩ := loc_cut h1
  injection h2 with _ h3
  injection h3 with _ h4
  obtain ⟨rfl, rfl, h5⟩ := loc_cut h4
  exact ⟨rfl, by injection h5⟩

theorem source_cut' {s s' : Option Wll.Source} {p p' r r' : List UInt8} (hp : printSource' s = some p) (hp' : printSource' s' = some p')
    (h : p ++ r = p' ++ r') : r = r' := by
  cases s with
  | none => cases hp
  | some s =>
    cases s' with
    | none => cases hp'
    | some s' => exact (source_cut hp hp' h).2

/-! ### Nodes -/

theorem node_cut {h h' o o' : Sym} {b b' p p' r r' : List UInt8} (e : printNode h o b p ++ r = printNode h' o' b' p' ++ r') :
    h = h' ∧ o = o' ∧ b ++ (comma ++ (p ++ (93 :: r))) = b' ++ (comma ++ (p' ++ (93 :: r'))) := by
  simp only [printNode, List.append_assoc, List.cons_append, List.nil_append] at e
  obtain ⟨h1, e1⟩ := head_cut e
  obtain ⟨h2, e2⟩ := op_cut e1
  exact ⟨h1, h2, e2⟩

theorem comma_cut {r q : List UInt8} (h : comma ++ r = comma ++ q) : r = q := List.append_cancel_left h

theorem kind_eq {k k' : TK} (h : k.toSymbol = k'.toSymbol) :
    (if k = .ToplevelNewline then TK.InternalNewline else k) = if k' = .ToplevelNewline then .InternalNewline else k' := by
  have h1 := Props.C39_token_kind k
  rw [h, Props.C39_token_kind k'] at h1
  injection h1 with h1
  exact h1.symm

theorem delimited_kind {k k' : TK} (h : k.toSymbol = k'.toSymbol) {t : List UInt8} (ht : Delimited k' t) : Delimited k t := by
  have h1 := kind_eq h
  by_cases h2 : k = k'
  · rw [h2]; exact ht
  have : (k = .ToplevelNewline ∧ k' = .InternalNewline) ∨ (k = .InternalNewline ∧ k' = .ToplevelNewline) := by
    split at h1 <;> split at h1 <;> simp_all
  rcases this with ⟨rfl, rfl⟩ | ⟨rfl, rfl⟩ <;> cases ht <;> exact .plain (by simp) (by simp) (by assumption)

theorem some_inj {α β : Type} {f : α → Option β} {a b : α} {x y : β} (ha : f a = some x) (hb : f b = some y) (h : a = b) : x = y := by
  rw [h, hb] at ha; cases ha; rfl

theorem op_inj {k k' : NodeKind} (h : headSym k = headSym k') (h' : opSym k = opSym k') : k = k' := by
  cases k <;> cases k' <;> simp only [headSym, reduceCtorEq] at h <;> simp only [opSym] at h'
  · exact congrArg _ (some_inj (Props.C39_prefix _) (Props.C39_prefix _) h')
  · exact congrArg _ (some_inj (Props.C39_infix _) (Props.C39_infix _) h')
  · exact congrArg _ (some_inj (Props.C39_postfix _) (Props.C39_postfix _) h')
  · exact congrArg _ (some_inj (Props.C39_binary _) (Props.C39_binary _) h')
  · exact congrArg _ (some_inj (Props.C39_ternary _) (Props.C39_ternary _) h')
  · exact congrArg _ (some_inj (Props.C39_prefixBinary _) (Props.C39_prefixBinary _) h')
  · exact congrArg _ (some_inj (Props.C39_compound _) (Props.C39_compound _) h')
  · exact congrArg _ (some_inj (Props.C39_group _) (Props.C39_group _) h')
  · exact congrArg _ (some_inj (Props.C39_group _) (Props.C39_group _) h')
  · exact congrArg _ (some_inj (Props.C39_group _) (Props.C39_group _) h')
  · rename_i a b; cases a <;> cases b <;> simp_all [errorSym]

theorem list_cut {x y r q : List UInt8} (h : printList x ++ r = printList y ++ q) : x ++ 93 :: r = y ++ 93 :: q := by
  simp only [printList, List.append_assoc, List.cons_append, List.nil_append] at h
  exact (head_cut h).2

theorem call_cut {x y x' y' p p' r r' : List UInt8} (h : printCall x y p ++ r = printCall x' y' p' ++ r') :
    x ++ (comma ++ (y ++ (comma ++ (p ++ (93 :: r))))) = x' ++ (comma ++ (y' ++ (comma ++ (p' ++ (93 :: r'))))) := by
  simp only [printCall, List.append_assoc, List.cons_append, List.nil_append] at h
  exact (head_cut h).2

theorem end_cut {p p' r r' : List UInt8} {s s' : Option Wll.Source} (hp : printSource' s = some p) (hp' : printSource' s' = some p')
    (h : comma ++ (p ++ 93 :: r) = comma ++ (p' ++ 93 :: r')) : r = r' := by
  have := source_cut' hp hp' (comma_cut h)
  injection this

/-! ### Trees -/

/-- The head of a printed tree. -/
def treeSym : Tree → Sym
  | .leaf k _ _ => leafSym k
  | .node k _ => headSym k
  | .call .. | .callAgg .. => .CodeParser_CallNode
  | .box .. | .code .. => .System_List

theorem print_leaf {k : TK} {t : List UInt8} {s : Wll.Source} {x : List UInt8} (h : Tree.print (.leaf k t s) = some x) :
    ∃ p, printSource s = some p ∧ x = printNode (leafSym k) k.toSymbol (34 :: (t ++ [34])) p := by
  unfold Tree.print printToken at h
  split at h
  · obtain ⟨p, h1, rfl⟩ := Option.map_eq_some_iff.mp h
    exact ⟨p, h1, rfl⟩
  · cases h

theorem print_node {k : NodeKind} {cs : List Tree} {x : List UInt8} (h : Tree.print (.node k cs) = some x) :
    ∃ xs p, printAll cs = some xs ∧ printSource' (seqSource cs) = some p ∧ x = printNode (headSym k) (opSym k) (printList xs) p := by
  simp only [Tree.print, Option.bind_eq_bind, Option.bind_eq_some_iff] at h
  obtain ⟨xs, h1, p, h2, h3⟩ := h
  cases h3
  exact ⟨xs, p, h1, h2, rfl⟩

theorem print_call {h : List Tree} {m : Bool} {op : CallOp} {b : List Tree} {x : List UInt8} (e : Tree.print (.call h m op b) = some x) :
    ∃ xs ys q p, printAll h = some xs ∧ printAll b = some ys ∧ printSource' (seqSource b) = some q ∧
      printSource' (Tree.source (.call h m op b)) = some p ∧
      x = printCall (printList xs) (printNode (bodySym m) op.toSymbol (printList ys) q) p := by
  simp only [Tree.print, Option.bind_eq_bind, Option.bind_eq_some_iff] at e
  obtain ⟨xs, h1, ys, h2, q, h3, p, h4, h5⟩ := e
  cases h5
  exact ⟨xs, ys, q, p, h1, h2, h3, h4, rfl⟩

theorem print_callAgg {h : Tree} {m : Bool} {op : CallOp} {b : List Tree} {x : List UInt8} (e : Tree.print (.callAgg h m op b) = some x) :
    ∃ xs ys q p, Tree.print h = some xs ∧ printAll b = some ys ∧ printSource' (seqSource b) = some q ∧
      printSource' (Tree.source (.callAgg h m op b)) = some p ∧
      x = printCall xs (printNode (bodySym m) op.toSymbol (printList ys) q) p := by
  simp only [Tree.print, Option.bind_eq_bind, Option.bind_eq_some_iff] at e
  obtain ⟨xs, h1, ys, h2, q, h3, p, h4, h5⟩ := e
  cases h5
  exact ⟨xs, ys, q, p, h1, h2, h3, h4, rfl⟩

theorem print_head {t : Tree} {x : List UInt8} (h : t.print = some x) : ∃ y, x = utf8 (treeSym t).name ++ 91 :: y := by
  cases t with
  | leaf k t s => obtain ⟨p, -, rfl⟩ := print_leaf h; exact ⟨_, rfl⟩
  | node k cs => obtain ⟨xs, p, -, -, rfl⟩ := print_node h; exact ⟨_, rfl⟩
  | call f m op b => obtain ⟨xs, ys, q, p, -, -, -, -, rfl⟩ := print_call h; exact ⟨_, rfl⟩
  | callAgg f m op b => obtain ⟨xs, ys, q, p, -, -, -, -, rfl⟩ := print_callAgg h; exact ⟨_, rfl⟩
  | box => cases h
  | code => cases h

theorem treeSym_list {t : Tree} {x : List UInt8} (h : t.print = some x) : treeSym t ≠ .System_List := by
  cases t with
  | leaf k t s => simp only [treeSym, leafSym]; split <;> simp
  | node k cs => cases k <;> simp [treeSym, headSym]
  | call f m op b => simp [treeSym]
  | callAgg f m op b => simp [treeSym]
  | box => cases h
  | code => cases h

theorem name_ne_nil (s : Sym) : utf8 s.name ≠ [] := by
  intro h
  have h1 := tick s
  rw [utf8_inj (b := []) h] at h1
  cases h1

theorem print_begin {t : Tree} {x r q : List UInt8} (h : t.print = some x) (e : x ++ r = 93 :: q) : False := by
  obtain ⟨y, rfl⟩ := print_head h
  have h1 : plainStart (treeSym t) = true := plainStart_all _
  cases hn : utf8 (treeSym t).name with
  | nil => exact name_ne_nil _ hn
  | cons b n =>
    rw [hn] at e
    injection e with e1 _
    subst e1
    unfold plainStart at h1
    rw [hn] at h1
    simp at h1

theorem body_cut {m m' : Bool} {op op' : CallOp} {ys ys' q q' r r' : List UInt8}
    (h : printNode (bodySym m) op.toSymbol (printList ys) q ++ r = printNode (bodySym m') op'.toSymbol (printList ys') q' ++ r') :
    m = m' ∧ op = op' ∧ ys ++ 93 :: (comma ++ (q ++ 93 :: r)) = ys' ++ 93 :: (comma ++ (q' ++ 93 :: r')) := by
  obtain ⟨h1, h2, h3⟩ := node_cut h
  refine ⟨?_, some_inj (Props.C39_call _) (Props.C39_call _) h2, list_cut h3⟩
  cases m <;> cases m' <;> first | rfl | cases h1

mutual
theorem tree_cut : ∀ {t t' : Tree} {x x' r r' : List UInt8}, t.print = some x → t'.print = some x' → Legible t → Legible t' →
    x ++ r = x' ++ r' → newlines t = newlines t' ∧ r = r'
  | t, t', x, x', r, r', h, h', l, l', e => by
    have hs : treeSym t = treeSym t' := by
      obtain ⟨y, rfl⟩ := print_head h
      obtain ⟨y', rfl⟩ := print_head h'
      rw [List.append_assoc, List.append_assoc] at e
      exact (head_cut e).1
    match t, t', h, h', l, l', hs with
    | .leaf k t s, .leaf k' t' s', h, h', l, l', _ =>
      obtain ⟨p, h1, rfl⟩ := print_leaf h
      obtain ⟨p', h1', rfl⟩ := print_leaf h'
      obtain ⟨-, e1, e2⟩ := node_cut e
      simp only [List.cons_append, List.append_assoc, List.nil_append] at e2
      injection e2 with _ e3
      rw [Legible] at l l'
      obtain ⟨rfl, e4⟩ := text_cut l (delimited_kind e1 l') e3
      obtain ⟨rfl, e5⟩ := source_cut h1 h1' (comma_cut e4)
      rw [newlines, newlines, kind_eq e1]
      exact ⟨rfl, by injection e5⟩
    | .node k cs, .node k' cs', h, h', l, l', _ =>
      obtain ⟨xs, p, h1, h2, rfl⟩ := print_node h
      obtain ⟨xs', p', h1', h2', rfl⟩ := print_node h'
      obtain ⟨e1, e2, e3⟩ := node_cut e
      rw [Legible] at l l'
      obtain ⟨e4, e5⟩ := trees_cut h1 h1' l l' (list_cut e3)
      rw [newlines, newlines, op_inj e1 e2, e4]
      exact ⟨rfl, end_cut h2 h2' e5⟩
    | .call f m op b, .call f' m' op' b', h, h', l, l', _ =>
      obtain ⟨xs, ys, q, p, h1, h2, h3, h4, rfl⟩ := print_call h
      obtain ⟨xs', ys', q', p', h1', h2', h3', h4', rfl⟩ := print_call h'
      rw [Legible] at l l'
      obtain ⟨e1, e2⟩ := trees_cut h1 h1' l.1 l'.1 (list_cut (call_cut e))
      obtain ⟨rfl, rfl, e3⟩ := body_cut (comma_cut e2)
      obtain ⟨e4, e5⟩ := trees_cut h2 h2' l.2 l'.2 e3
      rw [newlines, newlines, e1, e4]
      exact ⟨rfl, end_cut h4 h4' (end_cut h3 h3' e5)⟩
    | .callAgg f m op b, .callAgg f' m' op' b', h, h', l, l', _ =>
      obtain ⟨xs, ys, q, p, h1, h2, h3, h4, rfl⟩ := print_callAgg h
      obtain ⟨xs', ys', q', p', h1', h2', h3', h4', rfl⟩ := print_callAgg h'
      rw [Legible] at l l'
      obtain ⟨e1, e2⟩ := tree_cut h1 h1' l.1 l'.1 (call_cut e)
      obtain ⟨rfl, rfl, e3⟩ := body_cut (comma_cut e2)
      obtain ⟨e4, e5⟩ := trees_cut h2 h2' l.2 l'.2 e3
      rw [newlines, newlines, e1, e4]
      exact ⟨rfl, end_cut h4 h4' (end_cut h3 h3' e5)⟩
    | .call f m op b, .callAgg f' m' op' b', h, h', l, l', _ =>
      obtain ⟨xs, ys, q, p, h1, h2, h3, h4, rfl⟩ := print_call h
      obtain ⟨xs', ys', q', p', h1', h2', h3', h4', rfl⟩ := print_callAgg h'
      have e1 := call_cut e
      obtain ⟨y, rfl⟩ := print_head h1'
      simp only [printList, List.append_assoc, List.cons_append] at e1
      exact absurd (head_cut e1).1.symm (treeSym_list h1')
    | .callAgg f m op b, .call f' m' op' b', h, h', l, l', _ =>
      obtain ⟨xs, ys, q, p, h1, h2, h3, h4, rfl⟩ := print_callAgg h
      obtain ⟨xs', ys', q', p', h1', h2', h3', h4', rfl⟩ := print_call h'
      have e1 := call_cut e
      obtain ⟨y, rfl⟩ := print_head h1
      simp only [printList, List.append_assoc, List.cons_append] at e1
      exact absurd (head_cut e1).1 (treeSym_list h1)
    | .leaf k _ _, .node k' _, _, _, _, _, hs => simp only [treeSym, leafSym] at hs; split at hs <;> cases k' <;> cases hs
    | .leaf k _ _, .call .., _, _, _, _, hs => simp only [treeSym, leafSym] at hs; split at hs <;> cases hs
    | .leaf k _ _, .callAgg .., _, _, _, _, hs => simp only [treeSym, leafSym] at hs; split at hs <;> cases hs
    | .node k' _, .leaf k _ _, _, _, _, _, hs => simp only [treeSym, leafSym] at hs; split at hs <;> cases k' <;> cases hs
    | .node k _, .call .., _, _, _, _, hs => cases k <;> cases hs
    | .node k _, .callAgg .., _, _, _, _, hs => cases k <;> cases hs
    | .call .., .leaf k _ _, _, _, _, _, hs => simp only [treeSym, leafSym] at hs; split at hs <;> cases hs
    | .call .., .node k _, _, _, _, _, hs => cases k <;> cases hs
    | .callAgg .., .leaf k _ _, _, _, _, _, hs => simp only [treeSym, leafSym] at hs; split at hs <;> cases hs
    | .callAgg .., .node k _, _, _, _, _, hs => cases k <;> cases hs
    | .box .., _, h, _, _, _, _ => cases h
    | .code .., _, h, _, _, _, _ => cases h
    | _, .box .., _, h, _, _, _ => cases h
    | _, .code .., _, h, _, _, _ => cases h
theorem trees_cut : ∀ {ts ts' : List Tree} {x x' r r' : List UInt8}, printAll ts = some x → printAll ts' = some x' → Legibles ts → Legibles ts' →
    x ++ 93 :: r = x' ++ 93 :: r' → newlinesAll ts = newlinesAll ts' ∧ r = r'
  | [], [], x, x', r, r', h, h', _, _, e => by
    cases h; cases h'
    exact ⟨rfl, by injection e⟩
  | [], t :: ts, x, x', r, r', h, h', _, _, e => by
    cases h
    simp only [printAll, Option.bind_eq_bind, Option.bind_eq_some_iff] at h'
    obtain ⟨y, h1, ys, h2, h3⟩ := h'
    cases h3
    rw [List.append_assoc] at e
    exact (print_begin h1 e.symm).elim
  | t :: ts, [], x, x', r, r', h, h', _, _, e => by
    cases h'
    simp only [printAll, Option.bind_eq_bind, Option.bind_eq_some_iff] at h
    obtain ⟨y, h1, ys, h2, h3⟩ := h
    cases h3
    rw [List.append_assoc] at e
    exact (print_begin h1 e).elim
  | t :: ts, t' :: ts', x, x', r, r', h, h', l, l', e => by
    simp only [printAll, Option.bind_eq_bind, Option.bind_eq_some_iff] at h h'
    obtain ⟨y, h1, ys, h2, h3⟩ := h
    obtain ⟨y', h1', ys', h2', h3'⟩ := h'
    cases h3; cases h3'
    rw [Legibles] at l l'
    simp only [List.append_assoc] at e
    obtain ⟨e1, e2⟩ := tree_cut h1 h1' l.1 l'.1 e
    obtain ⟨e3, e4⟩ := trees_cut h2 h2' l.2 l'.2 (comma_cut e2)
    rw [newlinesAll, newlinesAll, e1, e3]
    exact ⟨rfl, e4⟩
end

end CodeParser.LinkP
