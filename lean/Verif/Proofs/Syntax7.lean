import Verif.Proofs.Syntax6
/-!
Checking concrete texts (used by the examples).
-/
namespace CodeParser.Syn
open CodeParser Spec Props

def tighterLeft (q p : Nat) : Bool := decide (p < q) || (decide (p = q) && decide (q % 2 = 0))
def tighterRight (q p : Nat) : Bool := decide (p < q) || (decide (p = q) && decide (q % 2 = 1))

def keptEdge (k : TK) : Edge → Bool
  | .operand q a => (match follows k with | some p => tighterLeft q p | none => false) &&
    ((match a with | some op => decide (continues k ≠ some op) | none => true) &&
    (decide (k ≠ .Colon) || decide (Prec.FAKE_PATTERNCOLON ≤ q)))
  | .semi => decide (k ≠ .Semi) && !k.isPossibleBeginning
  | .span => decide (k ≠ .SemiSemi)
  | .spanOpen => !k.isPossibleBeginning

def keptBefore (f : Form) (k : TK) : Bool := f.right.all (keptEdge k)

theorem keptBefore_iff {f : Form} {k : TK} (h : keptBefore f k = true) : f.KeptBefore k := by
  intro e he
  have := List.all_eq_true.mp h e he
  cases e with
  | semi => simpa [keptEdge, Edge.Kept] using this
  | span => simpa [keptEdge, Edge.Kept] using this
  | spanOpen => simpa [keptEdge, Edge.Kept] using this
  | operand q a =>
    simp only [keptEdge] at this
    rw [Bool.and_eq_true, Bool.and_eq_true] at this
    obtain ⟨h1, h2, h3⟩ := this
    refine ⟨?_, ?_, fun hk => ?_⟩
    · cases hf : follows k with
      | none => rw [hf] at h1; cases h1
      | some p =>
        rw [hf] at h1
        exact ⟨p, rfl, by simpa [tighterLeft, TighterOrLeft] using h1⟩
    · intro op hop
      rw [hop] at h2
      simpa using h2
    · simpa [hk] using h3

def keptAfter (f : Form) (p : Nat) : Bool := f.left.all fun q => tighterRight q p

theorem keptAfter_iff {f : Form} {p : Nat} (h : keptAfter f p = true) : f.KeptAfter p := by
  intro q hq
  have := List.all_eq_true.mp h q hq
  simpa [tighterRight, TighterOrRight] using this

instance (k : TK) : Decidable (StartsOperand k) := by unfold StartsOperand; infer_instance

mutual
def grouped : Form → Bool
  | .atom _ | .compound _ => true
  | .group _ b => groupedB b
  | .call f o b => grouped f && keptBefore f o.opener.1 && groupedB b
  | .binary l o r => grouped l && keptBefore l o.lex.1 && grouped r && keptAfter r o.prec
  | .chain op p f t => grouped f && keptBefore f t.next && groupedT op p t
  | .prefix o f => grouped f && keptAfter f o.prec
  | .postfix f o => grouped f && keptBefore f o.lex.1
  | .semi f t => grouped f && (keptBefore f .Semi && groupedS t)
  | .ternary l o m r => grouped l && (keptBefore l o.first.1 && (grouped m && (keptAfter m o.prec && (keptBefore m o.second.1 &&
      (grouped r && keptAfter r o.prec')))))
  | .unset f _ _ => grouped f && keptBefore f .Equal
  | .tagUnset l _ m _ _ => grouped l && (keptBefore l .SlashColon && (grouped m && (keptAfter m Prec.SLASHCOLON && keptBefore m .Equal)))
  | .pattern _ _ r => grouped r && (keptAfter r Prec.FAKE_PATTERNCOLON && !r.colon)
  | .optional l _ r => l.isPattern && (grouped l && (keptBefore l .Colon && (grouped r && keptAfter r Prec.FAKE_OPTIONALCOLON)))
  | .span l _ e => grouped l && (keptBefore l .SemiSemi && groupedE e)
  | .spanFrom _ e => groupedE e
def groupedE : Reach → Bool
  | .all => true
  | .to f | .allStep _ f => decide (StartsOperand f.first.1) && (grouped f && keptAfter f Prec.SEMISEMI)
  | .step f _ g => decide (StartsOperand f.first.1) && (grouped f && (keptAfter f Prec.SEMISEMI && (keptBefore f .SemiSemi &&
      (decide (StartsOperand g.first.1) && (grouped g && keptAfter g Prec.SEMISEMI)))))
def groupedB : Body → Bool
  | .empty => true
  | .one f => grouped f
  | .many f t => grouped f && groupedC t
  | .gaps f t => grouped f && groupedG t
  | .gap t => groupedG t
def groupedT (op : InfixOp) (p : Nat) : Tail → Bool
  | .last o f => decide (infixOf o.1 = some (p, op)) && decide (o = implicitTimes → f.first.1.infixParselet = .implicitTimes) &&
      grouped f && keptAfter f p
  | .more o f t => decide (infixOf o.1 = some (p, op)) && decide (o = implicitTimes → f.first.1.infixParselet = .implicitTimes) &&
      grouped f && keptAfter f p && keptBefore f t.next && groupedT op p t
def groupedC : Tail → Bool
  | .last o f => decide (o.1 = .Comma) && grouped f
  | .more o f t => decide (o.1 = .Comma) && grouped f && groupedC t
def groupedS : Semis → Bool
  | .stop _ => true
  | .last _ f => f.first.1.isPossibleBeginning && (grouped f && keptAfter f Prec.SEMI)
  | .skip _ t => groupedS t
  | .more _ f t => f.first.1.isPossibleBeginning && (grouped f && (keptAfter f Prec.SEMI && (keptBefore f .Semi && groupedS t)))
def groupedG : Gaps → Bool
  | .stop _ => true
  | .last _ f => grouped f
  | .skip _ t => groupedG t
  | .more _ f t => grouped f && groupedG t
end

mutual
theorem grouped_iff : ∀ {f : Form}, grouped f = true → f.Grouped
  | .atom _, _ => trivial
  | .compound _, _ => trivial
  | .semi f t, h => by
    simp only [grouped, Bool.and_eq_true] at h
    exact ⟨grouped_iff h.1, keptBefore_iff h.2.1, groupedS_iff h.2.2⟩
  | .ternary l o m r, h => by
    simp only [grouped, Bool.and_eq_true] at h
    obtain ⟨h1, h2, h3, h4, h5, h6, h7⟩ := h
    exact ⟨grouped_iff h1, keptBefore_iff h2, grouped_iff h3, keptAfter_iff h4, keptBefore_iff h5, grouped_iff h6, keptAfter_iff h7⟩
  | .unset f _ _, h => by
    simp only [grouped, Bool.and_eq_true] at h
    exact ⟨grouped_iff h.1, keptBefore_iff h.2⟩
  | .tagUnset l _ m _ _, h => by
    simp only [grouped, Bool.and_eq_true] at h
    obtain ⟨h1, h2, h3, h4, h5⟩ := h
    exact ⟨grouped_iff h1, keptBefore_iff h2, grouped_iff h3, keptAfter_iff h4, keptBefore_iff h5⟩
  | .pattern _ _ r, h => by
    simp only [grouped, Bool.and_eq_true] at h
    exact ⟨grouped_iff h.1, keptAfter_iff h.2.1, by simpa using h.2.2⟩
  | .optional l _ r, h => by
    simp only [grouped, Bool.and_eq_true] at h
    obtain ⟨h1, h2, h3, h4, h5⟩ := h
    exact ⟨h1, grouped_iff h2, keptBefore_iff h3, grouped_iff h4, keptAfter_iff h5⟩
  | .group _ b, h => groupedB_iff (b := b) h
  | .call f o b, h => by
    simp only [grouped, Bool.and_eq_true] at h
    exact ⟨grouped_iff h.1.1, keptBefore_iff h.1.2, groupedB_iff h.2⟩
  | .binary l o r, h => by
    simp only [grouped, Bool.and_eq_true] at h
    exact ⟨grouped_iff h.1.1.1, keptBefore_iff h.1.1.2, grouped_iff h.1.2, keptAfter_iff h.2⟩
  | .chain op p f t, h => by
    simp only [grouped, Bool.and_eq_true] at h
    exact ⟨grouped_iff h.1.1, keptBefore_iff h.1.2, groupedT_iff h.2⟩
  | .prefix o f, h => by
    simp only [grouped, Bool.and_eq_true] at h
    exact ⟨grouped_iff h.1, keptAfter_iff h.2⟩
  | .postfix f o, h => by
    simp only [grouped, Bool.and_eq_true] at h
    exact ⟨grouped_iff h.1, keptBefore_iff h.2⟩
  | .span l o e, h => by
    simp only [grouped, Bool.and_eq_true] at h
    exact ⟨grouped_iff h.1, keptBefore_iff h.2.1, groupedE_iff h.2.2⟩
  | .spanFrom o e, h => groupedE_iff (e := e) h
theorem groupedE_iff : ∀ {e : Reach}, groupedE e = true → e.Grouped
  | .all, _ => trivial
  | .to f, h => by
    simp only [groupedE, Bool.and_eq_true, decide_eq_true_eq] at h
    exact ⟨h.1, grouped_iff h.2.1, keptAfter_iff h.2.2⟩
  | .allStep _ f, h => by
    simp only [groupedE, Bool.and_eq_true, decide_eq_true_eq] at h
    exact ⟨h.1, grouped_iff h.2.1, keptAfter_iff h.2.2⟩
  | .step f _ g, h => by
    simp only [groupedE, Bool.and_eq_true, decide_eq_true_eq] at h
    obtain ⟨h1, h2, h3, h4, h5, h6, h7⟩ := h
    exact ⟨h1, grouped_iff h2, keptAfter_iff h3, keptBefore_iff h4, h5, grouped_iff h6, keptAfter_iff h7⟩
theorem groupedB_iff : ∀ {b : Body}, groupedB b = true → b.Grouped
  | .empty, _ => trivial
  | .one f, h => grouped_iff (f := f) h
  | .many f t, h => by
    simp only [groupedB, Bool.and_eq_true] at h
    exact ⟨grouped_iff h.1, groupedC_iff h.2⟩
  | .gaps f t, h => by
    simp only [groupedB, Bool.and_eq_true] at h
    exact ⟨grouped_iff h.1, groupedG_iff h.2⟩
  | .gap t, h => groupedG_iff (t := t) h
theorem groupedG_iff : ∀ {t : Gaps}, groupedG t = true → t.Grouped
  | .stop _, _ => trivial
  | .last _ f, h => grouped_iff (f := f) h
  | .skip _ t, h => groupedG_iff (t := t) h
  | .more _ f t, h => by
    simp only [groupedG, Bool.and_eq_true] at h
    exact ⟨grouped_iff h.1, groupedG_iff h.2⟩
theorem groupedT_iff {op : InfixOp} {p : Nat} : ∀ {t : Tail}, groupedT op p t = true → t.Grouped op p
  | .last o f, h => by
    simp only [groupedT, Bool.and_eq_true, decide_eq_true_eq] at h
    exact ⟨h.1.1.1, h.1.1.2, grouped_iff h.1.2, keptAfter_iff h.2⟩
  | .more o f t, h => by
    simp only [groupedT, Bool.and_eq_true, decide_eq_true_eq] at h
    exact ⟨h.1.1.1.1.1, h.1.1.1.1.2, grouped_iff h.1.1.1.2, keptAfter_iff h.1.1.2, keptBefore_iff h.1.2, groupedT_iff h.2⟩
theorem groupedC_iff : ∀ {t : Tail}, groupedC t = true → t.Commas
  | .last o f, h => by
    simp only [groupedC, Bool.and_eq_true, decide_eq_true_eq] at h
    exact ⟨h.1, grouped_iff h.2⟩
  | .more o f t, h => by
    simp only [groupedC, Bool.and_eq_true, decide_eq_true_eq] at h
    exact ⟨h.1.1, grouped_iff h.1.2, groupedC_iff h.2⟩
theorem groupedS_iff : ∀ {t : Semis}, groupedS t = true → t.Grouped
  | .stop _, _ => trivial
  | .last _ f, h => by
    simp only [groupedS, Bool.and_eq_true] at h
    exact ⟨h.1, grouped_iff h.2.1, keptAfter_iff h.2.2⟩
  | .skip _ t, h => groupedS_iff (t := t) h
  | .more _ f t, h => by
    simp only [groupedS, Bool.and_eq_true] at h
    obtain ⟨h1, h2, h3, h4, h5⟩ := h
    exact ⟨h1, grouped_iff h2, keptAfter_iff h3, keptBefore_iff h4, groupedS_iff h5⟩
end

def ends (f : Form) (k : TK) : Bool :=
  f.right.all fun e => match e with
    | .operand _ (some op) => decide (again k ≠ some op)
    | _ => true

theorem ends_iff {f : Form} {k : TK} (h : ends f k = true) : ∀ e ∈ f.right, e.Ends k := by
  intro e he
  have := List.all_eq_true.mp h e he
  cases e with
  | semi => trivial
  | span => trivial
  | spanOpen => trivial
  | operand p a =>
    rintro op rfl
    simpa using this

/-! ### Writing an expression without blanks -/

def space : Lexeme := (.Whitespace, [byte ' '])

def sepLexemes (o : Lexeme) : List Lexeme := if o = implicitTimes then [space] else [o]

mutual
/-- The expression without blanks, except for those that are products. -/
def lexemes : Form → List Lexeme
  | .atom x => [x]
  | .compound c => c.lexemes
  | .group o b => o.opener :: (lexemesB b ++ [o.closer])
  | .call f o b => lexemes f ++ ([] ++ o.opener :: (lexemesB b ++ [o.closer]))
  | .binary l o r => lexemes l ++ ([] ++ o.lex :: ([] ++ lexemes r))
  | .chain _ _ f t => lexemes f ++ lexemesT t
  | .prefix o f => o.lex :: ([] ++ lexemes f)
  | .postfix f o => lexemes f ++ ([] ++ [o.lex])
  | .semi f t => lexemes f ++ lexemesS t
  | .ternary l o m r => lexemes l ++ ([] ++ o.first :: ([] ++ (lexemes m ++ ([] ++ o.second :: ([] ++ lexemes r)))))
  | .unset f e d => lexemes f ++ ([] ++ e :: ([] ++ [d]))
  | .tagUnset l o m e d => lexemes l ++ ([] ++ o :: ([] ++ (lexemes m ++ ([] ++ e :: ([] ++ [d])))))
  | .pattern x o r => x :: ([] ++ o :: ([] ++ lexemes r))
  | .optional l o r => lexemes l ++ ([] ++ o :: ([] ++ lexemes r))
  | .span l o e => lexemes l ++ ([] ++ o :: lexemesE e)
  | .spanFrom o e => o :: lexemesE e
def lexemesE : Reach → List Lexeme
  | .all => []
  | .to f => [] ++ lexemes f
  | .step f o g => [] ++ (lexemes f ++ ([] ++ o :: ([] ++ lexemes g)))
  | .allStep o g => [] ++ o :: ([] ++ lexemes g)
def lexemesB : Body → List Lexeme
  | .empty => []
  | .one f => [] ++ (lexemes f ++ [])
  | .many f t => [] ++ (lexemes f ++ (lexemesT t ++ []))
  | .gaps f t => [] ++ (lexemes f ++ (lexemesG t ++ []))
  | .gap t => lexemesG t ++ []
def lexemesT : Tail → List Lexeme
  | .last o f => sepLexemes o ++ lexemes f
  | .more o f t => sepLexemes o ++ (lexemes f ++ lexemesT t)
def lexemesS : Semis → List Lexeme
  | .stop o => [] ++ [o]
  | .last o f => [] ++ o :: ([] ++ lexemes f)
  | .skip o t => [] ++ o :: lexemesS t
  | .more o f t => [] ++ o :: ([] ++ (lexemes f ++ lexemesS t))
def lexemesG : Gaps → List Lexeme
  | .stop o => [] ++ [o]
  | .last o f => [] ++ o :: ([] ++ lexemes f)
  | .skip o t => [] ++ o :: lexemesG t
  | .more o f t => [] ++ o :: ([] ++ (lexemes f ++ lexemesG t))
end

def apart (a b : List Lexeme) : Bool :=
  match a.getLast?, b.head? with
  | some x, some y => !joins x.1 y.1
  | _, _ => true

theorem apart_iff {a b : List Lexeme} (h : apart a b = true) : Apart a b := by
  intro x hx y hy
  unfold apart at h
  rw [hx, hy] at h
  simpa using h

mutual
/-- The lexemes are of the kinds they have to be. -/
def written : Form → Bool
  | .atom x => atomKind x.1
  | .compound _ => true
  | .group _ b => writtenB b
  | .call f _ b => written f && writtenB b
  | .binary l _ r => written l && written r
  | .chain _ _ f t => written f && (writtenT t && apart (lexemes f) (lexemesT t))
  | .prefix _ f => written f
  | .postfix f _ => written f
  | .semi f t => written f && writtenS t
  | .ternary l _ m r => written l && (written m && written r)
  | .unset f e d => decide (e.1 = .Equal) && (decide (d.1 = .Dot) && written f)
  | .tagUnset l o m e d => decide (o.1 = .SlashColon) && (decide (e.1 = .Equal) && (decide (d.1 = .Dot) && (written l && written m)))
  | .pattern x o r => decide (x.1 = .Symbol) && (decide (o.1 = .Colon) && written r)
  | .optional l o r => decide (o.1 = .Colon) && (written l && written r)
  | .span l o e => decide (o.1 = .SemiSemi) && (written l && writtenE e)
  | .spanFrom o e => decide (o.1 = .SemiSemi) && writtenE e
def writtenE : Reach → Bool
  | .all => true
  | .to f => written f
  | .step f o g => decide (o.1 = .SemiSemi) && (written f && written g)
  | .allStep o g => decide (o.1 = .SemiSemi) && written g
def writtenB : Body → Bool
  | .empty => true
  | .one f => written f
  | .many f t => written f && writtenT t
  | .gaps f t => written f && writtenG t
  | .gap t => writtenG t
def writtenT : Tail → Bool
  | .last _ f => written f
  | .more _ f t => written f && (writtenT t && apart (lexemes f) (lexemesT t))
def writtenS : Semis → Bool
  | .stop o => decide (o.1 = .Semi)
  | .last o f => decide (o.1 = .Semi) && written f
  | .skip o t => decide (o.1 = .Semi) && writtenS t
  | .more o f t => decide (o.1 = .Semi) && (written f && writtenS t)
def writtenG : Gaps → Bool
  | .stop o => decide (o.1 = .Comma)
  | .last o f => decide (o.1 = .Comma) && written f
  | .skip o t => decide (o.1 = .Comma) && writtenG t
  | .more o f t => decide (o.1 = .Comma) && (written f && writtenG t)
end

theorem sep_sep {g : Bool} {o : Lexeme} : Sep g o (sepLexemes o) := by
  unfold sepLexemes
  split
  · rename_i h
    subst h
    refine .silent fun x hx => ?_
    have : x = space := by simpa using hx
    subst this
    cases g <;> rfl
  · rename_i h
    exact .shown (w := []) (w' := []) h blank_nil blank_nil

mutual
theorem written_iff : ∀ {f : Form} {g : Bool}, written f = true → Writes g f (lexemes f)
  | .atom x, _, h => by simp only [lexemes]; exact .atom h
  | .compound _, _, _ => by simp only [lexemes]; exact .compound
  | .group o b, _, h => by simp only [lexemes]; exact .group (writtenB_iff (b := b) h)
  | .call f o b, _, h => by
    simp only [written, Bool.and_eq_true] at h
    rw [lexemes]
    exact .call (written_iff h.1) blank_nil (writtenB_iff h.2)
  | .binary l o r, _, h => by
    simp only [written, Bool.and_eq_true] at h
    rw [lexemes]
    exact .binary (written_iff h.1) blank_nil blank_nil (written_iff h.2)
  | .chain op p f t, _, h => by
    simp only [written, Bool.and_eq_true] at h
    rw [lexemes]
    exact .chain (written_iff h.1) (writtenT_iff h.2.1) (apart_iff h.2.2)
  | .prefix o f, _, h => by
    rw [lexemes]
    exact .prefix blank_nil (written_iff (f := f) h)
  | .postfix f o, _, h => by
    rw [lexemes]
    exact .postfix (written_iff (f := f) h) blank_nil
  | .semi f t, _, h => by
    simp only [written, Bool.and_eq_true] at h
    rw [lexemes]
    exact .semi (written_iff h.1) (writtenS_iff h.2)
  | .ternary l o m r, _, h => by
    simp only [written, Bool.and_eq_true] at h
    rw [lexemes]
    exact .ternary (written_iff h.1) blank_nil blank_nil (written_iff h.2.1) blank_nil blank_nil (written_iff h.2.2)
  | .unset f e d, _, h => by
    simp only [written, Bool.and_eq_true, decide_eq_true_eq] at h
    rw [lexemes]
    exact .unset h.1 h.2.1 (written_iff h.2.2) blank_nil blank_nil
  | .tagUnset l o m e d, _, h => by
    simp only [written, Bool.and_eq_true, decide_eq_true_eq] at h
    rw [lexemes]
    exact .tagUnset h.1 h.2.1 h.2.2.1 (written_iff h.2.2.2.1) blank_nil blank_nil (written_iff h.2.2.2.2) blank_nil blank_nil
  | .pattern x o r, _, h => by
    simp only [written, Bool.and_eq_true, decide_eq_true_eq] at h
    rw [lexemes]
    exact .pattern h.1 h.2.1 blank_nil blank_nil (written_iff h.2.2)
  | .optional l o r, _, h => by
    simp only [written, Bool.and_eq_true, decide_eq_true_eq] at h
    rw [lexemes]
    exact .optional h.1 (written_iff h.2.1) blank_nil blank_nil (written_iff h.2.2)
  | .span l o e, _, h => by
    simp only [written, Bool.and_eq_true, decide_eq_true_eq] at h
    rw [lexemes]
    exact .span h.1 (written_iff h.2.1) blank_nil (writtenE_iff h.2.2)
  | .spanFrom o e, _, h => by
    simp only [written, Bool.and_eq_true, decide_eq_true_eq] at h
    rw [lexemes]
    exact .spanFrom h.1 (writtenE_iff h.2)
theorem writtenE_iff : ∀ {e : Reach} {g : Bool}, writtenE e = true → Reaches g e (lexemesE e)
  | .all, _, _ => by rw [lexemesE]; exact .all
  | .to f, _, h => by rw [lexemesE]; exact .to blank_nil (written_iff (f := f) h)
  | .step f o f', _, h => by
    simp only [writtenE, Bool.and_eq_true, decide_eq_true_eq] at h
    rw [lexemesE]
    exact .step h.1 blank_nil (written_iff h.2.1) blank_nil blank_nil (written_iff h.2.2)
  | .allStep o f, _, h => by
    simp only [writtenE, Bool.and_eq_true, decide_eq_true_eq] at h
    rw [lexemesE]
    exact .allStep h.1 blank_nil blank_nil (written_iff h.2)
theorem writtenB_iff : ∀ {b : Body}, writtenB b = true → Inside b (lexemesB b)
  | .empty, _ => by rw [lexemesB]; exact .empty blank_nil
  | .one f, h => by rw [lexemesB]; exact .one blank_nil (written_iff (f := f) h) blank_nil
  | .many f t, h => by
    simp only [writtenB, Bool.and_eq_true] at h
    rw [lexemesB]
    exact .many blank_nil (written_iff h.1) (writtenT_iff h.2) blank_nil
  | .gaps f t, h => by
    simp only [writtenB, Bool.and_eq_true] at h
    rw [lexemesB]
    exact .gaps blank_nil (written_iff h.1) (writtenG_iff h.2) blank_nil
  | .gap t, h => by
    rw [lexemesB]
    exact .gap (writtenG_iff (t := t) h) blank_nil
theorem writtenG_iff : ∀ {t : Gaps}, writtenG t = true → Lists t (lexemesG t)
  | .stop o, h => by
    simp only [writtenG, decide_eq_true_eq] at h
    rw [lexemesG]
    exact .stop h blank_nil
  | .last o f, h => by
    simp only [writtenG, Bool.and_eq_true, decide_eq_true_eq] at h
    rw [lexemesG]
    exact .last h.1 blank_nil blank_nil (written_iff h.2)
  | .skip o t, h => by
    simp only [writtenG, Bool.and_eq_true, decide_eq_true_eq] at h
    rw [lexemesG]
    exact .skip h.1 blank_nil (writtenG_iff h.2)
  | .more o f t, h => by
    simp only [writtenG, Bool.and_eq_true, decide_eq_true_eq] at h
    rw [lexemesG]
    exact .more h.1 blank_nil blank_nil (written_iff h.2.1) (writtenG_iff h.2.2)
theorem writtenT_iff : ∀ {t : Tail} {g : Bool}, writtenT t = true → Rest g t (lexemesT t)
  | .last o f, _, h => by rw [lexemesT]; exact .last sep_sep (written_iff (f := f) h)
  | .more o f t, _, h => by
    simp only [writtenT, Bool.and_eq_true] at h
    rw [lexemesT]
    exact .more sep_sep (written_iff h.1) (writtenT_iff h.2.1) (apart_iff h.2.2)
theorem writtenS_iff : ∀ {t : Semis} {g : Bool}, writtenS t = true → Spec.Steps g t (lexemesS t)
  | .stop o, _, h => by
    simp only [writtenS, decide_eq_true_eq] at h
    rw [lexemesS]
    exact .stop h blank_nil
  | .last o f, _, h => by
    simp only [writtenS, Bool.and_eq_true, decide_eq_true_eq] at h
    rw [lexemesS]
    exact .last h.1 blank_nil blank_nil (written_iff h.2)
  | .skip o t, _, h => by
    simp only [writtenS, Bool.and_eq_true, decide_eq_true_eq] at h
    rw [lexemesS]
    exact .skip h.1 blank_nil (writtenS_iff h.2)
  | .more o f t, _, h => by
    simp only [writtenS, Bool.and_eq_true, decide_eq_true_eq] at h
    rw [lexemesS]
    exact .more h.1 blank_nil blank_nil (written_iff h.2.1) (writtenS_iff h.2.2)
end

/-- A text of one expression. -/
theorem program_one {f : Form} (h1 : written f = true) (h2 : grouped f = true) : Program [f] (lexemes f) := by
  have := Program.last (w := []) (w' := []) blank_nil (written_iff h1) (grouped_iff h2) blank_nil
  simpa using this

/-! ### Cutting a text into lexemes -/

/-- The first byte of the text, if there is one, satisfies `p`. -/
def headIs (p : UInt8 → Bool) : List UInt8 → Bool
  | [] => true
  | b :: _ => p b

/-- A scanner for simple texts: blanks, names, numbers of one digit, operators other than `/.`. -/
def scan : Nat → List Char → Option (List Lexeme)
  | _, [] => some []
  | 0, _ => none
  | n + 1, c :: cs =>
    if c = ' ' then (scan n cs).map ((.Whitespace, [byte ' ']) :: ·)
    else if c = '\n' then (scan n cs).map ((.ToplevelNewline, [byte '\n']) :: ·)
    else if isNameStart c.toNat then
      let seg := cs.takeWhile (fun x => isNameChar x.toNat)
      let r := cs.dropWhile (fun x => isNameChar x.toNat)
      if headIs (fun b => decide (b.toNat < 128 ∧ isNameChar b.toNat = false ∧ b ≠ byte '`' ∧ b ≠ byte '\\' ∧
          (32 ≤ b.toNat ∨ (7 ≤ b.toNat ∧ b.toNat ≤ 13 ∧ b.toNat ≠ 8)))) (bytes r) then
        (scan n r).map ((.Symbol, bytes (c :: seg)) :: ·)
      else none
    else if isDec c then
      if headIs (fun b => decide (b ∈ bytes [' ', ',', ']', '}', ')', '\n', '+', '-', '!', '&', ';', '_'])) (bytes cs) then
        (scan n cs).map ((.Integer, [byte c]) :: ·)
      else none
    else if (c = '/' ∧ headIs (fun b => decide (b ≠ byte '.')) (bytes cs) = false) ∨
        (c = '.' ∧ headIs (fun b => !isDigitByte b) (bytes cs) = false) ∨
        (c = '(' ∧ headIs (fun b => decide (b = byte '*')) (bytes cs) = true) ∨ byte '\\' ∈ (bytes cs).take 2 then none
    else
      match (operators c).find? (fun e => (bytes e.1).isPrefixOf (bytes cs) &&
        (operators c).all (fun e' => decide (e'.1.length ≤ e.1.length) || !(bytes e'.1).isPrefixOf (bytes cs))) with
      | some (tail, k) => (scan n (cs.drop tail.length)).map ((k, bytes (c :: tail)) :: ·)
      | none => none

theorem prefix_of {a b q : List UInt8} (h : b = a ++ q) : a.isPrefixOf b = true := by
  rw [List.isPrefixOf_iff_prefix, h]; exact List.prefix_append _ _

theorem bytes_cons {c : Char} {cs : List Char} : bytes (c :: cs) = byte c :: bytes cs := rfl

theorem scan_sound : ∀ {n : Nat} {cs : List Char} {ks : List Lexeme}, scan n cs = some ks → LexesTo (bytes cs) ks
  | _, [], ks, h => by
    have : ks = [] := by cases ‹Nat› <;> simp [scan] at h <;> exact h
    subst this; exact .nil
  | 0, _ :: _, ks, h => by simp [scan] at h
  | n + 1, c :: cs, ks, h => by
    unfold scan at h
    split at h
    · rename_i hc
      subst hc
      obtain ⟨ks', h1, rfl⟩ := Option.map_eq_some_iff.mp h
      exact .space (scan_sound h1)
    split at h
    · rename_i hc
      subst hc
      obtain ⟨ks', h1, rfl⟩ := Option.map_eq_some_iff.mp h
      exact .newline (scan_sound h1)
    split at h
    · rename_i hc
      simp only at h
      split at h
      · rename_i hr
        obtain ⟨ks', h1, rfl⟩ := Option.map_eq_some_iff.mp h
        have e : bytes (c :: cs) = bytes (c :: cs.takeWhile (fun x => isNameChar x.toNat)) ++ bytes (cs.dropWhile (fun x => isNameChar x.toNat)) := by
          rw [show ∀ a b : List Char, bytes a ++ bytes b = bytes (a ++ b) from fun a b => List.map_append.symm, List.cons_append, List.takeWhile_append_dropWhile]
        rw [e]
        have hn : Name (c :: cs.takeWhile (fun x => isNameChar x.toNat)) := by
          have := Name.plain (seg := c :: cs.takeWhile (fun x => isNameChar x.toNat)) (segs := [])
            ⟨c, _, rfl, hc, fun x hx => List.all_eq_true.mp List.all_takeWhile x hx⟩ (by simp)
          simpa [contexts] using this
        refine .name hn ?_ (scan_sound h1)
        intro b q hq
        rw [hq] at hr
        exact of_decide_eq_true hr
      · cases h
    split at h
    · rename_i hc
      split at h
      · rename_i hr
        obtain ⟨ks', h1, rfl⟩ := Option.map_eq_some_iff.mp h
        have key : ∀ x : Char, byte x ∉ bytes [' ', ',', ']', '}', ')', '\n', '+', '-', '!', '&', ';', '_'] → ¬ Starts x (bytes cs) := by
          rintro x hx ⟨q, hq⟩
          rw [hq] at hr
          exact hx (of_decide_eq_true hr)
        have hdig : ∀ x : Char, isDec x = true → byte x ∉ bytes [' ', ',', ']', '}', ')', '\n', '+', '-', '!', '&', ';', '_'] := by
          intro x hx hm
          have h1 : ∀ b ∈ bytes [' ', ',', ']', '}', ')', '\n', '+', '-', '!', '&', ';', '_'], b.toNat < 48 ∨ 57 < b.toNat := by decide
          have h2 := h1 _ hm
          have h3 : (byte x).toNat = x.toNat % 256 := by simp [byte]
          simp only [isDec, Bool.and_eq_true, decide_eq_true_eq] at hx
          omega
        have hl : ({ mantissa := ⟨[c], none⟩ } : Literal).kind = .Integer := by
          unfold Literal.kind
          rw [if_neg (by rintro ⟨b, hb, -⟩; cases hb), if_neg (by rintro (h | h) <;> cases h), if_neg (by rintro ⟨b, hb, -⟩; cases hb)]
        have := @LexesTo.number { mantissa := ⟨[c], none⟩ } (bytes cs) ks' ?_ ?_ (scan_sound h1)
        · rw [hl] at this; exact this
        · refine ⟨fun b h => ?_, ⟨by simp [Digits.all], fun x hx => ?_⟩, fun _ _ _ h => ?_, fun _ h => ?_⟩
          · cases h
          · have : x = c := by simpa [Digits.all] using hx
            subst this; show (isDec x || _) = true; rw [hc]; rfl
          · cases h
          · cases h
        · refine ⟨?_, fun x hx => key x (hdig x hx), fun x h => absurd rfl h, key _ (by decide), key _ (by decide), ?_, ?_, ?_⟩
          · exact .inl fun h => key '\\' (by decide) (by cases hcs : bytes cs with
              | nil => rw [hcs] at h; cases h
              | cons b q => rw [hcs] at h; exact ⟨q, by rw [Option.some.inj h]⟩)
          · intro q hq; exact absurd ⟨q, hq⟩ (key '*' (by decide))
          · intro q hq; exact absurd ⟨q, hq⟩ (key '^' (by decide))
          · rintro ⟨⟨p, hp, -⟩, -⟩; cases hp
      · cases h
    split at h
    · cases h
    rename_i hc
    split at h
    · rename_i tail k hf
      obtain ⟨ks', h1, rfl⟩ := Option.map_eq_some_iff.mp h
      have hp := List.find?_some hf
      have hm := List.mem_of_find?_eq_some hf
      rw [Bool.and_eq_true] at hp
      obtain ⟨hp1, hp2⟩ := hp
      obtain ⟨q, hq⟩ := List.isPrefixOf_iff_prefix.mp hp1
      have hdrop : q = bytes (cs.drop tail.length) := by
        have : (bytes tail ++ q).drop tail.length = (bytes cs).drop tail.length := by rw [hq]
        rw [show bytes (cs.drop tail.length) = (bytes cs).drop tail.length from List.map_drop, ← this]
        have : tail.length = (bytes tail).length := by simp [bytes]
        rw [this, List.drop_left]
      subst hdrop
      have := @LexesTo.operator c tail k (bytes (cs.drop tail.length)) ks'
        ⟨hm, ⟨_, rfl, fun h => ?_⟩, ?_⟩ ?_ ?_ (.inl ?_) ?_ (scan_sound h1)
      · rw [List.cons_append, hq] at this; exact this
      · obtain ⟨rfl, rfl, -⟩ := h
        refine hc (Or.inl ⟨rfl, ?_⟩)
        rw [← hq]
        rfl
      · intro t' k' ht hw
        obtain ⟨q', hq', -⟩ := hw
        rw [hq] at hq'
        have := List.all_eq_true.mp hp2 _ ht
        rw [prefix_of hq'] at this
        simpa using this
      · rintro ⟨rfl, q', hq'⟩
        rw [hq] at hq'
        exact hc (Or.inr (Or.inr (Or.inl ⟨rfl, by rw [hq']; rfl⟩)))
      · rintro ⟨rfl, b, q', hq', hb⟩
        rw [hq] at hq'
        exact hc (Or.inr (Or.inl ⟨rfl, by rw [hq']; show (!isDigitByte b) = false; rw [hb]; rfl⟩))
      · rw [hq]
        intro h
        refine hc (Or.inr (Or.inr (Or.inr ?_)))
        cases hcs : bytes cs with
        | nil => rw [hcs] at h; cases h
        | cons b q => rw [hcs] at h; simp [Option.some.inj h]
      · intro x q hx _
        rw [hq] at hx
        refine .inl fun h => hc (Or.inr (Or.inr (Or.inr ?_)))
        rw [hx]
        cases q with
        | nil => cases h
        | cons b q => simp [Option.some.inj h]
    · cases h

/-- The lexemes of a simple text. -/
theorem scan_text {s : List Char} {ks : List Lexeme} (h : scan s.length s = some ks) : LexesTo (bytes s) ks := scan_sound h

end CodeParser.Syn
