import Verif.Proofs.Check8
import Verif.Spec.Check
import Verif.Props.Tokenizer
/-!
Helper lemmas: positions of issues as pieces of the text.
-/
namespace CodeParser.Chk
open CodeParser (Bad Path WF SameAt MSim R)
open CodeParser.Spec (Moves Piece Within)

section
variable {cfg : Cfg} {z p q : St}

theorem Pos.moves (h : Pos cfg z p) : ∃ pre, z.rest = pre ++ p.rest ∧ Moves cfg pre p.rest z.loc p.loc := by
  obtain ⟨cs, hp⟩ := h.path
  have := hp.moves (s' := ⟨z.rest, z.loc, false, none⟩) h.wfz (by intro h; cases h) rfl rfl
  simp only at this
  refine ⟨_, this.1.symm, cs.length, ?_⟩
  rw [this.1]
  exact ⟨rfl, this.2.1, this.2.2.1, this.2.2.2.1⟩

theorem Between.piece {sp : Span} (h : Between cfg z sp) : Piece cfg z.rest z.loc sp := by
  obtain ⟨p, q, h1, h2, rfl⟩ := h
  obtain ⟨a, e1, m1⟩ := h1.moves
  obtain ⟨b, e2, m2⟩ := h2.moves
  exact ⟨a, b, q.rest, by rw [e1, e2, List.append_assoc], by rw [← e2]; exact m1, m2⟩

theorem Spot.within {l : Loc} (h : Spot cfg z l) : Within cfg z.rest z.loc l := by
  obtain ⟨p, h1, rfl⟩ := h
  obtain ⟨a, e1, m1⟩ := h1.moves
  exact ⟨a, p.rest, e1, m1⟩

theorem Pos.flag {conv : Conv} {bs : List UInt8} {t : St} (h : Pos cfg (St.init conv bs) t) (hf : t.flag ≠ none) :
    ¬ Spec.ValidUTF8 bs ∨ ∃ cs, bs = Spec.encode cs ∧ Spec.BOM ∈ cs := by
  rw [← Props.C02_error_iff cfg conv bs]
  rcases h.blame hf with h | ⟨ds, c, v, hb, hc⟩
  · exact absurd rfl h
  · exact hb.unsafe_readAll (WF_init conv bs) (Nat.le_refl _) ⟨c, by simp, hc⟩

end

section
variable {E : Env} {s s' z : St}

theorem peekTag_base {cfg : Cfg} : CodeParser.peekTokenTag cfg s = (match CodeParser.nextTokenTag cfg s with
    | .ok (k, t) => .ok (k, t.seek s)
    | .error e => .error e) := by
  unfold CodeParser.peekTokenTag
  show CodeParser.M.bind (CodeParser.nextTokenTag cfg) (fun c => CodeParser.M.bind (CodeParser.M.seek s) fun _ => pure c) s = _
  unfold CodeParser.M.bind
  rcases CodeParser.nextTokenTag cfg s with e | ⟨c, t⟩ <;> rfl

theorem peekTag_chk : peekTokenTag E s = (match nextTokenTag E s with
    | .ok (k, t, es) => .ok (k, t.seek s, es)
    | .error e => .error e) := by
  unfold peekTokenTag
  rw [mark_run]
  show M.bind (nextTokenTag E) (fun c => M.bind (M.seek s) fun _ => pure c) s = _
  unfold M.bind
  rcases nextTokenTag E s with e | ⟨c, t, es⟩
  · rfl
  · show Except.ok (c, t.seek s, es ++ ([] ++ [])) = _
    simp

theorem peekFile_base {cfg : Cfg} : CodeParser.peekTokenFile cfg s = (match CodeParser.nextTokenFile cfg s with
    | .ok (k, t) => .ok (k, t.seek s)
    | .error e => .error e) := by
  unfold CodeParser.peekTokenFile
  show CodeParser.M.bind (CodeParser.nextTokenFile cfg) (fun c => CodeParser.M.bind (CodeParser.M.seek s) fun _ => pure c) s = _
  unfold CodeParser.M.bind
  rcases CodeParser.nextTokenFile cfg s with e | ⟨c, t⟩ <;> rfl

theorem peekFile_chk : peekTokenFile E s = (match nextTokenFile E s with
    | .ok (k, t, es) => .ok (k, t.seek s, es)
    | .error e => .error e) := by
  unfold peekTokenFile
  rw [mark_run]
  show M.bind (nextTokenFile E) (fun c => M.bind (M.seek s) fun _ => pure c) s = _
  unfold M.bind
  rcases nextTokenFile E s with e | ⟨c, t, es⟩
  · rfl
  · show Except.ok (c, t.seek s, es ++ ([] ++ [])) = _
    simp

theorem peekTag_out (hs : Near s s') (hp : Pos E.cfg s' s') :
    Out E.cfg (Is s') never s' Eq (CodeParser.peekTokenTag E.cfg s) (peekTokenTag E s') := by
  rw [peekTag_base, peekTag_chk]
  have h := nextTokenTag_out hs hp
  rcases h1 : CodeParser.nextTokenTag E.cfg s with e | ⟨k, t⟩ <;> rcases h2 : nextTokenTag E s' with f | ⟨k', t', es⟩ <;> rw [h1, h2] at h
  · exact h
  · exact h.elim
  · exact h.elim
  · obtain ⟨rfl, h3, h4, h5⟩ := h
    exact ⟨rfl, h3.seek hs.same, hp.seek h4, h5⟩

theorem peekFile_out (hs : Near s s') (hp : Pos E.cfg s' s') :
    Out E.cfg (Is s') never s' Eq (CodeParser.peekTokenFile E.cfg s) (peekTokenFile E s') := by
  rw [peekFile_base, peekFile_chk]
  have h := nextTokenFile_out hs hp
  rcases h1 : CodeParser.nextTokenFile E.cfg s with e | ⟨k, t⟩ <;> rcases h2 : nextTokenFile E s' with f | ⟨k', t', es⟩ <;> rw [h1, h2] at h
  · exact h
  · exact h.elim
  · exact h.elim
  · obtain ⟨rfl, h3, h4, h5⟩ := h
    exact ⟨rfl, h3.seek hs.same, hp.seek h4, h5⟩

end
end CodeParser.Chk

namespace CodeParser.Chk
open CodeParser.Spec (Moves Justified)

theorem Told.justified {cfg : Cfg} {z : St} {i : Report} (h : Told cfg z i) : Justified cfg z.rest z.loc i := by
  obtain ⟨p, q, h1, h2, h3, h4⟩ := h
  obtain ⟨a, e1, m1⟩ := h1.moves
  obtain ⟨b, e2, m2⟩ := h2.moves
  rw [between_eq e1, between_eq e2] at h4
  refine ⟨a, b, q.rest, by rw [e1, e2, List.append_assoc], ?_, ?_, h4⟩
  · rw [← e2, h3]; exact m1
  · rw [h3]; exact m2

end CodeParser.Chk

