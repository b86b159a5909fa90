import Verif.Props.Parser
/-!
# C23: newlines inside and outside of brackets
-/
namespace CodeParser.Props
open CodeParser Spec Cst

section
variable {cfg : Cfg} {conv : Conv} {first : FirstLine} {bs : List UInt8} {r : ParseResult}

/-- C23: in what parsing gives, every newline token outside of all brackets is a top-level
newline. -/
theorem C23_outside (h : parseBytesCst cfg conv first bs = .ok r) {t : Tok} (ht : t ∈ outsideL r.syntax')
    (hn : t.kind = .ToplevelNewline ∨ t.kind = .InternalNewline) : t.kind = .ToplevelNewline := by
  obtain ⟨cs, f, ks, u, s, ho⟩ := parse_ok h
  rw [ho.eq, outsideL_map] at ht
  obtain ⟨t', hm, rfl⟩ := List.mem_map.mp ht
  rw [ho.kind] at hn ⊢
  exact hn.resolve_right (ho.newlines.outer rfl t' hm)

/-- C23: every newline token between two brackets, or behind an opening bracket without its
closing one, is an internal newline, unless `<<`, `>>` or `>>>` comes between the opening
bracket and it.  Missing: the newlines behind `<<`, `>>` and `>>>`. -/
theorem C23_inside_partial (h : parseBytesCst cfg conv first bs = .ok r) {ks a b : List Tok} {t : Tok} (hk : ks ∈ bracketsL r.syntax')
    (he : ks = a ++ t :: b) (hn : t.kind = .ToplevelNewline ∨ t.kind = .InternalNewline)
    (hf : ∀ t' ∈ a, isFileOp t'.kind = false) : t.kind = .InternalNewline := by
  obtain ⟨cs, f, ks', u, s, ho⟩ := parse_ok h
  rw [ho.eq, bracketsL_map] at hk
  obtain ⟨ks0, hm, rfl⟩ := List.mem_map.mp hk
  obtain ⟨a0, b0, rfl, rfl, h2⟩ := List.map_eq_append_iff.mp he
  obtain ⟨t0, b1, rfl, rfl, -⟩ := List.map_eq_cons_iff.mp h2
  rw [ho.kind] at hn ⊢
  refine hn.resolve_left fun hk => ?_
  obtain ⟨t', h3, h4⟩ := ho.newlines.inner _ hm a0 t0 b1 rfl hk
  have := hf (f t') (List.mem_map_of_mem h3)
  rw [ho.kind, h4] at this
  cases this

/-- C23 fails behind the operators followed by the name of a file: there a newline is
top-level also inside of brackets. -/
theorem C23_violated : ∃ (bs : List UInt8) (r : ParseResult) (ks : List Tok) (t : Tok),
    parseBytesCst Cfg.default .lineColumn .notScript bs = .ok r ∧ ks ∈ bracketsL r.syntax' ∧ t ∈ ks ∧ t.kind = .ToplevelNewline := by
  obtain ⟨r, h1, h2⟩ := of_parses (first := .notScript) (bs := bytes ['{','a','>','>','\n','b','}'])
    (p := fun r => (bracketsL r.syntax').any fun ks => ks.any fun t => t.kind == .ToplevelNewline) (by decide +kernel)
  obtain ⟨ks, h3, h4⟩ := List.any_eq_true.mp h2
  obtain ⟨t, h5, h6⟩ := List.any_eq_true.mp h4
  exact ⟨_, r, ks, t, h1, h3, h5, by simpa using h6⟩

/-- Newlines inside brackets, between the opening bracket of an unterminated group and the
end, and outside of them. -/
example : parses .notScript (bytes ['f','[','\n','a',']',' ','+','\n','b','\n','{','\n','c'])
    (fun r => (bracketsL r.syntax').length == 2 &&
      (bracketsL r.syntax').all (fun ks => ks.any fun t => t.kind == .InternalNewline) &&
      (outsideL r.syntax').any fun t => t.kind == .ToplevelNewline) = true := by
  decide +kernel

end
end CodeParser.Props
