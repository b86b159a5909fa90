import Verif.Proofs.Build
import Verif.Proofs.Place9
import Verif.Props.Parser
/-!
C79: abstraction ends, and works on the parts of a tree.  C80: how abstract syntax is put together.
-/
namespace CodeParser.Props
open CodeParser Spec Cst Abs

section
variable {cfg : Cfg} {env : AEnv} {conv : Conv} {first : FirstLine} {bs : List UInt8}

/-- C79: the abstraction of every concrete tree ends, with a result or with one of the panics of the code. -/
theorem C79_terminates (env : AEnv) (c : Cst) : abstractCst env c ≠ .error .fuel := by
  intro h
  have := Stop.abstractR_ends (env := env) (r := .cst c)
  unfold abstractCst at h
  rw [h] at this
  exact this rfl

/-- C79, the whole way from bytes to abstract syntax trees ends: with trees, or with one of the panics of the code (when
there are none is C28, C35 and C37). -/
theorem C79_bytes (cfg : Cfg) (env : AEnv) (conv : Conv) (first : FirstLine) (bs : List UInt8) :
    parseBytesAsts cfg env conv first bs ≠ .error (.parse .fuel) ∧ parseBytesAsts cfg env conv first bs ≠ .error (.tree .fuel) := by
  have h1 := C27_terminates cfg conv first bs
  unfold parseBytesAsts
  split
  · rename_i e he
    refine ⟨fun h => ?_, nofun⟩
    cases h
    exact h1 he
  · rename_i r hr
    have h2 := Stop.aggregateL_ends r.syntax'
    split
    · refine ⟨nofun, fun h => ?_⟩
      cases h
      exact h2 (by assumption)
    · rename_i cs hcs
      have h3 : Stop.Ends (mapA (abstractCst env) cs) := Stop.Ends.all fun c _ => Stop.abstractR_ends
      split
      · rename_i e he
        refine ⟨nofun, fun h => ?_⟩
        cases h
        rw [he] at h3
        exact h3 rfl
      · exact ⟨nofun, nofun⟩

/-- C79: the bound of the modelled recursion does not matter: any larger one gives the same result. -/
theorem C79_bound (env : AEnv) (c : Cst) {n : Nat} (h : 2 * csize c < n) : Abs.run env n (.cst c) = abstractCst env c :=
  by
  have h1 : Stop.Ends (abstractR env (.cst c)) := Stop.abstractR_ends
  exact (Stop.eq_of_rel (Stop.run_mono (n := (Req.cst c).meas + 1) h (.cst c)) h1).symm

/-- C80: the abstract syntax of message names, uses of files, integrals, names of slots, tests of patterns, chains of `~`,
groups, calls, and everything that is wrong is put together from the abstract syntax of the parts by the rules of
`Spec/Build`, at the position from the first to the last token. -/
theorem C80_built {c : Cst} {a : Ast} (hb : inBuilt c = true) (h : abstractCst env c = .ok a) :
    ∃ d, Hulls (leaves c) d ∧ Built (fun c a => abstractCst env c = .ok a) env.debug d c a := by
  unfold abstractCst at h
  rw [Stop.abstractR_eq] at h
  exact Build.step_ok hb h

/-- C80: the rules determine the result: two trees put together by them are equal. -/
theorem C80_unique {quote : List UInt8 → List UInt8} {G : Cst → Ast → Prop} (hG : ∀ c a b, G c a → G c b → a = b) {c : Cst} {d d' : ASrc} {a b : Ast}
    (hd : Hulls (leaves c) d) (hd' : Hulls (leaves c) d') (h : Built G quote d c a) (h' : Built G quote d' c b) : a = b := by
  cases Build.hulls_unique hd hd'
  exact Build.built_unique hG h h'
end

/-- The trees of a text, after `aggregate`, are all of those the rules are about, and there are abstract syntax trees. -/
def ruled (s : String) : Bool :=
  match parseBytesCst Cfg.default .lineColumn .notScript (encode s.toList) with
  | .error _ => false
  | .ok r =>
    match aggregateL r.syntax' with
    | .error _ => false
    | .ok ds => ds.length == 1 && ds.all fun d => inBuilt d && match abstractCst AEnv.default d with | .ok _ => true | .error _ => false

example : ruled "a::b::c::d" = true := by decide +kernel
example : ruled "a >> file" = true := by decide +kernel
example : ruled "\\[Integral] f[x] \\[DifferentialD] x" = true := by decide +kernel
example : ruled "f[a, {b, c}, " = true := by decide +kernel
example : ruled "(a, b)" = true := by decide +kernel
example : ruled "1[[2]]" = true := by decide +kernel
example : ruled "a ~f~ b ~g~ c" = true := by decide +kernel
example : ruled "a ? b ? c" = true := by decide +kernel

end CodeParser.Props
