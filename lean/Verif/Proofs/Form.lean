import Verif.Proofs.Recover6
/-!
What all trees of a result look like, in a form for induction (helper lemmas).
-/
namespace CodeParser
open Spec Props Cst

/-- Every node in the tree looks as it should, and no token is of a kind that no text gives. -/
inductive Form : Cst → Prop
  | tok {t} : spare t.kind = false → Form (.tok t)
  | node {k cs} : NodeOK Recovered k cs → (∀ c ∈ cs, Form c) → Form (.node k cs)
  | call {h b op body} : CallOK Recovered h b op body → (∀ c ∈ h, Form c) → (∀ c ∈ body, Form c) → Form (.call h b op body)

theorem TreeOK.form {f : Tok → Tok} (hf : ∀ t, (f t).kind = t.kind) {c : Cst} (h : TreeOK Recovered c) : Form (mapTok f c) := by
  induction h with
  | tok h => exact .tok (by rw [hf]; exact h.known)
  | node h1 _ ih =>
    refine .node (NodeOK_map hf h1) fun c hc => ?_
    rw [mapToks_eq] at hc
    obtain ⟨d, hd, rfl⟩ := List.mem_map.mp hc
    exact ih d hd
  | call h1 _ _ ih1 ih2 =>
    refine .call (CallOK_map hf h1) (fun c hc => ?_) (fun c hc => ?_) <;>
    · rw [mapToks_eq] at hc
      obtain ⟨d, hd, rfl⟩ := List.mem_map.mp hc
      first | exact ih1 d hd | exact ih2 d hd

end CodeParser
