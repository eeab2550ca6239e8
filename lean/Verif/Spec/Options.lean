import Verif.Model.Options

/-!
Vocabulary for C96: what the documentation says about compile options.
-/
namespace RTA

/-- The option that an implicit ASIF module sets for itself. -/
def barrierKey : String := "generate_barrier_constraint_mats"

/-- The defaults listed under "jit compilation settings" in the docstrings of the `compose` methods (`rta/simplex.py:47-51,
261-264`, `rta/asif.py:111-113, 500-506`), together with those of the parent class. -/
def documentedDefaults : ModuleKind → List (String × Bool)
  | .explicitSimplex => [("constraint_violation", true), ("pred_state", false)]
  | .implicitSimplex => [("constraint_violation", true), ("pred_state", false), ("integrate", false)]
  | .explicitASIF => [("generate_barrier_constraint_mats", true)]
  | .implicitASIF => [("generate_ineq_constraint_mats", true), ("pred_state", false), ("integrate", false)]

/-- One of the constructions is that of an implicit ASIF module with `jit_enable=True` that is given the dictionary `r`. -/
def WritesTo (l : List (ModuleKind × Bool × Option Nat)) (r : Nat) : Prop := (ModuleKind.implicitASIF, true, some r) ∈ l

instance (l : List (ModuleKind × Bool × Option Nat)) (r : Nat) : Decidable (WritesTo l r) := by unfold WritesTo; infer_instance

end RTA
