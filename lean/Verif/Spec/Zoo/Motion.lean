import Verif.Model.Zoo.InspectionConstraints
import Mathlib.Analysis.Calculus.Deriv.Basic

/-!
Motion in space: position curves with their velocities.
-/
namespace RTA
open Set

/-- `p` is a continuous curve in space from time 0 on with velocity `v` (the right derivative, at every time). -/
structure Moves (p v : ℝ → List ℝ) : Prop where
  lenP : ∀ t, 0 ≤ t → (p t).length = 3
  lenV : ∀ t, 0 ≤ t → (v t).length = 3
  cont : ∀ i, i < 3 → ContinuousOn (fun t => comp (p t) i) (Ici 0)
  deriv : ∀ i, i < 3 → ∀ t, 0 ≤ t → HasDerivWithinAt (fun s => comp (p s) i) (comp (v t) i) (Ici t) t

end RTA
