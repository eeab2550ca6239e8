import Verif.Model.Zoo.Combined
import Verif.Spec.Zoo.Inspection
import Verif.Spec.ASIFHistory

/-!
Vocabulary for several deputies filtered by one combined module.
-/
namespace RTA
variable {P X : Type}

/-- `filter_control` of an explicit deputy module, called by a combined module with an array. -/
noncomputable def deputyFilter [HasSqrt ℝ] (solver : Solver ℝ) (f : List ℝ → List ℝ) (g : List ℝ → List (List ℝ))
    (m : ASIFObj ℝ (List ℝ) P X) (x : List ℝ) (dt : ℝ) (u : List ℝ) : Except PyErr (List ℝ) × ASIFObj ℝ (List ℝ) P X :=
  explicitASIF solver f g m (.array x) dt u

/-- A combined module in use: switched on, with the same scalar bounds as its deputy module, which is an explicit module of three controls,
switched on, without user supplied inequalities. -/
structure CombinedInUse [HasSqrt ℝ] (solver : Solver ℝ) (f : List ℝ → List ℝ) (g : List ℝ → List (List ℝ)) (lo hi : ℝ)
    (s : CombinedObj ℝ (ASIFObj ℝ (List ℝ) P X)) : Prop where
  on : s.enable = true
  low : s.controlBoundsLow = some (.scalar lo)
  high : s.controlBoundsHigh = some (.scalar hi)
  module : ExplicitModule solver f g s.deputyRta
  deputyOn : s.deputyRta.enable = true
  deputyLow : s.deputyRta.controlBoundsLow = some (.scalar lo)
  deputyHigh : s.deputyRta.controlBoundsHigh = some (.scalar hi)
  dim : s.deputyRta.ext.controlDim = 3
  direct : s.deputyRta.ext.direct = []

/-- Deputy `q`'s part of the control of all deputies. -/
def thrustOf (u : ℝ → List ℝ) (t : ℝ) (q : Nat) : List ℝ := pySlice (u t) (3 * q) (3 * q + 3)

end RTA
