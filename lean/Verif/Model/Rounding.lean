import Verif.Model.ASIF
import Mathlib.Analysis.Real.Sqrt

/-!
Floating point arithmetic as a type of scalars. The model of the modules is written for any type of scalars with the operations the
code uses; with the type below the same definitions describe what is computed when every operation rounds its result. The package
never enables 64 bit arithmetic in JAX, so all `jnp` expressions (constraints, gradients, dynamics and the inequality matrices of
`rta/asif.py:363-435`) are evaluated in single precision; the matrices are then converted to `float64` for the solver
(`rta/asif.py:248`), which is exact.
Simplifications: a rounding function on the real numbers, so no overflow, infinities or NaN (`Props/NaN.lean` treats NaN); sums are
accumulated in the order of `dot`, and products are not fused with sums.
-/
namespace RTA

/-- A number of the format of the rounding function `rd`. -/
@[ext] structure Fl (rd : ℝ → ℝ) where
  val : ℝ

namespace Fl
variable {rd : ℝ → ℝ}

/-- Rounded sum. -/
instance : Add (Fl rd) := ⟨fun a b => ⟨rd (a.val + b.val)⟩⟩
/-- Rounded difference. -/
instance : Sub (Fl rd) := ⟨fun a b => ⟨rd (a.val - b.val)⟩⟩
/-- Rounded product. -/
instance : Mul (Fl rd) := ⟨fun a b => ⟨rd (a.val * b.val)⟩⟩
/-- Changing the sign is exact. -/
instance : Neg (Fl rd) := ⟨fun a => ⟨-a.val⟩⟩
instance : Zero (Fl rd) := ⟨⟨0⟩⟩
instance : One (Fl rd) := ⟨⟨1⟩⟩
/-- The literal `10` of `constraint.py:223`. -/
instance : OfNat (Fl rd) 10 := ⟨⟨10⟩⟩
/-- Rounded square root. -/
noncomputable instance : HasSqrt (Fl rd) := ⟨fun a => ⟨rd (Real.sqrt a.val)⟩⟩

theorem val_injective : Function.Injective (Fl.val (rd := rd)) := fun _ _ h => Fl.ext h

/-- Comparisons, `maximum` and `minimum` are exact. -/
noncomputable instance : LinearOrder (Fl rd) := LinearOrder.lift' Fl.val val_injective

end Fl

end RTA
