import Mathlib.Analysis.SpecialFunctions.Sqrt
import Mathlib.Analysis.Calculus.Deriv.Basic

/-!
Vocabulary for the docking problems.
-/
namespace RTA
open Real

/-- The speed limit of the docking problems in the plane as the modules enforce it: smoothed norms, margin `1e-4`; and the limits
on the velocity components. -/
structure Docking2Safe (v0 v1 v0Distance xLim yLim x y a b : ℝ) : Prop where
  rel : √(a ^ 2 + b ^ 2 + 1 / 100000) + 1 / 10000 ≤ v0 + v1 * (√(x ^ 2 + y ^ 2 + 1 / 100000) - v0Distance)
  xv : a ^ 2 ≤ xLim ^ 2
  yv : b ^ 2 ≤ yLim ^ 2

/-- The same in space. -/
structure Docking3Safe (v0 v1 v0Distance xLim yLim zLim x y z a b c : ℝ) : Prop where
  rel : √(a ^ 2 + b ^ 2 + c ^ 2 + 1 / 100000) + 1 / 10000 ≤ v0 + v1 * (√(x ^ 2 + y ^ 2 + z ^ 2 + 1 / 100000) - v0Distance)
  xv : a ^ 2 ≤ xLim ^ 2
  yv : b ^ 2 ≤ yLim ^ 2
  zv : c ^ 2 ≤ zLim ^ 2

/-- Thrust up to `U` per axis suffices to cancel the relative acceleration and brake at the rate `v1` times the speed. -/
structure Docking2Authority (m n v1 U x a b : ℝ) : Prop where
  x : m * (3 * n ^ 2 * |x| + 2 * |n| * |b| + v1 * √(a ^ 2 + b ^ 2 + 1 / 100000)) ≤ U
  y : m * (2 * |n| * |a| + v1 * √(a ^ 2 + b ^ 2 + 1 / 100000)) ≤ U

/-- The same in space. -/
structure Docking3Authority (m n v1 U x z a b c : ℝ) : Prop where
  x : m * (3 * n ^ 2 * |x| + 2 * |n| * |b| + v1 * √(a ^ 2 + b ^ 2 + c ^ 2 + 1 / 100000)) ≤ U
  y : m * (2 * |n| * |a| + v1 * √(a ^ 2 + b ^ 2 + c ^ 2 + 1 / 100000)) ≤ U
  z : m * (n ^ 2 * |z| + v1 * √(a ^ 2 + b ^ 2 + c ^ 2 + 1 / 100000)) ≤ U

/-- A prediction over `dt` seconds that is close to one Euler step of the equations of motion (mass 12 kg) when the thrust is at most half the speed:
the displacement is at most `1.5 dt (|v| + n |r|)`, and the velocity differs from Euler's by at most `dt/400 (|v| + n |r|)`. -/
def NearEuler2 (n dt : ℝ) (pred : List ℝ → ℝ → List ℝ → List ℝ) : Prop :=
  ∀ x y a b u w, u ^ 2 + w ^ 2 ≤ (a ^ 2 + b ^ 2) / 4 → ∃ x' y' a' b', pred [x, y, a, b] dt [u, w] = [x', y', a', b'] ∧
    √((x' - x) ^ 2 + (y' - y) ^ 2) ≤ 3 / 2 * dt * (√(a ^ 2 + b ^ 2) + n * √(x ^ 2 + y ^ 2)) ∧
    √((a' - (a + dt * (3 * n ^ 2 * x + 2 * n * b + 1 / 12 * u))) ^ 2 + (b' - (b + dt * (-2 * n * a + 1 / 12 * w))) ^ 2) ≤
      dt / 400 * (√(a ^ 2 + b ^ 2) + n * √(x ^ 2 + y ^ 2))

/-- The same in space. -/
def NearEuler3 (n dt : ℝ) (pred : List ℝ → ℝ → List ℝ → List ℝ) : Prop :=
  ∀ x y z a b c u w q, u ^ 2 + w ^ 2 + q ^ 2 ≤ (a ^ 2 + b ^ 2 + c ^ 2) / 4 → ∃ x' y' z' a' b' c',
    pred [x, y, z, a, b, c] dt [u, w, q] = [x', y', z', a', b', c'] ∧
    √((x' - x) ^ 2 + (y' - y) ^ 2 + (z' - z) ^ 2) ≤ 3 / 2 * dt * (√(a ^ 2 + b ^ 2 + c ^ 2) + n * √(x ^ 2 + y ^ 2 + z ^ 2)) ∧
    √((a' - (a + dt * (3 * n ^ 2 * x + 2 * n * b + 1 / 12 * u))) ^ 2 + (b' - (b + dt * (-2 * n * a + 1 / 12 * w))) ^ 2 +
        (c' - (c + dt * (-(n ^ 2) * z + 1 / 12 * q))) ^ 2) ≤
      dt / 400 * (√(a ^ 2 + b ^ 2 + c ^ 2) + n * √(x ^ 2 + y ^ 2 + z ^ 2))

/-- A prediction that solves the equations of motion (mass 12 kg, constant thrust) exactly over `dt` seconds. -/
def ExactFlow2 (n dt : ℝ) (pred : List ℝ → ℝ → List ℝ → List ℝ) : Prop :=
  ∀ x y a b u w, ∃ X Y A B : ℝ → ℝ, X 0 = x ∧ Y 0 = y ∧ A 0 = a ∧ B 0 = b ∧ pred [x, y, a, b] dt [u, w] = [X dt, Y dt, A dt, B dt] ∧
    ∀ t ∈ Set.Icc 0 dt, HasDerivWithinAt X (A t) (Set.Icc 0 dt) t ∧ HasDerivWithinAt Y (B t) (Set.Icc 0 dt) t ∧
      HasDerivWithinAt A (3 * n ^ 2 * X t + 2 * n * B t + 1 / 12 * u) (Set.Icc 0 dt) t ∧
      HasDerivWithinAt B (-2 * n * A t + 1 / 12 * w) (Set.Icc 0 dt) t

/-- The same in space. -/
def ExactFlow3 (n dt : ℝ) (pred : List ℝ → ℝ → List ℝ → List ℝ) : Prop :=
  ∀ x y z a b c u w q, ∃ X Y Z A B C : ℝ → ℝ, X 0 = x ∧ Y 0 = y ∧ Z 0 = z ∧ A 0 = a ∧ B 0 = b ∧ C 0 = c ∧
    pred [x, y, z, a, b, c] dt [u, w, q] = [X dt, Y dt, Z dt, A dt, B dt, C dt] ∧
    ∀ t ∈ Set.Icc 0 dt, HasDerivWithinAt X (A t) (Set.Icc 0 dt) t ∧ HasDerivWithinAt Y (B t) (Set.Icc 0 dt) t ∧
      HasDerivWithinAt Z (C t) (Set.Icc 0 dt) t ∧
      HasDerivWithinAt A (3 * n ^ 2 * X t + 2 * n * B t + 1 / 12 * u) (Set.Icc 0 dt) t ∧
      HasDerivWithinAt B (-2 * n * A t + 1 / 12 * w) (Set.Icc 0 dt) t ∧
      HasDerivWithinAt C (-(n ^ 2) * Z t + 1 / 12 * q) (Set.Icc 0 dt) t

/-- States in the plane where the enforced speed limit is at most 2.25 m/s. -/
def Near2 (v0 v1 v0Distance : ℝ) (X : List ℝ) : Prop :=
  ∃ x y a b, X = [x, y, a, b] ∧ v0 + v1 * (√(x ^ 2 + y ^ 2 + 1 / 100000) - v0Distance) - 1 / 10000 ≤ 9 / 4

/-- States in space where the enforced speed limit is at most 2.25 m/s. -/
def Near3 (v0 v1 v0Distance : ℝ) (X : List ℝ) : Prop :=
  ∃ x y z a b c, X = [x, y, z, a, b, c] ∧ v0 + v1 * (√(x ^ 2 + y ^ 2 + z ^ 2 + 1 / 100000) - v0Distance) - 1 / 10000 ≤ 9 / 4

end RTA
