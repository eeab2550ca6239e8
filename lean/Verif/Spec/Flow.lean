import Verif.Spec.ASIF
import Mathlib.Analysis.Calculus.Deriv.Basic

/-!
Continuous time: trajectories of control affine systems and gradients.
-/
namespace RTA

/-- `γ`, a curve of states of dimension `n` in the domain `D` for times in `T`. -/
def CurveIn (D : Set (List ℝ)) (n : Nat) (T : Set ℝ) (γ : ℝ → List ℝ) : Prop := ∀ t ∈ T, γ t ∈ D ∧ (γ t).length = n

/-- `grad` is the gradient of `h` on the domain `D` of `n`-dimensional states: `h` is continuous along continuous curves,
and along differentiable curves it changes at the rate `grad . velocity`. Every function with a Fréchet derivative has
such a gradient. -/
structure IsGradientOn (D : Set (List ℝ)) (n : Nat) (h : List ℝ → ℝ) (grad : List ℝ → List ℝ) : Prop where
  cont : ∀ (T : Set ℝ) (γ : ℝ → List ℝ), CurveIn D n T γ → (∀ i < n, ContinuousOn (fun t => (γ t).getD i 0) T) →
    ContinuousOn (fun t => h (γ t)) T
  deriv : ∀ (T : Set ℝ) (γ : ℝ → List ℝ) (v : List ℝ) (t : ℝ), t ∈ T → CurveIn D n T γ → v.length = n →
    (∀ i < n, HasDerivWithinAt (fun s => (γ s).getD i 0) (v.getD i 0) T t) →
    HasDerivWithinAt (fun s => h (γ s)) (dot (grad (γ t)) v) T t

/-- A trajectory of `dx/dt = f(x) + g(x) u` from time 0 on: continuous, with the right derivative given by the equation at
every time (the control may jump). -/
structure Trajectory (D : Set (List ℝ)) (n : Nat) (f : List ℝ → List ℝ) (g : List ℝ → List (List ℝ)) (x u : ℝ → List ℝ) :
    Prop where
  curve : CurveIn D n (Set.Ici 0) x
  cont : ∀ i < n, ContinuousOn (fun t => (x t).getD i 0) (Set.Ici 0)
  len : ∀ t, 0 ≤ t → (vadd (f (x t)) (matVec (g (x t)) (u t))).length = n
  deriv : ∀ t, 0 ≤ t → ∀ i < n,
    HasDerivWithinAt (fun s => (x s).getD i 0) ((vadd (f (x t)) (matVec (g (x t)) (u t))).getD i 0) (Set.Ici t) t

/-- The gradient `jax.grad` computes: the list of partial derivatives. -/
noncomputable def partials {P : Type} (h : List ℝ → P → ℝ) (x : List ℝ) (p : P) : List ℝ :=
  (List.range x.length).map fun i => deriv (fun s => h (x.set i s) p) (x.getD i 0)

end RTA
