import Verif.Spec.Implicit
import Mathlib.Analysis.Calculus.Deriv.Basic

/-!
Vocabulary for C94: closed loops whose right hand side is any differentiable function.
-/
namespace RTA
variable {P A : Type}

/-- `J` is the Jacobian of `F` in `n` variables: at every point, the Fréchet derivative of `F` is multiplication by `J`. -/
def IsJacobian (n : Nat) (F : List ℝ → List ℝ) (J : List ℝ → List (List ℝ)) : Prop :=
  ∀ y : List ℝ, y.length = n → (F y).length = n ∧ (J y).length = n ∧ ∃ L : (Fin n → ℝ) →L[ℝ] (Fin n → ℝ),
    (∀ w i, L w i = (matVec (J y) (List.ofFn w)).getD i 0) ∧
    HasFDerivAt (fun (p : Fin n → ℝ) (i : Fin n) => (F (List.ofFn p)).getD i 0) L (fun i => y.getD i 0)

/-- The closed loop of the module under its backup law is `y' = F y` with Jacobian `J`: the law has no state, predictions are
Euler steps, and automatic differentiation returns the Jacobian. -/
structure SmoothLoop (E : ImplicitEnv ℝ) (s : ImplicitObj ℝ P A) (n : Nat) (dt : ℝ) (F : List ℝ → List ℝ)
    (J : List ℝ → List (List ℝ)) : Prop where
  field : ∀ y z, closedLoopField E s dt z y = F y
  law : ∀ y z, ∃ ub, s.ext.extra.ctrl.gen y dt z = some (ub, z)
  euler : ∀ y u, E.pred y dt u = vadd y (vscale dt (vadd (E.f y) (matVec (E.g y) u)))
  jacobian : IsJacobian n F J
  ad : ∀ y z, E.ad (closedLoopField E s dt z) y = J y

/-- The backup control at point `j` of the trajectory from `x` is not clipped. -/
def Unclipped (E : ImplicitEnv ℝ) (s : ImplicitObj ℝ P A) (x : List ℝ) (dt : ℝ) (j : Nat) : Prop :=
  ∃ y z ub z', backupPath E s x dt j = some (y, z) ∧ s.ext.extra.ctrl.gen y dt z = some (ub, z') ∧
    s.toBase.clipControl ub = .ok ub

/-- Every component of `w` is at most `b` in absolute value. -/
def AbsLe (w : List ℝ) (b : ℝ) : Prop := ∀ a ∈ w, |a| ≤ b

end RTA
