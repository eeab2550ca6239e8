import Verif.Spec.Flow

/-!
Trajectories of a system that departs from the dynamics a module was given.
-/
namespace RTA

/-- A trajectory of `dx/dt = f(x) + g(x) u + w` from time 0 on, `w` a disturbance that depends on time in any way. `Trajectory` is
the case without disturbance. -/
structure Disturbed (D : Set (List ℝ)) (n : Nat) (f : List ℝ → List ℝ) (g : List ℝ → List (List ℝ)) (x u w : ℝ → List ℝ) :
    Prop where
  curve : CurveIn D n (Set.Ici 0) x
  cont : ∀ i < n, ContinuousOn (fun t => (x t).getD i 0) (Set.Ici 0)
  len : ∀ t, 0 ≤ t → (vadd (f (x t)) (matVec (g (x t)) (u t))).length = n
  wlen : ∀ t, 0 ≤ t → (w t).length = n
  deriv : ∀ t, 0 ≤ t → ∀ i < n,
    HasDerivWithinAt (fun s => (x s).getD i 0) ((vadd (f (x t)) (matVec (g (x t)) (u t))).getD i 0 + (w t).getD i 0) (Set.Ici t) t

end RTA
