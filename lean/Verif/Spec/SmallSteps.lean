import Verif.Spec.Discrete
import Mathlib.Topology.Instances.Real.Lemmas

/-!
Vocabulary for C112: a prediction that agrees with the dynamics to first order.
-/
namespace RTA
variable {S P : Type}

/-- The prediction `next` agrees with `dx/dt = f(x) + g(x) u` as far as the enabled constraints see it: their difference quotients over a
step of length `dt` from `x` tend to their derivatives as `dt` tends to zero, uniformly over controls of bounded size. -/
def ConsistentStep (f : S → List ℝ) (g : S → List (List ℝ)) (next : S → ℝ → List ℝ → S) (cs : Dict (Constraint ℝ S P)) (n : Nat) (x : S) :
    Prop :=
  ∀ kc ∈ cs, kc.2.enabled = true → ∀ M ε : ℝ, 0 < ε → ∃ δ > 0, ∀ dt, 0 < dt → dt < δ → ∀ u : List ℝ, u.length = n →
    (∀ i, |u.getD i 0| ≤ M) →
    |(hval kc.2 (next x dt u) - hval kc.2 x) / dt - dot (kc.2.gradFn x kc.2.params) (vadd (f x) (matVec (g x) u))| ≤ ε

end RTA
