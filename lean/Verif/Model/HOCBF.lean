import Verif.Model.Constraint
import Verif.Model.LinAlg

/-!
Model of `HOCBFConstraint` and `HOCBFConstraintHelper` (`constraint.py:395-450`).

Automatic differentiation is a parameter `ad`: it takes a constraint function to the function `jax.grad` returns for it.
-/
namespace RTA
section
variable {K S P : Type} [Field K]

/-- `HOCBFConstraintHelper` (`constraint.py:431-450`): `grad(state) @ f(state) + alpha(constraint(state))`, with the
constructor defaults (bias 0, bias_negative -0.01, enabled) and the params of the wrapped constraint. -/
def hocbfHelper (ad : (S → P → K) → S → P → List K) (c : Constraint K S P) (f : S → List K) (alpha : K → K) :
    Constraint K S P :=
  Constraint.mk' (fun x p => dot (c.gradFn x p) (f x) + alpha (c.compute x p))
    (ad fun x p => dot (c.gradFn x p) (f x) + alpha (c.compute x p)) (some alpha) c.params

/-- Entry `constraint_i` of `hocbf_constraint_dict` (`constraint.py:415-420`). -/
def hocbfChain (ad : (S → P → K) → S → P → List K) (c : Constraint K S P) (f : S → List K) (alpha : K → K) :
    Nat → Constraint K S P
  | 0 => c
  | i + 1 => hocbfHelper ad (hocbfChain ad c f alpha i) f alpha

/-- `HOCBFConstraint.__init__`, `_compute`, `_phi` (`constraint.py:411-428`) without further keyword arguments. With a
relative degree below 2 the loop body never runs and line 421 reads the unbound local `psi`. -/
def hocbf (ad : (S → P → K) → S → P → List K) (c : Constraint K S P) (relativeDegree : Nat) (f : S → List K)
    (alpha : K → K) : Except PyErr (Constraint K S P) :=
  if relativeDegree < 2 then .error (.unboundLocal "psi")
  else
    let final := hocbfChain ad c f alpha (relativeDegree - 1)
    .ok { Constraint.mk' (fun x p => final.compute x p) (ad fun x p => final.compute x p) (some alpha) final.params with
      phiFn := c.phiFn }

end

end RTA
