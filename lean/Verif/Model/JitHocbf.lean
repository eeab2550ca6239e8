import Verif.Model.Jit
import Verif.Model.HOCBF

/-!
Model of an explicit ASIF module built with `jit_enable=False` one of whose constraints is a `HOCBFConstraint`. The constructor
of the module composes its constraints anew (`rta/base.py:194-198`), but not the constraints inside a `HOCBFConstraint`
(`constraint.py:414-421`): the wrapped constraint and the helpers keep their own `jit_enable=True` and stay compiled.

Simplifications, beyond those of `Model/Jit.lean`: the state and the `params` keep their shapes, so there is one signature; the
methods `_compute`, `_phi` and the gradient of the inner constraints are traced together, in the first call that answers.
-/
namespace RTA

/-- What a `HOCBFConstraint` is made of (`constraint.py:411-421`): the wrapped constraint, the relative degree, the state
transition system and the strengthening function. All of them are read by the helpers' `_compute`. -/
structure HocbfSrc (K S P : Type) where
  initial : Constraint K S P
  relativeDegree : Nat
  f : S → List K
  alpha : K → K

/-- The module, what its `HOCBFConstraint` is made of now, and what it was made of when it was traced. -/
structure HocbfModule (K S P X : Type) where
  obj : ASIFObj K S P X
  src : HocbfSrc K S P
  traced : Option (HocbfSrc K S P)

section
variable {K S P X : Type}

/-- The constraint `key` of the module evaluates the `HOCBFConstraint` made of `q` (`HOCBFConstraint._compute`, `_phi`,
`constraint.py:424-428`). Its own attributes (bias, `params`, ...) are those it has in the module. -/
def plugHocbf [Field K] (ad : (S → P → K) → S → P → List K) (key : String) (q : HocbfSrc K S P) (o : ASIFObj K S P X) :
    ASIFObj K S P X :=
  { o with constraints := o.constraints.map fun kc =>
      if kc.1 = key then
        (kc.1, { kc.2 with
          computeFn := fun x p => (hocbfChain ad q.initial q.f q.alpha (q.relativeDegree - 1)).compute x p
          gradFn := ad fun x p => (hocbfChain ad q.initial q.f q.alpha (q.relativeDegree - 1)).compute x p
          phiFn := q.initial.phiFn })
      else kc }

/-- `filter_control` of the module. -/
def explicitASIFHocbf [Field K] [Max K] [Min K] [HasSqrt K] [LT K] [DecidableLT K] (solver : Solver K)
    (ad : (S → P → K) → S → P → List K) (key : String) (f : S → List K) (g : S → List (List K)) (self : HocbfModule K S P X)
    (inp : InputState S) (dt : K) (u : List K) : Except PyErr (List K) × HocbfModule K S P X :=
  let q := self.traced.getD self.src
  match explicitASIF solver f g (plugHocbf ad key q self.obj) inp dt u with
  | (.error e, o) => (.error e, { self with obj := o })
  | (.ok v, o) => (.ok v, { self with obj := o, traced := if self.obj.enable then some q else self.traced })

end

end RTA
