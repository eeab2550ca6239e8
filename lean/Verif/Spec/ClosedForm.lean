import Verif.Spec.ASIF
import Mathlib.Algebra.BigOperators.Group.Finset.Basic

/-!
Vocabulary for closed forms of the answers of explicit ASIF modules (C106).
-/
namespace RTA
variable {K S P X : Type}

/-- The part of the barrier condition that does not depend on the control. -/
def drift [Field K] [LinearOrder K] (f : S → List K) (c : Constraint K S P) (al : K → K) (x : S) : K :=
  dot (c.gradFn x c.params) (f x) + strengthening c al (c.computeFn x c.params + c.bias)

/-- How strongly each of the `n` control components changes the barrier condition. -/
def influence [Field K] (g : S → List (List K)) (c : Constraint K S P) (x : S) (n : Nat) : List K :=
  (List.range n).map fun i => dot (c.gradFn x c.params) ((g x).map fun r => r.getD i 0)

/-- The most that controls between `l` and `h` can add to a condition with influence `a`. -/
def boxAuthority [Field K] [LinearOrder K] (a : List K) (l h : Nat → K) (n : Nat) : K :=
  ∑ i ∈ Finset.range n, max (a.getD i 0 * l i) (a.getD i 0 * h i)

/-- Exactly one condition besides the bounds is in force: the enabled constraint `c`, which has the strengthener `al`. -/
structure OneCondition (s : ASIFObj K S P X) (c : Constraint K S P) (al : K → K) : Prop where
  mem : ∃ k, (k, c) ∈ s.constraints
  enabled : c.enabled = true
  alpha : c.alpha = some al
  only : ∀ kc ∈ s.constraints, kc.2.enabled = true → kc.2 = c
  direct : ∀ kc ∈ s.ext.direct, kc.2.enabled = false
  noSlack : slackScales s.constraints = []

/-- The conditions `0 ≤ d + a u` on a scalar control `u`, as pairs `(a, d)`. -/
def scalarConds [Field K] [LinearOrder K] (f : S → List K) (g : S → List (List K)) (s : ASIFObj K S P X) (x : S) : List (K × K) :=
  ((s.constraints.filter fun kc => kc.2.enabled).map fun kc =>
      ((influence g kc.2 x 1).getD 0 0, drift f kc.2 (kc.2.alpha.getD fun _ => 0) x)) ++
    (s.ext.direct.filter fun kc => kc.2.enabled).map fun kc =>
      ((kc.2.ineqWeight x kc.2.params).getD 0 0, -kc.2.ineqConstant x kc.2.params)

/-- The values that a scalar control must not fall below. -/
def lowLimits [Field K] [LinearOrder K] (f : S → List K) (g : S → List (List K)) (s : ASIFObj K S P X) (x : S) : List K :=
  (boundAt s.controlBoundsLow 0).toList ++ ((scalarConds f g s x).filter fun q => 0 < q.1).map fun q => -q.2 / q.1

/-- The values that a scalar control must not exceed. -/
def highLimits [Field K] [LinearOrder K] (f : S → List K) (g : S → List (List K)) (s : ASIFObj K S P X) (x : S) : List K :=
  (boundAt s.controlBoundsHigh 0).toList ++ ((scalarConds f g s x).filter fun q => q.1 < 0).map fun q => -q.2 / q.1

end RTA
