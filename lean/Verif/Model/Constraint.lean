import Verif.Model.Py
import Mathlib.Algebra.Order.Field.Basic

/-!
Model of `run_time_assurance/constraint.py`.
-/
namespace RTA

/-- `SubsampleConfigValidator` (`constraint.py:15-43`). -/
structure SubsampleConfig where
  numCheckAll : Int := -1
  skipLength : Int := 1
  numLeast : Option Int := none
  keepFirst : Bool := false
  keepLast : Bool := false
deriving Repr, DecidableEq

/-- A `ConstraintModule` object (`constraint.py:46-103`). `S` is the type of states, `P` the type of the user
adjustable `params`, `K` the scalars. `computeFn` is the abstract `_compute` (lines 151-170), `phiFn` the method `_phi`
(lines 228-246), `gradFn` the autodiff gradient of `_compute` (`constraint.py:111, 115, 172-189`). `alpha`/`alphaNeg` are
`none` when the attribute is `None`. `jit` transformations are the identity. -/
structure Constraint (K S P : Type) where
  computeFn : S → P → K
  phiFn : S → P → K
  gradFn : S → P → List K
  alpha : Option (K → K)
  alphaNeg : Option (K → K)
  bias : K
  biasNegative : K
  slackPriorityScale : Option K
  params : P
  enabled : Bool
  subsample : SubsampleConfig

section
variable {K S P : Type}

/-- `ConstraintModule.__init__` with defaults (`constraint.py:80-103`): bias 0, bias_negative -0.01, no slack, enabled,
`_phi` = `_compute` (lines 228-246). -/
def Constraint.mk' [Field K] (compute : S → P → K) (grad : S → P → List K) (alpha : Option (K → K)) (params : P) :
    Constraint K S P :=
  { computeFn := compute, phiFn := compute, gradFn := grad, alpha := alpha, alphaNeg := none, bias := 0
    biasNegative := -(1 / 100), slackPriorityScale := none, params := params, enabled := true, subsample := {} }

/-- `ConstraintModule.compute` and `__call__` (`constraint.py:117-149`): `_compute(state, params) + bias`. -/
def Constraint.compute [Add K] (c : Constraint K S P) (x : S) (p : P) : K := c.computeFn x p + c.bias

/-- `ConstraintModule.alpha` (`constraint.py:191-206`). -/
def Constraint.alphaAt (c : Constraint K S P) (y : K) : Except PyErr K :=
  match c.alpha with
  | none => .error (.assertionError "alpha must be an instance/sub-class of ConstraintStrenthener")
  | some a => .ok (a y)

/-- `ConstraintModule.alpha_negative` (`constraint.py:208-226`). -/
def Constraint.alphaNegAt [Mul K] [OfNat K 10] (c : Constraint K S P) (y : K) : Except PyErr K :=
  match c.alphaNeg with
  | none =>
    match c.alpha with
    | none => .error (.assertionError "alpha must be an instance/sub-class of ConstraintStrenthener")
    | some a => .ok (a y * 10)
  | some a => .ok (a y)

end

section
variable {K : Type} [Field K]

/-- `state[self.state_index]` on a 1-D array. JAX clamps out-of-range indices instead of raising; the constructor
argument is a fixed index, so the model simply uses `0` outside the array and every theorem that depends on the
component states that the index is in range. -/
def stateAt (x : List K) (i : Nat) : K := x.getD i 0

/-- Gradient of a function of one state component: zero except at `i` (what `jax.grad` returns). -/
def gradAt (n i : Nat) (v : K) : List K := (List.range n).map fun j => if j = i then v else 0

/-- `PolynomialConstraintStrengthener.__call__` (`constraint.py:376-392`): the accumulation loop
`output += c * x**n` over `enumerate(coefs)`, starting at `n`. -/
def polyLoop (x : K) : List K → Nat → K → K
  | [], _, out => out
  | c :: cs, n, out => polyLoop x cs (n + 1) (out + c * x ^ n)

/-- `PolynomialConstraintStrengthener` (`constraint.py:356-392`) with explicit coefficients. -/
def polyAlpha (coefs : List K) (x : K) : K := polyLoop x coefs 0 0

/-- `PolynomialConstraintStrengthener()` with default coefficients `[0, 1]` (`constraint.py:371-372`). -/
def polyAlphaDefault (x : K) : K := polyAlpha [0, 1] x

/-- The default strengthener of the three state limits, `[0, 0.0005, 0, 0.001]` (`constraint.py:290, 318, 346`). -/
def limitAlpha : K → K := polyAlpha [0, 5 / 10000, 0, 1 / 1000]

/-- `ConstraintMagnitudeStateLimit` (`constraint.py:272-297`): `limit_val**2 - state[i]**2`. The parameter type is the
`limit_val` entry of the params dict. -/
def magnitudeLimit (limit : K) (i : Nat) (alpha : Option (K → K)) : Constraint K (List K) K :=
  Constraint.mk' (fun x p => p ^ 2 - stateAt x i ^ 2) (fun x _ => gradAt x.length i (-(2 * stateAt x i)))
    (some (alpha.getD limitAlpha)) limit

/-- `ConstraintMaxStateLimit` (`constraint.py:300-325`): `limit_val - state[i]`. -/
def maxLimit (limit : K) (i : Nat) (alpha : Option (K → K)) : Constraint K (List K) K :=
  Constraint.mk' (fun x p => p - stateAt x i) (fun x _ => gradAt x.length i (-1))
    (some (alpha.getD limitAlpha)) limit

/-- `ConstraintMinStateLimit` (`constraint.py:328-353`): `state[i] - limit_val`. -/
def minLimit (limit : K) (i : Nat) (alpha : Option (K → K)) : Constraint K (List K) K :=
  Constraint.mk' (fun x p => stateAt x i - p) (fun x _ => gradAt x.length i 1)
    (some (alpha.getD limitAlpha)) limit

end

end RTA
