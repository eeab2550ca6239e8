import Verif.Spec.ASIF
import Verif.Spec.Simplex
import Verif.Model.Implicit

/-!
Specification vocabulary for implicit optimisation based modules: the backup trajectory, how a change of the initial
state spreads along it, and the condition imposed at each of its points.
-/
namespace RTA
variable {K P A : Type}

/-- The data an implicit module is built from besides its attributes. -/
structure ImplicitEnv (K : Type) where
  ad : (List K → List K) → List K → List (List K)
  f : List K → List K
  g : List K → List (List K)
  pred : List K → K → List K → List K

/-- `filter_control` of an implicit module built from these data. -/
def ImplicitEnv.call [Field K] [LinearOrder K] [FloorRing K] [HasSqrt K] (E : ImplicitEnv K) (solver : Solver K)
    (s : ImplicitObj K P A) (inp : InputState (List K)) (dt : K) (u : List K) :
    Except PyErr (List K) × ImplicitObj K P A := implicitASIF solver E.ad E.f E.g E.pred s inp dt u

/-- State and controller state after `k` steps of the backup controller from `x`, its controls clipped to the bounds;
`none` if the controller misbehaves. -/
def backupPath [Max K] [Min K] (E : ImplicitEnv K) (s : ImplicitObj K P A) (x : List K) (dt : K) :
    Nat → Option (List K × CState A)
  | 0 => some (x, s.ext.extra.ctrl.state)
  | k + 1 => do
    let (y, z) ← backupPath E s x dt k
    let (ub, z') ← s.ext.extra.ctrl.gen y dt z
    let u ← (s.toBase.clipControl ub).toOption
    return (E.pred y dt u, z')

/-- The right hand side of the closed loop under the backup control law with controller state `z`. -/
def closedLoopField [Add K] [Mul K] [Zero K] (E : ImplicitEnv K) (s : ImplicitObj K P A) (dt : K) (z : CState A)
    (y : List K) : List K :=
  vadd (E.f y) (matVec (E.g y) (match s.ext.extra.ctrl.gen y dt z with
    | some (ub, _) => ub
    | none => []))

/-- The variation along the backup trajectory started by changing the initial state in direction `v`: Euler steps of
`dv/dt = J(x_k) v` where `J` is the Jacobian of the closed loop. -/
def variation [Field K] [LinearOrder K] (E : ImplicitEnv K) (s : ImplicitObj K P A) (x : List K) (dt : K) (v : List K) :
    Nat → List K
  | 0 => v
  | k + 1 =>
    match backupPath E s x dt (k + 1) with
    | some (y, z) =>
      vadd (variation E s x dt v k)
        (vscale dt (matVec (E.ad (closedLoopField E s dt z) y) (variation E s x dt v k)))
    | none => []

/-- Number of trajectory points: `int(window / dt) + 1`. -/
def numPoints [Field K] [LinearOrder K] [FloorRing K] (s : ImplicitObj K P A) (dt : K) : Nat :=
  (pyInt (s.ext.extra.backupWindow / dt)).toNat + 1

/-- The value of a constraint, with bias, at point `k` of the backup trajectory. -/
def pathValue [Field K] [LinearOrder K] (E : ImplicitEnv K) (s : ImplicitObj K P A) (x : List K) (dt : K)
    (c : Constraint K (List K) P) (k : Nat) : K :=
  match backupPath E s x dt k with
  | some (y, _) => c.computeFn y c.params + c.bias
  | none => 0

/-- The left hand side of the condition at point `k`: `grad h(x_k) . S_k (f(x) + g(x) u) + alpha(h(x_k))`. -/
def pointValue [Field K] [LinearOrder K] (E : ImplicitEnv K) (s : ImplicitObj K P A) (x : List K) (dt : K)
    (c : Constraint K (List K) P) (u : List K) (k : Nat) : Option K :=
  match backupPath E s x dt k, c.alpha with
  | some (y, _), some al =>
    some (dot (c.gradFn y c.params) (variation E s x dt (vadd (E.f x) (matVec (E.g x) u)) k) +
      al (c.computeFn y c.params + c.bias))
  | _, _ => none

/-- The condition at point `k` of the backup trajectory. -/
def PointOK [Field K] [LinearOrder K] (E : ImplicitEnv K) (s : ImplicitObj K P A) (x : List K) (dt : K)
    (c : Constraint K (List K) P) (u : List K) (k : Nat) : Prop :=
  ∃ m, pointValue E s x dt c u k = some m ∧ 0 ≤ m

/-- The trajectory points looked at for a constraint with values `h`, in the order of the rows. Array indexing wraps
negative numbers once and clamps; sorting is stable. -/
def checkedPoints [LE K] [DecidableLE K] (cfg : SubsampleConfig) (n : Nat) (h : Nat → K) : List Nat :=
  let cand := (pyRange 0 cfg.numCheckAll 1 ++ pyRange (cfg.numCheckAll + 1) n cfg.skipLength).map (jaxIndex n)
  (match cfg.numLeast with
    | none => cand
    | some N => takeInt (cand.mergeSort fun i j => decide (h i ≤ h j)) N) ++
    ((if cfg.keepFirst then [0] else []) ++ (if cfg.keepLast then [n - 1] else []))

/-- The points looked at for constraint `c` in a call at `x`. -/
def pointsOf [Field K] [LinearOrder K] [FloorRing K] (E : ImplicitEnv K) (s : ImplicitObj K P A) (x : List K) (dt : K)
    (c : Constraint K (List K) P) : List Nat :=
  checkedPoints c.subsample (numPoints s dt) (pathValue E s x dt c)

/-- Control `u` is admissible for an implicit module at `x`: bounds, the condition at every point looked at of every
enabled constraint, enabled direct inequalities. -/
structure AdmissibleI [Field K] [LinearOrder K] [FloorRing K] (E : ImplicitEnv K) (s : ImplicitObj K P A) (x : List K)
    (dt : K) (u : List K) : Prop where
  len : u.length = s.ext.controlDim
  bounds : Within s.controlBoundsLow s.controlBoundsHigh u
  barrier : ∀ kc ∈ s.constraints, kc.2.enabled = true → ∀ k ∈ pointsOf E s x dt kc.2, PointOK E s x dt kc.2 u k
  direct : ∀ kc ∈ s.ext.direct, kc.2.enabled = true → DirectOK kc.2 x u

/-- The shapes fit together along the backup trajectory from `x`, every constraint has a strengthener and no constraint
asks for slack. -/
structure ShapesI [Field K] [LinearOrder K] [FloorRing K] (E : ImplicitEnv K) (s : ImplicitObj K P A) (x : List K) (dt : K) :
    Prop where
  step : dt ≠ 0
  window : 0 ≤ pyInt (s.ext.extra.backupWindow / dt)
  alpha : ∀ kc ∈ s.constraints, kc.2.alpha.isSome = true
  noSlack : ∀ kc ∈ s.constraints, kc.2.slackPriorityScale = none
  skip : ∀ kc ∈ s.constraints, kc.2.subsample.skipLength ≠ 0
  f0 : (E.f x).length = x.length
  g0 : (E.g x).length = x.length
  g0cols : ∀ r ∈ E.g x, r.length = s.ext.controlDim
  ctrl : ∀ z : A, s.ext.extra.ctrl.state ≠ .unsupported z
  path : ∀ k < numPoints s dt, ∃ y z, backupPath E s x dt k = some (y, z) ∧
    (∀ kc ∈ s.constraints, (kc.2.gradFn y kc.2.params).length = x.length) ∧
    (0 < k → (∃ ub z', s.ext.extra.ctrl.gen y dt z = some (ub, z') ∧ ∀ r ∈ E.g y, r.length = ub.length) ∧
      (E.g y).length = (E.f y).length ∧ (E.ad (closedLoopField E s dt z) y).length = x.length ∧
      ∀ r ∈ E.ad (closedLoopField E s dt z) y, r.length = x.length)
  direct : ∀ kc ∈ s.ext.direct, (kc.2.ineqWeight x kc.2.params).length = s.ext.controlDim

/-- All conditions an implicit module imposes on a control, each under the name of what it comes from. -/
def implicitConds [Field K] [LinearOrder K] [FloorRing K] (E : ImplicitEnv K) (s : ImplicitObj K P A) (x : List K) (dt : K)
    (u : List K) : List Cond :=
  lowConds s.controlBoundsLow s.ext.controlDim u ++ highConds s.controlBoundsHigh s.ext.controlDim u ++
    ((s.constraints.flatMap fun kc => (pointsOf E s x dt kc.2).map fun k =>
        ⟨kc.1, kc.2.enabled = true → PointOK E s x dt kc.2 u k,
          kc.2.enabled = true ∧ pointValue E s x dt kc.2 u k = some 0⟩) ++ directConds s.ext.direct x u)

end RTA
