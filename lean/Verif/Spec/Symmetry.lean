import Verif.Spec.ASIF
import Verif.Spec.Implicit

/-!
Vocabulary for comparing two explicit ASIF modules, or one module in two states (C107): the same situation described in other
coordinates, seen in a mirror, or simply a second time.
-/
namespace RTA
variable {K S P X S' P' X' : Type}

/-- Two constraints describe the same condition: `x` and `y` are the state in the two descriptions, and `J` takes rates of the state in
the first description to the second, for vectors of length `m`. -/
structure SameConstraint [Field K] (m : Nat) (J : List K → List K) (c : Constraint K S P) (x : S) (c' : Constraint K S' P') (y : S') :
    Prop where
  enabled : c'.enabled = c.enabled
  slack : c'.slackPriorityScale = c.slackPriorityScale
  alpha : c'.alpha = c.alpha
  alphaNeg : c'.alphaNeg = c.alphaNeg
  biasNegative : c'.biasNegative = c.biasNegative
  value : c.enabled = true → c'.computeFn y c'.params + c'.bias = c.computeFn x c.params + c.bias
  grad : c.enabled = true → ∀ v : List K, v.length = m → dot (c'.gradFn y c'.params) (J v) = dot (c.gradFn x c.params) v

/-- Two direct inequalities describe the same condition, where `T` takes controls of length `n` to the second description. -/
structure SameInequality [Field K] [LinearOrder K] (n : Nat) (T : List K → List K) (c : DirectConstraint K S P) (x : S)
    (c' : DirectConstraint K S' P') (y : S') : Prop where
  enabled : c'.enabled = c.enabled
  holds : c.enabled = true → ∀ w : List K, w.length = n → (DirectOK c' y (T w) ↔ DirectOK c x w)

/-- The module `t` with dynamics `f'`, `g'` in state `y` describes the same situation as `s` with `f`, `g` in state `x`: rates correspond
by `J`, controls by `T` with inverse `T'`, which preserves distances and the bounds. -/
structure Corresponds [Field K] [LinearOrder K] (f : S → List K) (g : S → List (List K)) (s : ASIFObj K S P X) (x : S)
    (f' : S' → List K) (g' : S' → List (List K)) (t : ASIFObj K S' P' X') (y : S') (J T T' : List K → List K) : Prop where
  dim : t.ext.controlDim = s.ext.controlDim
  len : ∀ w, w.length = s.ext.controlDim → (T w).length = s.ext.controlDim
  len' : ∀ w, w.length = s.ext.controlDim → (T' w).length = s.ext.controlDim
  inv : ∀ w, w.length = s.ext.controlDim → T (T' w) = w
  dist : ∀ v w, v.length = s.ext.controlDim → w.length = s.ext.controlDim → sqDist (T v) (T w) = sqDist v w
  bounds : ∀ w, w.length = s.ext.controlDim →
    (Within t.controlBoundsLow t.controlBoundsHigh (T w) ↔ Within s.controlBoundsLow s.controlBoundsHigh w)
  add : ∀ v w, v.length = (f x).length → w.length = (f x).length → J (vadd v w) = vadd (J v) (J w)
  drift : f' y = J (f x)
  input : ∀ w, w.length = s.ext.controlDim → matVec (g' y) (T w) = J (matVec (g x) w)
  constraints : List.Forall₂ (fun kc kd => SameConstraint (f x).length J kc.2 x kd.2 y) s.constraints t.constraints
  direct : List.Forall₂ (fun kc kd => SameInequality s.ext.controlDim T kc.2 x kd.2 y) s.ext.direct t.ext.direct
  exc : t.ext.solverException = s.ext.solverException

/-- Change the signs of some components. -/
def flip [Mul K] (sg v : List K) : List K := List.zipWith (· * ·) sg v

/-- The bounds allow a control exactly if they allow it with the opposite sign, in the components with `sg = -1`. -/
def SymmetricBounds [Field K] (sg : List K) (lo hi : Option (Bound K)) : Prop :=
  ∀ i : Nat, sg[i]? = some (-1) → boundAt hi i = (boundAt lo i).map fun b => -b

/-- `c'` is `c` in other units: its values are `k` times as large, for a factor `k > 0`, and it has the same linear strengthener with slope
`a`; the bias of violated values is converted as well. Neither uses slack. -/
structure RescaledLinear [Field K] [LinearOrder K] (k a : K) (m : Nat) (J : List K → List K) (c : Constraint K S P) (x : S)
    (c' : Constraint K S' P') (y : S') : Prop where
  enabled : c'.enabled = c.enabled
  slack : c.slackPriorityScale = none
  slack' : c'.slackPriorityScale = none
  alpha : c.alpha = some (polyAlpha [0, a])
  alpha' : c'.alpha = some (polyAlpha [0, a])
  alphaNeg : c.alphaNeg = none
  alphaNeg' : c'.alphaNeg = none
  biasNegative : c'.biasNegative = k * c.biasNegative
  value : c'.computeFn y c'.params + c'.bias = k * (c.computeFn x c.params + c.bias)
  grad : ∀ v : List K, v.length = m → dot (c'.gradFn y c'.params) (J v) = k * dot (c.gradFn x c.params) v

/-- The module seen in a mirror that takes controls to `T` of them: the recorded controls are reflected, everything else is as before. -/
def CBObj.mirror {E : Type} (T : List K → List K) (s : CBObj K S P E) : CBObj K S P E :=
  { s with controlDesired := s.controlDesired.map T, controlActual := s.controlActual.map T }

/-- The prediction, the constraints, the backup controller and the bounds of a simplex module are symmetric under the reflection `φ` of
states and `T` of controls. -/
structure Symmetric {A : Type} [Max K] [Min K] (pred : S → K → List K → S) (φ : S → S) (T : List K → List K) (s : SimplexObj K S P A) :
    Prop where
  pred : ∀ x dt u, pred (φ x) dt (T u) = φ (pred x dt u)
  value : ∀ kc ∈ s.constraints, ∀ x p, kc.2.computeFn (φ x) p = kc.2.computeFn x p
  phi : ∀ kc ∈ s.constraints, ∀ x p, kc.2.phiFn (φ x) p = kc.2.phiFn x p
  gen : ∀ x dt z, s.ext.ctrl.gen (φ x) dt z = (s.ext.ctrl.gen x dt z).map fun r => (T r.1, r.2)
  clip : ∀ u, s.toBase.clipControl (T u) = (s.toBase.clipControl u).map T

/-- What an implicit module is built from is symmetric under the change of the signs `ta` of state components and `sg` of control components: dynamics,
prediction, control law, the Jacobians of the closed loop, constraints and direct inequalities. Controls of the law have the right length. -/
structure SymmetricI {A : Type} [Field K] [LinearOrder K] (E : ImplicitEnv K) (s : ImplicitObj K P A) (dt : K) (ta sg : List K) : Prop where
  drift : ∀ y, y.length = ta.length → E.f (flip ta y) = flip ta (E.f y)
  input : ∀ y w, y.length = ta.length → w.length = sg.length → matVec (E.g (flip ta y)) (flip sg w) = flip ta (matVec (E.g y) w)
  pred : ∀ y w, y.length = ta.length → w.length = sg.length → E.pred (flip ta y) dt (flip sg w) = flip ta (E.pred y dt w)
  predLen : ∀ y w, y.length = ta.length → w.length = sg.length → (E.pred y dt w).length = ta.length
  gen : ∀ y z, y.length = ta.length → s.ext.extra.ctrl.gen (flip ta y) dt z = (s.ext.extra.ctrl.gen y dt z).map fun r => (flip sg r.1, r.2)
  genLen : ∀ y z r, y.length = ta.length → s.ext.extra.ctrl.gen y dt z = some r → r.1.length = sg.length
  jac : ∀ y z v, y.length = ta.length → matVec (E.ad (closedLoopField E s dt z) (flip ta y)) (flip ta v) =
    flip ta (matVec (E.ad (closedLoopField E s dt z) y) v)
  value : ∀ kc ∈ s.constraints, ∀ y, y.length = ta.length → kc.2.computeFn (flip ta y) kc.2.params = kc.2.computeFn y kc.2.params
  grad : ∀ kc ∈ s.constraints, ∀ y v, y.length = ta.length →
    dot (kc.2.gradFn (flip ta y) kc.2.params) (flip ta v) = dot (kc.2.gradFn y kc.2.params) v
  direct : ∀ kc ∈ s.ext.direct, ∀ y w, y.length = ta.length → w.length = sg.length → (DirectOK kc.2 (flip ta y) (flip sg w) ↔ DirectOK kc.2 y w)

end RTA
