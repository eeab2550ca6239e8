import Verif.Spec.Implicit

/-!
The setting in which the sensitivity of the backup trajectory is exact: linear dynamics, a linear backup law without
internal state, Euler prediction.
-/
namespace RTA
variable {K P A : Type}

/-- `x' = M x + B u` under the backup law `u = F x`, predicted by Euler steps of length `dt`; `jac` says that automatic
differentiation of the closed loop `x ↦ M x + B (F x)` returns its matrix. -/
structure LinearLoop [Field K] (E : ImplicitEnv K) (s : ImplicitObj K P A) (n : Nat) (dt : K) (M B F : List (List K)) : Prop where
  rowsM : M.length = n
  rowsB : B.length = n
  f : ∀ y, E.f y = matVec M y
  g : ∀ y, E.g y = B
  law : ∀ y z, s.ext.extra.ctrl.gen y dt z = some (matVec F y, z)
  euler : ∀ y u, E.pred y dt u = vadd y (vscale dt (vadd (E.f y) (matVec (E.g y) u)))
  jac : ∀ y z v, v.length = n → matVec (E.ad (closedLoopField E s dt z) y) v = vadd (matVec M v) (matVec B (matVec F v))

/-- The backup control at point `j` of the trajectory from `x` is not clipped. -/
def Unsaturated [Field K] [LinearOrder K] (E : ImplicitEnv K) (s : ImplicitObj K P A) (x : List K) (dt : K) (F : List (List K))
    (j : Nat) : Prop :=
  ∃ y z, backupPath E s x dt j = some (y, z) ∧ s.toBase.clipControl (matVec F y) = .ok (matVec F y)

/-- The backup control at point `j` of the trajectory from `x` lies strictly inside the bounds. -/
def Interior [Field K] [LinearOrder K] (E : ImplicitEnv K) (s : ImplicitObj K P A) (x : List K) (dt : K) (F : List (List K))
    (j : Nat) : Prop :=
  ∃ y z, backupPath E s x dt j = some (y, z) ∧ ∀ i c, (matVec F y)[i]? = some c →
    (∀ b, boundAt s.controlBoundsLow i = some b → b < c) ∧ (∀ b, boundAt s.controlBoundsHigh i = some b → c < b)

/-- Component `i` of point `k` of the backup trajectory. -/
def pathComponent [Field K] [LinearOrder K] (E : ImplicitEnv K) (s : ImplicitObj K P A) (x : List K) (dt : K) (k i : Nat) : K :=
  match backupPath E s x dt k with
  | some (y, _) => y.getD i 0
  | none => 0

end RTA
