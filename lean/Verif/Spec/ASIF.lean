import Verif.Model.ASIF
import Verif.Spec.Bounds
import Verif.Spec.Modules

/-!
Specification vocabulary for optimisation based modules: what it means for a control to be admissible, and what is assumed
of the external quadratic programming solver.
-/
namespace RTA
variable {K S P X : Type}

/-- The term `a(h)` added to the derivative of a constraint with strengthener `al` and value `h`: the strengthener for
`h ≥ 0`, and the negative strengthener (by default ten times the strengthener) plus `bias_negative` for `h < 0`. -/
def strengthening [Field K] [LinearOrder K] (c : Constraint K S P) (al : K → K) (h : K) : K :=
  if 0 ≤ h then al h
  else (match c.alphaNeg with
    | some an => an h
    | none => 10 * al h) + c.biasNegative

/-- The left hand side of the barrier condition of one constraint: `grad h . (f(x) + g(x) u) + a(h)` with `h` the
constraint value including its bias. `none` when the constraint has no strengthener. -/
def barrierValue [Field K] [LinearOrder K] (f : S → List K) (g : S → List (List K)) (c : Constraint K S P) (x : S)
    (u : List K) : Option K :=
  c.alpha.map fun al =>
    dot (c.gradFn x c.params) (vadd (f x) (matVec (g x) u)) + strengthening c al (c.computeFn x c.params + c.bias)

/-- The barrier condition with slack value `d`. -/
def BarrierOK [Field K] [LinearOrder K] (f : S → List K) (g : S → List (List K)) (c : Constraint K S P) (x : S)
    (u : List K) (d : K) : Prop :=
  ∃ m, barrierValue f g c x u = some m ∧ d ≤ m

/-- A user supplied linear inequality. -/
def DirectOK [Add K] [Mul K] [Zero K] [LE K] (c : DirectConstraint K S P) (x : S) (u : List K) : Prop :=
  c.ineqConstant x c.params ≤ dot (c.ineqWeight x c.params) u

/-- Slack values are handed out to the constraints that ask for one, in order; the others have slack zero. -/
def assignSlack [Zero K] : Dict (Constraint K S P) → List K → List (Constraint K S P × K)
  | [], _ => []
  | (_, c) :: cs, d =>
    if c.slackPriorityScale.isSome then (c, d.headD 0) :: assignSlack cs d.tail else (c, 0) :: assignSlack cs d

/-- The priority scales of the constraints that ask for slack, in order. -/
def slackScales (cs : Dict (Constraint K S P)) : List K := cs.filterMap fun kc => kc.2.slackPriorityScale

/-- Control `u` with slack values `d` is admissible for an explicit ASIF module in state `x`: bounds, barrier conditions of
the enabled constraints, enabled direct inequalities. -/
structure AdmissibleS [Field K] [LinearOrder K] (f : S → List K) (g : S → List (List K)) (s : ASIFObj K S P X) (x : S)
    (u d : List K) : Prop where
  len : u.length = s.ext.controlDim
  slen : d.length = (slackScales s.constraints).length
  bounds : Within s.controlBoundsLow s.controlBoundsHigh u
  barrier : ∀ cd ∈ assignSlack s.constraints d, cd.1.enabled = true → BarrierOK f g cd.1 x u cd.2
  direct : ∀ kc ∈ s.ext.direct, kc.2.enabled = true → DirectOK kc.2 x u

/-- Control `u` is admissible without using any slack. -/
structure Admissible [Field K] [LinearOrder K] (f : S → List K) (g : S → List (List K)) (s : ASIFObj K S P X) (x : S)
    (u : List K) : Prop where
  len : u.length = s.ext.controlDim
  bounds : Within s.controlBoundsLow s.controlBoundsHigh u
  barrier : ∀ kc ∈ s.constraints, kc.2.enabled = true → BarrierOK f g kc.2 x u 0
  direct : ∀ kc ∈ s.ext.direct, kc.2.enabled = true → DirectOK kc.2 x u

/-- One condition on the control, under the name the module reports for it. -/
structure Cond where
  label : String
  holds : Prop
  tight : Prop

/-- The lower bounds, one condition per control component, named `u1_min`, `u2_min`, ... -/
def lowConds [Zero K] [LE K] (lo : Option (Bound K)) (n : Nat) (u : List K) : List Cond :=
  if lo.isSome then (List.range n).map fun i =>
    ⟨"u" ++ toString (i + 1) ++ "_min", ∀ b, boundAt lo i = some b → b ≤ u.getD i 0, boundAt lo i = some (u.getD i 0)⟩
  else []

/-- The upper bounds, named `u1_max`, `u2_max`, ... -/
def highConds [Zero K] [LE K] (hi : Option (Bound K)) (n : Nat) (u : List K) : List Cond :=
  if hi.isSome then (List.range n).map fun i =>
    ⟨"u" ++ toString (i + 1) ++ "_max", ∀ b, boundAt hi i = some b → u.getD i 0 ≤ b, boundAt hi i = some (u.getD i 0)⟩
  else []

/-- The barrier conditions, named by the constraint keys. A disabled constraint imposes nothing and is never tight. -/
def barrierConds [Field K] [LinearOrder K] (f : S → List K) (g : S → List (List K)) (cs : Dict (Constraint K S P)) (x : S)
    (u d : List K) : List Cond :=
  List.zipWith (fun k cd => ⟨k, cd.1.enabled = true → BarrierOK f g cd.1 x u cd.2,
    cd.1.enabled = true ∧ barrierValue f g cd.1 x u = some cd.2⟩) (dictKeys cs) (assignSlack cs d)

/-- The direct inequalities, named by their keys. -/
def directConds [Field K] [LinearOrder K] (ds : Dict (DirectConstraint K S P)) (x : S) (u : List K) : List Cond :=
  ds.map fun kc => ⟨kc.1, kc.2.enabled = true → DirectOK kc.2 x u,
    kc.2.enabled = true ∧ dot (kc.2.ineqWeight x kc.2.params) u = kc.2.ineqConstant x kc.2.params⟩

/-- All conditions an explicit module imposes on a control with slack values. -/
def explicitConds [Field K] [LinearOrder K] (f : S → List K) (g : S → List (List K)) (s : ASIFObj K S P X) (x : S)
    (u d : List K) : List Cond :=
  lowConds s.controlBoundsLow s.ext.controlDim u ++ highConds s.controlBoundsHigh s.ext.controlDim u ++
    (barrierConds f g s.constraints x u d ++ directConds s.ext.direct x u)

/-! ### Quadratic programs -/

/-- `½ zᵀ diag(G) z - aᵀ z`. -/
def qpObj [Field K] (G a z : List K) : K := dot G (List.zipWith (· * ·) z z) / 2 - dot a z

/-- The inequality of a row. -/
def RowHolds [Add K] [Mul K] [Zero K] [LE K] (r : Row K) (z : List K) : Prop := r.b ≤ dot r.w z

/-- `z` has the right dimension and satisfies every row. -/
def Feasible [Add K] [Mul K] [Zero K] [LE K] (n : Nat) (rows : List (Row K)) (z : List K) : Prop :=
  z.length = n ∧ ∀ r ∈ rows, RowHolds r z

/-- The row with 1-based index `i`. -/
def rowAt (rows : List (Row K)) (i : Int) : Option (Row K) := if 1 ≤ i then rows[(i - 1).toNat]? else none

/-- What is assumed of `quadprog.solve_qp` on well shaped strictly convex problems: a solution it reports is feasible and
minimal; the reported active rows are distinct, not identically zero, tight at the solution, and by themselves enough to
make it minimal; it reports inconsistency exactly when no point is feasible, and solves every other problem. -/
structure SolverSpec [Field K] [LinearOrder K] (solver : Solver K) : Prop where
  solved : ∀ G a rows x iact, (∀ w ∈ G, 0 < w) → a.length = G.length → (∀ r ∈ rows, r.w.length = G.length) →
    solver G a rows = .solved x iact →
    Feasible G.length rows x ∧ (∀ y, Feasible G.length rows y → qpObj G a x ≤ qpObj G a y) ∧
    iact.Nodup ∧ (∀ i ∈ iact, ∃ r, rowAt rows i = some r ∧ dot r.w x = r.b ∧ ∃ w ∈ r.w, w ≠ 0) ∧
    (∀ y, y.length = G.length → (∀ i ∈ iact, ∀ r, rowAt rows i = some r → RowHolds r y) → qpObj G a x ≤ qpObj G a y)
  failed : ∀ G a rows msg, (∀ w ∈ G, 0 < w) → a.length = G.length → (∀ r ∈ rows, r.w.length = G.length) →
    solver G a rows = .valueError msg → msg = inconsistentMsg ∧ ¬ ∃ z, Feasible G.length rows z

/-- `np.sqrt` on non-negative numbers is the square root. -/
class LawfulSqrt (K : Type) [Field K] [LinearOrder K] [HasSqrt K] : Prop where
  nonneg : ∀ x : K, 0 ≤ x → 0 ≤ HasSqrt.sqrt x
  mul_self : ∀ x : K, 0 ≤ x → HasSqrt.sqrt x * HasSqrt.sqrt x = x

/-- Squared Euclidean distance of two controls. -/
def sqDist [Add K] [Mul K] [Sub K] [Zero K] (u v : List K) : K := sqNorm (vsub u v)

/-- The objective documented for slack variables: `|u - u_des|² + Σ wᵢ dᵢ²`. -/
def slackCost [Add K] [Mul K] [Sub K] [Zero K] (w : List K) (uDes u d : List K) : K :=
  sqDist u uDes + dot w (List.zipWith (· * ·) d d)

/-- Every slack weight is positive. -/
def ScalesPos [Zero K] [LT K] (cs : Dict (Constraint K S P)) : Prop := ∀ w ∈ slackScales cs, 0 < w

/-- The user edits `module.direct_inequality_constraints[k].params` and `.enabled`. -/
def editDirect (f : String → P × Bool → P × Bool) (s : ASIFObj K S P X) : ASIFObj K S P X :=
  s.setExt { s.ext with direct := s.ext.direct.map fun kc =>
    (kc.1, { kc.2 with params := (f kc.1 (kc.2.params, kc.2.enabled)).1
                       enabled := (f kc.1 (kc.2.params, kc.2.enabled)).2 }) }

/-- The array shapes fit together in state `x`: every constraint has a strengthener and a gradient as long as the state
derivative, the input matrix has one column per control component, and direct inequalities have one weight per component. -/
structure ShapesOK (f : S → List K) (g : S → List (List K)) (s : ASIFObj K S P X) (x : S) : Prop where
  alpha : ∀ kc ∈ s.constraints, kc.2.alpha.isSome = true
  grad : ∀ kc ∈ s.constraints, (kc.2.gradFn x kc.2.params).length = (f x).length
  input : (g x).length = (f x).length
  cols : ∀ r ∈ g x, r.length = s.ext.controlDim
  direct : ∀ kc ∈ s.ext.direct, (kc.2.ineqWeight x kc.2.params).length = s.ext.controlDim

end RTA
