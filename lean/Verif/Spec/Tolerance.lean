import Verif.Spec.ASIF

/-!
Vocabulary for C98: solvers that meet inequalities and minimise only up to tolerances.
-/
namespace RTA
variable {K S P X : Type}

/-- Every component of `u` respects its bounds up to `η` (for negative `η`: with a margin). -/
def WithinBy [Field K] [LinearOrder K] (η : K) (lo hi : Option (Bound K)) (u : List K) : Prop :=
  ∀ i v, u[i]? = some v → (∀ b, boundAt lo i = some b → b - η ≤ v) ∧ ∀ b, boundAt hi i = some b → v ≤ b + η

/-- Control `u` with slack values `d` meets every condition of an explicit ASIF module in state `x` up to `η` (for negative
`η`: with a margin). -/
structure AdmissibleBy [Field K] [LinearOrder K] (η : K) (f : S → List K) (g : S → List (List K)) (s : ASIFObj K S P X) (x : S)
    (u d : List K) : Prop where
  len : u.length = s.ext.controlDim
  slen : d.length = (slackScales s.constraints).length
  bounds : WithinBy η s.controlBoundsLow s.controlBoundsHigh u
  barrier : ∀ cd ∈ assignSlack s.constraints d, cd.1.enabled = true → ∃ m, barrierValue f g cd.1 x u = some m ∧ cd.2 - η ≤ m
  direct : ∀ kc ∈ s.ext.direct, kc.2.enabled = true →
    kc.2.ineqConstant x kc.2.params - η ≤ dot (kc.2.ineqWeight x kc.2.params) u

/-- A quadratic programming solver with tolerances: what it reports as a solution meets every inequality up to `ε`, its
objective exceeds that of no feasible point by more than `δ`, and the reported active inequalities exist. It reports
inconsistency only if no point meets all inequalities (except those without content) with margin `ε`, and raises nothing
else. -/
structure SolverTol [Field K] [LinearOrder K] (ε δ : K) (solver : Solver K) : Prop where
  solved : ∀ G a rows z iact, (∀ w ∈ G, 0 < w) → a.length = G.length → (∀ r ∈ rows, r.w.length = G.length) →
    solver G a rows = .solved z iact →
    z.length = G.length ∧ (∀ r ∈ rows, r.b - ε ≤ dot r.w z) ∧
    (∀ y, Feasible G.length rows y → qpObj G a z ≤ qpObj G a y + δ) ∧ ∀ i ∈ iact, (rowAt rows i).isSome
  failed : ∀ G a rows msg, (∀ w ∈ G, 0 < w) → a.length = G.length → (∀ r ∈ rows, r.w.length = G.length) →
    solver G a rows = .valueError msg → msg = inconsistentMsg ∧
      ¬ ∃ y, y.length = G.length ∧ ∀ r ∈ rows, r.b + ε ≤ dot r.w y ∨ (r.b = 0 ∧ ∀ w ∈ r.w, w = 0)

/-- The solver that works with inequalities relaxed by `ε`. -/
def relaxedSolver [Sub K] (ε : K) (solver : Solver K) : Solver K :=
  fun G a rows => solver G a (rows.map fun r => ⟨r.w, r.b - ε⟩)

/-- The sum of the absolute values of the entries. -/
def oneNorm [Field K] [LinearOrder K] (l : List K) : K := (l.map fun a => |a|).sum

/-- How strongly the control acts on a constraint: the sum of the absolute values of the entries of `grad h . g`. -/
def authority [Field K] [LinearOrder K] (g : S → List (List K)) (n : Nat) (c : Constraint K S P) (x : S) : K :=
  oneNorm (vecMat (c.gradFn x c.params) (g x) n)

end RTA
