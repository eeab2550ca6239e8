import Verif.Model.Rounding
import Verif.Spec.Tolerance
import Verif.Spec.ASIFHistory
import Verif.Spec.Flow

/-!
Vocabulary for C103: errors of rounded arithmetic.
-/
namespace RTA
variable {S P X : Type} {rd : ℝ → ℝ}

/-- The standard model of floating point arithmetic without overflow: rounding has relative error `υ` (the unit roundoff, `2⁻²⁴` in
single precision) and absolute error `μ` (underflow). -/
def RoundsBy (υ μ : ℝ) (rd : ℝ → ℝ) : Prop := ∀ x, |rd x - x| ≤ υ * |x| + μ

/-- The numbers of an array. -/
def vals (l : List (Fl rd)) : List ℝ := l.map Fl.val

/-- The relative error of `n` operations in a row. -/
def gam (υ : ℝ) (n : Nat) : ℝ := (1 + υ) ^ n - 1

/-- `Σ |vᵢ wᵢ|`. -/
def absDot (v w : List ℝ) : ℝ := dot (v.map fun a => |a|) (w.map fun a => |a|)

/-- A quadratic programming solver for inequalities given as floating point numbers: what it reports as a solution meets every
inequality, as an inequality of real numbers, up to `ε`. It reports inconsistency only if no point meets all inequalities (except
those without content) with margin `ε`. -/
structure RoundedSolver (ε : ℝ) (solver : Solver (Fl rd)) : Prop where
  solved : ∀ G a rows z iact, (∀ r ∈ rows, r.w.length = G.length) → solver G a rows = .solved z iact →
    z.length = G.length ∧ ∀ r ∈ rows, r.b.val - ε ≤ dot (vals r.w) (vals z)
  failed : ∀ G a rows msg, (∀ r ∈ rows, r.w.length = G.length) → solver G a rows = .valueError msg → msg = inconsistentMsg →
    ¬ ∃ y : List ℝ, y.length = G.length ∧ ∀ r ∈ rows, r.b.val + ε ≤ dot (vals r.w) y ∨ (r.b.val = 0 ∧ ∀ w ∈ r.w, w.val = 0)

/-- The strengthening term of a constraint as it is computed for the computed value `h`. -/
noncomputable def computedTerm (c : Constraint (Fl rd) S P) (al : Fl rd → Fl rd) (h : Fl rd) : ℝ :=
  if h < 0 then
    ((match c.alphaNeg with
      | some an => an h
      | none => al h * 10) + c.biasNegative).val
  else (al h).val

/-- The rate of a constraint under control `v`, from the computed gradient and dynamics by exact arithmetic. -/
def computedRate (f : S → List (Fl rd)) (g : S → List (List (Fl rd))) (c : Constraint (Fl rd) S P) (x : S) (v : List ℝ) : ℝ :=
  dot (vals (c.gradFn x c.params)) (vadd (vals (f x)) (matVec ((g x).map vals) v))

/-- The size of the terms of which the inequality of a constraint is made up, at control `z`:
`Σ |∂ᵢh fᵢ| + |a(h)| + Σⱼ (Σᵢ |∂ᵢh gᵢⱼ|) |zⱼ|`. -/
noncomputable def rowSize (f : S → List (Fl rd)) (g : S → List (List (Fl rd))) (n : Nat) (c : Constraint (Fl rd) S P)
    (al : Fl rd → Fl rd) (x : S) (z : List ℝ) : ℝ :=
  absDot (vals (c.gradFn x c.params)) (vals (f x)) + |computedTerm c al (c.compute x c.params)| +
    dot ((List.range n).map fun j => absDot (vals (c.gradFn x c.params)) (((g x).map vals).map fun r => r.getD j 0)) (z.map fun a => |a|)

/-- What rounding can change in the inequality of a constraint at control `z`, for a state of dimension `N = (f x).length`. -/
noncomputable def rowError (υ μ : ℝ) (f : S → List (Fl rd)) (g : S → List (List (Fl rd))) (n : Nat) (c : Constraint (Fl rd) S P)
    (al : Fl rd → Fl rd) (x : S) (z : List ℝ) : ℝ :=
  gam υ ((f x).length + 2) * rowSize f g n c al x z +
    (2 * (f x).length + 1) * μ * (1 + υ) ^ ((f x).length + 2) * (1 + oneNorm z)

/-- How strongly the control acts on a constraint: the sum of the absolute values of the entries of `grad h . g`. -/
noncomputable def computedAuthority (g : S → List (List (Fl rd))) (n : Nat) (c : Constraint (Fl rd) S P) (x : S) : ℝ :=
  oneNorm (vecMat (vals (c.gradFn x c.params)) ((g x).map vals) n)

/-- A bound as a bound of real numbers. -/
def realBound : Bound (Fl rd) → Bound ℝ
  | .scalar b => .scalar b.val
  | .arr j l => .arr j (vals l)

/-- Control `w` meets every condition of an explicit ASIF module in state `x` with margin `ε` in addition to the rounding error. -/
structure RoundedMargin (ε υ μ : ℝ) (f : S → List (Fl rd)) (g : S → List (List (Fl rd))) (s : ASIFObj (Fl rd) S P X) (x : S)
    (w : List ℝ) : Prop where
  len : w.length = s.ext.controlDim
  bounds : WithinBy (-ε) (s.controlBoundsLow.map realBound) (s.controlBoundsHigh.map realBound) w
  barrier : ∀ kc ∈ s.constraints, kc.2.enabled = true → ∃ al, kc.2.alpha = some al ∧
    ε + rowError υ μ f g s.ext.controlDim kc.2 al x w ≤ computedRate f g kc.2 x w + computedTerm kc.2 al (kc.2.compute x kc.2.params)
  direct : ∀ kc ∈ s.ext.direct, kc.2.enabled = true →
    (kc.2.ineqConstant x kc.2.params).val + ε ≤ dot (vals (kc.2.ineqWeight x kc.2.params)) w

end RTA
