import Verif.Model.SampleTesting

/-! What a simulated episode is, independently of the loops that record it. -/
namespace RTA

variable {K S P E R : Type}

/-- `n` steps of the closed loop from the module object `r` and the state `x`: at step `i` the module, in the condition `rs i`, filters
the desired control at `xs i`, returns `us (i + 1)` and is left in the condition `rs (i + 1)`; the plant moves to `xs (i + 1)` under
that control. -/
structure Steps (sim : Sim K S P E R) (r : R) (x : S) (n : Nat) (xs : Nat → S) (us : Nat → List K) (rs : Nat → R) : Prop where
  state0 : xs 0 = x
  module0 : rs 0 = r
  filtered : ∀ i < n, sim.filter (rs i) (xs i) sim.stepSize (sim.desired (xs i)) = (.ok (us (i + 1)), rs (i + 1))
  moved : ∀ i < n, xs (i + 1) = sim.pred (xs i) sim.stepSize (us (i + 1))

/-- The done condition holds at step `n`, at the simulated time `n * step_size`. -/
def DoneAt [Semiring K] (sim : Sim K S P E R) (xs : Nat → S) (n : Nat) : Prop := sim.done (xs n) (n * sim.stepSize) = true

/-- `n` draws of the sampler from the condition `e`. -/
structure Draws (sim : Sim K S P E R) (e : E) (n : Nat) (xs : Nat → S) (es : Nat → E) : Prop where
  source0 : es 0 = e
  drawn : ∀ i < n, sim.getInitial (es i) = (.ok (xs i), es (i + 1))

/-- Every constraint of the module, enabled or not, has nonnegative `phi` and nonnegative value. -/
def SafeState [Add K] [Zero K] [LE K] (sim : Sim K S P E R) (r : R) (x : S) : Prop :=
  ∀ p ∈ sim.constraints r, 0 ≤ p.2.phiFn x p.2.params ∧ 0 ≤ p.2.compute x p.2.params

/-- The one-argument calls of the constraints return: `phi` and `val` are their values. -/
structure OneArgument (sim : Sim K S P E R) (phi val : Constraint K S P → S → K) : Prop where
  phi : ∀ c x, sim.phi1 c x = .ok (phi c x)
  val : ∀ c x, sim.value1 c x = .ok (val c x)

/-- An episode that kept `phi` nonnegative at every step until it was done, without a solver failure. -/
def KeptSafe [Semiring K] [LE K] (sim : Sim K S P E R) (phi : Constraint K S P → S → K) (r : R) (x : S) (r' : R) : Prop :=
  ∃ n xs us rs, 0 < n ∧ Steps sim r x n xs us rs ∧ rs n = r' ∧ (∀ i, 0 < i → i < n → ¬ DoneAt sim xs i) ∧ DoneAt sim xs n ∧
    ∀ i, 0 < i → i ≤ n → ∀ p ∈ sim.constraints (rs i), 0 ≤ phi p.2 (xs i)

/-- An episode in which the solver failed or `phi` became negative at the step after `n` safe steps. -/
def BecameUnsafe [Semiring K] [LT K] [LE K] (sim : Sim K S P E R) (phi : Constraint K S P → S → K) (r : R) (x : S) (r' : R) : Prop :=
  ∃ n xs us rs, Steps sim r x n xs us rs ∧ (∀ i, 0 < i → i ≤ n → ¬ DoneAt sim xs i) ∧
    (∀ i, 0 < i → i ≤ n → ∀ p ∈ sim.constraints (rs i), 0 ≤ phi p.2 (xs i)) ∧
    (sim.filter (rs n) (xs n) sim.stepSize (sim.desired (xs n)) = (.error .solverError, r') ∨
      ∃ u, sim.filter (rs n) (xs n) sim.stepSize (sim.desired (xs n)) = (.ok u, r') ∧
        ∃ p ∈ sim.constraints r', phi p.2 (sim.pred (xs n) sim.stepSize u) < 0)

end RTA
