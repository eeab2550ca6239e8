import Verif.Spec.ASIF
import Mathlib.Topology.Instances.Real.Lemmas

/-!
Vocabulary for C95: states that approach a state, and controls that satisfy the conditions of a module with room to spare.
-/
namespace RTA
open Filter
variable {ι S P X : Type}

/-- The arrays `F a` keep their length and tend to `y` in every component. -/
def ListTends (l : Filter ι) (F : ι → List ℝ) (y : List ℝ) : Prop :=
  (∀ a, (F a).length = y.length) ∧ ∀ i, Tendsto (fun a => (F a).getD i 0) l (nhds (y.getD i 0))

/-- Everything an explicit module evaluates in the states `γ a` tends to what it is in `x`: the dynamics, the gradients and
strengthening terms of the enabled constraints, and the enabled direct inequalities. -/
structure DataTends (l : Filter ι) (f : S → List ℝ) (g : S → List (List ℝ)) (s : ASIFObj ℝ S P X) (γ : ι → S) (x : S) : Prop where
  drift : ListTends l (fun a => f (γ a)) (f x)
  input : ∀ i, ListTends l (fun a => (g (γ a)).getD i []) ((g x).getD i [])
  grad : ∀ kc ∈ s.constraints, kc.2.enabled = true →
    ListTends l (fun a => kc.2.gradFn (γ a) kc.2.params) (kc.2.gradFn x kc.2.params)
  strength : ∀ kc ∈ s.constraints, kc.2.enabled = true → ∀ al, kc.2.alpha = some al →
    Tendsto (fun a => strengthening kc.2 al (kc.2.computeFn (γ a) kc.2.params + kc.2.bias)) l
      (nhds (strengthening kc.2 al (kc.2.computeFn x kc.2.params + kc.2.bias)))
  weight : ∀ kc ∈ s.ext.direct, kc.2.enabled = true →
    ListTends l (fun a => kc.2.ineqWeight (γ a) kc.2.params) (kc.2.ineqWeight x kc.2.params)
  const : ∀ kc ∈ s.ext.direct, kc.2.enabled = true →
    Tendsto (fun a => kc.2.ineqConstant (γ a) kc.2.params) l (nhds (kc.2.ineqConstant x kc.2.params))

/-- The control respects its bounds and satisfies every enabled constraint (with the given slack values) and direct
inequality strictly. -/
structure StrictS (f : S → List ℝ) (g : S → List (List ℝ)) (s : ASIFObj ℝ S P X) (x : S) (u d : List ℝ) : Prop where
  len : u.length = s.ext.controlDim
  slen : d.length = (slackScales s.constraints).length
  bounds : Within s.controlBoundsLow s.controlBoundsHigh u
  barrier : ∀ cd ∈ assignSlack s.constraints d, cd.1.enabled = true → ∃ m, barrierValue f g cd.1 x u = some m ∧ cd.2 < m
  direct : ∀ kc ∈ s.ext.direct, kc.2.enabled = true → kc.2.ineqConstant x kc.2.params < dot (kc.2.ineqWeight x kc.2.params) u

end RTA
