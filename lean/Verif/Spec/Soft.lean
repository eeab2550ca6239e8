import Verif.Spec.ASIF
import Verif.Spec.Discrete

/-!
Vocabulary for C117: soft constraints (those with a `slack_priority_scale`, `constraint.py:60-70`) described without slack
variables.
-/
namespace RTA
variable {K S P X : Type}

/-- By how much control `u` misses the barrier condition of a constraint; zero if the condition holds. -/
def violation [Field K] [LinearOrder K] (f : S → List K) (g : S → List (List K)) (c : Constraint K S P) (x : S) (u : List K) : K :=
  max 0 (-((barrierValue f g c x u).getD 0))

/-- By how much control `u` misses the discrete time condition of a constraint. -/
def violationD [Field K] [LinearOrder K] (next : S → K → List K → S) (c : Constraint K S P) (x : S) (dt : K) (u : List K) : K :=
  max 0 (-((hval c (next x dt u) - hval c x) / dt + (c.alpha.getD id) (hval c x)))

/-- The penalty for a violation `m` of a constraint: `φ(scale) m²` for enabled constraints with slack, otherwise nothing. -/
def penalty [Field K] (φ : K → K) (c : Constraint K S P) (m : K) : K :=
  match c.slackPriorityScale with
  | some w => if c.enabled then φ w * (m * m) else 0
  | none => 0

/-- The squared distance from the desired control plus the penalties for the soft constraints. -/
def softCost [Field K] (φ : K → K) (V : Constraint K S P → List K → K) (cs : Dict (Constraint K S P)) (uDes u : List K) : K :=
  sqDist u uDes + (cs.map fun kc => penalty φ kc.2 (V kc.2 u)).sum

/-- Control `u` satisfies everything that has no slack: bounds, direct inequalities, and the enabled constraints without a
`slack_priority_scale`. -/
structure FirmOK [Field K] [LinearOrder K] (f : S → List K) (g : S → List (List K)) (s : ASIFObj K S P X) (x : S)
    (u : List K) : Prop where
  len : u.length = s.ext.controlDim
  bounds : Within s.controlBoundsLow s.controlBoundsHigh u
  barrier : ∀ kc ∈ s.constraints, kc.2.enabled = true → kc.2.slackPriorityScale = none → BarrierOK f g kc.2 x u 0
  direct : ∀ kc ∈ s.ext.direct, kc.2.enabled = true → DirectOK kc.2 x u

/-- The same for a discrete time module. -/
structure FirmOKD [Field K] [LinearOrder K] (next : S → K → List K → S) (s : DiscObj K S P) (x : S) (dt : K)
    (u : List K) : Prop where
  len : u.length = s.ext.controlDim
  bounds : Within s.controlBoundsLow s.controlBoundsHigh u
  barrier : ∀ kc ∈ s.constraints, kc.2.enabled = true → kc.2.slackPriorityScale = none → DiscreteOK next kc.2 x dt u 0

/-- Every enabled constraint has a strengthener. -/
def HasAlpha (cs : Dict (Constraint K S P)) : Prop := ∀ kc ∈ cs, kc.2.enabled = true → kc.2.alpha.isSome = true

/-- `t` is the module `s` in which constraint `c`, called `q`, has the slack priority scale `w` instead. -/
structure Rescaled (s t : ASIFObj K S P X) (q : String) (c : Constraint K S P) (w : K) : Prop where
  low : t.controlBoundsLow = s.controlBoundsLow
  high : t.controlBoundsHigh = s.controlBoundsHigh
  dim : t.ext.controlDim = s.ext.controlDim
  direct : t.ext.direct = s.ext.direct
  constraints : ∃ a b, s.constraints = a ++ (q, c) :: b ∧
    t.constraints = a ++ (q, { c with slackPriorityScale := some w }) :: b

/-- `t` is the module `s` without constraint `c`, called `q`. -/
structure Without (s t : ASIFObj K S P X) (q : String) (c : Constraint K S P) : Prop where
  low : t.controlBoundsLow = s.controlBoundsLow
  high : t.controlBoundsHigh = s.controlBoundsHigh
  dim : t.ext.controlDim = s.ext.controlDim
  direct : t.ext.direct = s.ext.direct
  constraints : ∃ a b, s.constraints = a ++ (q, c) :: b ∧ t.constraints = a ++ b

end RTA
