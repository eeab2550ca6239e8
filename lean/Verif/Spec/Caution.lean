import Verif.Spec.Order
import Verif.Spec.ASIF

/-!
Vocabulary for comparing a module with a more cautious one (C109, C110).
-/
namespace RTA
variable {K S P : Type}

/-- What a constraint with strengthener `al` adds for a value `h < 0`, apart from `bias_negative`. -/
def negStrength [Field K] (c : Constraint K S P) (al : K → K) (h : K) : K :=
  match c.alphaNeg with
  | some an => an h
  | none => 10 * al h

/-- The constraint `d` is set up at least as cautiously as `c`: the same function with a smaller or equal `bias`, strengtheners that are
nowhere larger and a smaller or equal `bias_negative`. The strengtheners of `c` increase and have the sign of the value, and its
`bias_negative` is not positive. -/
structure MoreCautious [Field K] [LinearOrder K] (d c : Constraint K S P) : Prop where
  value : d.computeFn = c.computeFn
  grad : d.gradFn = c.gradFn
  params : d.params = c.params
  enabled : c.enabled = true → d.enabled = true
  bias : d.bias ≤ c.bias
  alpha : ∀ al', d.alpha = some al' → ∃ al, c.alpha = some al ∧ (∀ h, al' h ≤ al h) ∧ Monotone al ∧ 0 ≤ al 0 ∧
    (∀ h < 0, negStrength d al' h ≤ negStrength c al h) ∧ (∀ h h', h ≤ h' → h' < 0 → negStrength c al h ≤ negStrength c al h') ∧
    ∀ h < 0, negStrength c al h ≤ 0
  biasNegative : d.biasNegative ≤ c.biasNegative
  biasNegative_nonpos : c.biasNegative ≤ 0

/-- Every enabled constraint of `cs` has a counterpart in `ds` that is at least as cautious. -/
def CoversCautiously [Field K] [LinearOrder K] (ds cs : Dict (Constraint K S P)) : Prop :=
  ∀ kc ∈ cs, kc.2.enabled = true → ∃ kd ∈ ds, MoreCautious kd.2 kc.2

/-- A constraint with a smaller or equal bias, otherwise the same. -/
def Constraint.lowerBias (c : Constraint K S P) (b : K) : Constraint K S P := { c with bias := b }

end RTA
