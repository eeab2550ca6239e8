import Verif.Spec.ASIF

/-!
Comparing two modules by the conditions they impose.
-/
namespace RTA
variable {K S P : Type}

/-- Every enabled constraint of `cs` also occurs in `ds`, possibly under another name. -/
def Covers (ds cs : Dict (Constraint K S P)) : Prop :=
  ∀ kc ∈ cs, kc.2.enabled = true → ∃ kd ∈ ds, kd.2 = kc.2

/-- Every enabled direct inequality of `cs` also occurs in `ds`, possibly under another name. -/
def CoversDirect (ds cs : Dict (DirectConstraint K S P)) : Prop :=
  ∀ kc ∈ cs, kc.2.enabled = true → ∃ kd ∈ ds, kd.2 = kc.2

end RTA
