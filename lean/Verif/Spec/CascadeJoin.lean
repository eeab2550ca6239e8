import Verif.Spec.ASIF

/-!
One module in place of several (C114).
-/
namespace RTA
variable {K S P X : Type}

/-- `c` has the bounds of every module of `ms`, and exactly their constraints and direct inequalities, under whatever names. -/
structure Joins (c : ASIFObj K S P X) (ms : List (ASIFObj K S P X)) : Prop where
  some : ms ≠ []
  dim : ∀ m ∈ ms, m.ext.controlDim = c.ext.controlDim
  low : ∀ m ∈ ms, m.controlBoundsLow = c.controlBoundsLow
  high : ∀ m ∈ ms, m.controlBoundsHigh = c.controlBoundsHigh
  constraints : ∀ d, (∃ k, (k, d) ∈ c.constraints) ↔ ∃ m ∈ ms, ∃ k, (k, d) ∈ m.constraints
  direct : ∀ d, (∃ k, (k, d) ∈ c.ext.direct) ↔ ∃ m ∈ ms, ∃ k, (k, d) ∈ m.ext.direct

end RTA
