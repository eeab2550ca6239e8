import Verif.Model.Py

/-!
Specification vocabulary for control bounds: which number bounds component `i`, and clipping of a single number.
-/
namespace RTA

/-- The bound that applies to component `i`: a scalar applies everywhere, a one-element array is broadcast, any other
array applies elementwise; `none` means unbounded. -/
def boundAt {K : Type} : Option (Bound K) → Nat → Option K
  | none, _ => none
  | some (.scalar b), _ => some b
  | some (.arr _ [b]), _ => some b
  | some (.arr _ l), i => l[i]?

/-- `v` respects the bounds of component `i`. -/
def WithinAt {K : Type} [LE K] (lo hi : Option (Bound K)) (i : Nat) (v : K) : Prop :=
  (∀ b, boundAt lo i = some b → b ≤ v) ∧ (∀ b, boundAt hi i = some b → v ≤ b)

/-- Every component of `u` respects the bounds. -/
def Within {K : Type} [LE K] (lo hi : Option (Bound K)) (u : List K) : Prop :=
  ∀ i v, u[i]? = some v → WithinAt lo hi i v

/-- The bounds do not contradict each other in any component. -/
def BoundsConsistent {K : Type} [LE K] (lo hi : Option (Bound K)) : Prop :=
  ∀ i a b, boundAt lo i = some a → boundAt hi i = some b → a ≤ b

/-- An array bound has one element or as many as the control has components. -/
def BoundFits {K : Type} (n : Nat) : Option (Bound K) → Prop
  | none => True
  | some (.scalar _) => True
  | some (.arr _ l) => l.length = 1 ∨ l.length = n

end RTA
