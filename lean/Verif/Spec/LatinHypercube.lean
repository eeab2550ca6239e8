import Verif.Model.LatinHypercube

/-! What a Latin hypercube sample is, independently of how a test module uses it. -/
namespace RTA
variable {K : Type} [Field K] [LinearOrder K]

/-- Every one of the `n` equal slices of the interval `[lo, hi]` contains one of the numbers. -/
def CoversSlices (n : Nat) (lo hi : K) (vs : List K) : Prop :=
  ∀ k < n, ∃ v ∈ vs, lo + (k : K) / n * (hi - lo) ≤ v ∧ v ≤ lo + ((k : K) + 1) / n * (hi - lo)

/-- The numbers in column `i` of a table. -/
def column (i : Nat) (rows : List (List K)) : List K := rows.filterMap (·[i]?)

/-- The contract of `LatinHypercube(d).random(n)` that is used: `n` rows of `d` numbers between 0 and 1 such that in every column each of
the `n` equal slices of the unit interval contains a number. -/
structure LatinSampler (sampler : Nat → Nat → List (List K)) : Prop where
  rows : ∀ n d, (sampler n d).length = n
  width : ∀ n d, ∀ r ∈ sampler n d, r.length = d
  unit : ∀ n d, ∀ r ∈ sampler n d, ∀ v ∈ r, 0 ≤ v ∧ v ≤ 1
  covers : ∀ n d, ∀ i < d, CoversSlices n 0 1 (column i (sampler n d))

/-- The row is in the box: as many components as there are bounds, and each between its bounds. -/
def InBox (lower upper row : List K) : Prop :=
  row.length = lower.length ∧ ∀ (i : Nat) (l u v : K), lower[i]? = some l → upper[i]? = some u → row[i]? = some v → l ≤ v ∧ v ≤ u

end RTA
