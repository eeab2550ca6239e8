import Mathlib.Algebra.Order.Field.Basic

/-!
Vectors as lists, as the array code uses them. All users check shapes first (NumPy/JAX raise on mismatch), so the
truncation of `zipWith` never shows.
-/
namespace RTA
section
variable {K : Type}

/-- `v @ w` for 1-D arrays of the same length. -/
def dot [Add K] [Mul K] [Zero K] (v w : List K) : K := (List.zipWith (· * ·) v w).foldr (· + ·) 0

/-- Elementwise sum. -/
def vadd [Add K] (v w : List K) : List K := List.zipWith (· + ·) v w

/-- Elementwise difference. -/
def vsub [Sub K] (v w : List K) : List K := List.zipWith (· - ·) v w

/-- `c * v`. -/
def vscale [Mul K] (c : K) (v : List K) : List K := v.map (c * ·)

/-- `v @ M` for a matrix with `m` columns. -/
def vecMat [Add K] [Mul K] [Zero K] (v : List K) (M : List (List K)) (m : Nat) : List K :=
  (List.range m).map fun j => dot v (M.map fun r => r.getD j 0)

/-- `M @ v`. -/
def matVec [Add K] [Mul K] [Zero K] (M : List (List K)) (v : List K) : List K := M.map fun r => dot r v

/-- Squared Euclidean norm. -/
def sqNorm [Add K] [Mul K] [Zero K] (v : List K) : K := dot v v

/-- Row `i` of `np.eye(n)`. -/
def eyeRow [Zero K] [One K] (n i : Nat) : List K := (List.range n).map fun j => if j = i then 1 else 0

/-- `np.zeros(n)`. -/
def zeros [Zero K] (n : Nat) : List K := List.replicate n 0

end

/-- One inequality `w @ z >= b` of the quadratic program: a column of quadprog's `C` with an entry of `b`. -/
structure Row (K : Type) where
  w : List K
  b : K
deriving Repr, DecidableEq

/-- `np.sqrt`. -/
class HasSqrt (K : Type) where
  sqrt : K → K

end RTA
