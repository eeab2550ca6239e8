/-
Python / NumPy run-time vocabulary shared by all model files.
-/
namespace RTA

/-- The exception classes that can leave the modelled functions. -/
inductive PyErr where
  /-- `ValueError` raised with the given message -/
  | valueError (msg : String)
  /-- `TypeError` -/
  | typeError (msg : String)
  /-- `AssertionError` -/
  | assertionError (msg : String)
  /-- `KeyError` -/
  | keyError (key : String)
  /-- `IndexError` -/
  | indexError
  /-- `ZeroDivisionError` -/
  | zeroDivision
  /-- `UnboundLocalError` -/
  | unboundLocal (name : String)
  /-- `run_time_assurance/utils/utils.py:93-98` `SolverError` -/
  | solverError
  /-- any other exception raised by user supplied code -/
  | other (msg : String)
deriving DecidableEq, Repr

/-- Python dictionaries with string keys, in insertion order. -/
abbrev Dict (V : Type) := List (String × V)

/-- `d[k]` for reading; `none` stands for `KeyError`. -/
def dictGet {V : Type} : Dict V → String → Option V
  | [], _ => none
  | (k, v) :: d, q => if k = q then some v else dictGet d q

/-- `d[k] = v`: overwrite in place when the key exists, append otherwise. -/
def dictSet {V : Type} : Dict V → String → V → Dict V
  | [], q, v => [(q, v)]
  | (k, w) :: d, q, v => if k = q then (k, v) :: d else (k, w) :: dictSet d q v

/-- `d.keys()` -/
def dictKeys {V : Type} (d : Dict V) : List String := d.map Prod.fst

/-- Python list/array indexing `l[i]` with negative indices counting from the end; `none` is `IndexError`. -/
def pyGet {α : Type} (l : List α) (i : Int) : Option α :=
  if 0 ≤ i then l[i.toNat]?
  else if 0 ≤ i + l.length then l[(i + l.length).toNat]?
  else none

/-- Python slice `l[a:b]` for non-negative bounds (both clamp to the length). -/
def pySlice {α : Type} (l : List α) (a b : Nat) : List α := (l.drop a).take (b - a)

/-- Python `range(a, b, s)` for a positive step; `range` raises for a zero step (handled by callers). -/
def pyRange (a b s : Int) : List Int :=
  if 0 < s then
    (List.range ((b - a + s - 1) / s).toNat).map fun k : Nat => a + s * (k : Int)
  else if s < 0 then
    (List.range ((a - b + (-s) - 1) / (-s)).toNat).map fun k : Nat => a + s * (k : Int)
  else []

/-- A control bound: a Python number or a 1-D array. Lists passed by the user are converted to NumPy arrays by
`rta/base.py:35-39`; `jax = true` marks a `jax` array (only relevant for `isinstance` in `rta/asif.py:949`). -/
inductive Bound (K : Type) where
  | scalar (b : K)
  | arr (jax : Bool) (b : List K)
deriving Repr, DecidableEq

/-- NumPy broadcasting of two 1-D lengths. -/
def bcastLen (a b : Nat) : Option Nat :=
  if a = b then some a else if a = 1 then some b else if b = 1 then some a else none

/-- Length after broadcasting with an optional bound (scalars broadcast to anything). -/
def Bound.bcast {K : Type} : Option (Bound K) → Nat → Option Nat
  | none, n => some n
  | some (.scalar _), n => some n
  | some (.arr _ l), n => bcastLen n l.length

/-- Broadcast a 1-D array to length `n` (only called with compatible lengths). -/
def bcastTo {K : Type} (n : Nat) : List K → List K
  | [a] => List.replicate n a
  | l => l

/-- The elements of a bound broadcast to length `n`. -/
def Bound.toList {K : Type} (n : Nat) : Bound K → List K
  | .scalar b => List.replicate n b
  | .arr _ l => bcastTo n l

/-- `np.clip(x, lo, hi)` / `jnp.clip(x, lo, hi)` for a 1-D `x`: `minimum(maximum(x, lo), hi)` elementwise with
broadcasting; a `None` bound is skipped; incompatible shapes raise.
Simplification: NumPy raises `ValueError`, JAX raises `TypeError`/`ValueError`; one error value stands for both. -/
def npClip {K : Type} [Max K] [Min K] (lo hi : Option (Bound K)) (x : List K) : Except PyErr (List K) :=
  match (Bound.bcast lo x.length).bind (Bound.bcast hi) with
  | none => .error (.valueError "operands could not be broadcast together")
  | some n =>
    let x := bcastTo n x
    let x := match lo with
      | none => x
      | some b => List.zipWith max x (b.toList n)
    let x := match hi with
      | none => x
      | some b => List.zipWith min x (b.toList n)
    .ok x

end RTA
