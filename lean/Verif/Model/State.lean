import Verif.Model.Implicit

/-!
Model of `run_time_assurance/state.py` and the state wrappers of the zoo (`zoo/cwh/docking_2d.py:38-79`,
`zoo/cwh/docking_3d.py:39-100`, `zoo/cwh/inspection_1v1.py:46-127`, `zoo/integrators/integrator_1d.py:28-49`).

`jnp.copy` returns a `jax.Array`, whose elements cannot be assigned; a scalar index beyond the end of a non-empty array reads the last
element.
-/
namespace RTA
variable {K : Type}

/-- The wrapper classes. -/
inductive WrapperClass where
  | integrator1d
  | docking2d
  | docking3d
  | inspection3d
deriving DecidableEq, Repr

/-- Name and index of the properties of each class. -/
def WrapperClass.fields : WrapperClass → Dict Nat
  | .integrator1d => [("x", 0), ("x_dot", 1)]
  | .docking2d => [("x", 0), ("y", 1), ("x_dot", 2), ("y_dot", 3)]
  | .docking3d => [("x", 0), ("y", 1), ("z", 2), ("x_dot", 3), ("y_dot", 4), ("z_dot", 5)]
  | .inspection3d =>
    [("x", 0), ("y", 1), ("z", 2), ("x_dot", 3), ("y_dot", 4), ("z_dot", 5), ("sun_angle", 6), ("delta_v", 7)]

/-- A wrapper object. -/
structure StateWrapper (K : Type) where
  cls : WrapperClass
  vector : List K

/-- `RTAStateWrapper.__init__` (`state.py:18-19`). Arrays are immutable here, so the copy is the array. -/
def StateWrapper.init (cls : WrapperClass) (vector : List K) : StateWrapper K := ⟨cls, vector⟩

/-- `RTAStateWrapper.size` and `__len__` (`state.py:21-27`). -/
def StateWrapper.size (w : StateWrapper K) : Nat := w.vector.length

/-- `self.vector[i]` (the getters, e.g. `zoo/cwh/docking_2d.py:41-44`). -/
def jaxGet (v : List K) (i : Nat) : Except PyErr K :=
  match v[jaxIndex v.length i]? with
  | some a => .ok a
  | none => .error .indexError

/-- Reading a property. Other attributes are not modelled. -/
def StateWrapper.get (w : StateWrapper K) (name : String) : Except PyErr K :=
  match w.cls.fields.lookup name with
  | some i => jaxGet w.vector i
  | none => .error (.other "AttributeError")

/-- `self.vector[i] = val` (the setters, e.g. `zoo/cwh/docking_2d.py:46-49`): `jax.Array.__setitem__` raises. -/
def jaxSet (_ : List K) (_ : Nat) (_ : K) : Except PyErr (List K) :=
  .error (.typeError "JAX arrays are immutable and do not support in-place item assignment.")

/-- Assigning to a property. -/
def StateWrapper.set (w : StateWrapper K) (name : String) (val : K) : Except PyErr Unit × StateWrapper K :=
  match w.cls.fields.lookup name with
  | some i =>
    match jaxSet w.vector i val with
    | .ok v => (.ok (), { w with vector := v })
    | .error e => (.error e, w)
  | none => (.error (.other "AttributeError"), w)

/-- What a module's default `_get_state` (`rta/base.py:298-309`) makes of a wrapper: it is not an array. -/
def StateWrapper.asInput (_ : StateWrapper K) : InputState (List K) := .notArray

end RTA
