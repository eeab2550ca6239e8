import Verif.Model.Base

/-!
Model of `RTAModule.filter_control` and `generate_info` (`run_time_assurance/rta/base.py:60-138`) with explicit array
references, for the aliasing property C04. An array is an index into a heap; `np.copy`/`np.array` allocate.
-/
namespace RTA

/-- The heap: all NumPy arrays, in order of creation. -/
abbrev Heap (K : Type) := List (List K)

/-- The contents of an array. -/
def deref {K : Type} (h : Heap K) (r : Nat) : List K := h.getD r []

/-- Create an array: the new heap and the reference. -/
def alloc {K : Type} (h : Heap K) (v : List K) : Heap K × Nat := (h ++ [v], h.length)

/-- `a[i] = x` in place. NumPy raises for an index out of range; nothing is written then. -/
def writeAt {K : Type} (h : Heap K) (r i : Nat) (x : K) : Heap K := h.set r ((deref h r).set i x)

/-- The attributes of a module other than the two control records: the base attributes (`rta/base.py:28-50`) and those of
the subclass, which hold no references to arrays of the caller: subclasses keep converted copies (`rta/base.py:255,
312`, `to_jnp_array_jit`) and JAX arrays are immutable. -/
structure Core (K ρ : Type) where
  controlBoundsHigh : Option (Bound K)
  controlBoundsLow : Option (Bound K)
  enable : Bool
  intervening : Bool
  extra : ρ

/-- The array returned by `compute_filtered_control`: the desired control array itself (e.g.
`zoo/cwh/inspection_1v1.py:716`, `rta/base.py:369`) or another array that nobody else refers to. -/
inductive ComputeOut (K : Type) where
  | sameArray
  | newArray (v : List K)

/-- The abstract method `compute_filtered_control` (`rta/base.py:87-105`) of a subclass: the result, what it assigns to
`self.control_actual` if anything (`rta/base.py:232`), and the new attributes. It does not read the control records. -/
abbrev ComputeFn (K ρ : Type) :=
  Core K ρ → List K → K → List K → Except PyErr (ComputeOut K) × Option (List K) × Core K ρ

/-- A module object whose control records are references. -/
structure HObj (K ρ : Type) where
  core : Core K ρ
  desired : Option Nat
  actual : Option Nat

variable {K ρ : Type}

/-- `RTAModule._clip_control` (`rta/base.py:124-138`): the same array if there are no bounds, a new one otherwise. -/
def hClip [Max K] [Min K] (c : Core K ρ) (h : Heap K) (r : Nat) : Except PyErr (Heap K × Nat) :=
  if c.controlBoundsLow.isSome || c.controlBoundsHigh.isSome then
    match npClip c.controlBoundsLow c.controlBoundsHigh (deref h r) with
    | .error e => .error e
    | .ok v => .ok (alloc h v)
  else .ok (h, r)

/-- `self.control_actual = np.array(...)` inside `compute_filtered_control`, if it happens. -/
def hRecord (o : HObj K ρ) (h : Heap K) : Option (List K) → HObj K ρ × Heap K
  | none => (o, h)
  | some v => ({ o with actual := some (alloc h v).2 }, (alloc h v).1)

/-- The array returned by `compute_filtered_control`. -/
def hOut (h : Heap K) (ru : Nat) : ComputeOut K → Heap K × Nat
  | .sameArray => (h, ru)
  | .newArray v => alloc h v

/-- `RTAModule.filter_control` (`rta/base.py:60-85`) for a state array `rs` and a control array `ru`. -/
def hFilter [Max K] [Min K] (compute : ComputeFn K ρ) (o : HObj K ρ) (h : Heap K) (rs ru : Nat) (dt : K) :
    Except PyErr Nat × HObj K ρ × Heap K :=
  let rd := (alloc h (deref h ru)).2
  let h := (alloc h (deref h ru)).1
  let o := { o with desired := some rd }
  if o.core.enable then
    let r := compute o.core (deref h rs) dt (deref h ru)
    let o := { o with core := r.2.2 }
    let oh := hRecord o h r.2.1
    match r.1 with
    | .error e => (.error e, oh.1, oh.2)
    | .ok out =>
      let ho := hOut oh.2 ru out
      match hClip r.2.2 ho.1 ho.2 with
      | .error e => (.error e, oh.1, ho.1)
      | .ok hc =>
        let a := alloc hc.1 (deref hc.1 hc.2)
        let ret := alloc a.1 (deref a.1 a.2)
        (.ok ret.2, { oh.1 with actual := some a.2 }, ret.1)
  else
    let a := alloc h (deref h ru)
    let ret := alloc a.1 (deref a.1 a.2)
    (.ok ret.2, { o with actual := some a.2 }, ret.1)

/-- What the caller can name: one of their arrays (created by them or returned by `filter_control`), or one of the two
arrays in the dictionary `generate_info()` returns at this moment (`rta/base.py:115-120`, no copies). -/
inductive Arg where
  | mine (i : Nat)
  | infoDesired
  | infoActual

/-- What the caller does. -/
inductive HOp (K : Type) where
  | newArray (v : List K)
  | write (a : Arg) (i : Nat) (x : K)
  | call (state control : Arg) (dt : K)
  | setEnable (b : Bool)
  | reset

/-- The whole memory: heap, module object, and the arrays of the caller. -/
structure World (K ρ : Type) where
  heap : Heap K
  obj : HObj K ρ
  env : List Nat

/-- The array a name stands for. -/
def World.resolve (w : World K ρ) : Arg → Option Nat
  | .mine i => w.env[i]?
  | .infoDesired => w.obj.desired
  | .infoActual => w.obj.actual

/-- Execute one operation of the caller. An operation naming an array that does not exist is skipped. -/
def World.step [Max K] [Min K] (compute : ComputeFn K ρ) (w : World K ρ) : HOp K → World K ρ
  | .newArray v => { w with heap := (alloc w.heap v).1, env := w.env ++ [(alloc w.heap v).2] }
  | .write a i x =>
    match w.resolve a with
    | none => w
    | some r => { w with heap := writeAt w.heap r i x }
  | .call s u dt =>
    match w.resolve s, w.resolve u with
    | some rs, some ru =>
      match hFilter compute w.obj w.heap rs ru dt with
      | (.error _, o, h) => { w with heap := h, obj := o }
      | (.ok r, o, h) => { heap := h, obj := o, env := w.env ++ [r] }
    | _, _ => w
  | .setEnable b => { w with obj := { w.obj with core := { w.obj.core with enable := b } } }
  | .reset => { w with obj := { core := { w.obj.core with enable := true, intervening := false }
                                desired := none, actual := none } }

/-- Execute operations in order. -/
def World.run [Max K] [Min K] (compute : ComputeFn K ρ) (w : World K ρ) (ops : List (HOp K)) : World K ρ :=
  ops.foldl (World.step compute) w

end RTA
