import Verif.Model.Py

/-!
Model of `run_time_assurance/rta/base.py`, class `RTAModule` (lines 17-138).
-/
namespace RTA

/-- The attributes set by `RTAModule.__init__` (`rta/base.py:28-50`). -/
structure Base (K : Type) where
  controlBoundsHigh : Option (Bound K)
  controlBoundsLow : Option (Bound K)
  enable : Bool
  intervening : Bool
  controlDesired : Option (List K)
  controlActual : Option (List K)
deriving Repr, DecidableEq

/-- `RTAModule.__init__` (`rta/base.py:28-50`). The list-to-array conversion (lines 35-39) is the constructor `Bound.arr`. -/
def Base.init {K : Type} (high low : Option (Bound K)) : Base K :=
  { controlBoundsHigh := high, controlBoundsLow := low, enable := true, intervening := false
    controlDesired := none, controlActual := none }

/-- A Python class deriving from `RTAModule`: its instances of type `σ` contain the base attributes.
The three laws say that `set` really overwrites these attributes and nothing else. -/
class HasBase (σ : Type) (K : outParam Type) where
  get : σ → Base K
  set : Base K → σ → σ
  get_set : ∀ b s, get (set b s) = b
  set_get : ∀ s, set (get s) s = s
  set_set : ∀ b b' s, set b (set b' s) = set b s

instance {K : Type} : HasBase (Base K) K where
  get := id
  set b _ := b
  get_set _ _ := rfl
  set_get _ := rfl
  set_set _ _ _ := rfl

section
variable {K σ I : Type} [HasBase σ K]

/-- Overwrite some base attributes of an object. -/
def modifyBase (f : Base K → Base K) (s : σ) : σ := HasBase.set (f (HasBase.get s)) s

/-- `RTAModule.reset` (`rta/base.py:52-58`). -/
def Base.reset (s : σ) : σ :=
  modifyBase (K := K) (fun b => { b with
    enable := true, intervening := false, controlDesired := none, controlActual := none }) s

/-- `RTAModule._clip_control` (`rta/base.py:124-138`): nothing is done when both bounds are `None`. Also
`ConstraintBasedRTA._clip_control_jax` (`rta/base.py:282-296`), which is the same code with `jnp.clip`. -/
def Base.clipControl {K : Type} [Max K] [Min K] (b : Base K) (u : List K) : Except PyErr (List K) :=
  if b.controlBoundsLow.isSome || b.controlBoundsHigh.isSome then
    npClip b.controlBoundsLow b.controlBoundsHigh u
  else .ok u

/-- `RTAModule.filter_control` (`rta/base.py:60-85`). `compute` is the abstract method `compute_filtered_control`
(lines 87-105) of the subclass: it may read and modify the whole object and may raise.
`np.copy`/`np.array` copies are value copies here; see `Model/Heap.lean` for the aliasing model. -/
def filterControl [Max K] [Min K] (compute : σ → I → K → List K → Except PyErr (List K) × σ)
    (self : σ) (inputState : I) (stepSize : K) (controlDesired : List K) : Except PyErr (List K) × σ :=
  let self := modifyBase (fun b => { b with controlDesired := some controlDesired }) self
  if (HasBase.get self).enable then
    match compute self inputState stepSize controlDesired with
    | (.error e, self) => (.error e, self)
    | (.ok u, self) =>
      match (HasBase.get self).clipControl u with
      | .error e => (.error e, self)
      | .ok c => (.ok c, modifyBase (fun b => { b with controlActual := some c }) self)
  else
    (.ok controlDesired, modifyBase (fun b => { b with controlActual := some controlDesired }) self)

end

/-- The dictionary returned by `RTAModule.generate_info` (`rta/base.py:107-122`). -/
structure BaseInfo (K : Type) where
  enable : Bool
  intervening : Bool
  controlDesired : Option (List K)
  controlActual : Option (List K)
deriving Repr, DecidableEq

/-- `RTAModule.generate_info` (`rta/base.py:107-122`). -/
def generateInfo {K σ : Type} [HasBase σ K] (self : σ) : BaseInfo K :=
  let b := HasBase.get self
  { enable := b.enable, intervening := b.intervening
    controlDesired := b.controlDesired, controlActual := b.controlActual }

end RTA
