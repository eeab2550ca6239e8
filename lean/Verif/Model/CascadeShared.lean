import Verif.Model.Cascade

/-!
Model of `CascadedRTA` (`rta/base.py:359-387`) for lists in which the same module object may appear more than once, at any
positions. `Verif/Model/Cascade.lean` treats lists of distinct objects.

The objects live in `store`; `rta_list` is a list of references into it. Simplification: a reference that points nowhere, which
Python cannot produce, is skipped.
-/
namespace RTA
variable {K M I : Type}

/-- A `CascadedRTA` whose `rta_list` (`rta/base.py:364`) may name an object several times: the objects, and the list as indices
into them. -/
structure SharedCascade (K M : Type) extends Base K where
  store : List M
  order : List Nat

instance : HasBase (SharedCascade K M) K where
  get s := s.toBase
  set b s := { s with toBase := b }
  get_set _ _ := rfl
  set_get _ := rfl
  set_set _ _ _ := rfl

/-- `CascadedRTA.__init__` (`rta/base.py:363-365`). -/
def sharedInit (high low : Option (Bound K)) (store : List M) (order : List Nat) : SharedCascade K M :=
  { Base.init high low with store := store, order := order }

/-- The loop of `CascadedRTA.compute_filtered_control` (`rta/base.py:370-373`): every call changes the object it is made on, so
a later mention of the object sees the change. -/
def sharedLoop [HasBase M K] (filter : M → I → K → List K → Except PyErr (List K) × M) (inp : I) (dt : K) :
    List Nat → List M → Bool → List K → Except PyErr (List K) × Bool × List M
  | [], store, flag, control => (.ok control, flag, store)
  | i :: rest, store, flag, control =>
    match store[i]? with
    | none => sharedLoop filter inp dt rest store flag control
    | some rta =>
      match filter rta inp dt control with
      | (.error e, rta) => (.error e, flag, store.set i rta)
      | (.ok control, rta) =>
        sharedLoop filter inp dt rest (store.set i rta) (if (HasBase.get rta).intervening then true else flag) control

/-- `CascadedRTA.compute_filtered_control` (`rta/base.py:367-375`). -/
def sharedCompute [HasBase M K] (filter : M → I → K → List K → Except PyErr (List K) × M) (self : SharedCascade K M)
    (inp : I) (dt : K) (u : List K) : Except PyErr (List K) × SharedCascade K M :=
  let r := sharedLoop filter inp dt self.order self.store false u
  (r.1, { self with intervening := r.2.1, store := r.2.2 })

/-- `CascadedRTA.filter_control`, inherited from `RTAModule` (`rta/base.py:60-85`). -/
def sharedFilter [HasBase M K] [Max K] [Min K] (filter : M → I → K → List K → Except PyErr (List K) × M)
    (self : SharedCascade K M) (inp : I) (dt : K) (u : List K) : Except PyErr (List K) × SharedCascade K M :=
  filterControl (sharedCompute filter) self inp dt u

end RTA
