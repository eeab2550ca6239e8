import Verif.Model.Base

/-!
Model of `run_time_assurance/rta/base.py`, class `CascadedRTA` (lines 359-387).

The stages are Python objects of possibly different classes. `M` is a type that holds any of them (for a concrete cascade a
sum of the object types of the stages) and `filter` dispatches `filter_control` to the class of the object.
Simplification: the objects in `rta_list` are distinct; `Model/CascadeShared.lean` has lists in which one object appears twice.
-/
namespace RTA
variable {K M I : Type}

/-- The attributes of a `CascadedRTA` (`rta/base.py:363-365`). -/
structure CascadeObj (K M : Type) extends Base K where
  rtaList : List M

instance : HasBase (CascadeObj K M) K where
  get s := s.toBase
  set b s := { s with toBase := b }
  get_set _ _ := rfl
  set_get _ := rfl
  set_set _ _ _ := rfl

/-- `CascadedRTA.__init__` (`rta/base.py:363-365`); `stages` is what `_setup_rta_list` returns. -/
def cascadeInit (high low : Option (Bound K)) (stages : List M) : CascadeObj K M :=
  { Base.init high low with rtaList := stages }

/-- The loop of `CascadedRTA.compute_filtered_control` (`rta/base.py:370-375`): result (or exception), the flag
`self.intervening` so far, and the stages afterwards. -/
def cascadeLoop [HasBase M K] (filter : M → I → K → List K → Except PyErr (List K) × M) (inp : I) (dt : K) :
    List M → Bool → List K → Except PyErr (List K) × Bool × List M
  | [], flag, control => (.ok control, flag, [])
  | rta :: rest, flag, control =>
    match filter rta inp dt control with
    | (.error e, rta) => (.error e, flag, rta :: rest)
    | (.ok control, rta) =>
      let flag := if (HasBase.get rta).intervening then true else flag
      let r := cascadeLoop filter inp dt rest flag control
      (r.1, r.2.1, rta :: r.2.2)

/-- `CascadedRTA.compute_filtered_control` (`rta/base.py:367-375`). -/
def cascadeCompute [HasBase M K] (filter : M → I → K → List K → Except PyErr (List K) × M) (self : CascadeObj K M)
    (inp : I) (dt : K) (u : List K) : Except PyErr (List K) × CascadeObj K M :=
  let r := cascadeLoop filter inp dt self.rtaList false u
  (r.1, { self with intervening := r.2.1, rtaList := r.2.2 })

/-- `CascadedRTA.filter_control`, inherited from `RTAModule` (`rta/base.py:60-85`). -/
def cascadeFilter [HasBase M K] [Max K] [Min K] (filter : M → I → K → List K → Except PyErr (List K) × M)
    (self : CascadeObj K M) (inp : I) (dt : K) (u : List K) : Except PyErr (List K) × CascadeObj K M :=
  filterControl (cascadeCompute filter) self inp dt u

/-- `CascadedRTA.reset`, inherited from `RTAModule` (`rta/base.py:52-58`): the stages are not touched. -/
def cascadeReset (self : CascadeObj K M) : CascadeObj K M := Base.reset self

end RTA
