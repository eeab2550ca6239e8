import Verif.Model.Base
import Verif.Model.LinAlg

/-!
Model of `run_time_assurance/zoo/cwh/inspection_3d.py`, class `CombinedInspectionRTA` (lines 477-528), and of the completion
of short states in both inspection modules.

`M` is the class of the deputy module and `filter` its `filter_control`; its input state is the array of the reordered state.
-/
namespace RTA
variable {K M : Type}

/-- The attributes of a `CombinedInspectionRTA` (`zoo/cwh/inspection_3d.py:493-509`). -/
structure CombinedObj (K M : Type) extends Base K where
  numDeputies : Nat
  deputyRta : M

instance : HasBase (CombinedObj K M) K where
  get s := s.toBase
  set b s := { s with toBase := b }
  get_set _ _ := rfl
  set_get _ := rfl
  set_set _ _ _ := rfl

/-- `CombinedInspectionRTA.__init__` (`zoo/cwh/inspection_3d.py:493-509`). -/
def combinedInit (high low : Option (Bound K)) (numDeputies : Nat) (deputyRta : M) : CombinedObj K M :=
  { Base.init high low with numDeputies := numDeputies, deputyRta := deputyRta }

/-- `CombinedInspectionRTA.get_agent_state` (`zoo/cwh/inspection_3d.py:523-528`). -/
def agentState (state : List K) (i : Nat) : List K :=
  let xi := pySlice state (6 * i) (6 * i + 6)
  let xOld := state.take (6 * i) ++ state.drop (6 * i + 6)
  xi ++ xOld

/-- `u_act[3 * i : 3 * i + 3] = r` for an array with room for the slice: three elements are stored, one element is broadcast,
any other length raises `ValueError`. -/
def assignBlock (uAct : List K) (i : Nat) (r : List K) : Except PyErr (List K) :=
  match r with
  | [a, b, c] => .ok (uAct.take (3 * i) ++ [a, b, c] ++ uAct.drop (3 * i + 3))
  | [a] => .ok (uAct.take (3 * i) ++ [a, a, a] ++ uAct.drop (3 * i + 3))
  | _ => .error (.valueError "could not broadcast input array")

/-- The loop of `CombinedInspectionRTA.compute_filtered_control` (`zoo/cwh/inspection_3d.py:514-521`), the iterations `i < k`. -/
def combinedLoop (filter : M → List K → K → List K → Except PyErr (List K) × M) (state : List K) (dt : K) (u : List K)
    (rta : M) (uAct : List K) : Nat → Except PyErr (List K) × M
  | 0 => (.ok uAct, rta)
  | i + 1 =>
    match combinedLoop filter state dt u rta uAct i with
    | (.error e, rta) => (.error e, rta)
    | (.ok uAct, rta) =>
      match filter rta (agentState state i) dt (pySlice u (3 * i) (3 * i + 3)) with
      | (.error e, rta) => (.error e, rta)
      | (.ok r, rta) => (assignBlock uAct i r, rta)

/-- `CombinedInspectionRTA.compute_filtered_control` (`zoo/cwh/inspection_3d.py:511-521`). -/
def combinedCompute [Zero K] (filter : M → List K → K → List K → Except PyErr (List K) × M) (self : CombinedObj K M)
    (state : List K) (dt : K) (u : List K) : Except PyErr (List K) × CombinedObj K M :=
  let r := combinedLoop filter state dt u self.deputyRta (zeros (self.numDeputies * 3)) self.numDeputies
  (r.1, { self with deputyRta := r.2 })

/-- `CombinedInspectionRTA.filter_control`, inherited from `RTAModule` (`rta/base.py:60-85`). -/
def combinedFilter [Zero K] [Max K] [Min K] (filter : M → List K → K → List K → Except PyErr (List K) × M)
    (self : CombinedObj K M) (state : List K) (dt : K) (u : List K) : Except PyErr (List K) × CombinedObj K M :=
  filterControl (combinedCompute filter) self state dt u

/-- `CombinedInspectionRTA.reset`, inherited from `RTAModule` (`rta/base.py:52-58`). -/
def combinedReset (self : CombinedObj K M) : CombinedObj K M := Base.reset self

/-! ### The default deputy module

The default value of the parameter `deputy_rta` is one object, created when the class is defined (`zoo/cwh/inspection_3d.py:497`).
Here objects live in a store and combined modules hold references; entry 0 of the store is that object. -/

/-- A combined module holding a reference to its deputy module. -/
structure CombinedRef (K : Type) extends Base K where
  numDeputies : Nat
  deputyRef : Nat

/-- `CombinedInspectionRTA.__init__` with or without the argument `deputy_rta` (`zoo/cwh/inspection_3d.py:493-509`). -/
def combinedRefInit (high low : Option (Bound K)) (numDeputies : Nat) (deputyRta : Option Nat) : CombinedRef K :=
  { Base.init high low with numDeputies := numDeputies, deputyRef := deputyRta.getD 0 }

/-- `filter_control` of a combined module holding a reference: the deputy module is read from the store and its new value is
written back. -/
def combinedRefFilter [Zero K] [Max K] [Min K] (filter : M → List K → K → List K → Except PyErr (List K) × M)
    (self : CombinedRef K) (store : List M) (state : List K) (dt : K) (u : List K) :
    Except PyErr (List K) × CombinedRef K × List M :=
  match store[self.deputyRef]? with
  | none => (.error (.other "dangling reference"), self, store)
  | some m =>
    let r := combinedFilter filter { self.toBase with numDeputies := self.numDeputies, deputyRta := m } state dt u
    (r.1, { r.2.toBase with numDeputies := self.numDeputies, deputyRef := self.deputyRef },
      store.set self.deputyRef r.2.deputyRta)

/-! ### Short states -/

/-- `Inspection1v1RTA._get_state` (`zoo/cwh/inspection_1v1.py:354-364`) for an array: the returned state and the attribute `sun_vel`
afterwards. -/
def getState1v1 [Zero K] (sunVel : K) (inp : List K) : List K × K :=
  if inp.length < 8 then (inp ++ [0, 0], 0) else (inp, sunVel)

/-- `InspectionRTA._get_state` (`zoo/cwh/inspection_3d.py:253-263`) for an array. -/
def getState3d [Zero K] (numDeputies : Nat) (sunVel : K) (inp : List K) : List K × K :=
  if inp.length < 6 * numDeputies + 1 then (inp ++ [0], 0) else (inp, sunVel)

/-- The states and the `sun_vel` attribute of a module seen over a sequence of inputs. -/
def statesSeen (get : K → List K → List K × K) : K → List (List K) → List (List K × K)
  | _, [] => []
  | v, inp :: rest => get v inp :: statesSeen get (get v inp).2 rest

end RTA
