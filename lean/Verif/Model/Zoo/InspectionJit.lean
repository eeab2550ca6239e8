import Verif.Model.Jit
import Verif.Model.Zoo.InspectionModule
import Verif.Model.Zoo.InspectionMulti

/-!
Model of the inspection modules as they run with compiled methods (`rta/asif.py:106-124`, the default): `_get_state` of
`Inspection1v1RTA` and `InspectionRTA` (`zoo/cwh/inspection_1v1.py:354-364`, `zoo/cwh/inspection_3d.py:253-263`) runs outside the
compiled methods and overwrites the attribute `sun_vel`, which `state_transition_system` reads inside them
(`zoo/cwh/inspection_1v1.py:347-349`, `zoo/cwh/inspection_3d.py:232-243`). `extra` holds the attribute.

Simplifications as in `Model/Jit.lean` and `Model/Zoo/InspectionModule.lean` (without `use_hocbf`, whose constraint reads
`sun_vel` as well).
-/
namespace RTA

section
variable {K S P X Sig : Type}

/-- A `_get_state` that completes arrays and sets attributes of the module (`zoo/cwh/inspection_1v1.py:354-364`,
`zoo/cwh/inspection_3d.py:253-263`); anything but an array raises. -/
def getStateSet (pad : S → S) (upd : X → S → X) (self : ASIFObj K S P X) : InputState S → Except PyErr S × ASIFObj K S P X
  | .array x => (.ok (pad x), self.setExt { self.ext with extra := upd self.ext.extra x })
  | .notArray => (.error (.assertionError "input_state must be an RTAState or numpy array."), self)

/-- `filter_control` of an `ExplicitASIFModule` with such a `_get_state` and compiled methods. -/
def padASIFJ [DecidableEq Sig] [Add K] [Mul K] [Neg K] [Sub K] [Zero K] [One K] [OfNat K 10] [Max K] [Min K] [HasSqrt K]
    [LT K] [DecidableLT K] (solver : Solver K) (sig : S → K → Dict P → Dict Bool → Sig)
    (sigD : List (Row K) → S → Dict P → Dict Bool → Sig) (pad : S → S) (upd : X → S → X) (f : X → S → List K)
    (g : X → S → List (List K)) (self : ASIFJ Sig K S P X) (inp : InputState S) (dt : K) (u : List K) :
    Except PyErr (List K) × ASIFJ Sig K S P X :=
  filterControl (computeFilteredControlJ (getStateSet pad upd) (asifFilterJ solver sigD (explicitGenRowsJ sig f g))) self inp dt u

/-- The same without compilation (`jit_enable=False`): every call reads the attributes as they are. -/
def padASIF [Add K] [Mul K] [Neg K] [Sub K] [Zero K] [One K] [OfNat K 10] [Max K] [Min K] [HasSqrt K]
    [LT K] [DecidableLT K] (solver : Solver K) (pad : S → S) (upd : X → S → X) (f : X → S → List K)
    (g : X → S → List (List K)) (self : ASIFObj K S P X) (inp : InputState S) (dt : K) (u : List K) :
    Except PyErr (List K) × ASIFObj K S P X :=
  filterControlCB (getStateSet pad upd)
    (fun s => asifFilter solver (explicitGenRows (f s.ext.extra) (g s.ext.extra)) s) self inp dt u

end

/-- The completed state in `Inspection1v1RTA._get_state` (`zoo/cwh/inspection_1v1.py:358-364`). -/
def inspPad (x : List ℝ) : List ℝ := if x.length < 8 then x ++ [0, 0] else x

/-- The attribute `sun_vel` after `Inspection1v1RTA._get_state` (`zoo/cwh/inspection_1v1.py:360-362`). -/
noncomputable def inspUpd (sunVel : ℝ) (x : List ℝ) : ℝ := if x.length < 8 then 0 else sunVel

/-- `Inspection1v1RTA.__init__` (`zoo/cwh/inspection_1v1.py:171-233`) with the attribute `sun_vel` (`:208`), see `inspASIF`; `use` is the
argument `constraints_to_use` of the base class (`rta/base.py:173-191`). -/
noncomputable def inspSunASIF [HasSqrt ℝ] (c : InspConfig) (use : Option (List String)) (high low : Option (Bound ℝ)) (epsilon : ℝ) (solverException : Bool) :
    Except PyErr (ASIFObj ℝ (List ℝ) InspParams ℝ) :=
  asifInit high low (inspConstraints c) use epsilon 3 solverException [] c.sunVel

/-- `Inspection1v1RTA.filter_control` with compiled methods. -/
noncomputable def inspFilterJ {Sig : Type} [DecidableEq Sig] [HasSqrt ℝ] (solver : Solver ℝ)
    (sig : List ℝ → ℝ → Dict InspParams → Dict Bool → Sig)
    (sigD : List (Row ℝ) → List ℝ → Dict InspParams → Dict Bool → Sig) (c : InspConfig) :
    ASIFJ Sig ℝ (List ℝ) InspParams ℝ → InputState (List ℝ) → ℝ → List ℝ →
      Except PyErr (List ℝ) × ASIFJ Sig ℝ (List ℝ) InspParams ℝ :=
  padASIFJ solver sig sigD inspPad inspUpd (fun v => inspectionF c.n v) (fun _ _ => inspectionG c.m)

/-- `Inspection1v1RTA.filter_control` with `jit_enable=False`. -/
noncomputable def inspFilter [HasSqrt ℝ] (solver : Solver ℝ) (c : InspConfig) :
    ASIFObj ℝ (List ℝ) InspParams ℝ → InputState (List ℝ) → ℝ → List ℝ →
      Except PyErr (List ℝ) × ASIFObj ℝ (List ℝ) InspParams ℝ :=
  padASIF solver inspPad inspUpd (fun v => inspectionF c.n v) (fun _ _ => inspectionG c.m)

/-- The completed state in `InspectionRTA._get_state` (`zoo/cwh/inspection_3d.py:257-263`). -/
def multiPad (numDeputies : Nat) (x : List ℝ) : List ℝ := if x.length < 6 * numDeputies + 1 then x ++ [0] else x

/-- The attribute `sun_vel` after `InspectionRTA._get_state` (`zoo/cwh/inspection_3d.py:259-261`). -/
noncomputable def multiUpd (numDeputies : Nat) (sunVel : ℝ) (x : List ℝ) : ℝ := if x.length < 6 * numDeputies + 1 then 0 else sunVel

/-- `InspectionRTA.filter_control` with compiled methods. -/
noncomputable def multiFilterJ {Sig : Type} [DecidableEq Sig] [HasSqrt ℝ] (solver : Solver ℝ)
    (sig : List ℝ → ℝ → Dict InspParams → Dict Bool → Sig)
    (sigD : List (Row ℝ) → List ℝ → Dict InspParams → Dict Bool → Sig) (c : MultiConfig) :
    ASIFJ Sig ℝ (List ℝ) InspParams ℝ → InputState (List ℝ) → ℝ → List ℝ →
      Except PyErr (List ℝ) × ASIFJ Sig ℝ (List ℝ) InspParams ℝ :=
  padASIFJ solver sig sigD (multiPad c.numDeputies) (multiUpd c.numDeputies) (fun v => multiF { c with sunVel := v }) (fun _ _ => multiG c)

/-- `InspectionRTA.filter_control` with `jit_enable=False`. -/
noncomputable def multiFilter [HasSqrt ℝ] (solver : Solver ℝ) (c : MultiConfig) :
    ASIFObj ℝ (List ℝ) InspParams ℝ → InputState (List ℝ) → ℝ → List ℝ →
      Except PyErr (List ℝ) × ASIFObj ℝ (List ℝ) InspParams ℝ :=
  padASIF solver (multiPad c.numDeputies) (multiUpd c.numDeputies) (fun v => multiF { c with sunVel := v }) (fun _ _ => multiG c)

end RTA
