import Verif.Model.Jit

/-!
Model of the compile options: the dictionary `jit_compile_dict` as an object that several modules may hold, and what the
constructors and the `compose` methods do with it (`rta/base.py:173-201`, `rta/simplex.py:42-67, 256-272`,
`rta/asif.py:106-124, 495-537`).
-/
namespace RTA

/-- All dictionaries of compile options, in order of creation; a reference is an index. -/
abbrev OptHeap := List (Dict Bool)

/-- The contents of a dictionary. -/
def optDeref (h : OptHeap) (r : Nat) : Dict Bool := h.getD r []

/-- Create a dictionary. -/
def optAlloc (h : OptHeap) (d : Dict Bool) : OptHeap × Nat := (h ++ [d], h.length)

/-- The module classes that read compile options. `DiscreteASIFModule` and the cascades read none. -/
inductive ModuleKind where
  | explicitSimplex
  | implicitSimplex
  | explicitASIF
  | implicitASIF
deriving DecidableEq, Repr

/-- `d.setdefault(name, value)` on the contents. -/
def dictSetDefault (d : Dict Bool) (name : String) (value : Bool) : Dict Bool :=
  match dictGet d name with
  | some _ => d
  | none => dictSet d name value

/-- The methods that `compose` wraps in `jit`, in the order of the tests in the code; each class appends those of its parent
where it calls `super().compose()`: `SimplexModule.compose` (`rta/simplex.py:53-62`), `ImplicitSimplexModule.compose`
(`rta/simplex.py:268-272`), `ASIFModule.compose` (`rta/asif.py:115-124`), `ImplicitASIFModule.compose` (`rta/asif.py:508-537`). -/
def compiledMethods : ModuleKind → Bool → Dict Bool → List (String × Bool)
  | .explicitSimplex, je, d =>
    [("constraint_violation", jitOption je d "constraint_violation" true), ("pred_state", jitOption je d "pred_state" false)]
  | .implicitSimplex, je, d =>
    [("constraint_violation", jitOption je d "constraint_violation" true), ("pred_state", jitOption je d "pred_state" false),
     ("integrate", jitOption je d "integrate" false)]
  | .explicitASIF, je, d =>
    [("generate_barrier_constraint_mats", jitOption je d "generate_barrier_constraint_mats" true),
     ("update_ineq_mats", jitOption je d "update_ineq_mats" true)]
  | .implicitASIF, je, d =>
    [("jacobian", jitOption je d "jacobian" true),
     ("generate_ineq_constraint_mats", jitOption je d "generate_ineq_constraint_mats" true),
     ("pred_state", jitOption je d "pred_state" true), ("integrate", jitOption je d "integrate" true),
     ("generate_barrier_constraint_mats", jitOption je d "generate_barrier_constraint_mats" true),
     ("update_ineq_mats", jitOption je d "update_ineq_mats" true)]

/-- `self.jit_compile_dict.setdefault('generate_barrier_constraint_mats', False)` in `ImplicitASIFModule.compose`
(`rta/asif.py:513`), in place; the other classes do not write to the dictionary. -/
def composeWrite (k : ModuleKind) (h : OptHeap) (r : Nat) : OptHeap :=
  match k with
  | .implicitASIF => h.set r (dictSetDefault (optDeref h r) "generate_barrier_constraint_mats" false)
  | _ => h

/-- `self.jit_compile_dict` before `compose` (`rta/base.py:173-177, 196-197`): a new dictionary for `None`, the caller's object
otherwise, replaced by a new one with all values `False` when `jit_enable` is `False`. -/
def optionsObject (jitEnable : Bool) (arg : Option Nat) (h : OptHeap) : OptHeap × Nat :=
  let hr := match arg with
    | none => optAlloc h []
    | some r => (h, r)
  if jitEnable then hr
  else optAlloc hr.1 ((optDeref hr.1 hr.2).map fun kv => (kv.1, false))

/-- The constructor of a module of class `k` as far as compile options are concerned: the methods compiled, and the
dictionaries afterwards. -/
def constructOptions (k : ModuleKind) (jitEnable : Bool) (arg : Option Nat) (h : OptHeap) : List (String × Bool) × OptHeap :=
  let hr := optionsObject jitEnable arg h
  let h' := composeWrite k hr.1 hr.2
  (compiledMethods k jitEnable (optDeref h' hr.2), h')

/-- The same for the zoo's docking and integrator modules: `None` is replaced by a dictionary with one entry
(`zoo/cwh/docking_2d.py:226-227, 321-322, 406-407, 504-505`, `docking_3d.py:255-256, 359-360, 453-454, 560-561`,
`zoo/integrators/integrator_1d.py:147-148, 213-214, 268-269, 335-336`). -/
def constructOptionsZoo (k : ModuleKind) (jitEnable : Bool) (arg : Option Nat) (h : OptHeap) : List (String × Bool) × OptHeap :=
  match arg with
  | some r => constructOptions k jitEnable (some r) h
  | none =>
    let hr := optAlloc h [(match k with
      | .explicitSimplex => "constraint_violation"
      | .implicitSimplex => "constraint_violation"
      | .explicitASIF => "generate_barrier_constraint_mats"
      | .implicitASIF => "generate_ineq_constraint_mats", true)]
    constructOptions k jitEnable (some hr.2) hr.1

/-- Constructing modules one after the other: the methods each compiles, and the dictionaries in the end. -/
def constructAll : List (ModuleKind × Bool × Option Nat) → OptHeap → List (List (String × Bool)) × OptHeap
  | [], h => ([], h)
  | (k, je, a) :: l, h =>
    let r := constructOptions k je a h
    let q := constructAll l r.2
    (r.1 :: q.1, q.2)

end RTA
