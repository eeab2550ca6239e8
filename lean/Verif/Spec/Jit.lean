import Verif.Model.ASIF
import Verif.Model.Simplex

/-!
Vocabulary for the properties about compiled modules (C85-C87, C90, C91).
-/
namespace RTA

section
variable {K S P A X O σ : Type}

/-- Two constraints that differ at most in the attributes `params` and `enabled`. -/
def Constraint.SameCode (c d : Constraint K S P) : Prop := { c with params := d.params, enabled := d.enabled } = d

/-- The same keys in the same order, with constraints that differ at most in `params` and `enabled`. -/
def SameConstraints (cs ds : Dict (Constraint K S P)) : Prop :=
  List.Forall₂ (fun a b => a.1 = b.1 ∧ a.2.SameCode b.2) cs ds

/-- Two direct inequality constraints that differ at most in the attributes `params` and `enabled`. -/
def DirectConstraint.SameCode (c d : DirectConstraint K S P) : Prop :=
  { c with params := d.params, enabled := d.enabled } = d

/-- The same keys in the same order, with direct constraints that differ at most in `params` and `enabled`. -/
def SameDirect (cs ds : Dict (DirectConstraint K S P)) : Prop :=
  List.Forall₂ (fun a b => a.1 = b.1 ∧ a.2.SameCode b.2) cs ds

/-- Two ASIF modules with the same constraints up to `params` and `enabled`, the same actuation rows and dimensions and the
same attributes of the subclass. -/
structure SameASIF (s t : ASIFObj K S P X) : Prop where
  constraints : SameConstraints s.constraints t.constraints
  direct : SameDirect s.ext.direct t.ext.direct
  actuation : s.ext.actuation = t.ext.actuation
  controlDim : s.ext.controlDim = t.ext.controlDim
  numSlack : s.ext.numSlack = t.ext.numSlack
  extra : s.ext.extra = t.ext.extra

/-- The same control bounds. -/
def SameBounds {E : Type} (s t : CBObj K S P E) : Prop :=
  s.controlBoundsHigh = t.controlBoundsHigh ∧ s.controlBoundsLow = t.controlBoundsLow

/-- The same keys, `params` and `enabled` flags, with constraints that may differ in everything else. -/
def SameData (cs ds : Dict (Constraint K S P)) : Prop :=
  List.Forall₂ (fun a b => a.1 = b.1 ∧ a.2.params = b.2.params ∧ a.2.enabled = b.2.enabled) cs ds

/-- A backup controller without internal state. -/
def NoCtrlState (c : BackupController K S A) : Prop :=
  c.state = .none ∧ ∀ x dt u z, c.gen x dt .none = some (u, z) → z = .none

/-- What a user does with a module: call `filter_control`, or change attributes. -/
inductive Use (O K S : Type) where
  | call (inp : InputState S) (dt : K) (u : List K)
  | modify (m : O → O)

/-- The results of the calls of a history, and the object reached. -/
def useAll (call : σ → InputState S → K → List K → Except PyErr (List K) × σ) (modify : (O → O) → σ → σ) :
    List (Use O K S) → σ → List (Except PyErr (List K)) × σ
  | [], s => ([], s)
  | .call inp dt u :: l, s =>
    let r := call s inp dt u
    let q := useAll call modify l r.2
    (r.1 :: q.1, q.2)
  | .modify m :: l, s => useAll call modify l (modify m s)

/-- The answers of a module to a sequence of calls of `filter_control`. -/
def answers (fc : σ → InputState S → K → List K → Except PyErr (List K) × σ) :
    σ → List (S × K × List K) → List (Except PyErr (List K))
  | _, [] => []
  | s, (x, dt, u) :: l => (fc s (.array x) dt u).1 :: answers fc (fc s (.array x) dt u).2 l

end

end RTA
