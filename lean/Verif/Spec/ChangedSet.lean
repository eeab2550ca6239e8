import Verif.Spec.ASIFHistory
import Verif.Spec.ImplicitHistory
import Verif.Model.DiscreteStored

/-!
Vocabulary for C116: the user adds constraints to, removes them from or replaces the dictionary `module.constraints`
(`rta/base.py:193`) of a module in use.
-/
namespace RTA
variable {K S P E X : Type}

/-- The module after entries of `module.constraints` were added, removed or replaced. -/
def setConstraints (cs : Dict (Constraint K S P)) (s : CBObj K S P E) : CBObj K S P E := { s with constraints := cs }

/-- `s` is what the explicit module `m` became by any use of it, in which the dictionary of constraints was also changed any
number of times, always to a dictionary with the same slack scales (most often: only constraints without slack were added or
removed). -/
inductive ChangedUse [Add K] [Mul K] [Neg K] [Sub K] [Zero K] [One K] [OfNat K 10] [Max K] [Min K] [HasSqrt K] [LT K]
    [DecidableLT K] (solver : Solver K) (f : S → List K) (g : S → List (List K)) (m : ASIFObj K S P X) :
    ASIFObj K S P X → Prop
  | start : ChangedUse solver f g m m
  | change {s : ASIFObj K S P X} (cs : Dict (Constraint K S P)) : ChangedUse solver f g m s → (dictKeys cs).Nodup →
      slackScales cs = slackScales s.constraints → ChangedUse solver f g m (setConstraints cs s)
  | use {s : ASIFObj K S P X} (op : AOp K S P) : ChangedUse solver f g m s → ChangedUse solver f g m (stepE solver f g s op).2

/-- The same for an implicit module. -/
inductive ChangedUseI {A : Type} [Field K] [LinearOrder K] [FloorRing K] [HasSqrt K] (solver : Solver K) (E : ImplicitEnv K)
    (m : ImplicitObj K P A) : ImplicitObj K P A → Prop
  | start : ChangedUseI solver E m m
  | change {s : ImplicitObj K P A} (cs : Dict (Constraint K (List K) P)) : ChangedUseI solver E m s → (dictKeys cs).Nodup →
      slackScales cs = slackScales s.constraints → ChangedUseI solver E m (setConstraints cs s)
  | use {s : ImplicitObj K P A} (op : AOp K (List K) P) : ChangedUseI solver E m s → ChangedUseI solver E m (stepI solver E s op).2

/-- A constraint dictionary that, under the names of `old`, has constraints with the same params and flags. Everything else
may differ: the functions of the constraints, missing and additional names. -/
def SameSettings (old cs : Dict (Constraint K S P)) : Prop :=
  ∀ kc ∈ cs, ∀ c, dictGet old kc.1 = some c → kc.2.params = c.params ∧ kc.2.enabled = c.enabled

/-- The states a discrete module `m` can reach by calls, switching on and off, and changes of its dictionary `constraints`
that keep the params and flags of the constraints it was constructed with. -/
inductive ChangedUseD [Field K] [LinearOrder K] [HasSqrt K] (solver : NLPSolver K) (next : S → K → List K → S)
    (m : DiscObj K S P) : DiscObj K S P → Prop
  | start : ChangedUseD solver next m m
  | change {s : DiscObj K S P} (cs : Dict (Constraint K S P)) : ChangedUseD solver next m s → SameSettings m.constraints cs →
      ChangedUseD solver next m (setConstraints cs s)
  | call {s : DiscObj K S P} (i : InputState S) (dt : K) (u : List K) : ChangedUseD solver next m s →
      ChangedUseD solver next m (discreteStored solver next (storeCbfs 0 (m.constraints.map (·.2))) s i dt u).2
  | setEnable {s : DiscObj K S P} (b : Bool) : ChangedUseD solver next m s →
      ChangedUseD solver next m { s with toBase := { s.toBase with enable := b } }

end RTA
