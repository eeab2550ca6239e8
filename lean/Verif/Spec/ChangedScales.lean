import Verif.Spec.ChangedSet

/-!
Vocabulary for the part of C116 about `slack_priority_scale`: the user also changes the scales of the constraints of a module in
use, gives scales to constraints that had none and takes them away.
-/
namespace RTA
variable {K S P E X : Type}

/-- The constraints with the scales of the list `W` instead of their own, handed out in order to those that have a scale. When the
list runs out, the remaining ones have no scale. -/
def reslack (W : List K) : Dict (Constraint K S P) → Dict (Constraint K S P)
  | [] => []
  | (q, c) :: cs =>
    match c.slackPriorityScale with
    | none => (q, c) :: reslack W cs
    | some _ => (q, { c with slackPriorityScale := W.head? }) :: reslack W.tail cs

/-- Like `ChangedUse`, but with any change of the scales as well. -/
inductive RescaledUse [Add K] [Mul K] [Neg K] [Sub K] [Zero K] [One K] [OfNat K 10] [Max K] [Min K] [HasSqrt K] [LT K]
    [DecidableLT K] (solver : Solver K) (f : S → List K) (g : S → List (List K)) (m : ASIFObj K S P X) :
    ASIFObj K S P X → Prop
  | start : RescaledUse solver f g m m
  | change {s : ASIFObj K S P X} (cs : Dict (Constraint K S P)) : RescaledUse solver f g m s → (dictKeys cs).Nodup →
      RescaledUse solver f g m (setConstraints cs s)
  | use {s : ASIFObj K S P X} (op : AOp K S P) : RescaledUse solver f g m s → RescaledUse solver f g m (stepE solver f g s op).2

end RTA
