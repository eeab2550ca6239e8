import Verif.Spec.Zoo.Combined

/-!
Vocabulary for numbering the deputies of a fleet differently.
-/
namespace RTA

/-- What belongs to the deputies, such as their positions and velocities or their controls, one deputy after the other. -/
def fleet {N : Nat} (b : Fin N → List ℝ) : List ℝ := (List.ofFn b).flatten

end RTA
