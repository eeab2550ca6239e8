import Verif.Model.Cascade

/-!
Specification vocabulary for cascades.
-/
namespace RTA
variable {K M I : Type}

/-- `cs` are the intermediate controls of feeding a control through `stages`: every stage is called with the same state and
step size on the control its predecessor returned, succeeds, and becomes the corresponding element of `stages'`. -/
structure Fed (filter : M → I → K → List K → Except PyErr (List K) × M) (inp : I) (dt : K) (stages stages' : List M)
    (cs : List (List K)) : Prop where
  controls : cs.length = stages.length + 1
  stagesLen : stages'.length = stages.length
  step : ∀ i m m' c c', stages[i]? = some m → stages'[i]? = some m' → cs[i]? = some c → cs[i + 1]? = some c' →
    filter m inp dt c = (.ok c', m')

end RTA
