import Verif.Model.JitHocbf
import Verif.Spec.Jit

/-!
C86 for constraints inside a `HOCBFConstraint`, in a module with `jit_enable=False`. What the user changes between calls is the
module object and what the `HOCBFConstraint` is made of.
-/
namespace RTA

section
variable {K S P X : Type}

/-- What the user does to the module as it runs. -/
def modifyHocbf (m : ASIFObj K S P X × HocbfSrc K S P → ASIFObj K S P X × HocbfSrc K S P) (j : HocbfModule K S P X) :
    HocbfModule K S P X :=
  { j with obj := (m (j.obj, j.src)).1, src := (m (j.obj, j.src)).2 }

/-- A call of the module that reads everything anew. -/
def callHocbf [Field K] [Max K] [Min K] [HasSqrt K] [LT K] [DecidableLT K] (solver : Solver K)
    (ad : (S → P → K) → S → P → List K) (key : String) (f : S → List K) (g : S → List (List K))
    (s : ASIFObj K S P X × HocbfSrc K S P) (inp : InputState S) (dt : K) (u : List K) :
    Except PyErr (List K) × (ASIFObj K S P X × HocbfSrc K S P) :=
  ((explicitASIF solver f g (plugHocbf ad key s.2 s.1) inp dt u).1, (explicitASIF solver f g (plugHocbf ad key s.2 s.1) inp dt u).2, s.2)

/-- **C86 fails**, constraints inside a `HOCBFConstraint`, also with `jit_enable=False`. Once the module has answered a call,
the wrapped constraint, the strengthening function and the state transition system may be replaced by any others: the answers
of all later calls stay what they would have been without the change, after any history. -/
theorem C86_frozen_hocbf [Field K] [Max K] [Min K] [HasSqrt K] [LT K] [DecidableLT K] (solver : Solver K)
    (ad : (S → P → K) → S → P → List K) (key : String) (f : S → List K) (g : S → List (List K)) (j : HocbfModule K S P X)
    (hen : j.obj.enable = true) (inp : InputState S) (dt : K) (u v : List K)
    (h : (explicitASIFHocbf solver ad key f g j inp dt u).1 = .ok v) (l : List (Use (ASIFObj K S P X × HocbfSrc K S P) K S))
    (j2 : HocbfModule K S P X)
    (hj2 : j2 = (useAll (explicitASIFHocbf solver ad key f g) modifyHocbf l (explicitASIFHocbf solver ad key f g j inp dt u).2).2)
    (q : HocbfSrc K S P) (inp' : InputState S) (dt' : K) (u' : List K) :
    (explicitASIFHocbf solver ad key f g { j2 with src := q } inp' dt' u').1 = (explicitASIFHocbf solver ad key f g j2 inp' dt' u').1 := by
  have step : ∀ (j : HocbfModule K S P X) (inp : InputState S) (dt : K) (u : List K), j.traced.isSome = true →
      (explicitASIFHocbf solver ad key f g j inp dt u).2.traced.isSome = true := by
    intro j inp dt u hj
    simp only [explicitASIFHocbf]
    rcases explicitASIF solver f g (plugHocbf ad key (j.traced.getD j.src) j.obj) inp dt u with ⟨r | r, o⟩
    · exact hj
    · cases hb : j.obj.enable <;> simp [hj]
  have hist : ∀ (l : List (Use (ASIFObj K S P X × HocbfSrc K S P) K S)) (j : HocbfModule K S P X), j.traced.isSome = true →
      (useAll (explicitASIFHocbf solver ad key f g) modifyHocbf l j).2.traced.isSome = true := by
    intro l
    induction l with
    | nil => exact fun _ h => h
    | cons a l ih =>
      intro j hj
      cases a with
      | call inp dt u => exact ih _ (step j inp dt u hj)
      | modify m => exact ih (modifyHocbf m j) hj
  have h1 : (explicitASIFHocbf solver ad key f g j inp dt u).2.traced.isSome = true := by
    revert h
    simp only [explicitASIFHocbf]
    rcases explicitASIF solver f g (plugHocbf ad key (j.traced.getD j.src) j.obj) inp dt u with ⟨r | r, o⟩
    · intro h; cases h
    · intro _; simp [hen]
  have h2 : j2.traced.isSome = true := by rw [hj2]; exact hist l _ h1
  obtain ⟨t, ht⟩ := Option.isSome_iff_exists.mp h2
  simp only [explicitASIFHocbf, ht, Option.getD_some]
  rcases explicitASIF solver f g (plugHocbf ad key t j2.obj) inp' dt' u' with ⟨r | r, o⟩ <;> rfl

end

/-! ### Witnesses -/

/-- The gradient of an affine function of a state with two components. -/
def gradAffine (φ : List Rat → Unit → Rat) (_ : List Rat) (p : Unit) : List Rat := [φ [1, 0] p - φ [0, 0] p, φ [0, 1] p - φ [0, 0] p]

/-- `position ≥ 0` for a double integrator `[position, velocity]`, of relative degree 2. -/
def jitPosition : Constraint Rat (List Rat) Unit :=
  { computeFn := fun x _ => x.getD 0 0, phiFn := fun x _ => x.getD 0 0, gradFn := fun _ _ => [1, 0], alpha := some fun h => h
    alphaNeg := none, bias := 0, biasNegative := 0, slackPriorityScale := none, params := (), enabled := true, subsample := {} }

/-- The `HOCBFConstraint` of `jitPosition`. -/
def jitHocbfSrc : HocbfSrc Rat (List Rat) Unit := { initial := jitPosition, relativeDegree := 2, f := fun x => [x.getD 1 0, 0], alpha := fun h => h }

/-- An ASIF module with that constraint. -/
def jitHocbfObj : ASIFObj Rat (List Rat) Unit Unit :=
  { toBase := Base.init none none, constraints := [("hocbf", jitPosition)], params := [("hocbf", ())]
    constraintEnabled := [("hocbf", true)], constraintValues := [], isStaleConstraints := true
    ext := { epsilon := 0, controlDim := 1, solverException := false, numSlack := 0, objWeight := [1], constraintNames := []
             actuation := [], direct := [], directParams := [], directEnabled := [], causing := none, extra := () } }

/-- For one control and one row `w u ≥ b`: the desired control, or the end of the half-line. -/
def hocbfSolver : Solver Rat := fun _ a rows =>
  match a, rows with
  | [u], [r] => if u * r.w.sum ≥ r.b then .solved [u] [] else .solved [r.b / r.w.sum] []
  | a, _ => .solved a []

/-- The user sets the bias of the wrapped constraint to `-1`. -/
def setInnerBias (s : ASIFObj Rat (List Rat) Unit Unit × HocbfSrc Rat (List Rat) Unit) :
    ASIFObj Rat (List Rat) Unit Unit × HocbfSrc Rat (List Rat) Unit := (s.1, { s.2 with initial := { s.2.initial with bias := -1 } })

/-- **C86 fails** with `jit_enable=False`: at position 1 and velocity 0 the module answers the desired control `-10` by `-1`. After
the bias of the wrapped constraint is set to `-1` the answer must be `0`; the module goes on with `-1`. -/
theorem C86_refuted_hocbf :
    letI : HasSqrt Rat := ⟨fun x => x⟩
    let f : List Rat → List Rat := fun x => [x.getD 1 0, 0]
    let g : List Rat → List (List Rat) := fun _ => [[0], [1]]
    let h : List (Use (ASIFObj Rat (List Rat) Unit Unit × HocbfSrc Rat (List Rat) Unit) Rat (List Rat)) :=
      [.call (.array [1, 0]) 1 [-10], .modify setInnerBias, .call (.array [1, 0]) 1 [-10]]
    (useAll (explicitASIFHocbf hocbfSolver gradAffine "hocbf" f g) modifyHocbf h ⟨jitHocbfObj, jitHocbfSrc, none⟩).1 =
        [.ok [-1], .ok [-1]] ∧
      (useAll (callHocbf hocbfSolver gradAffine "hocbf" f g) (fun m s => m s) h (jitHocbfObj, jitHocbfSrc)).1 =
        [.ok [-1], .ok [0]] := by
  refine ⟨by decide +kernel, by decide +kernel⟩

/-- The hypotheses of `C86_frozen_hocbf`. -/
example :
    letI : HasSqrt Rat := ⟨fun x => x⟩
    jitHocbfObj.enable = true ∧
      (explicitASIFHocbf hocbfSolver gradAffine "hocbf" (fun x => [x.getD 1 0, 0]) (fun _ => [[0], [1]])
        ⟨jitHocbfObj, jitHocbfSrc, none⟩ (.array [1, 0]) 1 [-10]).1 = .ok [-1] := by
  refine ⟨rfl, by decide +kernel⟩

end RTA
