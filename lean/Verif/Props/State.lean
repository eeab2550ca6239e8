import Verif.Model.State
import Verif.Props.Zoo.Docking
import Verif.Model.Zoo.Inspection
import Verif.Model.Zoo.Integrator

/-!
C78: the state wrappers. Reading works for complete state vectors; writing does not.
-/
namespace RTA

section
variable {K P E : Type}

/-- Reading component `i` of a long enough vector. -/
theorem jaxGet_eq (v : List K) (i : Nat) (h : i < v.length) : jaxGet v i = .ok v[i] := by
  unfold jaxGet jaxIndex
  have h1 : ¬ ((i : Int) < 0) := by omega
  have h2 : (i : Int) < (v.length : Int) := by omega
  simp only [h1, if_false, h2, if_true, Int.toNat_natCast, List.getElem?_eq_getElem h]

/-- **C78, reading, 1-D**. -/
theorem C78_read_1d (x a : K) : (StateWrapper.init .integrator1d [x, a]).get "x" = .ok x ∧ (StateWrapper.init .integrator1d [x, a]).get "x_dot" = .ok a ∧
    (StateWrapper.init .integrator1d [x, a]).size = 2 := ⟨rfl, rfl, rfl⟩

/-- **C78, reading, 2-D docking**. -/
theorem C78_read_2d (x y a b : K) : (StateWrapper.init .docking2d [x, y, a, b]).get "x" = .ok x ∧ (StateWrapper.init .docking2d [x, y, a, b]).get "y" = .ok y ∧
    (StateWrapper.init .docking2d [x, y, a, b]).get "x_dot" = .ok a ∧ (StateWrapper.init .docking2d [x, y, a, b]).get "y_dot" = .ok b ∧
    (StateWrapper.init .docking2d [x, y, a, b]).size = 4 := ⟨rfl, rfl, rfl, rfl, rfl⟩

/-- **C78, reading, 3-D docking**. -/
theorem C78_read_3d (x y z a b c : K) : let w := StateWrapper.init .docking3d [x, y, z, a, b, c]
    w.get "x" = .ok x ∧ w.get "y" = .ok y ∧ w.get "z" = .ok z ∧ w.get "x_dot" = .ok a ∧ w.get "y_dot" = .ok b ∧ w.get "z_dot" = .ok c ∧ w.size = 6 :=
  ⟨rfl, rfl, rfl, rfl, rfl, rfl, rfl⟩

/-- **C78, reading, inspection**. -/
theorem C78_read_inspection (x y z a b c sun dv : K) : let w := StateWrapper.init .inspection3d [x, y, z, a, b, c, sun, dv]
    w.get "x" = .ok x ∧ w.get "y" = .ok y ∧ w.get "z" = .ok z ∧ w.get "x_dot" = .ok a ∧ w.get "y_dot" = .ok b ∧ w.get "z_dot" = .ok c ∧
      w.get "sun_angle" = .ok sun ∧ w.get "delta_v" = .ok dv ∧ w.size = 8 :=
  ⟨rfl, rfl, rfl, rfl, rfl, rfl, rfl, rfl, rfl⟩

/-- **C78, a vector with too few components**: reading a missing component of a non-empty vector does not raise, it returns the last one. -/
theorem C78_refuted_short (w : StateWrapper K) (hne : w.vector ≠ []) (name : String) (i : Nat) (hname : w.cls.fields.lookup name = some i)
    (hi : w.vector.length ≤ i) : w.get name = .ok (w.vector.getLast hne) := by
  unfold StateWrapper.get
  rw [hname]
  simp only
  unfold jaxGet jaxIndex
  have h0 : 0 < w.vector.length := List.length_pos_of_ne_nil hne
  have h1 : ¬ ((i : Int) < 0) := by omega
  have h2 : ¬ (i : Int) < (w.vector.length : Int) := by omega
  simp only [h1, if_false, h2]
  rw [List.getElem?_eq_getElem (by omega), List.getLast_eq_getElem]

/-- **C78, writing**: every assignment to a property of any wrapper raises `TypeError` and changes nothing. -/
theorem C78_refuted_write (w : StateWrapper K) (name : String) (hname : (w.cls.fields.lookup name).isSome = true) (val : K) :
    ∃ msg, w.set name val = (.error (.typeError msg), w) := by
  obtain ⟨i, hi⟩ := Option.isSome_iff_exists.1 hname
  refine ⟨"JAX arrays are immutable and do not support in-place item assignment.", ?_⟩
  unfold StateWrapper.set
  rw [hi]
  rfl

/-- **C78, as an input**: an enabled module with the default `_get_state` raises `AssertionError` for a wrapper, for every step and desired
control, although its documentation and the message admit RTA states. -/
theorem C78_refuted_input [Max K] [Min K] (filter : CBObj K (List K) P E → List K → K → List K → Except PyErr (List K) × CBObj K (List K) P E)
    (self : CBObj K (List K) P E) (hen : self.enable = true) (w : StateWrapper K) (dt : K) (u : List K) :
    ∃ msg, (filterControlCB getStateDefault filter self w.asInput dt u).1 = .error (.assertionError msg) := by
  refine ⟨"input_state must be an RTAState or numpy array.", ?_⟩
  unfold filterControlCB filterControl
  simp only [modifyBase, HasBase.get, HasBase.set, hen, if_true]
  rfl

end

/-- A 2-D vector in the 3-D wrapper: `z_dot` reads `y_dot`'s place. -/
example : (StateWrapper.init .docking3d [1, 2, 3, 4] : StateWrapper ℚ).get "z_dot" = .ok 4 :=
  C78_refuted_short _ (by simp [StateWrapper.init]) "z_dot" 5 rfl (by simp [StateWrapper.init])

example : ∃ msg, ((StateWrapper.init .docking2d [1, 2, 3, 4] : StateWrapper ℚ).set "x" 7).1 = .error (.typeError msg) := by
  obtain ⟨msg, h⟩ := C78_refuted_write (StateWrapper.init .docking2d [1, 2, 3, 4] : StateWrapper ℚ) "x" rfl 7
  exact ⟨msg, by rw [h]⟩

/-- **C78, the names fit the dynamics**, in the plane: the rates of change that the module's dynamics assign to `x`, `y` are what the wrapper of
the state reads as `x_dot`, `y_dot`; and the velocity limits are about these. -/
theorem C78_names_2d (n m x y a b u1 u2 L : ℝ) :
    let w := StateWrapper.init .docking2d [x, y, a, b]
    let rate := StateWrapper.init .docking2d (vadd (dockF2 n [x, y, a, b]) (matVec (dockG2 m [x, y, a, b]) [u1, u2]))
    rate.get "x" = w.get "x_dot" ∧ rate.get "y" = w.get "y_dot" ∧
      (∀ v, w.get "x_dot" = .ok v → (dockLimit L 2).value w.vector = L ^ 2 - v ^ 2) ∧
      ∀ v, w.get "y_dot" = .ok v → (dockLimit L 3).value w.vector = L ^ 2 - v ^ 2 := by
  simp only [field2_eq]
  refine ⟨rfl, rfl, ?_, ?_⟩
  · intro v hv
    have : (.ok a : Except PyErr ℝ) = .ok v := hv
    cases this
    exact limit_value _ _ _
  · intro v hv
    have : (.ok b : Except PyErr ℝ) = .ok v := hv
    cases this
    exact limit_value _ _ _

/-- The same in space. -/
theorem C78_names_3d (n m x y z a b c u1 u2 u3 L : ℝ) :
    let w := StateWrapper.init .docking3d [x, y, z, a, b, c]
    let rate := StateWrapper.init .docking3d (vadd (dockF3 n [x, y, z, a, b, c]) (matVec (dockG3 m [x, y, z, a, b, c]) [u1, u2, u3]))
    rate.get "x" = w.get "x_dot" ∧ rate.get "y" = w.get "y_dot" ∧ rate.get "z" = w.get "z_dot" ∧
      (∀ v, w.get "x_dot" = .ok v → (dockLimit L 3).value w.vector = L ^ 2 - v ^ 2) ∧
      (∀ v, w.get "y_dot" = .ok v → (dockLimit L 4).value w.vector = L ^ 2 - v ^ 2) ∧
      ∀ v, w.get "z_dot" = .ok v → (dockLimit L 5).value w.vector = L ^ 2 - v ^ 2 := by
  simp only [field3_eq]
  refine ⟨rfl, rfl, rfl, ?_, ?_, ?_⟩
  · intro v hv
    have : (.ok a : Except PyErr ℝ) = .ok v := hv
    cases this
    exact limit_value _ _ _
  · intro v hv
    have : (.ok b : Except PyErr ℝ) = .ok v := hv
    cases this
    exact limit_value _ _ _
  · intro v hv
    have : (.ok c : Except PyErr ℝ) = .ok v := hv
    cases this
    exact limit_value _ _ _

/-- The same for the inspection problem: also, `sun_angle` turns with the sun velocity and `delta_v` stays. -/
theorem C78_names_inspection (n m sunVel x y z a b c sun dv u1 u2 u3 : ℝ) :
    let w := StateWrapper.init .inspection3d [x, y, z, a, b, c, sun, dv]
    let rate := StateWrapper.init .inspection3d
      (vadd (inspectionF n sunVel [x, y, z, a, b, c, sun, dv]) (matVec (inspectionG m) [u1, u2, u3]))
    rate.get "x" = w.get "x_dot" ∧ rate.get "y" = w.get "y_dot" ∧ rate.get "z" = w.get "z_dot" ∧
      rate.get "sun_angle" = .ok sunVel ∧ rate.get "delta_v" = .ok 0 := by
  have h : vadd (inspectionF n sunVel [x, y, z, a, b, c, sun, dv]) (matVec (inspectionG m) [u1, u2, u3]) =
      vadd (dockF3 n [x, y, z, a, b, c]) (matVec (dockG3 m []) [u1, u2, u3]) ++ [sunVel, 0] := by
    simp [inspectionF, inspectionG, dockF3, dockG3, cwhA3, cwhB3, matVec, vadd, dot, pySlice]
  simp only [h, field3_eq, List.cons_append, List.nil_append]
  exact ⟨rfl, rfl, rfl, rfl, rfl⟩

end RTA
