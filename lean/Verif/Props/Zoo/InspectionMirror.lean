import Verif.Props.Zoo.InspectionSymmetry
import Verif.Props.Zoo.InspectionCascade
import Verif.Props.Zoo.InspectionHocbf
import Mathlib.Analysis.Calculus.Deriv.Add
import Mathlib.Analysis.Calculus.Deriv.Shift

/-!
C107 for the explicit inspection module: the reflection in the orbital plane.
-/
namespace RTA
open Real

/-- The signs of the reflection in the orbital plane. -/
def planeSigns : List ℝ := [1, 1, -1, 1, 1, -1, 1, 1]

/-- The gradient of a function that is symmetric under the reflection is reflected. -/
theorem partials_mirror {P : Type} {h : List ℝ → P → ℝ} {p : P}
    (hs : ∀ a b z d e w t q : ℝ, h [a, b, -z, d, e, -w, t, q] p = h [a, b, z, d, e, w, t, q] p) (a b z d e w t q : ℝ) :
    partials h [a, b, -z, d, e, -w, t, q] p = flip planeSigns (partials h [a, b, z, d, e, w, t, q] p) := by
  have h2 : deriv (fun s => h [a, b, s, d, e, -w, t, q] p) (-z) = -deriv (fun s => h [a, b, s, d, e, w, t, q] p) z := by
    have : (fun s => h [a, b, s, d, e, -w, t, q] p) = fun s => (fun r => h [a, b, r, d, e, w, t, q] p) (-s) := by
      funext s
      have := hs a b (-s) d e w t q
      rwa [neg_neg] at this
    rw [this, deriv_comp_neg (fun r => h [a, b, r, d, e, w, t, q] p), neg_neg]
  have h5 : deriv (fun s => h [a, b, -z, d, e, s, t, q] p) (-w) = -deriv (fun s => h [a, b, z, d, e, s, t, q] p) w := by
    have : (fun s => h [a, b, -z, d, e, s, t, q] p) = fun s => (fun r => h [a, b, z, d, e, r, t, q] p) (-s) := by
      funext s
      have := hs a b z d e (-s) t q
      rwa [neg_neg] at this
    rw [this, deriv_comp_neg (fun r => h [a, b, z, d, e, r, t, q] p), neg_neg]
  simp [partials, List.range_succ, flip, planeSigns, hs, h2, h5]

theorem flip_scale (sg v : List ℝ) (k : ℝ) : flip sg (vscale k v) = vscale k (flip sg v) := by
  unfold flip vscale
  rw [List.zipWith_map_right, List.map_zipWith]
  congr 1
  funext x y
  ring

theorem minGrad_mirror {F : ℝ → List ℝ → ℝ} (hs : ∀ r a b z d e w t q : ℝ, F r [a, b, -z, d, e, -w, t, q] = F r [a, b, z, d, e, w, t, q])
    (times : List ℝ) (a b z d e w t q : ℝ) :
    minGrad F times [a, b, -z, d, e, -w, t, q] = flip planeSigns (minGrad F times [a, b, z, d, e, w, t, q]) := by
  have hl : leastTimes F times [a, b, -z, d, e, -w, t, q] = leastTimes F times [a, b, z, d, e, w, t, q] := by
    unfold leastTimes
    simp only [hs]
  unfold minGrad
  rw [hl, flip_scale]
  congr 1
  induction leastTimes F times [a, b, z, d, e, w, t, q] with
  | nil => simp [flip, planeSigns, zeros, List.replicate]
  | cons r l ih =>
    rw [List.foldr_cons, List.foldr_cons, ih, flip_add, partials_mirror (h := fun y (_ : Unit) => F r y) (fun a b z d e w t q => hs r a b z d e w t q)]

/-- Every constraint of the module has the same value and the reflected gradient in the reflected state. -/
theorem inspC_mirror (c : InspConfig) (k : InspIx) (a b z d e w t q : ℝ) :
    (inspC c k).2.computeFn [a, b, -z, d, e, -w, t, q] (inspC c k).2.params = (inspC c k).2.computeFn [a, b, z, d, e, w, t, q] (inspC c k).2.params ∧
      (inspC c k).2.gradFn [a, b, -z, d, e, -w, t, q] (inspC c k).2.params =
        flip planeSigns ((inspC c k).2.gradFn [a, b, z, d, e, w, t, q] (inspC c k).2.params) := by
  have hv : ∀ a b z d e w t q : ℝ,
      (inspC c k).2.computeFn [a, b, -z, d, e, -w, t, q] (inspC c k).2.params = (inspC c k).2.computeFn [a, b, z, d, e, w, t, q] (inspC c k).2.params := by
    intro a b z d e w t q
    have h := dC_mirror c k a b z d e w t q
    rw [← insp_value_dC c k rfl, ← insp_value_dC c k rfl] at h
    exact add_right_cancel h
  refine ⟨hv a b z d e w t q, ?_⟩
  cases k
  case rel => exact partials_mirror hv a b z d e w t q
  case sun => exact partials_mirror hv a b z d e w t q
  case rmax => exact partials_mirror hv a b z d e w t q
  case coll => exact partials_mirror hv a b z d e w t q
  case psm =>
    refine minGrad_mirror (F := fun r y => psmFutureState c.n y r c.radius) ?_ _ a b z d e w t q
    intro r a b z d e w t q
    simp [psmFutureState, norm2, sqNorm, dot, comp]
    congr 2
    ring
  all_goals simp [inspC, inspLimit, Constraint.mk', stateAt, gradAt, flip, planeSigns, List.range_succ]

/-- **C107, inspection.** The explicit inspection module with its constraints and symmetric bounds, after any history, with any exact solver: in the situation
reflected in the orbital plane it answers with the reflected control, and it fails exactly if it fails in the original one. (A constraint value that is NaN
in the code is read as zero, in both situations alike.) -/
theorem C107_inspection {solver : Solver ℝ} (hspec : SolverSpec solver) {c : InspConfig} {U : ℝ} (hU : 0 ≤ U)
    {s : ASIFObj ℝ (List ℝ) InspParams Unit} (hs : ExplicitModule solver (inspectionF c.n c.sunVel) (fun _ => inspectionG c.m) s)
    (hc : s.constraints = inspConstraints c) (hdim : s.ext.controlDim = 3) (hdir : s.ext.direct = []) (hen : s.enable = true)
    (hlo : s.controlBoundsLow = some (.scalar (-U))) (hhi : s.controlBoundsHigh = some (.scalar U)) (a b z d e w t q dt dt' u1 u2 u3 : ℝ) :
    (explicitASIF solver (inspectionF c.n c.sunVel) (fun _ => inspectionG c.m) s (.array [a, b, -z, d, e, -w, t, q]) dt' [u1, u2, -u3]).1 =
      ((explicitASIF solver (inspectionF c.n c.sunVel) (fun _ => inspectionG c.m) s (.array [a, b, z, d, e, w, t, q]) dt [u1, u2, u3]).1).map
        (flip [1, 1, -1]) := by
  have hns : slackScales s.constraints = [] := by rw [hc]; exact insp_noslack c
  have hpos : ScalesPos s.constraints := by intro w hw; rw [hns] at hw; simp at hw
  have h := C107_mirror hspec hs hpos hen (insp_shapes hc hdim hdir (x := [a, b, z, d, e, w, t, q]) rfl)
    (insp_shapes hc hdim hdir (x := [a, b, -z, d, e, -w, t, q]) rfl) (sg := [1, 1, -1]) (ta := planeSigns) (by simp) (by simp [planeSigns]) hdim.symm
    (by simp [planeSigns, inspectionF, cwhA3, matVec]) (by simp [planeSigns, inspectionF, cwhA3, matVec, flip, dot, pySlice])
    (by
      intro v hv
      rw [hdim] at hv
      obtain ⟨p, q, r, rfl⟩ := List.length_eq_three.1 hv
      simp [inspectionG, cwhB3, matVec, flip, dot, planeSigns])
    (by
      intro kc hkc _
      rw [hc, inspConstraints_eq] at hkc
      obtain ⟨k, -, rfl⟩ := List.mem_map.1 hkc
      exact inspC_mirror c k a b z d e w t q)
    (by rw [hdir]; simp) (by rw [hlo, hhi]; exact symmetric_scalar _ U) (by rw [hlo, hhi]; exact consistent_scalar hU) dt dt' (u := [u1, u2, u3])
    hdim.symm
  have e : flip [1, 1, -1] [u1, u2, u3] = [u1, u2, -u3] := by simp [flip]
  rwa [e] at h

/-- An instance: the module with the default parameters, 100 m ahead of the chief and 50 m above or below its orbital plane. -/
example {solver : Solver ℝ} (hspec : SolverSpec solver) (exc : Bool) (dt u : ℝ) : ∃ s,
    inspASIF inspDefault (some (.scalar 1)) (some (.scalar (-1))) (1 / 100) exc = .ok s ∧
    (explicitASIF solver (inspectionF inspDefault.n inspDefault.sunVel) (fun _ => inspectionG inspDefault.m) s
        (.array [0, 100, -50, 0, 0, 0, 0, 0]) dt [0, 0, -u]).1 =
      ((explicitASIF solver (inspectionF inspDefault.n inspDefault.sunVel) (fun _ => inspectionG inspDefault.m) s
        (.array [0, 100, 50, 0, 0, 0, 0, 0]) dt [0, 0, u]).1).map (flip [1, 1, -1]) := by
  obtain ⟨s, h⟩ := insp_init_ok inspDefault 1 (1 / 100) exc
  obtain ⟨h1, h2, h3, h4, h5, h6, -⟩ := insp_init h
  have := C107_inspection hspec zero_le_one (insp_module h) h1 h2 h3 h4 h5 h6 0 100 50 0 0 0 0 0 dt dt 0 0 u
  rw [neg_zero] at this
  exact ⟨s, h, this⟩

/-! ### The module with the high order constraint -/

theorem drift_mirror (c : InspConfig) (a b z d e w t q : ℝ) :
    inspectionF c.n c.sunVel [a, b, -z, d, e, -w, t, q] = flip planeSigns (inspectionF c.n c.sunVel [a, b, z, d, e, w, t, q]) := by
  simp [planeSigns, inspectionF, cwhA3, matVec, flip, dot, pySlice]

theorem hocC_mirror (c : InspConfig) (k : InspIx) (a b z d e w t q : ℝ) :
    (hocC c k).2.computeFn [a, b, -z, d, e, -w, t, q] (hocC c k).2.params = (hocC c k).2.computeFn [a, b, z, d, e, w, t, q] (hocC c k).2.params ∧
      (hocC c k).2.gradFn [a, b, -z, d, e, -w, t, q] (hocC c k).2.params =
        flip planeSigns ((hocC c k).2.gradFn [a, b, z, d, e, w, t, q] (hocC c k).2.params) := by
  by_cases hk : k = .coll
  · subst hk
    have hbase : ∀ a b z d e w t q : ℝ, (inspHocbfBase c.radius).computeFn [a, b, -z, d, e, -w, t, q] (inspHocbfBase c.radius).params =
        (inspHocbfBase c.radius).computeFn [a, b, z, d, e, w, t, q] (inspHocbfBase c.radius).params := by
      intro a b z d e w t q
      show norm2 [a, b, -z] - _ = norm2 [a, b, z] - _
      rw [norm_mirror]
    have hv : ∀ a b z d e w t q : ℝ, (hocK c).computeFn [a, b, -z, d, e, -w, t, q] (hocK c).params =
        (hocK c).computeFn [a, b, z, d, e, w, t, q] (hocK c).params := by
      intro a b z d e w t q
      have h1 : ∀ x, (hocK c).computeFn x (hocK c).params =
          dot (partials (inspHocbfBase c.radius).computeFn x (inspHocbfBase c.radius).params) (inspectionF c.n c.sunVel x) +
            polyAlpha [0, 1 / 10, 0, 1 / 10] ((inspHocbfBase c.radius).computeFn x (inspHocbfBase c.radius).params + 0) + 0 := fun x => rfl
      rw [h1, h1, partials_mirror hbase, drift_mirror, dot_flip (by simp [planeSigns]) (by rw [partials_length]; simp [planeSigns]), hbase]
    exact ⟨hv a b z d e w t q, partials_mirror hv a b z d e w t q⟩
  · rw [hocC_ne hk]
    exact inspC_mirror c k a b z d e w t q

/-- **C107, inspection with the high order constraint.** The same for the module constructed with `use_hocbf = True`. -/
theorem C107_inspection_hocbf {solver : Solver ℝ} (hspec : SolverSpec solver) {c : InspConfig} {U : ℝ} (hU : 0 ≤ U)
    {s : ASIFObj ℝ (List ℝ) InspParams Unit} (hs : ExplicitModule solver (inspectionF c.n c.sunVel) (fun _ => inspectionG c.m) s)
    (hc : inspHocbfConstraints c = .ok s.constraints) (hdim : s.ext.controlDim = 3) (hdir : s.ext.direct = []) (hen : s.enable = true)
    (hlo : s.controlBoundsLow = some (.scalar (-U))) (hhi : s.controlBoundsHigh = some (.scalar U)) (a b z d e w t q dt dt' u1 u2 u3 : ℝ) :
    (explicitASIF solver (inspectionF c.n c.sunVel) (fun _ => inspectionG c.m) s (.array [a, b, -z, d, e, -w, t, q]) dt' [u1, u2, -u3]).1 =
      ((explicitASIF solver (inspectionF c.n c.sunVel) (fun _ => inspectionG c.m) s (.array [a, b, z, d, e, w, t, q]) dt [u1, u2, u3]).1).map
        (flip [1, 1, -1]) := by
  have hcs := hc
  rw [hocConstraints_eq, Except.ok.injEq] at hcs
  have hns : slackScales s.constraints = [] := by rw [← hcs]; rfl
  have hpos : ScalesPos s.constraints := by intro w hw; rw [hns] at hw; simp at hw
  have h := C107_mirror hspec hs hpos hen (hoc_shapes hc hdim hdir (x := [a, b, z, d, e, w, t, q]) rfl)
    (hoc_shapes hc hdim hdir (x := [a, b, -z, d, e, -w, t, q]) rfl) (sg := [1, 1, -1]) (ta := planeSigns) (by simp) (by simp [planeSigns]) hdim.symm
    (by simp [planeSigns, inspectionF, cwhA3, matVec]) (drift_mirror c a b z d e w t q)
    (by
      intro v hv
      rw [hdim] at hv
      obtain ⟨p, q, r, rfl⟩ := List.length_eq_three.1 hv
      simp [inspectionG, cwhB3, matVec, flip, dot, planeSigns])
    (by
      intro kc hkc _
      rw [← hcs] at hkc
      obtain ⟨k, -, rfl⟩ := List.mem_map.1 hkc
      exact hocC_mirror c k a b z d e w t q)
    (by rw [hdir]; simp) (by rw [hlo, hhi]; exact symmetric_scalar _ U) (by rw [hlo, hhi]; exact consistent_scalar hU) dt dt' (u := [u1, u2, u3])
    hdim.symm
  have e : flip [1, 1, -1] [u1, u2, u3] = [u1, u2, -u3] := by simp [flip]
  rwa [e] at h

/-- An instance: the module with the default parameters, at rest 100 m ahead of the chief and 50 m above or below its orbital plane. -/
example {solver : Solver ℝ} (hspec : SolverSpec solver) (exc : Bool) (dt u : ℝ) : ∃ s,
    inspHocbfASIF inspDefault (some (.scalar 1)) (some (.scalar (-1))) (1 / 100) exc = .ok s ∧
    (explicitASIF solver (inspectionF inspDefault.n inspDefault.sunVel) (fun _ => inspectionG inspDefault.m) s
        (.array [0, 100, -50, 0, 0, 0, 0, 0]) dt [0, 0, -u]).1 =
      ((explicitASIF solver (inspectionF inspDefault.n inspDefault.sunVel) (fun _ => inspectionG inspDefault.m) s
        (.array [0, 100, 50, 0, 0, 0, 0, 0]) dt [0, 0, u]).1).map (flip [1, 1, -1]) := by
  obtain ⟨s, h⟩ := hoc_init_ok inspDefault 1 (1 / 100) exc
  obtain ⟨h1, h2, h3, h4, h5, h6, -⟩ := hoc_init h
  have := C107_inspection_hocbf hspec zero_le_one (hoc_module h) h1 h2 h3 h4 h5 h6 0 100 50 0 0 0 0 0 dt dt 0 0 u
  rw [neg_zero] at this
  exact ⟨s, h, this⟩

end RTA
