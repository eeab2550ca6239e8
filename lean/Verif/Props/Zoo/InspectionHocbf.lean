import Verif.Lemmas.Zoo.InspectionHocbf
import Verif.Props.Zoo.InspectionModule

/-!
The explicit optimisation module of the 1v1 inspection problem with `use_hocbf = True`.
-/
namespace RTA
open Set Real Filter Topology

/-! ### Construction -/

/-- What every constructed module looks like. -/
theorem hoc_init {c : InspConfig} {epsilon : ℝ} {high low : Option (Bound ℝ)} {exc : Bool} {s : ASIFObj ℝ (List ℝ) InspParams Unit}
    (h : inspHocbfASIF c high low epsilon exc = .ok s) :
    inspHocbfConstraints c = .ok s.constraints ∧ s.ext.controlDim = 3 ∧ s.ext.direct = [] ∧
      s.enable = true ∧ s.controlBoundsLow = low ∧ s.controlBoundsHigh = high ∧ s.ext.solverException = exc ∧ s.ext.epsilon = epsilon := by
  unfold inspHocbfASIF asifInit CBObj.init at h
  rw [hocConstraints_eq] at h ⊢
  simp only at h
  have e : selectConstraints (inspAll.map (hocC c)) none = .ok (inspAll.map (hocC c)) := rfl
  rw [e] at h
  simp only at h
  split at h
  · cases h
  · simp only [Except.ok.injEq] at h
    subst h
    exact ⟨rfl, rfl, rfl, rfl, rfl, rfl, rfl, rfl⟩

/-- With scalar bounds construction succeeds. -/
theorem hoc_init_ok (c : InspConfig) (U epsilon : ℝ) (exc : Bool) :
    ∃ s, inspHocbfASIF c (some (.scalar U)) (some (.scalar (-U))) epsilon exc = .ok s := ⟨_, rfl⟩

theorem hoc_module {solver : Solver ℝ} {c : InspConfig} {epsilon : ℝ} {high low : Option (Bound ℝ)} {exc : Bool}
    {s : ASIFObj ℝ (List ℝ) InspParams Unit} (h : inspHocbfASIF c high low epsilon exc = .ok s) :
    ExplicitModule solver (inspectionF c.n c.sunVel) (fun _ => inspectionG c.m) s := by
  have h' : asifInit high low (inspAll.map (hocC c)) none epsilon 3 exc [] () = .ok s := h
  exact ⟨_, _, _, _, _, _, _, _, _, _, [], by simp [dictKeys, inspAll, hocC, inspC], by simp [dictKeys], h', rfl⟩

theorem hoc_gradFn_length (c : InspConfig) (k : InspIx) (x : List ℝ) :
    ((hocC c k).2.gradFn x (hocC c k).2.params).length = x.length := by
  by_cases hk : k = .coll
  · subst hk
    exact partials_length _ _ _
  · rw [hocC_ne hk]
    exact insp_gradFn_length c k x

theorem hoc_shapes {c : InspConfig} {s : ASIFObj ℝ (List ℝ) InspParams Unit} (hc : inspHocbfConstraints c = .ok s.constraints)
    (hdim : s.ext.controlDim = 3) (hdir : s.ext.direct = []) {x : List ℝ} (hx : x.length = 8) :
    ShapesOK (inspectionF c.n c.sunVel) (fun _ => inspectionG c.m) s x := by
  have hf : (inspectionF c.n c.sunVel x).length = 8 := by simp [inspectionF, cwhA3, matVec]
  rw [hocConstraints_eq, Except.ok.injEq] at hc
  refine ⟨?_, ?_, by rw [hf]; rfl, ?_, by rw [hdir]; simp⟩
  · rw [← hc]
    intro kc hkc
    obtain ⟨k, -, rfl⟩ := List.mem_map.1 hkc
    rw [hocC_alpha]; rfl
  · rw [← hc]
    intro kc hkc
    obtain ⟨k, -, rfl⟩ := List.mem_map.1 hkc
    rw [hoc_gradFn_length, hf, hx]
  · rw [hdim]; simp [inspectionG, cwhB3]

/-! ### C75 -/

/-- **C75, the collision constraint.** Away from the chief's centre, it is positive exactly when the deputy approaches the chief
slower than `0.1 d + 0.1 d³`, where `d` is the distance from the collision sphere (negative inside it). -/
theorem C75_value {c : InspConfig} {cs : Dict (Constraint ℝ (List ℝ) InspParams)} (hcs : inspHocbfConstraints c = .ok cs) {x : List ℝ}
    (hx : x.length = 8) (h0 : norm2 (pySlice x 0 3) ≠ 0) :
    ∃ h, ("chief_collision_hocbf", h) ∈ cs ∧
      (0 < h.value x ↔ -(dot (pySlice x 0 3) (pySlice x 3 6) / norm2 (pySlice x 0 3)) <
        1 / 10 * (norm2 (pySlice x 0 3) - c.radius) + 1 / 10 * (norm2 (pySlice x 0 3) - c.radius) ^ 3) := by
  rw [hocConstraints_eq, Except.ok.injEq] at hcs
  subst hcs
  refine ⟨hocK c, hocC_mem c .coll, ?_⟩
  rw [hoc_value hx h0, hocV, poly4]
  constructor <;> intro h <;> linarith

/-- **C75, the strengthener of the wrapped constraint has no effect**, nor have its switch and its slack weight: the high
order constraint uses its own. -/
theorem C75_wrapped_strengthener_unused {S P : Type} (ad : (S → P → ℝ) → S → P → List ℝ) (c : Constraint ℝ S P) (degree : Nat) (f : S → List ℝ)
    (alpha : ℝ → ℝ) (alpha' : Option (ℝ → ℝ)) (enabled : Bool) (slack : Option ℝ) :
    hocbf ad { c with alpha := alpha', enabled := enabled, slackPriorityScale := slack } degree f alpha = hocbf ad c degree f alpha := by
  have key : ∀ i, hocbfChain ad { c with alpha := alpha', enabled := enabled, slackPriorityScale := slack } f alpha (i + 1) =
      hocbfChain ad c f alpha (i + 1) := by
    intro i
    induction i with
    | zero => rfl
    | succ i ih => rw [hocbfChain, ih]; rfl
  unfold hocbf
  by_cases h : degree < 2
  · rw [if_pos h, if_pos h]
  · obtain ⟨i, hi⟩ : ∃ i, degree - 1 = i + 1 := ⟨degree - 2, by omega⟩
    simp only [if_neg h, hi, key]

/-- The constraint values are positive exactly when all their samples are. -/
theorem hoc_value_pos {c : InspConfig} (hc : InspOK c) {x : List ℝ} (h : InspIn c x) :
    (∀ kc ∈ inspAll.map (hocC c), 0 < kc.2.value x) ↔ ∀ k, ∀ j ∈ inspJ k, 0 < hocH c k j x := by
  have hsplit : (∀ kc ∈ inspAll.map (hocC c), 0 < kc.2.value x) ↔ ∀ k, 0 < (hocC c k).2.value x := by
    constructor
    · exact fun h k => h _ (hocC_mem c k)
    · intro h kc hkc
      obtain ⟨k, -, rfl⟩ := List.mem_map.1 hkc
      exact h k
  rw [hsplit]
  refine forall_congr' fun k => ?_
  by_cases hk : k = .coll
  · subst hk
    have e : (hocC c .coll).2.value x = hocH c .coll 0 x := hoc_value h.len (h.norm_pos hc).ne'
    rw [e]
    simp [inspJ]
  rw [hocC_ne hk, hocH_ne hk]
  by_cases hk : k = .psm
  · subst hk
    obtain ⟨v, hv, hle, j0, hj0, e0⟩ := psm_samples c.n c.radius x
    obtain ⟨v', hv', e⟩ := insp_psm_value c x
    obtain rfl : v = v' := by rw [hv] at hv'; exact Except.ok.inj hv'
    rw [e]
    constructor
    · exact fun h j hj => h.trans_le (hle j hj)
    · intro h
      rw [← e0]
      exact h j0 hj0
  · have hj : inspJ k = {0} := by cases k <;> first | rfl | exact absurd rfl hk
    rw [inspC_value hc h hk 0, hj]
    simp

/-- **C75.** Let the deputy move by the true dynamics, and let at every instant before `T` the thrust be what the module with
`use_hocbf = True` returns for the current state and some desired control. Let it start with all constraints strictly positive,
between the two spheres and with the sun out of the field of view, and never be on the line through the chief and the sun. Let the
module raise on unsolvable programs, or let the program be solvable whenever all constraints are positive. Then at every time up to
`T`: the deputy is outside the collision radius and within `r_max`, the sun is out of the field of view, every constraint is
positive. -/
theorem C75_closed_loop {solver : Solver ℝ} (hspec : SolverSpec solver) {c : InspConfig} (hc : InspOK c) {x u : ℝ → List ℝ}
    (hm : InspectionMotion c.n c.m c.sunVel x u) {cs : Dict (Constraint ℝ (List ℝ) InspParams)} (hcs : inspHocbfConstraints c = .ok cs) {T : ℝ}
    (hloop : ∀ t, 0 ≤ t → t < T → ∃ (s s' : ASIFObj ℝ (List ℝ) InspParams Unit) (dt : ℝ) (uDes : List ℝ),
      ExplicitModule solver (inspectionF c.n c.sunVel) (fun _ => inspectionG c.m) s ∧ s.constraints = cs ∧
      s.ext.controlDim = 3 ∧ s.ext.direct = [] ∧ s.enable = true ∧ uDes.length = 3 ∧
      (s.ext.solverException = true ∨ (InspectionInside c (x t) → (∀ kc ∈ cs, 0 < kc.2.value (x t)) →
        ∃ w, Admissible (inspectionF c.n c.sunVel) (fun _ => inspectionG c.m) s (x t) w)) ∧
      explicitASIF solver (inspectionF c.n c.sunVel) (fun _ => inspectionG c.m) s (.array (x t)) dt uDes = (.ok (u t), s'))
    (hax : ∀ t, 0 ≤ t → t ≤ T → sqNorm (pySlice (x t) 0 3) ≠ dot (pySlice (x t) 0 3) (sunVector (x t)) ^ 2)
    (h0 : InspectionInside c (x 0)) (h0' : ∀ kc ∈ cs, 0 < kc.2.value (x 0)) :
    ∀ t, 0 ≤ t → t ≤ T → InspectionInside c (x t) ∧ ∀ kc ∈ cs, 0 < kc.2.value (x t) := by
  intro t ht htT
  have hcs' := hcs
  rw [hocConstraints_eq, Except.ok.injEq] at hcs'
  subst hcs'
  have hax' : ∀ t, 0 ≤ t → t ≤ T → axisDist (pySlice (x t) 0 3) (sunVector (x t)) ≠ 0 := fun t ht htT e => by
    have hl := slice_length (hm.len t ht)
    have := axis_nonneg hl.1 rfl (sun_unit (x t))
    unfold axisDist at e
    rw [sqrt_eq_zero this] at e
    exact hax t ht htT (by linarith)
  have hT0 : 0 ≤ T := ht.trans htT
  have hin0 : InspIn c (x 0) := ⟨hm.len 0 le_rfl, hax' 0 le_rfl hT0, (insp_inside_iff hc (hm.len 0 le_rfl)).1 h0⟩
  suffices hbar : ∀ t, 0 ≤ t → t < T → InspIn c (x t) → (∀ k, ∀ j ∈ inspJ k, 0 < hocH c k j (x t)) →
      ∀ k, BarrierOK (inspectionF c.n c.sunVel) (fun _ => inspectionG c.m) (hocC c k).2 (x t) (u t) 0 by
    obtain ⟨hin, hp⟩ := hoc_stays hc hm hax' hbar hin0 ((hoc_value_pos hc hin0).1 h0') t ht htT
    exact ⟨(insp_inside_iff hc (hm.len t ht)).2 hin.guard, (hoc_value_pos hc hin).2 hp⟩
  · intro t ht htT hin hp k
    obtain ⟨s, s', dt, uDes, hs, hse, hdim, hdir, hen, hul, hsolv, hcall⟩ := hloop t ht htT
    have hns : slackScales s.constraints = [] := by rw [hse]; rfl
    have hsp : ScalesPos s.constraints := by intro w hw; rw [hns] at hw; simp at hw
    have hadm : ∃ w d, AdmissibleS (inspectionF c.n c.sunVel) (fun _ => inspectionG c.m) s (x t) w d := by
      rcases hsolv with hexc | hsolv
      · by_contra hno
        have := C27_infeasible_policy hspec hs hsp hen (x t) (hoc_shapes (by rw [hse, hcs]) hdim hdir (hm.len t ht)) dt uDes
          (hul.trans hdim.symm) hno
        rw [hcall, if_pos hexc] at this
        cases this
      · obtain ⟨w, hw⟩ := hsolv ((insp_inside_iff hc (hm.len t ht)).2 hin.guard) ((hoc_value_pos hc hin).2 hp)
        exact ⟨w, _, admissible_iff_zeros.1 hw⟩
    obtain ⟨-, d, -, had, -⟩ := explicit_solved hspec hs.inv.1 hs.inv.2 hsp hen hcall hadm
    exact barrier_of_admissible had (show ((hocC c k).1, (hocC c k).2) ∈ s.constraints by rw [hse]; exact hocC_mem c k)
      (hocC_enabled c k) (hocC_noslack c k)

/-! ### The hypotheses are met -/

theorem hocRest_values : ∀ kc ∈ inspAll.map (hocC inspStill), 0 < kc.2.value inspRest := by
  rw [hoc_value_pos inspStill_ok inspRest_in]
  have h := (insp_value_pos inspStill_ok inspRest_in).1 inspRest_values
  intro k j hj
  by_cases hk : k = .coll
  · subst hk
    show 0 < hocV inspStill inspRest
    unfold hocV
    rw [inspRest_pv, inspRest_norm, inspStill_radius, poly4]
    norm_num
  · rw [hocH_ne hk]
    exact h k j hj

/-- **C71 for the inspection module with the high order constraint.** -/
theorem C71_inspection_hocbf {solver : Solver ℝ} (hspec : SolverSpec solver) {c : InspConfig} (hsun : c.sunVel = 0) {y sunAngle fuel : ℝ}
    {s : ASIFObj ℝ (List ℝ) InspParams Unit}
    (hs : ExplicitModule solver (inspectionF c.n c.sunVel) (fun _ => inspectionG c.m) s) (hcs : inspHocbfConstraints c = .ok s.constraints)
    (hdim : s.ext.controlDim = 3) (hdir : s.ext.direct = []) (hen : s.enable = true) (heps : 0 ≤ s.ext.epsilon)
    (hb : Within s.controlBoundsLow s.controlBoundsHigh [0, 0, 0])
    (hval : ∀ kc ∈ s.constraints, 0 ≤ kc.2.value [0, y, 0, 0, 0, 0, sunAngle, fuel]) (dt : ℝ) :
    (explicitASIF solver (inspectionF c.n c.sunVel) (fun _ => inspectionG c.m) s (.array [0, y, 0, 0, 0, 0, sunAngle, fuel]) dt [0, 0, 0]).1 =
        .ok [0, 0, 0] ∧
      (explicitASIF solver (inspectionF c.n c.sunVel) (fun _ => inspectionG c.m) s (.array [0, y, 0, 0, 0, 0, sunAngle, fuel]) dt
        [0, 0, 0]).2.intervening = false := by
  have hsh := hoc_shapes hcs hdim hdir (x := [0, y, 0, 0, 0, 0, sunAngle, fuel]) rfl
  rw [hocConstraints_eq, Except.ok.injEq] at hcs
  have hns : slackScales s.constraints = [] := by rw [← hcs]; rfl
  have hsp : ScalesPos s.constraints := by intro w hw; rw [hns] at hw; simp at hw
  refine C71_rest hspec hs hsp heps hen _ hsh dt [0, 0, 0] hdim.symm hb (by rw [hdir]; simp) ?_
    (fun kc hkc _ => hval kc hkc) ?_
  · rw [hsun]
    simp [inspectionF, inspectionG, cwhA3, cwhB3, matVec, vadd, pySlice]
  · intro kc hkc _ al ha h hh
    rw [← hcs] at hkc
    obtain ⟨k, -, rfl⟩ := List.mem_map.1 hkc
    rw [hocC_alpha, Option.some.injEq] at ha
    subst ha
    rcases hh.eq_or_lt with rfl | hh
    · exact (C33_class_k _ (hocCoefs_classK k)).1.ge
    · exact ((C33_sign _ (hocCoefs_classK k) h).2 hh).le

/-- A closed loop as in `C75_closed_loop` up to any time: the deputy waits at rest ahead of the chief. -/
example {solver : Solver ℝ} (hspec : SolverSpec solver) {exc : Bool} (T : ℝ) : ∃ cs, inspHocbfConstraints inspStill = .ok cs ∧
    InspectionMotion inspStill.n inspStill.m inspStill.sunVel (fun _ => inspRest) (fun _ => [0, 0, 0]) ∧
    (∀ kc ∈ cs, 0 < kc.2.value inspRest) ∧
    (∀ t, 0 ≤ t → t < T → ∃ (s s' : ASIFObj ℝ (List ℝ) InspParams Unit) (dt : ℝ) (uDes : List ℝ),
      ExplicitModule solver (inspectionF inspStill.n inspStill.sunVel) (fun _ => inspectionG inspStill.m) s ∧ s.constraints = cs ∧
      s.ext.controlDim = 3 ∧ s.ext.direct = [] ∧ s.enable = true ∧ uDes.length = 3 ∧
      (s.ext.solverException = true ∨ (InspectionInside inspStill inspRest → (∀ kc ∈ cs, 0 < kc.2.value inspRest) →
        ∃ w, Admissible (inspectionF inspStill.n inspStill.sunVel) (fun _ => inspectionG inspStill.m) s inspRest w)) ∧
      explicitASIF solver (inspectionF inspStill.n inspStill.sunVel) (fun _ => inspectionG inspStill.m) s (.array inspRest) dt uDes =
        (.ok [0, 0, 0], s')) := by
  refine ⟨_, hocConstraints_eq _, ⟨fun _ _ => rfl, fun _ _ => rfl, fun _ _ => continuousOn_const, fun t _ i hi => ?_⟩, hocRest_values, fun t _ _ => ?_⟩
  · rw [inspRest_dot _ rfl]
    refine (hasDerivWithinAt_const t (Ici t) _).congr_deriv ?_
    interval_cases i <;> rfl
  · obtain ⟨s, h⟩ := hoc_init_ok inspStill 1 (1 / 100) exc
    obtain ⟨hc, hdim, hdir, hen, hlo, hhi, -, heps⟩ := hoc_init h
    have hbnd : Within s.controlBoundsLow s.controlBoundsHigh [0, 0, 0] := by rw [hlo, hhi]; exact within_scalar (by simp)
    have hc' := hc
    rw [hocConstraints_eq, Except.ok.injEq] at hc'
    have hr := (C71_inspection_hocbf hspec (c := inspStill) rfl (hoc_module h) hc hdim hdir hen (by rw [heps]; norm_num) hbnd
      (fun kc hkc => (hocRest_values kc (hc' ▸ hkc)).le) 1).1
    refine ⟨s, _, 1, [0, 0, 0], hoc_module h, hc'.symm, hdim, hdir, hen, rfl, Or.inr fun _ _ => ⟨[0, 0, 0], ?_⟩, Prod.ext hr rfl⟩
    refine ⟨hdim.symm, hbnd, fun kc hkc _ => ?_, by rw [hdir]; simp⟩
    rw [← hc'] at hkc
    obtain ⟨k, -, rfl⟩ := List.mem_map.1 hkc
    have h0 : vadd (inspectionF inspStill.n inspStill.sunVel inspRest) (matVec (inspectionG inspStill.m) [0, 0, 0]) = zeros 8 := by
      have e : inspStill.sunVel = 0 := rfl
      rw [e]
      simp [inspectionF, inspectionG, cwhA3, cwhB3, matVec, vadd, pySlice, inspRest, zeros, List.replicate]
    have hv : 0 < (hocC inspStill k).2.computeFn inspRest (hocC inspStill k).2.params + (hocC inspStill k).2.bias :=
      hocRest_values _ (hocC_mem _ k)
    refine ⟨polyAlpha (hocCoefs k) ((hocC inspStill k).2.computeFn inspRest (hocC inspStill k).2.params + (hocC inspStill k).2.bias), ?_,
      ((C33_sign _ (hocCoefs_classK k) _).2 hv).le⟩
    rw [barrierValue, hocC_alpha, h0, dot_zeros_right]
    simp only [Option.map_some, zero_add]
    rw [strengthening, if_pos hv.le]

end RTA
