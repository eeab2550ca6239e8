import Verif.Lemmas.Zoo.InspectionCascade
import Verif.Props.Zoo.InspectionDiscreteRefuted

/-!
The cascade of the inspection module and the delta-v limiter.
-/
namespace RTA
open Set Real

/-! ### What holds -/

/-- **C80, the cascade always answers.** For a complete state and a control of three components the cascade, after any such history, returns
a control of three components within the bounds of the stages. -/
theorem C80_total {solver : Solver ℝ} (hspec : SolverSpec solver) {c : InspConfig} {s : CascadeObj ℝ InspStage}
    (hs : CascadeModule solver c s) {x u : List ℝ} (hx : x.length = 8) (hu : u.length = 3) (dt : ℝ) :
    ∃ v, (inspCascadeFilter solver c s x dt u).1 = .ok v ∧ v.length = 3 ∧ ∀ a ∈ v, -1 ≤ a ∧ a ≤ 1 := by
  obtain ⟨s1, s2, s1', s2', w, v, s', -, -, -, -, -, e, hv, hb, -⟩ := (hs.inv hspec).call hspec hx hu dt
  exact ⟨v, by rw [e], hv, hb⟩

/-- **C80, before the limiter switches** the cascade returns exactly what its inspection module returns. -/
theorem C80_unlatched {solver : Solver ℝ} (hspec : SolverSpec solver) {c : InspConfig} {s : CascadeObj ℝ InspStage}
    (hs : CascadeModule solver c s) (hl : limiterLatched s = false) {x u : List ℝ} (hx : x.length = 8) (hu : u.length = 3) (dt : ℝ) :
    ∃ s1 s2, s.rtaList = [.asif c.sunVel s1, s2] ∧ (inspCascadeFilter solver c s x dt u).1 =
      (explicitASIF solver (inspectionF c.n c.sunVel) (fun _ => inspectionG c.m) s1 (.array x) dt u).1 := by
  obtain ⟨s1, s2, s1', s2', w, v, s', hst, -, -, e1, -, e, -, -, -, -, hun, -⟩ := (hs.inv hspec).call hspec hx hu dt
  refine ⟨s1, _, hst, ?_⟩
  unfold limiterLatched at hl
  rw [hst] at hl
  rw [e, e1, hun hl]

/-- **C80, the part that holds.** A deputy that starts with all constraints positive and moves with the control the cascade returns stays
outside the collision radius and within `r_max`, keeps the sun out of view and all constraints positive as long as the limiter has not
switched, under the conditions of `C70_closed_loop`: the program of the inspection module is solvable while the constraints are positive and
the deputy is never on the line through the chief and the sun. Missing: anything after the limiter switched, see `C80_refuted_collision`. -/
theorem C80_closed_loop_partial {solver : Solver ℝ} (hspec : SolverSpec solver) {c : InspConfig} (hc : InspOK c) {x u : ℝ → List ℝ}
    (hm : InspectionMotion c.n c.m c.sunVel x u) {T : ℝ}
    (hloop : ∀ t, 0 ≤ t → t < T → ∃ (s s' : CascadeObj ℝ InspStage) (dt : ℝ) (uDes : List ℝ),
      CascadeModule solver c s ∧ limiterLatched s = false ∧ uDes.length = 3 ∧
      (InspectionInside c (x t) → (∀ kc ∈ inspConstraints c, 0 < kc.2.value (x t)) →
        ∃ w, w.length = 3 ∧ (∀ a ∈ w, -1 ≤ a ∧ a ≤ 1) ∧
          ∀ kc ∈ inspConstraints c, BarrierOK (inspectionF c.n c.sunVel) (fun _ => inspectionG c.m) kc.2 (x t) w 0) ∧
      inspCascadeFilter solver c s (x t) dt uDes = (.ok (u t), s'))
    (hax : ∀ t, 0 ≤ t → t ≤ T → sqNorm (pySlice (x t) 0 3) ≠ dot (pySlice (x t) 0 3) (sunVector (x t)) ^ 2)
    (h0 : InspectionInside c (x 0)) (h0' : ∀ kc ∈ inspConstraints c, 0 < kc.2.value (x 0)) :
    ∀ t, 0 ≤ t → t ≤ T → InspectionInside c (x t) ∧ ∀ kc ∈ inspConstraints c, 0 < kc.2.value (x t) := by
  refine C70_closed_loop hspec hc hm (fun t ht htT => ?_) hax h0 h0'
  obtain ⟨s, s', dt, uDes, hs, hl, hu, hsolv, hcall⟩ := hloop t ht htT
  obtain ⟨s1, s2, s1', s2', w, v, s'', hst, h1, -, e1, -, e, -, -, -, -, hun, -⟩ := (hs.inv hspec).call hspec (hm.len t ht) hu dt
  unfold limiterLatched at hl
  rw [hst] at hl
  have hv := hun hl
  rw [e] at hcall
  have hvu : v = u t := by simpa using congrArg Prod.fst hcall
  refine ⟨s1, s1', dt, uDes, h1.module, h1.constraints, h1.dim, h1.direct, h1.enable, hu, Or.inr fun hin hpos => ?_, ?_⟩
  · obtain ⟨w, hw, hb, hbar⟩ := hsolv hin hpos
    exact ⟨w, hw.trans h1.dim.symm, by rw [h1.low, h1.high]; exact within_one.2 hb, fun kc hkc _ => hbar kc (by rw [← h1.constraints]; exact hkc),
      by rw [h1.direct]; simp⟩
  · rw [e1, ← hv, hvu]

/-! ### After the limiter has switched -/

/-- **C80 refuted, the inspection constraints are ignored.** Once the limiter has switched the answer of the cascade does not depend on
the desired control, nor on what its inspection module does with it: it is the limiter's backup control. -/
theorem C80_refuted_latched_ignores_constraints {solver : Solver ℝ} (hspec : SolverSpec solver) {c : InspConfig} {s : CascadeObj ℝ InspStage}
    (hs : CascadeModule solver c s) (hl : limiterLatched s = true) {x : List ℝ} (hx : x.length = 8) (dt : ℝ) :
    ∃ s1 s2 v ei, s.rtaList = [s1, .deltaV s2] ∧ s2.backupControl x dt (limiterIntegral s) = .ok (v, ei) ∧
      ∀ u : List ℝ, u.length = 3 → (inspCascadeFilter solver c s x dt u).1 = .ok v := by
  obtain ⟨s1, s2, s1', s2', w, v, s', hst, -, h2, -, -, -, -, -, -, -, -, hla, -⟩ := (hs.inv hspec).call hspec hx (u := [0, 0, 0]) rfl dt
  have hl' := hl
  unfold limiterLatched at hl'
  rw [hst] at hl'
  obtain ⟨-, hbk⟩ := hla hl'
  refine ⟨_, s2, v, s2'.errorIntegral, hst, ?_, fun u hu => ?_⟩
  · unfold limiterIntegral
    rw [hst]
    exact hbk
  · obtain ⟨r1, r2, r1', r2', w', v', t', hst', -, -, -, -, e, -, -, -, -, -, hla', -⟩ := (hs.inv hspec).call hspec hx hu dt
    rw [hst] at hst'
    obtain ⟨-, rfl⟩ : s1 = r1 ∧ s2 = r2 := by simpa using hst'
    obtain ⟨-, hbk'⟩ := hla' hl'
    rw [hbk] at hbk'
    obtain ⟨hv, -⟩ : v = v' ∧ s2'.errorIntegral = r2'.errorIntegral := by simpa using hbk'
    rw [e, hv]

/-- **C80 refuted, for ever.** Neither calls nor `reset()` bring the inspection module back. -/
theorem C80_refuted_latched_for_ever {solver : Solver ℝ} (hspec : SolverSpec solver) {c : InspConfig} {s : CascadeObj ℝ InspStage}
    (hs : CascadeModule solver c s) (hl : limiterLatched s = true) (ops : List CascadeOp) (hop : ∀ op ∈ ops, CascadeOp.Proper op) :
    limiterLatched (runCascade solver c s ops) = true := by
  have hinv := hs.inv hspec
  clear hs
  induction ops generalizing s with
  | nil => exact hl
  | cons op ops ih =>
    refine ih ?_ (fun o ho => hop o (by simp [ho])) (cascadeInv_step hspec hinv (hop op (by simp)))
    cases op with
    | call x dt u =>
      have hp := hop _ (List.mem_cons_self ..)
      obtain ⟨s1, s2, s1', s2', w, v, s', hst, -, -, -, -, e, -, -, hst', -, -, hla, -⟩ := hinv.call hspec hp.1 hp.2 dt
      have hl' := hl
      unfold limiterLatched at hl'
      rw [hst] at hl'
      show limiterLatched (inspCascadeFilter solver c s x dt u).2 = true
      rw [e]
      unfold limiterLatched
      simp only
      rw [hst']
      exact (hla hl').1
    | reset => exact hl

/-- The operations are resets, and calls on states of a natural motion trajectory. -/
def NMTOps (n : ℝ) (ops : List CascadeOp) : Prop :=
  ∀ op ∈ ops, match op with
    | .call x _ u => OnNMT n x ∧ u.length = 3
    | .reset => True

/-- **C80, coasting.** On a natural motion trajectory with no accumulated error the cascade, once the limiter has switched, returns no thrust,
for all time and whatever is asked: the budget is kept. -/
theorem C80_nmt_coast {solver : Solver ℝ} (hspec : SolverSpec solver) {c : InspConfig} {s : CascadeObj ℝ InspStage}
    (hs : CascadeModule solver c s) (hl : limiterLatched s = true) (hz : limiterIntegral s = zeros 6) (ops : List CascadeOp)
    (hop : NMTOps c.n ops) {x u : List ℝ} (hx : OnNMT c.n x) (hu : u.length = 3) (dt : ℝ) :
    (inspCascadeFilter solver c (runCascade solver c s ops) x dt u).1 = .ok [0, 0, 0] := by
  have hinv := hs.inv hspec
  clear hs
  have one : ∀ s : CascadeObj ℝ InspStage, CascadeInv solver c s → limiterLatched s = true → limiterIntegral s = zeros 6 → ∀ x u dt, OnNMT c.n x →
      u.length = 3 → ∃ s', inspCascadeFilter solver c s x dt u = (.ok [0, 0, 0], s') ∧ CascadeInv solver c s' ∧ limiterLatched s' = true ∧
        limiterIntegral s' = zeros 6 := by
    intro s hinv hl hz x u dt hx hu
    obtain ⟨s1, s2, s1', s2', w, v, s', hst, -, h2, -, -, e, -, -, hst', hs', -, hla, -⟩ := hinv.call hspec hx.len hu dt
    unfold limiterLatched at hl
    unfold limiterIntegral at hz
    rw [hst] at hl hz
    obtain ⟨hl', hbk⟩ := hla hl
    simp only at hz
    rw [hz, backup_nmt h2 hx dt] at hbk
    obtain ⟨rfl, hz'⟩ : [0, 0, 0] = v ∧ zeros 6 = s2'.errorIntegral := by simpa using hbk
    refine ⟨s', e, hs', ?_, ?_⟩
    · unfold limiterLatched; rw [hst']; exact hl'
    · unfold limiterIntegral; rw [hst']; exact hz'.symm
  induction ops generalizing s with
  | nil =>
    obtain ⟨s', e, -⟩ := one s hinv hl hz x u dt hx hu
    show (inspCascadeFilter solver c s x dt u).1 = _
    rw [e]
  | cons op ops ih =>
    have hrest : NMTOps c.n ops := fun o ho => hop o (by simp [ho])
    have hthis := hop op (by simp)
    show (inspCascadeFilter solver c (runCascade solver c (stepCascade solver c s op) ops) x dt u).1 = _
    cases op with
    | call y dt' w =>
      obtain ⟨s', e, h1, h2, h3⟩ := one s hinv hl hz y w dt' hthis.1 hthis.2
      have : stepCascade solver c s (.call y dt' w) = s' := by
        show (inspCascadeFilter solver c s y dt' w).2 = s'
        rw [e]
      rw [this]
      exact ih h2 h3 hrest h1
    | reset => exact ih hl hz hrest (cascadeInv_step hspec hinv (op := .reset) trivial)

/-! ### The collision -/

theorem insp_value_dC (c : InspConfig) (k : InspIx) {x : List ℝ} (hx : x.length = 8) : (inspC c k).2.value x = hval (dC c k).2 x := by
  cases k
  case sun =>
    show (conicKeepOut c.fov c.aMax [0, 0, c.sunVel] (pySlice x 0 3) (pySlice x 3 6) (sunVector x)).getD 0 + -(1 / 1000) =
      (conicKeepOut c.fov c.aMax [0, 0, c.sunVel] (pySlice (jaxPad x) 0 3) (pySlice (jaxPad x) 3 6) (sunVector (jaxPad x))).getD 0 + -(1 / 1000)
    rw [jaxPad_eight hx]
  case psm => simp only [Constraint.value, inspC, dC, hval, inspPSM, Constraint.mk']
  all_goals rfl

/-- The deputy crosses the orbital plane of the chief along the z axis. -/
noncomputable def zCoast (t : ℝ) : List ℝ :=
  axisState (100 * cos (inspDefault.n * t)) (-(100 * inspDefault.n * sin (inspDefault.n * t))) (inspDefault.sunVel * t) 0

theorem zCoast_nmt (t : ℝ) : OnNMT inspDefault.n (zCoast t) := ⟨rfl, by simp [zCoast, axisState, comp], by simp [zCoast, axisState, comp]⟩

theorem zCoast_motion : InspectionMotion inspDefault.n inspDefault.m inspDefault.sunVel zCoast (fun _ => [0, 0, 0]) := by
  have hd : ∀ t i, i < 8 → HasDerivAt (fun s => comp (zCoast s) i)
      (comp (computeStateDot inspDefault.n inspDefault.m inspDefault.sunVel (zCoast t) [0, 0, 0]) i) t := by
    intro t i hi
    have hz : ∀ v : ℝ, v = 0 → HasDerivAt (fun _ : ℝ => (0 : ℝ)) v t := fun v hv => by rw [hv]; exact hasDerivAt_const t 0
    have hlin : HasDerivAt (fun s : ℝ => inspDefault.n * s) inspDefault.n t := by simpa using (hasDerivAt_id t).const_mul inspDefault.n
    interval_cases i
    · exact hz _ (by simp [computeStateDot, zCoast, axisState, cwhA3, cwhB3, matVec, vadd, pySlice, comp])
    · exact hz _ (by simp [computeStateDot, zCoast, axisState, cwhA3, cwhB3, matVec, vadd, pySlice, comp])
    · refine ((hlin.cos).const_mul 100).congr_deriv ?_
      simp [computeStateDot, zCoast, axisState, cwhA3, cwhB3, matVec, vadd, pySlice, comp]
      ring
    · exact hz _ (by simp [computeStateDot, zCoast, axisState, cwhA3, cwhB3, matVec, vadd, pySlice, comp])
    · exact hz _ (by simp [computeStateDot, zCoast, axisState, cwhA3, cwhB3, matVec, vadd, pySlice, comp])
    · refine ((hlin.sin).const_mul (100 * inspDefault.n)).neg.congr_deriv ?_
      simp [computeStateDot, zCoast, axisState, cwhA3, cwhB3, matVec, vadd, pySlice, comp]
      ring
    · refine ((hasDerivAt_id t).const_mul inspDefault.sunVel).congr_deriv ?_
      simp [computeStateDot, zCoast, axisState, cwhA3, cwhB3, matVec, vadd, pySlice, comp]
    · exact hz _ (by simp [computeStateDot, zCoast, axisState, cwhA3, cwhB3, matVec, vadd, pySlice, comp])
  exact ⟨fun _ _ => rfl, fun _ _ => rfl, fun i hi t _ => (hd t i hi).continuousAt.continuousWithinAt, fun t _ i hi => (hd t i hi).hasDerivWithinAt⟩

theorem zCoast_start : InspectionInside inspDefault (zCoast 0) ∧ ∀ kc ∈ inspConstraints inspDefault, 0 < kc.2.value (zCoast 0) := by
  have e : zCoast 0 = axisState 100 0 0 0 := by simp [zCoast]
  have h100 : |(100 : ℝ)| = 100 := abs_of_pos (by norm_num)
  rw [e]
  refine ⟨⟨?_, ?_, ?_⟩, ?_⟩
  · rw [axis_norm, default_radius, h100]; norm_num
  · rw [axis_norm, h100]; show (100 : ℝ) < 1000; norm_num
  · rw [axis_norm, axis_ps, h100]; linarith [default_cos_bounds.1]
  · intro kc hkc
    rw [inspConstraints_eq] at hkc
    obtain ⟨k, -, rfl⟩ := List.mem_map.1 hkc
    rw [insp_value_dC _ _ rfl]
    exact crossing_positive h100 k

/-- The constructor of the cascade succeeds with the default configuration. -/
theorem cascade_init_ok (limit : ℝ) (nSteps : Nat) (K1 K2 : List (List ℝ)) :
    ∃ s, inspCascade inspDefault limit nSteps K1 K2 none none = .ok s := by
  obtain ⟨s1, h1⟩ := insp_init_ok inspDefault 1 (1 / 100) false
  unfold inspCascade
  rw [h1]
  simp only
  unfold deltaVInit
  rw [if_neg (by show ¬ (12 : ℝ) = 0; norm_num)]
  exact ⟨_, rfl⟩

/-- **C80 refuted, collision.** The default cascade, with whatever gains the limiter computed: in a first episode the deputy is over its budget on
one call, the user calls `reset()`. In the next episode the deputy starts at rest 100 m above the chief, with the full budget and with
every inspection constraint positive. From then on the cascade returns no thrust, whatever is asked and however often it is called and
reset, and the deputy moving with no thrust hits the centre of the chief. -/
theorem C80_refuted_collision {solver : Solver ℝ} (hspec : SolverSpec solver) {K1 K2 : List (List ℝ)} (h1 : K1.length = 3) (h2 : K2.length = 3) :
    ∃ s, inspCascade inspDefault 20 500 K1 K2 none none = .ok s ∧
      InspectionMotion inspDefault.n inspDefault.m inspDefault.sunVel zCoast (fun _ => [0, 0, 0]) ∧
      InspectionInside inspDefault (zCoast 0) ∧ (∀ kc ∈ inspConstraints inspDefault, 0 < kc.2.value (zCoast 0)) ∧
      (∀ (ops : List CascadeOp) (t dt : ℝ) (u : List ℝ), u.length = 3 →
        (∀ op ∈ ops, op = .reset ∨ ∃ t dt u, op = .call (zCoast t) dt u ∧ u.length = 3) →
        (inspCascadeFilter solver inspDefault
          (runCascade solver inspDefault s ([.call (axisState 100 0 0 21) 1 [1, 0, 0], .reset] ++ ops)) (zCoast t) dt u).1 = .ok [0, 0, 0]) ∧
      norm2 (pySlice (zCoast (π / (2 * inspDefault.n))) 0 3) = 0 := by
  obtain ⟨s, hs⟩ := cascade_init_ok 20 500 K1 K2
  have hmod : CascadeModule solver inspDefault s := ⟨20, 500, K1, K2, s, [], h1, h2, hs, by simp, rfl⟩
  refine ⟨s, hs, zCoast_motion, zCoast_start.1, zCoast_start.2, fun ops t dt u hu hop => ?_, ?_⟩
  · have hnmt : OnNMT inspDefault.n (axisState 100 0 0 21) := ⟨rfl, by simp [axisState, comp], by simp [axisState, comp]⟩
    have hpre : ∀ op ∈ [CascadeOp.call (axisState 100 0 0 21) 1 [1, 0, 0], .reset], CascadeOp.Proper op := by
      intro op hop
      simp only [List.mem_cons, List.not_mem_nil, or_false] at hop
      rcases hop with rfl | rfl
      · exact ⟨rfl, rfl⟩
      · trivial
    have hmod' := hmod.step hpre
    have e : runCascade solver inspDefault s ([.call (axisState 100 0 0 21) 1 [1, 0, 0], .reset] ++ ops) =
        runCascade solver inspDefault (runCascade solver inspDefault s [.call (axisState 100 0 0 21) 1 [1, 0, 0], .reset]) ops := by
      unfold runCascade; rw [List.foldl_append]
    rw [e]
    obtain ⟨s1, s2, s1', s2', w, v, s', hst, -, hsec, -, e2, ec, -, -, hst', -, -, -, hw, hwb⟩ :=
      (hmod.inv hspec).call hspec (x := axisState 100 0 0 21) rfl (u := [1, 0, 0]) rfl 1
    -- the second stage as constructed
    have hfresh : s2.latched = false ∧ s2.errorIntegral = zeros 6 ∧ s2.nSteps = 500 ∧ s2.deltaVLimit = 20 := by
      unfold inspCascade at hs
      rcases ha : inspASIF inspDefault (some (.scalar 1)) (some (.scalar (-1))) (1 / 100) false with e | r1
      · rw [ha] at hs; simp at hs
      · rw [ha] at hs
        simp only at hs
        unfold deltaVInit at hs
        rw [if_neg (by show ¬ (12 : ℝ) = 0; norm_num)] at hs
        simp only [Except.ok.injEq] at hs
        subst hs
        obtain ⟨-, hh⟩ : InspStage.asif inspDefault.sunVel r1 = .asif inspDefault.sunVel s1 ∧ _ = s2 := by simpa [cascadeInit] using hst
        subst hh
        exact ⟨rfl, rfl, rfl, rfl⟩
    obtain ⟨hl, hz, hN, hL⟩ := hfresh
    obtain ⟨xs, is, hp⟩ := prediction_exists hsec.shape 1 (show (axisState 100 0 0 21).length = 8 from rfl) hw
    have hm0 : 0 < s2.m := by rw [hsec.m]; show (0 : ℝ) < 12; norm_num
    have hlat : s2'.latched = true := by
      have := (C42_latches_iff_predicted_exceeds s2 hsec.shape hsec.enable hl hm0 _ w w 1 (by norm_num) xs is hp (hsec.clip hwb)).1
      rw [e2] at this
      refine this.2 ⟨by rw [hN]; norm_num, ?_⟩
      obtain ⟨y, hy, -, hdv⟩ := predState_ok hsec.shape 1 (show (axisState 100 0 0 21).length = 8 from rfl) hw
      rw [hp.start] at hy
      obtain rfl : xs 0 = y := by simpa using hy
      have h0 := absSum_nonneg w
      have h21 : dvOf (axisState 100 0 0 21) = 21 := rfl
      have : 21 ≤ dvOf (xs 0) := by
        rw [hdv, h21]
        have : 0 ≤ (w.map fun c => |c|).foldr (· + ·) 0 / s2.m * 1 := by positivity
        linarith
      have := pred_mono hsec.shape hm0 (by norm_num) hp (Nat.zero_le s2.nSteps)
      rw [hL]
      linarith
    have hint : s2'.errorIntegral = zeros 6 := by
      have he : s2.trackError (axisState 100 0 0 21) = .ok (zeros 6) := by
        unfold DeltaVObj.trackError
        simp [axisState, zeros, List.replicate]
      have := C42_latching_integral s2 hsec.shape hsec.enable hl _ w w 1 xs is hp _ he (hsec.clip hwb)
      rw [e2, hz] at this
      simp only at this
      rw [this]
      have hfix : Function.IsFixedPt (fun e : List ℝ => vadd e ((zeros 6).map (· * (1 : ℝ)))) (zeros 6) := by
        simp [Function.IsFixedPt, vadd, zeros, List.replicate]
      exact hfix.iterate _
    have hrun : (runCascade solver inspDefault s [.call (axisState 100 0 0 21) 1 [1, 0, 0], .reset]).rtaList =
        [.asif inspDefault.sunVel s1', .deltaV s2'] := by
      show (cascadeReset (inspCascadeFilter solver inspDefault s (axisState 100 0 0 21) 1 [1, 0, 0]).2).rtaList = _
      rw [ec]
      exact hst'
    refine C80_nmt_coast hspec hmod' ?_ ?_ ops ?_ (zCoast_nmt t) hu dt
    · unfold limiterLatched; rw [hrun]; exact hlat
    · unfold limiterIntegral; rw [hrun]; exact hint
    · intro op ho
      rcases hop op ho with rfl | ⟨t, dt, u, rfl, hu⟩
      · trivial
      · exact ⟨zCoast_nmt t, hu⟩
  · unfold zCoast
    rw [axis_norm]
    have hn : inspDefault.n ≠ 0 := by show (1027 / 1000000 : ℝ) ≠ 0; norm_num
    rw [show inspDefault.n * (π / (2 * inspDefault.n)) = π / 2 by field_simp, cos_pi_div_two]
    simp

/-! ### Six components -/

/-- **C80 refuted, six components.** A freshly constructed inspection module accepts a state of six components (it appends a sun angle
and a delta-v of zero); the cascade that contains it raises. -/
theorem C80_refuted_six {solver : Solver ℝ} (hspec : SolverSpec solver) {c : InspConfig} {limit : ℝ} {nSteps : Nat} {K1 K2 : List (List ℝ)}
    {s : CascadeObj ℝ InspStage} (hs : inspCascade c limit nSteps K1 K2 none none = .ok s) {x u : List ℝ} (hx : x.length = 6) (hu : u.length = 3)
    (dt : ℝ) :
    (∃ s1 s2 v, s.rtaList = [s1, s2] ∧ (inspStageFilter solver c s1 x dt u).1 = .ok v) ∧
      (inspCascadeFilter solver c s x dt u).1 = .error (.valueError "operands could not be broadcast together") := by
  unfold inspCascade at hs
  rcases ha : inspASIF c (some (.scalar 1)) (some (.scalar (-1))) (1 / 100) false with e | s1
  · rw [ha] at hs; simp at hs
  rw [ha] at hs
  simp only at hs
  unfold deltaVInit at hs
  by_cases hm : c.m = 0
  · rw [if_pos hm] at hs; simp at hs
  rw [if_neg hm] at hs
  simp only [Except.ok.injEq] at hs
  subst hs
  obtain ⟨hc, hdim, hdir, hen, hlo, hhi, hexc, -⟩ := insp_init ha
  have hmod : ExplicitModule solver (inspectionF c.n 0) (fun _ => inspectionG c.m) s1 :=
    ⟨_, _, _, _, _, _, _, _, _, _, [], by simp [dictKeys, inspConstraints, inspCommon], by simp [dictKeys], ha, rfl⟩
  have hx8 : (x ++ [0, 0]).length = 8 := by simp [hx]
  have hsh : ShapesOK (inspectionF c.n 0) (fun _ => inspectionG c.m) s1 (x ++ [0, 0]) := by
    have hsh := insp_shapes hc hdim hdir hx8
    have hl : (inspectionF c.n c.sunVel (x ++ [0, 0])).length = (inspectionF c.n 0 (x ++ [0, 0])).length := by simp [inspectionF]
    exact ⟨hsh.alpha, fun kc hkc => by rw [← hl]; exact hsh.grad kc hkc, by rw [← hl]; exact hsh.input, hsh.cols, hsh.direct⟩
  have hns : slackScales s1.constraints = [] := by rw [hc]; rfl
  have hsp : ScalesPos s1.constraints := by intro w hw; rw [hns] at hw; simp at hw
  obtain ⟨t1, t2⟩ := explicit_total hspec hmod.inv.1 hmod.inv.2 hsp hsh dt (hu.trans hdim.symm) hen
  have hfirst : ∃ v s', explicitASIF solver (inspectionF c.n 0) (fun _ => inspectionG c.m) s1 (.array (x ++ [0, 0])) dt u = (.ok v, s') := by
    by_cases hadm : ∃ w d, AdmissibleS (inspectionF c.n 0) (fun _ => inspectionG c.m) s1 (x ++ [0, 0]) w d
    · obtain ⟨v, hv⟩ := t1 hadm
      exact ⟨v, _, Prod.ext hv rfl⟩
    · have e := t2 hadm
      rw [if_neg (by rw [hexc]; simp)] at e
      obtain ⟨v, hv, -⟩ := C05_clip_total s1.toBase u (by rw [hlo]; trivial) (by rw [hhi]; trivial)
      rw [hv] at e
      exact ⟨v, _, Prod.ext e rfl⟩
  obtain ⟨v, s1', hv⟩ := hfirst
  have f1 : inspStageFilter solver c (.asif c.sunVel s1) x dt u = (.ok v, .asif 0 s1') := by
    unfold inspStageFilter inspGetState
    simp only [hen, if_true]
    rw [if_pos (by omega)]
    simp only
    rw [hv]
  refine ⟨⟨_, _, v, rfl, by rw [f1]⟩, ?_⟩
  unfold inspCascadeFilter cascadeFilter filterControl cascadeCompute
  simp only [modifyBase, HasBase.get, HasBase.set, cascadeInit, Base.init, if_true, cascadeLoop, f1]
  unfold inspStageFilter deltaVFilter filterControl deltaVCompute
  simp only [modifyBase, HasBase.get, HasBase.set, if_true]
  unfold DeltaVObj.predState
  rw [if_pos (Or.inl (by omega))]

/-- **C80, the rate of the sun.** A call of the inspection module with fewer than eight components, whether it succeeds or not, sets the rate
of the sun to zero for all later calls; a call with a complete state keeps it. -/
theorem C80_sun_rate (solver : Solver ℝ) (c : InspConfig) (sunVel : ℝ) {s : ASIFObj ℝ (List ℝ) InspParams Unit} (hen : s.enable = true)
    (x u : List ℝ) (dt : ℝ) :
    (x.length < 8 → ∃ s', (inspStageFilter solver c (.asif sunVel s) x dt u).2 = .asif 0 s') ∧
      (8 ≤ x.length → ∃ s', (inspStageFilter solver c (.asif sunVel s) x dt u).2 = .asif sunVel s') := by
  have hg : ∀ v, inspGetState sunVel x = v → ∃ s', (inspStageFilter solver c (.asif sunVel s) x dt u).2 = .asif v.2 s' := by
    intro v hv
    unfold inspStageFilter
    simp only [hen, if_true, hv]
    exact ⟨_, rfl⟩
  exact ⟨fun hx => hg _ (if_pos hx), fun hx => hg _ (if_neg (by omega))⟩

/-! ### The hypotheses are met -/

/-- The default cascade is a cascade as in the theorems, its limiter has not switched and its error integral is zero. -/
example {solver : Solver ℝ} {K1 K2 : List (List ℝ)} (h1 : K1.length = 3) (h2 : K2.length = 3) :
    ∃ s, CascadeModule solver inspDefault s ∧ limiterLatched s = false ∧ limiterIntegral s = zeros 6 := by
  obtain ⟨s, hs⟩ := cascade_init_ok 20 500 K1 K2
  refine ⟨s, ⟨20, 500, K1, K2, s, [], h1, h2, hs, by simp, rfl⟩, ?_⟩
  unfold inspCascade at hs
  rcases ha : inspASIF inspDefault (some (.scalar 1)) (some (.scalar (-1))) (1 / 100) false with e | r1
  · rw [ha] at hs; simp at hs
  rw [ha] at hs
  simp only at hs
  unfold deltaVInit at hs
  rw [if_neg (by show ¬ (12 : ℝ) = 0; norm_num)] at hs
  simp only [Except.ok.injEq] at hs
  subst hs
  exact ⟨rfl, rfl⟩

/-- A closed loop as in `C80_closed_loop_partial` up to any time: the deputy waits at rest ahead of the chief. -/
example {solver : Solver ℝ} (hspec : SolverSpec solver) {K1 K2 : List (List ℝ)} (h1 : K1.length = 3) (h2 : K2.length = 3) (T : ℝ) :
    InspectionMotion inspStill.n inspStill.m inspStill.sunVel (fun _ => inspRest) (fun _ => [0, 0, 0]) ∧
    (∀ t, 0 ≤ t → t < T → ∃ (s s' : CascadeObj ℝ InspStage) (dt : ℝ) (uDes : List ℝ),
      CascadeModule solver inspStill s ∧ limiterLatched s = false ∧ uDes.length = 3 ∧
      (InspectionInside inspStill inspRest → (∀ kc ∈ inspConstraints inspStill, 0 < kc.2.value inspRest) →
        ∃ w, w.length = 3 ∧ (∀ a ∈ w, -1 ≤ a ∧ a ≤ 1) ∧
          ∀ kc ∈ inspConstraints inspStill, BarrierOK (inspectionF inspStill.n inspStill.sunVel) (fun _ => inspectionG inspStill.m) kc.2 inspRest w 0) ∧
      inspCascadeFilter solver inspStill s inspRest dt uDes = (.ok [0, 0, 0], s')) := by
  refine ⟨⟨fun _ _ => rfl, fun _ _ => rfl, fun _ _ => continuousOn_const, fun t _ i hi => ?_⟩, fun t _ _ => ?_⟩
  · rw [inspRest_dot _ rfl]
    refine (hasDerivWithinAt_const t (Ici t) _).congr_deriv ?_
    interval_cases i <;> rfl
  · have hs : ∃ s, inspCascade inspStill 20 500 K1 K2 none none = .ok s ∧ limiterLatched s = false ∧
        ∃ s1 s2, s.rtaList = [.asif inspStill.sunVel s1, s2] ∧ s1.ext.epsilon = 1 / 100 := by
      obtain ⟨r1, hr⟩ := insp_init_ok inspStill 1 (1 / 100) false
      unfold inspCascade
      rw [hr]
      simp only
      unfold deltaVInit
      rw [if_neg (by show ¬ (12 : ℝ) = 0; norm_num)]
      exact ⟨_, rfl, rfl, _, _, rfl, (insp_init hr).2.2.2.2.2.2.2⟩
    obtain ⟨s, hs, hl, r1, r2, hr, heps⟩ := hs
    have hmod : CascadeModule solver inspStill s := ⟨20, 500, K1, K2, s, [], h1, h2, hs, by simp, rfl⟩
    obtain ⟨s1, s2, s1', s2', w, v, s', hst, hf, -, e1, -, e, -, -, -, -, hun, -⟩ := (hmod.inv hspec).call hspec (x := inspRest) rfl (u := [0, 0, 0]) rfl 1
    obtain ⟨rfl, rfl⟩ : r1 = s1 ∧ r2 = .deltaV s2 := by rw [hr] at hst; simpa using hst
    have hbnd : Within r1.controlBoundsLow r1.controlBoundsHigh [0, 0, 0] := by rw [hf.low, hf.high]; exact within_one.2 (by simp)
    have hz := (C71_inspection hspec (c := inspStill) rfl hf.module hf.constraints hf.dim hf.direct hf.enable (by rw [heps]; norm_num) hbnd
      (fun kc hkc => (inspRest_values kc hkc).le) 1).1
    have hw : w = [0, 0, 0] := by
      rw [show ([0, 100, 0, 0, 0, 0, 0, 0] : List ℝ) = inspRest from rfl, e1] at hz
      simpa using hz
    have hv : v = [0, 0, 0] := by
      unfold limiterLatched at hl
      rw [hst] at hl
      rw [hun hl, hw]
    refine ⟨s, s', 1, [0, 0, 0], hmod, hl, rfl, fun _ _ => ⟨[0, 0, 0], rfl, by simp, fun kc hkc => ?_⟩, by rw [e, hv]⟩
    rw [inspConstraints_eq] at hkc
    obtain ⟨k, -, rfl⟩ := List.mem_map.1 hkc
    have h0 : vadd (inspectionF inspStill.n inspStill.sunVel inspRest) (matVec (inspectionG inspStill.m) [0, 0, 0]) = zeros 8 := by
      have e : inspStill.sunVel = 0 := rfl
      rw [e]
      simp [inspectionF, inspectionG, cwhA3, cwhB3, matVec, vadd, pySlice, inspRest, zeros, List.replicate]
    have hv : 0 < (inspC inspStill k).2.computeFn inspRest (inspC inspStill k).2.params + (inspC inspStill k).2.bias :=
      inspRest_values _ (inspC_mem _ k)
    refine ⟨polyAlpha (inspCoefs k) ((inspC inspStill k).2.computeFn inspRest (inspC inspStill k).2.params + (inspC inspStill k).2.bias), ?_,
      ((C33_sign _ (inspCoefs_classK k) _).2 hv).le⟩
    rw [barrierValue, inspC_alpha, h0, dot_zeros_right]
    simp only [Option.map_some, zero_add]
    rw [strengthening, if_pos hv.le]

end RTA
