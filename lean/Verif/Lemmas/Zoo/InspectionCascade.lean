import Verif.Lemmas.Zoo.CombinedCall
import Verif.Spec.Zoo.InspectionCascade
import Verif.Props.Zoo.DeltaV
import Verif.Props.Zoo.InspectionModule

/-!
Calls of the cascade of the inspection problem.
-/
namespace RTA
open Set Real

/-- What is always true of the first stage. -/
structure InspFirst (solver : Solver ℝ) (c : InspConfig) (s : ASIFObj ℝ (List ℝ) InspParams Unit) : Prop where
  module : ExplicitModule solver (inspectionF c.n c.sunVel) (fun _ => inspectionG c.m) s
  constraints : s.constraints = inspConstraints c
  dim : s.ext.controlDim = 3
  direct : s.ext.direct = []
  enable : s.enable = true
  low : s.controlBoundsLow = some (.scalar (-1))
  high : s.controlBoundsHigh = some (.scalar 1)
  exc : s.ext.solverException = false

/-- What is always true of the second stage. -/
structure InspSecond (c : InspConfig) (s : DeltaVObj ℝ) : Prop where
  shape : DVShape s
  n : s.n = c.n
  m : s.m = c.m
  enable : s.enable = true
  low : s.controlBoundsLow = some (.scalar (-1))
  high : s.controlBoundsHigh = some (.scalar 1)

/-- What is always true of the cascade. -/
structure CascadeInv (solver : Solver ℝ) (c : InspConfig) (s : CascadeObj ℝ InspStage) : Prop where
  enable : s.enable = true
  low : s.controlBoundsLow = none
  high : s.controlBoundsHigh = none
  stages : ∃ s1 s2, s.rtaList = [.asif c.sunVel s1, .deltaV s2] ∧ InspFirst solver c s1 ∧ InspSecond c s2

theorem fits_scalar (n : Nat) (v : ℝ) : BoundFits n (some (.scalar v)) := trivial

theorem within_one {w : List ℝ} : Within (some (.scalar (-1 : ℝ))) (some (.scalar 1)) w ↔ ∀ a ∈ w, -1 ≤ a ∧ a ≤ 1 := by
  constructor
  · intro h a ha
    obtain ⟨i, hi, rfl⟩ := List.mem_iff_getElem.1 ha
    obtain ⟨h1, h2⟩ := h i _ (List.getElem?_eq_getElem hi)
    exact ⟨h1 _ rfl, h2 _ rfl⟩
  · intro h i v hv
    have := h v (List.mem_of_getElem? hv)
    refine ⟨fun b hb => ?_, fun b hb => ?_⟩
    · simp only [boundAt, Option.some.injEq] at hb; linarith
    · simp only [boundAt, Option.some.injEq] at hb; linarith

theorem InspSecond.clip {c : InspConfig} {s : DeltaVObj ℝ} (h : InspSecond c s) {u : List ℝ} (hu : ∀ a ∈ u, -1 ≤ a ∧ a ≤ 1) :
    s.toBase.clipControl u = .ok u :=
  C05_clip_identity _ _ (by rw [h.low]; trivial) (by rw [h.high]; trivial) (by rw [h.low, h.high]; exact within_one.2 hu)

/-- The first stage always answers, with a control within the bounds, and stays what it is. -/
theorem InspFirst.call {solver : Solver ℝ} (hspec : SolverSpec solver) {c : InspConfig} {s : ASIFObj ℝ (List ℝ) InspParams Unit}
    (h : InspFirst solver c s) {x u : List ℝ} (hx : x.length = 8) (hu : u.length = 3) (dt : ℝ) :
    ∃ v s', explicitASIF solver (inspectionF c.n c.sunVel) (fun _ => inspectionG c.m) s (.array x) dt u = (.ok v, s') ∧
      v.length = 3 ∧ (∀ a ∈ v, -1 ≤ a ∧ a ≤ 1) ∧ InspFirst solver c s' := by
  have hns : slackScales s.constraints = [] := by rw [h.constraints]; rfl
  have hsp : ScalesPos s.constraints := by intro w hw; rw [hns] at hw; simp at hw
  have hsh := insp_shapes h.constraints h.dim h.direct hx
  have hk := h.module.kept (.array x) dt u
  have hm := h.module.call (.array x) dt u
  have hfirst : InspFirst solver c (explicitASIF solver (inspectionF c.n c.sunVel) (fun _ => inspectionG c.m) s (.array x) dt u).2 :=
    ⟨hm, hk.constraints.trans h.constraints, hk.controlDim.trans h.dim, hk.direct.trans h.direct, hk.enable.trans h.enable,
      hk.low.trans h.low, hk.high.trans h.high, hk.exc.trans h.exc⟩
  obtain ⟨t1, t2⟩ := explicit_total hspec h.module.inv.1 h.module.inv.2 hsp hsh dt (hu.trans h.dim.symm) h.enable
  by_cases hadm : ∃ w d, AdmissibleS (inspectionF c.n c.sunVel) (fun _ => inspectionG c.m) s x w d
  · obtain ⟨v, hv⟩ := t1 hadm
    obtain ⟨-, d, -, had, -⟩ := explicit_solved hspec h.module.inv.1 h.module.inv.2 hsp h.enable (Prod.ext hv rfl) hadm
    refine ⟨v, _, Prod.ext hv rfl, had.len.trans h.dim, ?_, hfirst⟩
    have := had.bounds
    rw [h.low, h.high] at this
    exact within_one.1 this
  · have e := t2 hadm
    rw [if_neg (by rw [h.exc]; simp)] at e
    obtain ⟨v, hv, hl⟩ := C05_clip_total s.toBase u (by rw [h.low]; trivial) (by rw [h.high]; trivial)
    rw [hv] at e
    refine ⟨v, _, Prod.ext e rfl, hl.trans hu, ?_, hfirst⟩
    have := clip_within s.toBase u v (by rw [h.low, h.high]; intro i lo hi h1 h2; simp only [boundAt, Option.some.injEq] at h1 h2; linarith) hv
    rw [h.low, h.high] at this
    exact within_one.1 this

/-- Calls of the limiter keep what is always true of it. -/
theorem InspSecond.call {c : InspConfig} {s : DeltaVObj ℝ} (h : InspSecond c s) {x u : List ℝ} (hx : x.length = 8) (hu : u.length = 3)
    (hb : ∀ a ∈ u, -1 ≤ a ∧ a ≤ 1) (dt : ℝ) :
    ∃ v s', deltaVFilter s x dt u = (.ok v, s') ∧ v.length = 3 ∧ (∀ a ∈ v, -1 ≤ a ∧ a ≤ 1) ∧ InspSecond c s' ∧
      (s.latched = false → v = u) ∧
      (s.latched = true → s'.latched = true ∧ s.backupControl x dt s.errorIntegral = .ok (v, s'.errorIntegral)) := by
  have hc := h.clip hb
  cases hl : s.latched with
  | false =>
    obtain ⟨xs, is, hp⟩ := prediction_exists h.shape dt hx hu
    obtain ⟨er, he⟩ := trackError_ok s (by omega : 5 ≤ x.length)
    have := deltaV_unlatched_call s h.shape h.enable hl x u u dt xs is hp er he hc
    refine ⟨u, _, this, hu, hb, ?_, fun _ => rfl, by simp⟩
    rw [bump_fields]
    exact ⟨⟨h.shape.A, h.shape.B, h.shape.K1, h.shape.K2⟩, h.n, h.m, h.enable, h.low, h.high⟩
  | true =>
    obtain ⟨ub, ei, hbk, hlen⟩ := backup_ok h.shape dt (by omega : 5 ≤ x.length) s.errorIntegral
    have hub : ∀ a ∈ ub, -1 ≤ a ∧ a ≤ 1 := by
      unfold DeltaVObj.backupControl at hbk
      obtain ⟨er, he⟩ := trackError_ok s (by omega : 5 ≤ x.length)
      rw [he] at hbk
      simp only [Except.ok.injEq, Prod.mk.injEq] at hbk
      rw [← hbk.1]
      intro a ha
      obtain ⟨b, -, rfl⟩ := List.mem_map.1 ha
      exact ⟨le_min (le_max_right _ _) (by norm_num), min_le_right _ _⟩
    have hcub := h.clip hub
    obtain ⟨⟨hi, lo, en, iv, cd, ca⟩, m, n, L, N, A, B, K1, K2, e, l⟩ := s
    have hen := h.enable
    simp only at hen hl
    subst hen hl
    refine ⟨ub, ⟨⟨hi, lo, true, iv, some u, some ub⟩, m, n, L, N, A, B, K1, K2, ei, true⟩, ?_, hlen, hub, ?_, by simp, fun _ => ⟨rfl, hbk⟩⟩
    · unfold deltaVFilter filterControl deltaVCompute
      simp only [modifyBase, HasBase.get, HasBase.set, if_true, Bool.true_eq_false, if_false]
      have hbk' : DeltaVObj.backupControl ⟨⟨hi, lo, true, iv, some u, ca⟩, m, n, L, N, A, B, K1, K2, e, true⟩ x dt e = .ok (ub, ei) := hbk
      rw [hbk']
      simp only
      have hcub' : Base.clipControl ⟨hi, lo, true, iv, some u, ca⟩ ub = .ok ub := hcub
      rw [hcub']
    · exact ⟨⟨h.shape.A, h.shape.B, h.shape.K1, h.shape.K2⟩, h.n, h.m, rfl, h.low, h.high⟩

/-- What a call of the cascade does. -/
theorem CascadeInv.call {solver : Solver ℝ} (hspec : SolverSpec solver) {c : InspConfig} {s : CascadeObj ℝ InspStage}
    (h : CascadeInv solver c s) {x u : List ℝ} (hx : x.length = 8) (hu : u.length = 3) (dt : ℝ) :
    ∃ s1 s2 s1' s2' w v s', s.rtaList = [.asif c.sunVel s1, .deltaV s2] ∧ InspFirst solver c s1 ∧ InspSecond c s2 ∧
      explicitASIF solver (inspectionF c.n c.sunVel) (fun _ => inspectionG c.m) s1 (.array x) dt u = (.ok w, s1') ∧
      deltaVFilter s2 x dt w = (.ok v, s2') ∧ inspCascadeFilter solver c s x dt u = (.ok v, s') ∧ v.length = 3 ∧ (∀ a ∈ v, -1 ≤ a ∧ a ≤ 1) ∧
      s'.rtaList = [.asif c.sunVel s1', .deltaV s2'] ∧ CascadeInv solver c s' ∧ (s2.latched = false → v = w) ∧
      (s2.latched = true → s2'.latched = true ∧ s2.backupControl x dt s2.errorIntegral = .ok (v, s2'.errorIntegral)) ∧
      w.length = 3 ∧ (∀ a ∈ w, -1 ≤ a ∧ a ≤ 1) := by
  obtain ⟨hen, hlo, hhi, s1, s2, hst, h1, h2⟩ := h
  obtain ⟨w, s1', e1, hw, hwb, h1'⟩ := h1.call hspec hx hu dt
  obtain ⟨v, s2', e2, hv, hvb, h2', hun, hla⟩ := h2.call hx hw hwb dt
  have f1 : inspStageFilter solver c (.asif c.sunVel s1) x dt u = (.ok w, .asif c.sunVel s1') := by
    unfold inspStageFilter inspGetState
    simp only [h1.enable, if_true]
    rw [if_neg (by omega)]
    simp only
    rw [e1]
  have f2 : inspStageFilter solver c (.deltaV s2) x dt w = (.ok v, .deltaV s2') := by
    unfold inspStageFilter
    simp only
    rw [e2]
  obtain ⟨⟨hi, lo, en, iv, cd, ca⟩, l⟩ := s
  simp only at hen hlo hhi hst
  subst hen hlo hhi hst
  have hcall : ∃ b, inspCascadeFilter solver c ⟨⟨none, none, true, iv, cd, ca⟩, [.asif c.sunVel s1, .deltaV s2]⟩ x dt u =
      (.ok v, ⟨⟨none, none, true, b, some u, some v⟩, [.asif c.sunVel s1', .deltaV s2']⟩) := by
    refine ⟨if s2'.intervening then true else if s1'.intervening then true else false, ?_⟩
    unfold inspCascadeFilter cascadeFilter filterControl cascadeCompute
    simp only [modifyBase, HasBase.get, HasBase.set, if_true, cascadeLoop, f1, f2]
    rfl
  obtain ⟨b, hcall⟩ := hcall
  exact ⟨s1, s2, s1', s2', w, v, _, rfl, h1, h2, e1, e2, hcall, hv, hvb, rfl, ⟨rfl, rfl, rfl, s1', s2', rfl, h1', h2'⟩, hun, hla, hw, hwb⟩

theorem cascadeInv_init {solver : Solver ℝ} {c : InspConfig} {limit : ℝ} {nSteps : Nat} {K1 K2 : List (List ℝ)} {s : CascadeObj ℝ InspStage}
    (h1 : K1.length = 3) (h2 : K2.length = 3) (h : inspCascade c limit nSteps K1 K2 none none = .ok s) : CascadeInv solver c s := by
  unfold inspCascade at h
  rcases ha : inspASIF c (some (.scalar 1)) (some (.scalar (-1))) (1 / 100) false with e | s1
  · rw [ha] at h; simp at h
  · rw [ha] at h
    simp only at h
    rcases hd : deltaVInit c.m c.n limit nSteps (some (.scalar 1)) (some (.scalar (-1))) K1 K2 with e | s2
    · rw [hd] at h; simp at h
    · rw [hd] at h
      simp only [Except.ok.injEq] at h
      subst h
      obtain ⟨hc, hdim, hdir, hen, hlo, hhi, hexc, -⟩ := insp_init ha
      refine ⟨rfl, rfl, rfl, s1, s2, rfl, ⟨insp_module ha, hc, hdim, hdir, hen, hlo, hhi, hexc⟩, ?_⟩
      have hsh := deltaVInit_shape h1 h2 hd
      unfold deltaVInit at hd
      split at hd
      · simp at hd
      · simp only [Except.ok.injEq] at hd
        subst hd
        exact ⟨hsh, rfl, rfl, rfl, rfl, rfl⟩

theorem cascadeInv_step {solver : Solver ℝ} (hspec : SolverSpec solver) {c : InspConfig} {s : CascadeObj ℝ InspStage}
    (h : CascadeInv solver c s) {op : CascadeOp} (hop : op.Proper) : CascadeInv solver c (stepCascade solver c s op) := by
  cases op with
  | call x dt u =>
    obtain ⟨s1, s2, s1', s2', w, v, s', -, -, -, -, -, e, -, -, -, hs', -⟩ := h.call hspec hop.1 hop.2 dt
    show CascadeInv solver c (inspCascadeFilter solver c s x dt u).2
    rw [e]
    exact hs'
  | reset =>
    obtain ⟨hen, hlo, hhi, hst⟩ := h
    exact ⟨rfl, hlo, hhi, hst⟩

theorem cascadeInv_run {solver : Solver ℝ} (hspec : SolverSpec solver) {c : InspConfig} (ops : List CascadeOp) {s : CascadeObj ℝ InspStage}
    (h : CascadeInv solver c s) (hop : ∀ op ∈ ops, CascadeOp.Proper op) : CascadeInv solver c (runCascade solver c s ops) := by
  induction ops generalizing s with
  | nil => exact h
  | cons op ops ih =>
    exact ih (cascadeInv_step hspec h (hop op (by simp))) fun o ho => hop o (by simp [ho])

theorem CascadeModule.inv {solver : Solver ℝ} (hspec : SolverSpec solver) {c : InspConfig} {s : CascadeObj ℝ InspStage}
    (h : CascadeModule solver c s) : CascadeInv solver c s := by
  obtain ⟨limit, nSteps, K1, K2, s0, ops, h1, h2, h0, hop, rfl⟩ := h
  exact cascadeInv_run hspec ops (cascadeInv_init h1 h2 h0) hop

theorem CascadeModule.step {solver : Solver ℝ} {c : InspConfig} {s : CascadeObj ℝ InspStage} (h : CascadeModule solver c s)
    {ops : List CascadeOp} (hop : ∀ op ∈ ops, CascadeOp.Proper op) : CascadeModule solver c (runCascade solver c s ops) := by
  obtain ⟨limit, nSteps, K1, K2, s0, ops', h1, h2, h0, hop', rfl⟩ := h
  refine ⟨limit, nSteps, K1, K2, s0, ops' ++ ops, h1, h2, h0, ?_, by unfold runCascade; rw [List.foldl_append]⟩
  intro o ho
  rcases List.mem_append.1 ho with ho | ho
  · exact hop' o ho
  · exact hop o ho

/-! ### On a natural motion trajectory -/

theorem matVec_zeros6 {K : List (List ℝ)} (h : K.length = 3) : matVec K (zeros 6) = [0, 0, 0] := by
  match K, h with
  | [a, b, c], _ => simp [matVec, dot_zeros_right]

/-- On a natural motion trajectory with no accumulated error the backup controller does nothing. -/
theorem backup_nmt {c : InspConfig} {s : DeltaVObj ℝ} (h : InspSecond c s) {x : List ℝ} (hx : OnNMT c.n x) (dt : ℝ) :
    s.backupControl x dt (zeros 6) = .ok ([0, 0, 0], zeros 6) := by
  have he : s.trackError x = .ok (zeros 6) := by
    obtain ⟨hl, h3, h4⟩ := hx
    match x, hl with
    | [a, b, z, va, vb, vz, p, q], _ =>
      simp only [comp, List.getD_cons_zero, List.getD_cons_succ] at h3 h4
      unfold DeltaVObj.trackError
      simp only [List.getElem?_cons_succ, List.getElem?_cons_zero, h.n, h3, h4]
      simp [zeros, List.replicate]
  unfold DeltaVObj.backupControl
  rw [he]
  simp only [matVec_zeros6 h.shape.K1, matVec_zeros6 h.shape.K2]
  simp [vsub, vadd, zeros, List.replicate]

end RTA
