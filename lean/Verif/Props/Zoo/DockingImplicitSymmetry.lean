import Verif.Props.SymmetryImplicit
import Verif.Props.Zoo.DockingSymmetry
import Verif.Props.Zoo.DockingSimplexSymmetry
import Verif.Props.Zoo.DockingImplicit

/-!
C107 for the implicit optimisation modules of the docking problems: seen from the opposite side of the target they answer with opposite controls.
-/
namespace RTA
variable {A : Type}

/-- Automatic differentiation gives the matrix of a linear map. -/
def ExactOnLinear (ad : (List ℝ → List ℝ) → List ℝ → List (List ℝ)) (N : Nat) : Prop :=
  ∀ M F, M.length = N → (∀ r ∈ M, r.length = N) → (∀ y : List ℝ, y.length = N → F y = matVec M y) → ∀ y : List ℝ, y.length = N → ad F y = M

theorem flip_opposite : ∀ {N : Nat} {v : List ℝ}, v.length ≤ N → flip (List.replicate N (-1)) v = opposite v
  | 0, v, h => by rw [List.length_eq_zero_iff.1 (Nat.le_zero.1 h)]; rfl
  | N + 1, [], _ => by simp [flip, opposite]
  | N + 1, a :: v, h => by
    have := flip_opposite (N := N) (v := v) (by simpa using h)
    simp only [flip, opposite, List.replicate_succ, List.zipWith_cons_cons, List.map_cons, neg_mul, one_mul] at this ⊢
    rw [this]

theorem opposite_length (v : List ℝ) : (opposite v).length = v.length := by simp [opposite]

theorem dot_flip_opposite : ∀ {N : Nat} {r : List ℝ} (v : List ℝ), r.length = N → dot r (flip (List.replicate N (-1)) v) = -dot r v
  | 0, r, v, h => by rw [List.length_eq_zero_iff.1 h]; simp [dot]
  | N + 1, [], v, h => by simp at h
  | N + 1, a :: r, [], h => by simp [flip, dot]
  | N + 1, a :: r, b :: v, h => by
    have := dot_flip_opposite (N := N) (r := r) v (by simpa using h)
    simp only [flip, List.replicate_succ, List.zipWith_cons_cons, dot_cons] at this ⊢
    rw [this]
    ring

theorem matVec_flip_opposite {N : Nat} {M : List (List ℝ)} (hM : M.length = N) (hr : ∀ r ∈ M, r.length = N) (v : List ℝ) :
    matVec M (flip (List.replicate N (-1)) v) = flip (List.replicate N (-1)) (matVec M v) := by
  rw [flip_opposite (v := matVec M v) (by simp [hM])]
  simp only [matVec, opposite, List.map_map]
  exact List.map_congr_left fun r h => dot_flip_opposite v (hr r h)

/-- What the docking modules have in common: linear dynamics and prediction, a linear backup law, symmetric bounds, even constraints. -/
structure OddModule (E : ImplicitEnv ℝ) (s : ImplicitObj ℝ DockParams A) (dt U : ℝ) (N d : Nat) (Am Bm M G : List (List ℝ)) : Prop where
  f : ∀ y, E.f y = matVec Am y
  g : ∀ y, E.g y = Bm
  am : Am.length = N
  bm : Bm.length = N
  bmr : ∀ r ∈ Bm, r.length = d
  pred : LinearPrediction E.pred
  predLen : ∀ y w, y.length = N → w.length = d → (E.pred y dt w).length = N
  gen : s.ext.extra.ctrl.gen = fun x _ _ => some (lqrControl d G x, .none)
  gm : G.length = d
  state : s.ext.extra.ctrl.state = .none
  mm : M.length = N
  mmr : ∀ r ∈ M, r.length = N
  ad : ∀ z y, y.length = N → E.ad (closedLoopField E s dt z) y = M
  nonneg : 0 ≤ U
  low : s.controlBoundsLow = some (.scalar (-U))
  high : s.controlBoundsHigh = some (.scalar U)
  dim : s.ext.controlDim = d
  direct : s.ext.direct = []
  alpha : ∀ kc ∈ s.constraints, kc.2.alpha.isSome = true
  noSlack : ∀ kc ∈ s.constraints, kc.2.slackPriorityScale = none
  subsample : ∀ kc ∈ s.constraints, kc.2.subsample = {}
  value : ∀ kc ∈ s.constraints, ∀ y, y.length = N → kc.2.computeFn (opposite y) kc.2.params = kc.2.computeFn y kc.2.params
  grad : ∀ kc ∈ s.constraints, ∀ y, y.length = N → kc.2.gradFn (opposite y) kc.2.params = opposite (kc.2.gradFn y kc.2.params) ∧
    (kc.2.gradFn y kc.2.params).length = N

section
variable {E : ImplicitEnv ℝ} {s : ImplicitObj ℝ DockParams A} {dt U : ℝ} {N d : Nat} {Am Bm M G : List (List ℝ)}

theorem OddModule.symmetric (h : OddModule E s dt U N d Am Bm M G) :
    SymmetricI E s dt (List.replicate N (-1)) (List.replicate d (-1)) := by
  have ht : ∀ y : List ℝ, y.length = (List.replicate N (-1 : ℝ)).length → y.length = N := fun y hy => by simpa using hy
  have hd : ∀ y : List ℝ, y.length = (List.replicate d (-1 : ℝ)).length → y.length = d := fun y hy => by simpa using hy
  have hlen : ∀ x : List ℝ, (lqrControl d G x).length = d := fun x => by simp [lqrControl, h.gm]
  refine ⟨?_, ?_, ?_, ?_, ?_, ?_, ?_, ?_, ?_, by simp [h.direct]⟩
  · intro y hy
    rw [flip_opposite (ht y hy).le, h.f, h.f, matVec_opposite, flip_opposite (by simp [h.am])]
  · intro y w hy hw
    rw [flip_opposite (hd w hw).le, h.g, h.g, matVec_opposite, flip_opposite (by simp [h.bm])]
  · intro y w hy hw
    rw [flip_opposite (hd w hw).le, flip_opposite (ht y hy).le, h.pred.opposite, flip_opposite (h.predLen y w (ht y hy) (hd w hw)).le]
  · intro y w hy hw
    rw [h.predLen y w (ht y hy) (hd w hw), List.length_replicate]
  · intro y z hy
    rw [flip_opposite (ht y hy).le, h.gen]
    simp only [lqr_opposite, Option.map_some]
    rw [flip_opposite (hlen y).le]
  · intro y z r hy hr
    rw [h.gen] at hr
    simp only [Option.some.injEq] at hr
    rw [← hr, List.length_replicate]
    exact hlen y
  · intro y z v hy
    rw [h.ad z _ (by simp [ht y hy]), h.ad z y (ht y hy)]
    exact matVec_flip_opposite h.mm h.mmr v
  · intro kc hkc y hy
    rw [flip_opposite (ht y hy).le]
    exact h.value kc hkc y (ht y hy)
  · intro kc hkc y v hy
    obtain ⟨h1, h2⟩ := h.grad kc hkc y (ht y hy)
    rw [flip_opposite (ht y hy).le, h1, dot_flip_opposite v (by rw [opposite_length, h2])]
    have : dot (opposite (kc.2.gradFn y kc.2.params)) v = -dot (kc.2.gradFn y kc.2.params) v := by
      rw [dot_comm, dot_opposite, dot_comm]
    rw [this, neg_neg]

/-- The backup trajectory exists and consists of states. -/
theorem OddModule.path (h : OddModule E s dt U N d Am Bm M G) {x : List ℝ} (hx : x.length = N) (k : Nat) :
    ∃ y, y.length = N ∧ backupPath E s x dt k = some (y, .none) := by
  induction k with
  | zero => exact ⟨x, hx, by rw [backupPath, h.state]⟩
  | succ k ih =>
    obtain ⟨y, hy, he⟩ := ih
    obtain ⟨c, hc, hcl⟩ := C05_clip_total s.toBase (lqrControl d G y) (by rw [h.low]; trivial) (by rw [h.high]; trivial)
    have hl : c.length = d := by rw [hcl]; simp [lqrControl, h.gm]
    exact ⟨_, h.predLen y c hy hl, C36_trajectory E s _ _ dt k _ he (lqrControl d G y) .none (by rw [h.gen]) c hc⟩

theorem OddModule.shapes (h : OddModule E s dt U N d Am Bm M G) (hdt : 0 < dt) (hw : 0 ≤ s.ext.extra.backupWindow) {x : List ℝ}
    (hx : x.length = N) : ShapesI E s x dt := by
  refine ⟨hdt.ne', ?_, h.alpha, h.noSlack, fun kc hkc => by rw [h.subsample kc hkc]; decide, by simp [h.f, h.am, hx], by rw [h.g, h.bm, hx],
    by rw [h.g, h.dim]; exact h.bmr, by simp [h.state], ?_, by simp [h.direct]⟩
  · unfold pyInt
    rw [if_pos (by positivity)]
    exact Int.floor_nonneg.2 (by positivity)
  · intro k _
    obtain ⟨y, hy, he⟩ := h.path hx k
    refine ⟨y, .none, he, fun kc hkc => by rw [(h.grad kc hkc y hy).2, hx], fun _ => ⟨⟨lqrControl d G y, .none, by rw [h.gen], ?_⟩, ?_, ?_, ?_⟩⟩
    · rw [h.g]
      intro r hr
      rw [h.bmr r hr]
      simp [lqrControl, h.gm]
    · rw [h.g, h.f, h.bm]; simp [h.am]
    · rw [h.ad _ y hy, h.mm, hx]
    · rw [h.ad _ y hy, hx]; exact h.mmr

/-- The answers from the opposite side. -/
theorem OddModule.answer (h : OddModule E s dt U N d Am Bm M G) {solver : Solver ℝ} (hspec : SolverSpec solver) (hs : ImplicitModule solver E s)
    (hen : s.enable = true) (hdt : 0 < dt) (hw : 0 ≤ s.ext.extra.backupWindow) {x u : List ℝ} (hx : x.length = N) (hu : u.length = d) :
    (E.call solver s (.array (opposite x)) dt (opposite u)).1 =
      ((E.call solver s (.array x) dt u).1).map (flip (List.replicate d (-1))) := by
  have hxo : flip (List.replicate N (-1)) x = opposite x := flip_opposite hx.le
  have := C107_implicit hspec hs hen h.symmetric (by simp) (by rw [List.length_replicate, h.dim]) (by rw [h.low, h.high]; exact symmetric_scalar _ U)
    (by rw [h.low, h.high]; exact consistent_scalar h.nonneg) (x := x) (by rw [List.length_replicate, hx]) (h.shapes hdt hw hx)
    (by rw [hxo]; exact h.shapes hdt hw (by rw [opposite_length, hx]))
    (fun kc hkc => by unfold pointsOf; rw [h.subsample kc hkc, C37_default_every_point, List.length_range]) (u := u) (by rw [hu, h.dim])
  rwa [hxo, flip_opposite hu.le] at this

end

/-- **C107, implicit docking module in the plane.** Let the prediction be linear and automatic differentiation exact on linear maps. Whatever the gains of
the LQR controller and the window, the 2-D implicit optimisation module, after any history that leaves its constraints as they are, answers from the
opposite side of the target, with opposite velocity and opposite desired control, with the opposite control. -/
theorem C107_docking_2d_implicit {solver : Solver ℝ} (hspec : SolverSpec solver) {E : ImplicitEnv ℝ} {m n : ℝ} (hf : E.f = dockF2 n)
    (hg : E.g = dockG2 m) (had : ExactOnLinear E.ad 4) (hp : LinearPrediction E.pred) {dt : ℝ} (hdt : 0 < dt)
    (hpl : ∀ y w, y.length = 4 → w.length = 2 → (E.pred y dt w).length = 4) {v0 v1 v0Distance xLim yLim U : ℝ} (hU : 0 ≤ U)
    {s : ImplicitObj ℝ DockParams A} (hs : ImplicitModule solver E s) (hc : s.constraints = dockConstraints2 v0 v1 v0Distance xLim yLim)
    (hdim : s.ext.controlDim = 2) (hdir : s.ext.direct = []) (hen : s.enable = true) (hlo : s.controlBoundsLow = some (.scalar (-U)))
    (hhi : s.controlBoundsHigh = some (.scalar U)) {g11 g12 g13 g14 g21 g22 g23 g24 : ℝ}
    (hgen : s.ext.extra.ctrl.gen = fun x _ _ => some (lqrControl 2 [[g11, g12, g13, g14], [g21, g22, g23, g24]] x, .none))
    (hst : s.ext.extra.ctrl.state = .none) (hw : 0 ≤ s.ext.extra.backupWindow) (x y a b u1 u2 : ℝ) :
    (E.call solver s (.array [-x, -y, -a, -b]) dt [-u1, -u2]).1 =
      ((E.call solver s (.array [x, y, a, b]) dt [u1, u2]).1).map (flip [-1, -1]) := by
  have h : OddModule E s dt U 4 2 (cwhA2 n) (cwhB2 m) [[0, 0, 1, 0], [0, 0, 0, 1], [3 * n ^ 2, 0, -(g13 / m), 2 * n - g14 / m],
      [0, 0, -2 * n - g23 / m, -(g24 / m)]] [[g11, g12, g13, g14], [g21, g22, g23, g24]] :=
    { f := fun y => by rw [hf]; rfl
      g := fun y => by rw [hg]; rfl
      am := rfl
      bm := rfl
      bmr := by simp [cwhB2]
      pred := hp
      predLen := hpl
      gen := hgen
      gm := rfl
      state := hst
      mm := rfl
      mmr := by simp
      ad := fun z y hy => had _ _ rfl (by simp) (fun y hy => by
        match y, hy with
        | [p, q, r, t], _ =>
          simp [closedLoopField, hf, hg, hgen, dockF2, dockG2, cwhA2, cwhB2, lqrControl, matVec, vadd, vsub, zeros, List.replicate]
          constructor <;> ring) y hy
      nonneg := hU
      low := hlo
      high := hhi
      dim := hdim
      direct := hdir
      alpha := by rw [hc]; simp [dockConstraints2, dockRelVel, dockLimit, Constraint.mk']
      noSlack := by rw [hc]; simp [dockConstraints2, dockRelVel, dockLimit, Constraint.mk']
      subsample := by rw [hc]; simp [dockConstraints2, dockRelVel, dockLimit, Constraint.mk']
      value := by
        rw [hc]
        intro kc hkc y hy
        simp only [dockConstraints2, List.mem_cons, List.not_mem_nil, or_false] at hkc
        rcases hkc with rfl | rfl | rfl
        · simp only [dockRelVel, Constraint.mk', relativeVelocity, norm_opposite]
        · simp [dockLimit, Constraint.mk', stateAt_opposite]
        · simp [dockLimit, Constraint.mk', stateAt_opposite]
      grad := by
        rw [hc]
        intro kc hkc y hy
        match y, hy with
        | [p, q, r, t], _ =>
          simp only [dockConstraints2, List.mem_cons, List.not_mem_nil, or_false] at hkc
          rcases hkc with rfl | rfl | rfl <;>
          simp [dockRelVel, dockLimit, Constraint.mk', relVelGrad, normWithDelta, pySlice, stateAt, gradAt, opposite, zeros,
            List.range_succ, neg_div] }
  have := h.answer hspec hs hen hdt hw (x := [x, y, a, b]) (u := [u1, u2]) rfl rfl
  simpa [opposite, List.replicate] using this

/-- **C107, implicit docking module in space**, likewise. -/
theorem C107_docking_3d_implicit {solver : Solver ℝ} (hspec : SolverSpec solver) {E : ImplicitEnv ℝ} {m n : ℝ} (hf : E.f = dockF3 n)
    (hg : E.g = dockG3 m) (had : ExactOnLinear E.ad 6) (hp : LinearPrediction E.pred) {dt : ℝ} (hdt : 0 < dt)
    (hpl : ∀ y w, y.length = 6 → w.length = 3 → (E.pred y dt w).length = 6) {v0 v1 v0Distance xLim yLim zLim U : ℝ} (hU : 0 ≤ U)
    {s : ImplicitObj ℝ DockParams A} (hs : ImplicitModule solver E s) (hc : s.constraints = dockConstraints3 v0 v1 v0Distance xLim yLim zLim)
    (hdim : s.ext.controlDim = 3) (hdir : s.ext.direct = []) (hen : s.enable = true) (hlo : s.controlBoundsLow = some (.scalar (-U)))
    (hhi : s.controlBoundsHigh = some (.scalar U)) {g11 g12 g13 g14 g15 g16 g21 g22 g23 g24 g25 g26 g31 g32 g33 g34 g35 g36 : ℝ}
    (hgen : s.ext.extra.ctrl.gen = fun x _ _ => some (lqrControl 3 [[g11, g12, g13, g14, g15, g16], [g21, g22, g23, g24, g25, g26],
      [g31, g32, g33, g34, g35, g36]] x, .none))
    (hst : s.ext.extra.ctrl.state = .none) (hw : 0 ≤ s.ext.extra.backupWindow) (x y z a b c u1 u2 u3 : ℝ) :
    (E.call solver s (.array [-x, -y, -z, -a, -b, -c]) dt [-u1, -u2, -u3]).1 =
      ((E.call solver s (.array [x, y, z, a, b, c]) dt [u1, u2, u3]).1).map (flip [-1, -1, -1]) := by
  have h : OddModule E s dt U 6 3 (cwhA3 n) (cwhB3 m) [[0, 0, 0, 1, 0, 0], [0, 0, 0, 0, 1, 0], [0, 0, 0, 0, 0, 1],
      [3 * n ^ 2, 0, 0, -(g14 / m), 2 * n - g15 / m, -(g16 / m)], [0, 0, 0, -2 * n - g24 / m, -(g25 / m), -(g26 / m)],
      [0, 0, -(n ^ 2), -(g34 / m), -(g35 / m), -(g36 / m)]]
      [[g11, g12, g13, g14, g15, g16], [g21, g22, g23, g24, g25, g26], [g31, g32, g33, g34, g35, g36]] :=
    { f := fun y => by rw [hf]; rfl
      g := fun y => by rw [hg]; rfl
      am := rfl
      bm := rfl
      bmr := by simp [cwhB3]
      pred := hp
      predLen := hpl
      gen := hgen
      gm := rfl
      state := hst
      mm := rfl
      mmr := by simp
      ad := fun z y hy => had _ _ rfl (by simp) (fun y hy => by
        match y, hy with
        | [p, q, o, r, t, w], _ =>
          simp [closedLoopField, hf, hg, hgen, dockF3, dockG3, cwhA3, cwhB3, lqrControl, matVec, vadd, vsub, zeros, List.replicate]
          refine ⟨?_, ?_, ?_⟩ <;> ring) y hy
      nonneg := hU
      low := hlo
      high := hhi
      dim := hdim
      direct := hdir
      alpha := by rw [hc]; simp [dockConstraints3, dockRelVel, dockLimit, Constraint.mk']
      noSlack := by rw [hc]; simp [dockConstraints3, dockRelVel, dockLimit, Constraint.mk']
      subsample := by rw [hc]; simp [dockConstraints3, dockRelVel, dockLimit, Constraint.mk']
      value := by
        rw [hc]
        intro kc hkc y hy
        simp only [dockConstraints3, List.mem_cons, List.not_mem_nil, or_false] at hkc
        rcases hkc with rfl | rfl | rfl | rfl
        · simp only [dockRelVel, Constraint.mk', relativeVelocity, norm_opposite]
        all_goals simp [dockLimit, Constraint.mk', stateAt_opposite]
      grad := by
        rw [hc]
        intro kc hkc y hy
        match y, hy with
        | [p, q, o, r, t, w], _ =>
          simp only [dockConstraints3, List.mem_cons, List.not_mem_nil, or_false] at hkc
          rcases hkc with rfl | rfl | rfl | rfl <;>
          simp [dockRelVel, dockLimit, Constraint.mk', relVelGrad, normWithDelta, pySlice, stateAt, gradAt, opposite, zeros,
            List.range_succ, neg_div] }
  have := h.answer hspec hs hen hdt hw (x := [x, y, z, a, b, c]) (u := [u1, u2, u3]) rfl rfl
  simpa [opposite, List.replicate] using this

/-! ### Such environments exist -/

/-- The matrix of a linear map, read off from its values at the unit vectors. -/
noncomputable def matrixOf (N : Nat) (F : List ℝ → List ℝ) : List (List ℝ) :=
  (List.range N).map fun i => (List.range N).map fun j => stateAt (F (eyeRow N j)) i

theorem matrixOf_exact (N : Nat) : ExactOnLinear (fun F _ => matrixOf N F) N := by
  intro M F hM hr hF y _
  apply List.ext_getElem (by simp [matrixOf, hM])
  intro i h1 h2
  have hi := hr M[i] (List.getElem_mem h2)
  apply List.ext_getElem (by simp [matrixOf, hi])
  intro j h3 h4
  have hj : j < N := by omega
  simp only [matrixOf, List.getElem_map, List.getElem_range]
  rw [hF _ (by simp), stateAt, matVec, List.getD_eq_getElem?_getD, List.getElem?_map, List.getElem?_eq_getElem h2]
  simp only [Option.map_some, Option.getD_some]
  rw [dot_comm, dot_eyeRow N j _ hj hi, List.getD_eq_getElem?_getD, List.getElem?_eq_getElem h4, Option.getD_some]

/-- The default module in the plane with the Euler prediction, for any LQR gains. -/
example {solver : Solver ℝ} (hspec : SolverSpec solver) {epsilon : ℝ} {exc : Bool} {s : ImplicitObj ℝ DockParams A} {g13 g14 g23 g24 : ℝ}
    (h : dock2Implicit (1027 / 1000000) (1 / 5) 2 0 10 10 (some (.scalar 1)) (some (.scalar (-1)))
      (fun x _ _ => some (lqrControl 2 [[0, 0, g13, g14], [0, 0, g23, g24]] x, .none)) .none 5 epsilon exc = .ok s) :
    let E : ImplicitEnv ℝ := ⟨fun F _ => matrixOf 4 F, dockF2 (1027 / 1000000), dockG2 12,
      fun x dt u => vadd (matVec [[1, 0, dt, 0], [0, 1, 0, dt], [3 * (1027 / 1000000) ^ 2 * dt, 0, 1, 2 * (1027 / 1000000) * dt], [0, 0, -2 * (1027 / 1000000) * dt, 1]] x)
        (matVec [[0, 0], [0, 0], [dt / 12, 0], [0, dt / 12]] u)⟩
    (E.call solver s (.array [-100, -0, - -3, -1]) 1 [-1, -0]).1 = ((E.call solver s (.array [100, 0, -3, 1]) 1 [1, 0]).1).map (flip [-1, -1]) := by
  intro E
  obtain ⟨hc, hdim, hdir, hen, hlo, hhi, -, -, hw, hgen, hst⟩ := dock2I_init h
  exact C107_docking_2d_implicit hspec (E := E) rfl rfl (matrixOf_exact 4) ⟨fun dt => [[1, 0, dt, 0], [0, 1, 0, dt],
    [3 * (1027 / 1000000) ^ 2 * dt, 0, 1, 2 * (1027 / 1000000) * dt], [0, 0, -2 * (1027 / 1000000) * dt, 1]],
    fun dt => [[0, 0], [0, 0], [dt / 12, 0], [0, dt / 12]], fun x dt u => rfl⟩ one_pos (by simp [E, vadd]) zero_le_one (dock2I_module h) hc hdim hdir hen hlo hhi
    hgen hst (by rw [hw]; norm_num) 100 0 (-3) 1 1 0

/-- The default module in space, predicting with constant velocities. -/
example {solver : Solver ℝ} (hspec : SolverSpec solver) {epsilon k : ℝ} {exc : Bool} {s : ImplicitObj ℝ DockParams A}
    (h : dock3Implicit (1027 / 1000000) (1 / 5) 4 0 10 10 10 (some (.scalar 1)) (some (.scalar (-1)))
      (fun x _ _ => some (lqrControl 3 [[0, 0, 0, k, 0, 0], [0, 0, 0, 0, k, 0], [0, 0, 0, 0, 0, k]] x, .none)) .none 5 epsilon exc = .ok s) :
    let E : ImplicitEnv ℝ := ⟨fun F _ => matrixOf 6 F, dockF3 (1027 / 1000000), dockG3 12,
      fun x dt u => vadd (matVec [[1, 0, 0, dt, 0, 0], [0, 1, 0, 0, dt, 0], [0, 0, 1, 0, 0, dt], [0, 0, 0, 1, 0, 0], [0, 0, 0, 0, 1, 0],
        [0, 0, 0, 0, 0, 1]] x) (matVec [[0, 0, 0], [0, 0, 0], [0, 0, 0], [dt / 12, 0, 0], [0, dt / 12, 0], [0, 0, dt / 12]] u)⟩
    (E.call solver s (.array [-100, -0, -5, - -3, -0, -1]) 1 [-1, -0, -(1 / 2)]).1 =
      ((E.call solver s (.array [100, 0, 5, -3, 0, 1]) 1 [1, 0, 1 / 2]).1).map (flip [-1, -1, -1]) := by
  intro E
  obtain ⟨hc, hdim, hdir, hen, hlo, hhi, -, -, hw, hgen, hst⟩ := dock3I_init h
  exact C107_docking_3d_implicit hspec (E := E) rfl rfl (matrixOf_exact 6) ⟨fun dt => [[1, 0, 0, dt, 0, 0], [0, 1, 0, 0, dt, 0], [0, 0, 1, 0, 0, dt],
      [0, 0, 0, 1, 0, 0], [0, 0, 0, 0, 1, 0], [0, 0, 0, 0, 0, 1]],
    fun dt => [[0, 0, 0], [0, 0, 0], [0, 0, 0], [dt / 12, 0, 0], [0, dt / 12, 0], [0, 0, dt / 12]], fun x dt u => rfl⟩ one_pos (by simp [E, vadd])
    zero_le_one (dock3I_module h) hc hdim hdir hen hlo hhi hgen hst (by rw [hw]; norm_num) 100 0 5 (-3) 0 1 1 0 (1 / 2)

end RTA
