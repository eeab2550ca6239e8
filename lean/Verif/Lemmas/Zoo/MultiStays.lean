import Verif.Lemmas.Zoo.MultiMotion

/-!
The constraints of the multi-deputy inspection module along motions of the first deputy among coasting ones.
-/
namespace RTA
open Set Real Filter Topology

/-! ### The constraints as a family -/

inductive MIx
  | own (k : InspIx)
  | coll (i : Nat)
  | dsun (i : Nat)
  | psm (i : Nat)
  deriving DecidableEq

noncomputable def mCoefs : MIx → List ℝ
  | .own .rel => [0, 0, 0, 1 / 10]
  | .own k => inspCoefs k
  | .coll _ => [0, 1 / 100, 0, 1 / 1000]
  | .dsun _ => [0, 0, 0, 1 / 10]
  | .psm _ => [0, 1 / 100, 0, 1 / 1000]

theorem classK_cubic : ClassKCoefs [0, 0, 0, (1 : ℝ) / 10] := by
  refine ⟨fun i c h => ?_, 3, _, rfl, by norm_num⟩
  match i, h with
  | 0, h => simp at h; subst h; simp
  | 1, h => simp at h; subst h; simp
  | 2, h => simp at h; subst h; simp
  | 3, h => simp at h; subst h; exact ⟨by decide, by norm_num⟩
  | (i + 4), h => simp at h

theorem mCoefs_classK (k : MIx) : ClassKCoefs (mCoefs k) := by
  cases k with
  | own k =>
    cases k
    case rel => exact classK_cubic
    case sun => exact inspCoefs_classK .sun
    case rmax => exact inspCoefs_classK .rmax
    case psm => exact inspCoefs_classK .psm
    case vx => exact inspCoefs_classK .vx
    case vy => exact inspCoefs_classK .vy
    case vz => exact inspCoefs_classK .vz
    case coll => exact inspCoefs_classK .coll
  | coll i => exact inspCoefs_classK .coll
  | dsun i => exact classK_cubic
  | psm i => exact inspCoefs_classK .psm

/-- The constraints of the module. -/
noncomputable def multiC (c : MultiConfig) : MIx → String × Constraint ℝ (List ℝ) InspParams
  | .own .rel => ("rel_vel", inspRelVel (mCoefs (.own .rel)) (-(2 / 1000)) c.v0 (c.v1Coef * c.n) c.v0Distance)
  | .own .sun => ("chief_sun", multiChiefSun (mCoefs (.own .sun)) (-(1 / 1000)) c.aMax c.fov c.sunVel)
  | .own .rmax => ("r_max", inspMaxDistance (mCoefs (.own .rmax)) 0 c.rMax c.aMax)
  | .own .psm => ("PSM", inspPSM (mCoefs (.own .psm)) c.radius c.n 1 100)
  | .own .vx => ("x_vel", inspLimit (mCoefs (.own .vx)) (-(1 / 1000)) c.velLimit 3)
  | .own .vy => ("y_vel", inspLimit (mCoefs (.own .vy)) (-(1 / 1000)) c.velLimit 4)
  | .own .vz => ("z_vel", inspLimit (mCoefs (.own .vz)) (-(1 / 1000)) c.velLimit 5)
  | .own .coll => ("chief_collision", inspCollision (mCoefs (.own .coll)) c.radius c.aMax)
  | .coll i => ("deputy_collision_" ++ toString i, multiCollision (mCoefs (.coll i)) (c.deputyRadius * 2) c.aMax i)
  | .dsun i => ("deputy_sun_" ++ toString i, multiDeputySun (mCoefs (.dsun i)) (-(1 / 1000)) c.aMax c.fov c.sunVel i)
  | .psm i => ("deputy_PSM_" ++ toString i, multiPSM (mCoefs (.psm i)) c.radius c.n 1 100 i)

/-- Which ones the module has. -/
def mAll (N : Nat) : List MIx :=
  [.own .coll, .own .rel, .own .sun, .own .rmax, .own .psm, .own .vx, .own .vy, .own .vz] ++
    (List.range (N - 1)).flatMap fun j => [.coll (j + 1), .dsun (j + 1), .psm (j + 1)]

theorem multiConstraints_eq (c : MultiConfig) : multiConstraints c = (mAll c.numDeputies).map (multiC c) := by
  unfold multiConstraints mAll
  rw [List.map_append, List.map_flatMap]
  rfl

theorem mem_own (N : Nat) (k : InspIx) : MIx.own k ∈ mAll N := by
  cases k <;> simp [mAll]

/-- The other deputies. -/
def Other (N i : Nat) : Prop := 0 < i ∧ i < N

theorem mem_pair {N i : Nat} (h : Other N i) : MIx.coll i ∈ mAll N ∧ MIx.dsun i ∈ mAll N ∧ MIx.psm i ∈ mAll N := by
  obtain ⟨h1, h2⟩ := h
  have key : ∀ k : MIx, k ∈ [MIx.coll i, .dsun i, .psm i] → k ∈ mAll N := fun k hk => by
    refine List.mem_append_right _ (List.mem_flatMap.2 ⟨i - 1, List.mem_range.2 (by omega), ?_⟩)
    rwa [Nat.sub_add_cancel h1]
  exact ⟨key _ (by simp), key _ (by simp), key _ (by simp)⟩

def MIx.Ok (N : Nat) : MIx → Prop
  | .own _ => True
  | .coll i => Other N i
  | .dsun i => Other N i
  | .psm i => Other N i

theorem mem_mAll {N : Nat} {k : MIx} : k ∈ mAll N ↔ k.Ok N := by
  constructor
  · intro h
    rcases List.mem_append.1 h with h | h
    · cases k
      · trivial
      all_goals simp at h
    · obtain ⟨j, hj, h⟩ := List.mem_flatMap.1 h
      rw [List.mem_range] at hj
      simp only [List.mem_cons, List.not_mem_nil, or_false] at h
      rcases h with rfl | rfl | rfl <;> exact ⟨Nat.succ_pos j, by omega⟩
  · intro h
    cases k
    · exact mem_own _ _
    · exact (mem_pair h).1
    · exact (mem_pair h).2.1
    · exact (mem_pair h).2.2

theorem multiC_alpha (c : MultiConfig) (k : MIx) : (multiC c k).2.alpha = some (polyAlpha (mCoefs k)) := by
  cases k with
  | own k => cases k <;> rfl
  | _ => rfl

theorem multiC_enabled (c : MultiConfig) (k : MIx) : (multiC c k).2.enabled = true := by
  cases k with
  | own k => cases k <;> rfl
  | _ => rfl

theorem multiC_noslack (c : MultiConfig) (k : MIx) : (multiC c k).2.slackPriorityScale = none := by
  cases k with
  | own k => cases k <;> rfl
  | _ => rfl

theorem multi_gradFn_length (c : MultiConfig) (k : MIx) (x : List ℝ) :
    ((multiC c k).2.gradFn x (multiC c k).2.params).length = x.length := by
  cases k with
  | own k =>
    cases k
    case psm => exact minGrad_length _ _ _
    all_goals
      simp only [multiC, inspRelVel, multiChiefSun, inspMaxDistance, inspCollision, inspLimit, adConstraint, Constraint.mk', partials_length, gradAt,
        List.length_map, List.length_range]
  | psm i => exact minGrad_length _ _ _
  | _ => simp only [multiC, multiCollision, multiDeputySun, adConstraint, Constraint.mk', partials_length]

/-- How the biases differ from those of the 1v1 module. -/
noncomputable def mShift : InspIx → ℝ
  | .rel => -(1 / 1000)
  | .rmax => 1 / 1000
  | _ => 0

/-- The values of the constraints, of the passive safety constraints at each sample. -/
noncomputable def mH (c : MultiConfig) (σ : Nat → ℝ) : MIx → ℕ → List ℝ → ℝ
  | .own k, j, x => inspH c.toInspConfig k j (ownView x) + mShift k
  | .coll i, _, x => chiefH (c.deputyRadius * 2) (2 * c.aMax) (relView 1 i x)
  | .dsun i, _, x => sunH c.fov c.aMax c.sunVel (relView (σ i) i x) + -(1 / 1000)
  | .psm i, j, x => psmFutureState c.n (relView 1 i x) ((j + 1) * 1) c.radius

def mJ : MIx → Finset ℕ
  | .own .psm => Finset.range 100
  | .psm _ => Finset.range 100
  | _ => {0}

/-- The gradients. -/
noncomputable def mGrad (c : MultiConfig) : MIx → ℕ → List ℝ → List ℝ
  | .own .psm, j, x => partials (fun y _ => psmFutureState c.n y ((j + 1) * 1) c.radius) x ()
  | .psm i, j, x => partials (fun y _ => psmDeputyFutureState c.n i y ((j + 1) * 1) c.radius) x ()
  | k, _, x => (multiC c k).2.gradFn x (multiC c k).2.params

/-- What a configuration has to satisfy. -/
structure MultiOK (c : MultiConfig) : Prop extends InspOK c.toInspConfig where
  deputies : 0 < c.numDeputies
  deputyRadius : 0 < c.deputyRadius

/-- Inside all the guards, the other deputies on the sides `σ` of the sun. -/
structure MultiIn (c : MultiConfig) (σ : Nat → ℝ) (x : List ℝ) : Prop where
  len : x.length = 6 * c.numDeputies + 1
  own : InspIn c.toInspConfig (ownView x)
  out : ∀ i, Other c.numDeputies i → 0 < norm2 (relPos i x) - c.deputyRadius * 2
  cone : ∀ i, Other c.numDeputies i → 0 < coneM (c.fov / 2) (pySlice (relView (σ i) i x) 0 3) (sunVector (relView (σ i) i x))
  side : ∀ i, Other c.numDeputies i → 0 < σ i * dot (relPos i x) (multiSun x)

theorem psmOwn_eq (n t R : ℝ) (x : List ℝ) : psmFutureState n x t R = psmFutureState n (ownView x) t R := rfl

/-- The constraints of the deputy alone see the deputy's view. -/
theorem own_fn {c : MultiConfig} {x : List ℝ} (hx : 6 ≤ x.length) {k : InspIx} (hk : k ≠ .psm) :
    (multiC c (.own k)).2.computeFn x (multiC c (.own k)).2.params =
      (inspC c.toInspConfig k).2.computeFn (ownView x) (inspC c.toInspConfig k).2.params := by
  have hp := ownView_pos hx
  have hv := ownView_vel hx
  cases k
  case psm => exact absurd rfl hk
  case rel =>
    simp only [multiC, inspC, inspRelVel, adConstraint, Constraint.mk', relativeVelocity]
    rw [hp, show 2 * 3 = 6 from rfl, hv]
  case sun =>
    simp only [multiC, inspC, multiChiefSun, inspSun, adConstraint, Constraint.mk']
    rw [hp, hv, ownView_sun]
  case rmax =>
    simp only [multiC, inspC, inspMaxDistance, adConstraint, Constraint.mk', maxDistance]
    rw [hp, hv]
  case coll =>
    simp only [multiC, inspC, inspCollision, adConstraint, Constraint.mk', chiefCollision]
    rw [hp, hv]
  all_goals rfl

theorem norm2_vscale_sign {σ : ℝ} (hσ : σ = 1 ∨ σ = -1) (p : List ℝ) : norm2 (vscale σ p) = norm2 p := by
  unfold norm2 sqNorm
  rw [dot_vscale_left, dot_comm, dot_vscale_left, ← mul_assoc]
  rcases hσ with rfl | rfl <;> norm_num

/-- The sign belongs to the side. -/
theorem sign_of_side {σ : ℝ} (hσ : σ = 1 ∨ σ = -1) {i : Nat} {x : List ℝ} (h6 : 6 ≤ x.length) (h : 6 * i + 6 ≤ x.length)
    (hs : 0 < σ * dot (relPos i x) (multiSun x)) : getSign i x = σ := by
  have hl := relPos_length h6 h
  have h0 : norm2 (relPos i x) ≠ 0 := fun e => by
    have hz := norm2_eq_zero hl e
    rw [dot3 hl rfl, hz.1, hz.2.1, hz.2.2] at hs
    simp at hs
  rw [getSign_eq h6 h h0]
  rcases hσ with rfl | rfl
  · rw [if_neg (by linarith)]
  · rw [if_pos (by linarith)]

section
variable {c : MultiConfig} (hc : MultiOK c) {σ : Nat → ℝ} (hσ : ∀ i, σ i = 1 ∨ σ i = -1)

section
include hc

theorem MultiIn.six {x : List ℝ} (h : MultiIn c σ x) : 6 ≤ x.length := by
  have := hc.deputies
  rw [h.len]; omega

omit hc in
theorem MultiIn.blk {x : List ℝ} (h : MultiIn c σ x) {i : Nat} (hi : Other c.numDeputies i) : 6 * i + 6 ≤ x.length := by
  have := hi.2
  rw [h.len]; omega

theorem MultiIn.rel_norm {x : List ℝ} (h : MultiIn c σ x) {i : Nat} (hi : Other c.numDeputies i) :
    c.deputyRadius * 2 < norm2 (pySlice (relView 1 i x) 0 3) := by
  rw [relView_pos1 (h.six hc) (h.blk hi)]
  exact sub_pos.1 (h.out i hi)

end

/-- Out of the cone and on the side of the sun is off the axis. -/
theorem off_axis {fov σ : ℝ} (hfov0 : 0 < fov) (hfov : fov < π) {i : Nat} {x : List ℝ} (h6 : 6 ≤ x.length) (h : 6 * i + 6 ≤ x.length)
    (hM : 0 ≤ coneM (fov / 2) (pySlice (relView σ i x) 0 3) (sunVector (relView σ i x)))
    (hs : 0 < σ * dot (relPos i x) (multiSun x)) : axisDist (pySlice (relView σ i x) 0 3) (sunVector (relView σ i x)) ≠ 0 := by
  intro e
  unfold coneM at hM
  rw [e, relView_pos σ h6 h, relView_sun, dot_vscale_left] at hM
  have := mul_pos (sin_pos_of_pos_of_lt_pi (show 0 < fov / 2 by linarith) (by linarith [pi_pos])) hs
  linarith

section
include hc hσ

/-- What the sun constraint needs. -/
theorem MultiIn.sun {x : List ℝ} (h : MultiIn c σ x) {i : Nat} (hi : Other c.numDeputies i) :
    0 < norm2 (pySlice (relView (σ i) i x) 0 3) ∧ axisDist (pySlice (relView (σ i) i x) 0 3) (sunVector (relView (σ i) i x)) ≠ 0 := by
  refine ⟨?_, off_axis hc.fov0 hc.fov (h.six hc) (h.blk hi) (h.cone i hi).le (h.side i hi)⟩
  rw [relView_pos _ (h.six hc) (h.blk hi), norm2_vscale_sign (hσ i)]
  have := h.out i hi
  linarith [hc.deputyRadius]

/-- The values the constraints take. -/
theorem multiC_value {x : List ℝ} (h : MultiIn c σ x) {k : MIx} (hk : k.Ok c.numDeputies) (hk1 : k ≠ .own .psm) (hk2 : ∀ i, k ≠ .psm i) (j : ℕ) :
    (multiC c k).2.value x = mH c σ k j x := by
  have h6 := h.six hc
  cases k with
  | own k =>
    have hk' : k ≠ .psm := fun e => hk1 (by rw [e])
    have e := inspC_value hc.toInspOK h.own hk' j
    show (multiC c (.own k)).2.computeFn x (multiC c (.own k)).2.params + (multiC c (.own k)).2.bias = inspH _ k j _ + _
    rw [← e, own_fn h6 hk']
    show _ = _ + (inspC c.toInspConfig k).2.bias + mShift k
    rw [add_assoc]
    congr 1
    cases k
    case psm => exact absurd rfl hk'
    case rel => show -(2 / 1000 : ℝ) = -(1 / 1000) + -(1 / 1000); norm_num
    case rmax => show (0 : ℝ) = -(1 / 1000) + 1 / 1000; norm_num
    case coll => show (0 : ℝ) = 0 + 0; norm_num
    all_goals exact (add_zero _).symm
  | coll i =>
    have hi : Other c.numDeputies i := hk
    have hr := h.rel_norm hc hi
    show (deputyCollision _ _ i x).getD 0 + 0 = _
    rw [add_zero, deputyCollision_eq h6 (h.blk hi)]
    exact chief_value (mul_nonneg zero_le_two hc.aMax.le) hr.le (by linarith [hc.deputyRadius])
  | dsun i =>
    have hi : Other c.numDeputies i := hk
    show (deputySun _ _ _ i x).getD 0 + -(1 / 1000) = _ + _
    obtain ⟨h1, h2⟩ := h.sun hc hσ hi
    rw [deputySun_eq h6 (h.blk hi), sign_of_side (hσ i) h6 (h.blk hi) (h.side i hi)]
    congr 1
    exact sun_value hc.aMax.le hc.cos_ne rfl h1.ne' h2 (h.cone i hi)
  | psm i => exact absurd rfl (hk2 i)

/-- What the barrier condition of a constraint says. -/
theorem multi_barrier {x u : List ℝ} (h : MultiIn c σ x) {k : MIx} (hk : k.Ok c.numDeputies) (hpos : ∀ j ∈ mJ k, 0 < mH c σ k j x)
    (hb : BarrierOK (multiF c) (fun _ => multiG c) (multiC c k).2 x u 0) :
    ∃ j ∈ mJ k, (∀ i ∈ mJ k, mH c σ k j x ≤ mH c σ k i x) ∧
      -polyAlpha (mCoefs k) (mH c σ k j x) ≤ dot (mGrad c k j x) (vadd (multiF c x) (matVec (multiG c) u)) := by
  obtain ⟨m, hm, hm0⟩ := hb
  rw [barrierValue, multiC_alpha] at hm
  simp only [Option.map_some, Option.some.injEq] at hm
  by_cases hk1 : k = .own .psm
  · subst hk1
    obtain ⟨v, hv, hle, j0, hj0, e0⟩ := psm_samples c.n c.radius x
    have hval : (multiC c (.own .psm)).2.computeFn x (multiC c (.own .psm)).2.params + (multiC c (.own .psm)).2.bias = v := by
      simp only [multiC, inspPSM, Constraint.mk', hv, add_zero, Except.orZero]
    have eH : ∀ j, mH c σ (.own .psm) j x = psmFutureState c.n x ((j + 1) * 1) c.radius := fun j => add_zero _
    have hv0 : 0 ≤ v := by rw [← e0, ← eH]; exact (hpos j0 hj0).le
    rw [hval, strengthening, if_pos hv0] at hm
    have hr : -polyAlpha (mCoefs (.own .psm)) v ≤ dot (minGrad (fun t y => psmFutureState c.n y t c.radius) (linspace 1 ((100 : ℕ) * 1) 100) x)
        (vadd (multiF c x) (matVec (multiG c) u)) := by
      have hg : (multiC c (.own .psm)).2.gradFn x (multiC c (.own .psm)).2.params =
        minGrad (fun t y => psmFutureState c.n y t c.radius) (linspace 1 ((100 : ℕ) * 1) 100) x := rfl
      rw [hg] at hm
      linarith
    obtain ⟨j, hj, hmin, hle', hr⟩ := minGrad_rate (fun t y => psmFutureState c.n y t c.radius) x _ hr
    have e' : psmFutureState c.n x ((j + 1) * 1) c.radius = v := Except.ok.inj (hmin.symm.trans hv)
    refine ⟨j, hj, fun i hi => by rw [eH, eH]; exact hle' i hi, ?_⟩
    rw [eH, e']
    exact hr
  · by_cases hk2 : ∃ i, k = .psm i
    · obtain ⟨i, rfl⟩ := hk2
      obtain ⟨v, hv, hle, hl⟩ := min_samples (fun t y => psmDeputyFutureState c.n i y t c.radius) x
      obtain ⟨t, ht⟩ := List.exists_mem_of_ne_nil _ (leastTimes_ne (fun t y => psmDeputyFutureState c.n i y t c.radius) x)
      obtain ⟨j0, hj0, -, e0⟩ := hl t ht
      have eH : ∀ j, mH c σ (.psm i) j x = psmDeputyFutureState c.n i x ((j + 1) * 1) c.radius := fun j => psmDeputy_eq.symm
      have hval : (multiC c (.psm i)).2.computeFn x (multiC c (.psm i)).2.params + (multiC c (.psm i)).2.bias = v := by
        have e : psmDeputyCompute c.n c.radius 1 100 i x = .ok v := hv
        simp only [multiC, multiPSM, Constraint.mk', e, add_zero, Except.orZero]
      have hv0 : 0 ≤ v := by rw [← e0, ← eH]; exact (hpos j0 hj0).le
      rw [hval, strengthening, if_pos hv0] at hm
      have hr : -polyAlpha (mCoefs (.psm i)) v ≤ dot (minGrad (fun t y => psmDeputyFutureState c.n i y t c.radius) (linspace 1 ((100 : ℕ) * 1) 100) x)
          (vadd (multiF c x) (matVec (multiG c) u)) := by
        have hg : (multiC c (.psm i)).2.gradFn x (multiC c (.psm i)).2.params =
          minGrad (fun t y => psmDeputyFutureState c.n i y t c.radius) (linspace 1 ((100 : ℕ) * 1) 100) x := rfl
        rw [hg] at hm
        linarith
      obtain ⟨j, hj, hmin, hle', hr⟩ := minGrad_rate (fun t y => psmDeputyFutureState c.n i y t c.radius) x _ hr
      have e' : psmDeputyFutureState c.n i x ((j + 1) * 1) c.radius = v := Except.ok.inj (hmin.symm.trans hv)
      refine ⟨j, hj, fun q hq => by rw [eH, eH]; exact hle' q hq, ?_⟩
      rw [eH, e']
      exact hr
    · have hk2' : ∀ i, k ≠ .psm i := fun i e => hk2 ⟨i, e⟩
      have hj : mJ k = {0} := by
        cases k with
        | own k => cases k <;> first | rfl | exact absurd rfl hk1
        | psm i => exact absurd rfl (hk2' i)
        | _ => rfl
      have hg : mGrad c k 0 x = (multiC c k).2.gradFn x (multiC c k).2.params := by
        cases k with
        | own k => cases k <;> first | rfl | exact absurd rfl hk1
        | psm i => exact absurd rfl (hk2' i)
        | _ => rfl
      have hv : (multiC c k).2.computeFn x (multiC c k).2.params + (multiC c k).2.bias = mH c σ k 0 x := multiC_value hc hσ h hk hk1 hk2' 0
      have hp := hpos 0 (by rw [hj]; simp)
      rw [hv, strengthening, if_pos hp.le, ← hg] at hm
      refine ⟨0, by rw [hj]; simp, fun i hi => ?_, by linarith⟩
      rw [hj, Finset.mem_singleton] at hi
      rw [hi]

end

/-! ### Along motions -/

theorem ofFn_six {N : Nat} (hN : 0 < N) (y : Fin (6 * N + 1) → ℝ) : 6 ≤ (List.ofFn y).length := by
  rw [List.length_ofFn]; omega

theorem ofFn_blk {N i : Nat} (hi : Other N i) (y : Fin (6 * N + 1) → ℝ) : 6 * i + 6 ≤ (List.ofFn y).length := by
  have := hi.2
  rw [List.length_ofFn]; omega

theorem side_cont {N i : Nat} : Continuous fun y : Fin (6 * N + 1) → ℝ =>
    dot (pySlice (relView 1 i (List.ofFn y)) 0 3) (sunVector (relView 1 i (List.ofFn y))) := by
  have hk := fun j => (relView_diff (M := 6 * N + 1) 1 i j).continuous
  have e : (fun y : Fin (6 * N + 1) → ℝ => dot (pySlice (relView 1 i (List.ofFn y)) 0 3) (sunVector (relView 1 i (List.ofFn y)))) = fun y =>
      comp (relView 1 i (List.ofFn y)) 0 * -cos (comp (relView 1 i (List.ofFn y)) 6) +
      comp (relView 1 i (List.ofFn y)) 1 * -sin (comp (relView 1 i (List.ofFn y)) 6) + comp (relView 1 i (List.ofFn y)) 2 * 0 := by
    funext y
    rw [dot3 rfl rfl]
    rfl
  rw [e]
  exact (((hk 0).mul (continuous_cos.comp (hk 6)).neg).add ((hk 1).mul (continuous_sin.comp (hk 6)).neg)).add ((hk 2).mul continuous_const)

theorem ofFn_own (x : List ℝ) : List.ofFn (toVec 8 (ownView x)) = ownView x := ofFn_toVec rfl

theorem ofFn_rel (σ : ℝ) (i : Nat) (x : List ℝ) : List.ofFn (toVec 8 (relView σ i x)) = relView σ i x := ofFn_toVec rfl

theorem dsun_diff {c : MultiConfig} (hc : MultiOK c) {σ : ℝ} {i : Nat} (hi : Other c.numDeputies i) {x : List ℝ} (hx : x.length = 6 * c.numDeputies + 1)
    (hσ : σ = 1 ∨ σ = -1) (h1 : 0 < norm2 (pySlice (relView σ i x) 0 3))
    (h2 : axisDist (pySlice (relView σ i x) 0 3) (sunVector (relView σ i x)) ≠ 0)
    (h3 : 0 < coneM (c.fov / 2) (pySlice (relView σ i x) 0 3) (sunVector (relView σ i x)))
    (h4 : 0 < σ * dot (relPos i x) (multiSun x)) :
    DifferentiableAt ℝ (fun y : Fin (6 * c.numDeputies + 1) → ℝ => (multiC c (.dsun i)).2.computeFn (List.ofFn y) (multiC c (.dsun i)).2.params)
      (toVec (6 * c.numDeputies + 1) x) := by
  have hN := hc.deputies
  have h6 : 6 ≤ x.length := by rw [hx]; omega
  have hb : 6 * i + 6 ≤ x.length := by have := hi.2; rw [hx]; omega
  have hd := diff_view (V := relView σ i) (f := fun z => (conicKeepOut c.fov c.aMax [0, 0, c.sunVel] (pySlice z 0 3) (pySlice z 3 6)
    (sunVector z)).getD 0) (fun _ => rfl) (relView_diff σ i) hx
    (sun_diff hc.aMax hc.cos_ne (by rw [ofFn_rel]; exact h1) (by rw [ofFn_rel]; exact h2) (by rw [ofFn_rel]; exact h3))
  refine hd.congr_of_eventuallyEq ?_
  have hside : ∀ᶠ y : Fin (6 * c.numDeputies + 1) → ℝ in 𝓝 (toVec (6 * c.numDeputies + 1) x),
      0 < σ * dot (pySlice (relView 1 i (List.ofFn y)) 0 3) (sunVector (relView 1 i (List.ofFn y))) := by
    refine (continuous_const.mul side_cont).continuousAt.eventually (lt_mem_nhds ?_)
    show 0 < σ * dot _ _
    rw [ofFn_toVec hx, relView_pos1 h6 hb]
    exact h4
  filter_upwards [hside] with y hy
  have y6 := ofFn_six hc.deputies y
  have yb := ofFn_blk hi y
  rw [relView_pos1 y6 yb] at hy
  show (deputySun _ _ _ i _).getD 0 = _
  rw [deputySun_eq y6 yb, sign_of_side hσ y6 yb hy]
  rfl

section
include hc hσ

/-- Inside the guards the constraints are differentiable. -/
theorem multi_diff {x : List ℝ} (h : MultiIn c σ x) {k : MIx} (hk : k.Ok c.numDeputies) (hk1 : k ≠ .own .psm) (hk2 : ∀ i, k ≠ .psm i) :
    DifferentiableAt ℝ (fun y : Fin (6 * c.numDeputies + 1) → ℝ => (multiC c k).2.computeFn (List.ofFn y) (multiC c k).2.params)
      (toVec (6 * c.numDeputies + 1) x) := by
  have h6 := h.six hc
  cases k with
  | own k =>
    have hk' : k ≠ .psm := fun e => hk1 (by rw [e])
    have e : (fun y : Fin (6 * c.numDeputies + 1) → ℝ => (multiC c (.own k)).2.computeFn (List.ofFn y) (multiC c (.own k)).2.params) =
        fun y => (inspC c.toInspConfig k).2.computeFn (ownView (List.ofFn y)) (inspC c.toInspConfig k).2.params :=
      funext fun y => own_fn (ofFn_six hc.deputies y) hk'
    rw [e]
    refine diff_view (f := fun z => (inspC c.toInspConfig k).2.computeFn z (inspC c.toInspConfig k).2.params) (fun _ => rfl) ownView_diff h.len ?_
    exact fn_diff hc.toInspOK (by rw [ofFn_own]; exact h.own) hk'
  | coll i =>
    have hi : Other c.numDeputies i := hk
    have e : (fun y : Fin (6 * c.numDeputies + 1) → ℝ => (multiC c (.coll i)).2.computeFn (List.ofFn y) (multiC c (.coll i)).2.params) =
        fun y => (chiefCollision (c.deputyRadius * 2) (2 * c.aMax) (relView 1 i (List.ofFn y))).getD 0 := funext fun y => by
      show (deputyCollision _ _ i _).getD 0 = _
      rw [deputyCollision_eq (ofFn_six hc.deputies y) (ofFn_blk hi y)]
      rfl
    rw [e]
    refine diff_view (f := fun z => (chiefCollision (c.deputyRadius * 2) (2 * c.aMax) z).getD 0) (fun _ => rfl) (relView_diff 1 i) h.len ?_
    exact chief_diff (by linarith [hc.aMax]) (by linarith [hc.deputyRadius]) (by rw [ofFn_rel]; exact h.rel_norm hc hi)
  | dsun i =>
    have hi : Other c.numDeputies i := hk
    obtain ⟨h1, h2⟩ := h.sun hc hσ hi
    exact dsun_diff hc hi h.len (hσ i) h1 h2 (h.cone i hi) (h.side i hi)
  | psm i => exact absurd rfl (hk2 i)

variable {x u : ℝ → List ℝ} (h : FleetMotion c.n c.m c.sunVel c.numDeputies x (onlyFirst u))
include h

omit hσ in
theorem FleetMotion.along {P : Type} {f : List ℝ → P → ℝ} {p : P} {t : ℝ} (ht : 0 ≤ t)
    (hd : DifferentiableAt ℝ (fun y : Fin (6 * c.numDeputies + 1) → ℝ => f (List.ofFn y) p) (toVec (6 * c.numDeputies + 1) (x t))) :
    HasDerivWithinAt (fun s => f (x s) p) (dot (partials f (x t) p) (vadd (multiF c (x t)) (matVec (multiG c) (u t)))) (Ici t) t :=
  partials_along (n := 6 * c.numDeputies + 1) self_mem_Ici (fun s hs => h.len s (ht.trans hs)) (multi_length hc.deputies (u t))
    (h.module hc.deputies ht) hd

omit hσ in
theorem MultiIn.nearby {t : ℝ} (ht : 0 ≤ t) (hin : MultiIn c σ (x t)) : ∀ᶠ s in 𝓝[≥] t, MultiIn c σ (x s) := by
  have hN := hc.deputies
  have e1 := hin.own.nearby (h.ownPath hN) ht
  have e2 : ∀ i, Other c.numDeputies i → ∀ᶠ s in 𝓝[≥] t, 0 < norm2 (pySlice (relView 1 i (x s)) 0 3) - c.deputyRadius * 2 := fun i hi => by
    have hp := (h.relPath 1 hN hi.2).pos.norm_cont
    exact (((hp.sub continuousOn_const) t ht).mono (Ici_subset_Ici.2 ht)).eventually (lt_mem_nhds (sub_pos.2 (hin.rel_norm hc hi)))
  have e3 : ∀ i, Other c.numDeputies i → ∀ᶠ s in 𝓝[≥] t, 0 < coneM (c.fov / 2) (pySlice (relView (σ i) i (x s)) 0 3) (sunVector (relView (σ i) i (x s))) :=
    fun i hi => (((coneM_cont (h.relPath (σ i) hN hi.2).pos (h.relPath (σ i) hN hi.2).sun _) t ht).mono
      (Ici_subset_Ici.2 ht)).eventually (lt_mem_nhds (hin.cone i hi))
  have e4 : ∀ i, Other c.numDeputies i → ∀ᶠ s in 𝓝[≥] t, 0 < σ i * dot (pySlice (relView 1 i (x s)) 0 3) (sunVector (relView 1 i (x s))) :=
    fun i hi => (((continuousOn_const.mul (dot_along_cont (h.relPath 1 hN hi.2).pos (h.relPath 1 hN hi.2).sun)) t ht).mono
      (Ici_subset_Ici.2 ht)).eventually (lt_mem_nhds (by
        show 0 < σ i * dot _ _
        rw [relView_pos1 (hin.six hc) (hin.blk hi)]
        exact hin.side i hi))
  have all : ∀ {Q : Nat → ℝ → Prop}, (∀ i, Other c.numDeputies i → ∀ᶠ s in 𝓝[≥] t, Q i s) →
      ∀ᶠ s in 𝓝[≥] t, ∀ i, Other c.numDeputies i → Q i s := by
    intro Q hQ
    have : ∀ᶠ s in 𝓝[≥] t, ∀ i ∈ (Finset.range c.numDeputies : Set ℕ), Other c.numDeputies i → Q i s := by
      rw [Filter.eventually_all_finite (Finset.finite_toSet _)]
      intro i _
      by_cases hi : Other c.numDeputies i
      · exact (hQ i hi).mono fun s hs _ => hs
      · exact Eventually.of_forall fun s hs => absurd hs hi
    exact this.mono fun s hs i hi => hs i (by simpa using hi.2) hi
  filter_upwards [e1, all e2, all e3, all e4, self_mem_nhdsWithin] with s h1 h2 h3 h4 h5
  have hl := h.len s (ht.trans h5)
  have hs6 : 6 ≤ (x s).length := by rw [hl]; omega
  have hb : ∀ i, Other c.numDeputies i → 6 * i + 6 ≤ (x s).length := fun i hi => by rw [hl]; have := hi.2; omega
  exact ⟨hl, h1, fun i hi => by rw [← relView_pos1 hs6 (hb i hi)]; exact h2 i hi, h3,
    fun i hi => by rw [← relView_pos1 hs6 (hb i hi)]; exact h4 i hi⟩

/-- Inside the guards the constraints change at the rates their gradients give. -/
theorem multi_deriv {t : ℝ} (ht : 0 ≤ t) (hin : MultiIn c σ (x t)) {k : MIx} (hk : k.Ok c.numDeputies) (j : ℕ) (hpos : 0 < mH c σ k j (x t)) :
    HasDerivWithinAt (fun s => mH c σ k j (x s)) (dot (mGrad c k j (x t)) (vadd (multiF c (x t)) (matVec (multiG c) (u t)))) (Ici t) t := by
  have h6 := hin.six hc
  have hR : 0 ≤ c.radius := hc.radius.le
  by_cases hk1 : k = .own .psm
  · subst hk1
    have hp : 0 < psmFutureState c.n (ownView (x t)) ((j + 1) * 1) c.radius := by simpa only [mH, inspH, mShift, add_zero] using hpos
    have h8 : DifferentiableAt ℝ (fun z : Fin 8 → ℝ => psmFutureState c.n (List.ofFn z) ((j + 1) * 1) c.radius) (toVec 8 (ownView (x t))) :=
      psm_diff hR (by rw [ofFn_own]; exact hp)
    have hd := h.along (f := fun y _ => psmFutureState c.n y ((j + 1) * 1) c.radius) (p := ()) hc ht
      (diff_view (f := fun z => psmFutureState c.n z ((j + 1) * 1) c.radius) (fun _ => rfl) ownView_diff hin.len h8)
    exact hd.congr (fun s _ => add_zero _) (add_zero _)
  by_cases hk2 : ∃ i, k = .psm i
  · obtain ⟨i, rfl⟩ := hk2
    have hi : Other c.numDeputies i := hk
    have hp : 0 < psmFutureState c.n (relView 1 i (x t)) ((j + 1) * 1) c.radius := hpos
    have h8 : DifferentiableAt ℝ (fun z : Fin 8 → ℝ => psmFutureState c.n (List.ofFn z) ((j + 1) * 1) c.radius) (toVec 8 (relView 1 i (x t))) :=
      psm_diff hR (by rw [ofFn_rel]; exact hp)
    have hdiff := diff_view (M := 6 * c.numDeputies + 1) (V := relView 1 i) (f := fun z => psmFutureState c.n z ((j + 1) * 1) c.radius)
      (fun _ => rfl) (relView_diff 1 i) hin.len h8
    have hd := h.along (f := fun y _ => psmDeputyFutureState c.n i y ((j + 1) * 1) c.radius) (p := ()) hc ht
      (by simp only [psmDeputy_eq]; exact hdiff)
    exact hd.congr (fun s _ => psmDeputy_eq.symm) psmDeputy_eq.symm
  have hk2' : ∀ i, k ≠ .psm i := fun i e => hk2 ⟨i, e⟩
  have hlim : ∀ i < 6, HasDerivWithinAt (fun s => c.velLimit ^ 2 - stateAt (x s) i ^ 2)
      (dot (gradAt (x t).length i (-(2 * stateAt (x t) i))) (vadd (multiF c (x t)) (matVec (multiG c) (u t)))) (Ici t) t := by
    intro i hi
    have hN := hc.deputies
    rw [h.len t ht, dot_gradAt _ _ (by omega) _ _ (multi_length hN _)]
    refine ((hasDerivWithinAt_const t _ (c.velLimit ^ 2)).sub ((h.module hN ht i (by omega)).pow 2)).congr_deriv ?_
    simp only [stateAt, comp]
    ring
  have hdiff := multi_diff hc hσ hin hk hk1 hk2'
  have hd : HasDerivWithinAt (fun s => (multiC c k).2.computeFn (x s) (multiC c k).2.params)
      (dot (mGrad c k j (x t)) (vadd (multiF c (x t)) (matVec (multiG c) (u t)))) (Ici t) t := by
    cases k with
    | own k =>
      cases k
      case psm => exact absurd rfl hk1
      case vx => exact hlim 3 (by omega)
      case vy => exact hlim 4 (by omega)
      case vz => exact hlim 5 (by omega)
      case rel => exact h.along hc ht hdiff
      case sun => exact h.along hc ht hdiff
      case rmax => exact h.along hc ht hdiff
      case coll => exact h.along hc ht hdiff
    | coll i => exact h.along hc ht hdiff
    | dsun i => exact h.along hc ht hdiff
    | psm i => exact absurd rfl (hk2' i)
  refine (hd.add_const (multiC c k).2.bias).congr_of_eventuallyEq ?_ (multiC_value hc hσ hin hk hk1 hk2' j).symm
  filter_upwards [hin.nearby hc h ht] with s hs
  exact (multiC_value hc hσ hs hk hk1 hk2' j).symm

/-! ### The guards -/

end
end

inductive MGuard
  | own (g : InspGuard)
  | out (i : Nat)
  | cone (i : Nat)

noncomputable def mGuard (c : MultiConfig) (σ : Nat → ℝ) : MGuard → List ℝ → ℝ
  | .own g, x => inspGuard c.toInspConfig g (ownView x)
  | .out i, x => norm2 (pySlice (relView 1 i x) 0 3) - c.deputyRadius * 2
  | .cone i, x => coneM (c.fov / 2) (pySlice (relView (σ i) i x) 0 3) (sunVector (relView (σ i) i x))

noncomputable def mGuardRate (c : MultiConfig) (σ : Nat → ℝ) : MGuard → List ℝ → ℝ
  | .own g, x => inspGuardRate c.toInspConfig g (ownView x)
  | .out i, x => dot (pySlice (relView 1 i x) 0 3) (pySlice (relView 1 i x) 3 6) / norm2 (pySlice (relView 1 i x) 0 3)
  | .cone i, x => inspGuardRate c.toInspConfig .cone (relView (σ i) i x)

def mGuards (N : Nat) : List MGuard :=
  [.own .outside, .own .inside, .own .cone] ++ (List.range (N - 1)).flatMap fun j => [.out (j + 1), .cone (j + 1)]

theorem mem_mGuards {N : Nat} {g : MGuard} : g ∈ mGuards N ↔ match g with | .own _ => True | .out i => Other N i | .cone i => Other N i := by
  constructor
  · intro h
    rcases List.mem_append.1 h with h | h
    · cases g
      · trivial
      all_goals simp at h
    · obtain ⟨j, hj, h⟩ := List.mem_flatMap.1 h
      rw [List.mem_range] at hj
      simp only [List.mem_cons, List.not_mem_nil, or_false] at h
      rcases h with rfl | rfl <;> exact ⟨Nat.succ_pos j, by omega⟩
  · intro h
    have key : ∀ i, Other N i → ∀ g : MGuard, g ∈ [MGuard.out i, .cone i] → g ∈ mGuards N := fun i hi g hg => by
      refine List.mem_append_right _ (List.mem_flatMap.2 ⟨i - 1, List.mem_range.2 (by have := hi.1; have := hi.2; omega), ?_⟩)
      rwa [Nat.sub_add_cancel hi.1]
    cases g with
    | own g => cases g <;> simp [mGuards]
    | out i => exact key i h _ (by simp)
    | cone i => exact key i h _ (by simp)

section
variable {c : MultiConfig} (hc : MultiOK c) {σ : Nat → ℝ} (hσ : ∀ i, σ i = 1 ∨ σ i = -1)
  {x u : ℝ → List ℝ} (h : FleetMotion c.n c.m c.sunVel c.numDeputies x (onlyFirst u))
include hc hσ h

/-- Barrier conditions up to time `T` keep the constraints and the guards positive. -/
theorem multi_stays {T : ℝ} (hax : ∀ t, 0 ≤ t → t ≤ T → axisDist (pySlice (ownView (x t)) 0 3) (sunVector (ownView (x t))) ≠ 0)
    (hside : ∀ t, 0 ≤ t → t ≤ T → ∀ i, Other c.numDeputies i → 0 < σ i * dot (relPos i (x t)) (multiSun (x t)))
    (hbar : ∀ t, 0 ≤ t → t < T → MultiIn c σ (x t) → (∀ k ∈ mAll c.numDeputies, ∀ j ∈ mJ k, 0 < mH c σ k j (x t)) →
      ∀ k ∈ mAll c.numDeputies, BarrierOK (multiF c) (fun _ => multiG c) (multiC c k).2 (x t) (u t) 0)
    (h0 : MultiIn c σ (x 0)) (h0' : ∀ k ∈ mAll c.numDeputies, ∀ j ∈ mJ k, 0 < mH c σ k j (x 0)) :
    ∀ t, 0 ≤ t → t ≤ T → MultiIn c σ (x t) ∧ ∀ k ∈ mAll c.numDeputies, ∀ j ∈ mJ k, 0 < mH c σ k j (x t) := by
  intro t ht htT
  have hN := hc.deputies
  have h6 : ∀ t, 0 ≤ t → 6 ≤ (x t).length := fun t ht => by rw [h.len t ht]; omega
  have hb : ∀ t, 0 ≤ t → ∀ i, Other c.numDeputies i → 6 * i + 6 ≤ (x t).length := fun t ht i hi => by
    rw [h.len t ht]; have := hi.2; omega
  have mo : ∀ g, MGuard.own g ∈ mGuards c.numDeputies := fun g => mem_mGuards.2 trivial
  have mi : ∀ t, 0 ≤ t → t ≤ T → (∀ g ∈ mGuards c.numDeputies, 0 < mGuard c σ g (x t)) → MultiIn c σ (x t) := fun t ht htT hg =>
    { len := h.len t ht
      own := ⟨rfl, hax t ht htT, fun g => hg _ (mo g)⟩
      out := fun i hi => by
        rw [← relView_pos1 (h6 t ht) (hb t ht i hi)]
        exact hg (.out i) (mem_mGuards.2 hi)
      cone := fun i hi => hg (.cone i) (mem_mGuards.2 hi)
      side := hside t ht htT }
  have im : MultiIn c σ (x 0) → ∀ g ∈ mGuards c.numDeputies, 0 < mGuard c σ g (x 0) := fun hin g hg => by
    cases g with
    | own g => exact hin.own.guard g
    | out i => exact sub_pos.2 (hin.rel_norm hc (mem_mGuards.1 hg))
    | cone i => exact hin.cone i (mem_mGuards.1 hg)
  have hr : ∀ t, 0 ≤ mGuard c σ (.own .outside) (x t) → norm2 (pySlice (ownView (x t)) 0 3) ≠ 0 := fun t ht => by
    have : 0 ≤ norm2 (pySlice (ownView (x t)) 0 3) - c.radius := ht
    linarith [hc.radius]
  have hri : ∀ t i, 0 ≤ mGuard c σ (.out i) (x t) → norm2 (pySlice (relView 1 i (x t)) 0 3) ≠ 0 := fun t i ht => by
    have : 0 ≤ norm2 (pySlice (relView 1 i (x t)) 0 3) - c.deputyRadius * 2 := ht
    linarith [hc.deputyRadius]
  have hrs : ∀ t, 0 ≤ t → ∀ i, Other c.numDeputies i → 0 ≤ mGuard c σ (.out i) (x t) → norm2 (pySlice (relView (σ i) i (x t)) 0 3) ≠ 0 :=
    fun t ht i hi hg => by
      have := hri t i hg
      rw [relView_pos1 (h6 t ht) (hb t ht i hi)] at this
      rwa [relView_pos _ (h6 t ht) (hb t ht i hi), norm2_vscale_sign (hσ i)]
  have haxi : ∀ t, 0 ≤ t → t ≤ T → ∀ i, Other c.numDeputies i → 0 ≤ mGuard c σ (.cone i) (x t) →
      axisDist (pySlice (relView (σ i) i (x t)) 0 3) (sunVector (relView (σ i) i (x t))) ≠ 0 := fun t ht htT i hi hg =>
    off_axis hc.fov0 hc.fov (h6 t ht) (hb t ht i hi) hg (hside t ht htT i hi)
  have key := guarded (I := mAll c.numDeputies) (J := mJ) (G := mGuards c.numDeputies) (T := T)
    (H := fun k j t => mH c σ k j (x t))
    (H' := fun k j t => dot (mGrad c k j (x t)) (vadd (multiF c (x t)) (matVec (multiG c) (u t))))
    (al := fun k => polyAlpha (mCoefs k)) (d := fun g t => mGuard c σ g (x t)) (w := fun g t => mGuardRate c σ g (x t))
    (fun g hg => by
      cases g with
      | own g => exact guard_cont (h.ownPath hN) g
      | out i => exact (h.relPath 1 hN (mem_mGuards.1 hg).2).pos.norm_cont.sub continuousOn_const
      | cone i => exact guard_cont (c := c.toInspConfig) (h.relPath (σ i) hN (mem_mGuards.1 hg).2) .cone)
    (fun g hg t ht htT hp => by
      cases g with
      | own g => exact guard_deriv (h.ownPath hN) ht (hax t ht htT.le) (hr t (hp _ (mo .outside)).le) g
      | out i =>
        have hi : Other c.numDeputies i := mem_mGuards.1 hg
        exact ((h.relPath 1 hN hi.2).pos.norm_deriv ht (hri t i (hp _ hg).le)).sub_const _
      | cone i =>
        have hi : Other c.numDeputies i := mem_mGuards.1 hg
        exact guard_deriv (c := c.toInspConfig) (h.relPath (σ i) hN hi.2) ht (haxi t ht htT.le i hi (hp _ hg).le)
          (hrs t ht i hi (hp _ (mem_mGuards.2 hi)).le) .cone)
    (fun g hg => by
      cases g with
      | own g => exact rate_cont (h.ownPath hN) (fun t ht => ht.1) (fun t ht => hr t (ht.2.2 _ (mo _))) (fun t ht => hax t ht.1 ht.2.1) g
      | out i =>
        have hi : Other c.numDeputies i := mem_mGuards.1 hg
        exact (h.relPath 1 hN hi.2).radial_cont (fun t ht => ht.1) (fun t ht => hri t i (ht.2.2 _ hg))
      | cone i =>
        have hi : Other c.numDeputies i := mem_mGuards.1 hg
        exact (h.relPath (σ i) hN hi.2).coneRate_cont _ (fun t ht => ht.1) (fun t ht => haxi t ht.1 ht.2.1 i hi (ht.2.2 _ hg)))
    (fun k hk j _ => by
      have hk := mem_mAll.1 hk
      cases k with
      | own k =>
        exact (insp_cont (h.ownPath hN) (fun t ht => ht.1) (fun t ht => hr t (ht.2.2 _ (mo _))) (fun t ht => hax t ht.1 ht.2.1) k j).add
          continuousOn_const
      | coll i => exact (h.relPath 1 hN hk.2).chiefH_cont _ _ (fun t ht => ht.1) (fun t ht => hri t i (ht.2.2 _ (mem_mGuards.2 hk)))
      | dsun i =>
        exact ((h.relPath (σ i) hN hk.2).sunH_cont _ _ (fun t ht => ht.1)
          (fun t ht => haxi t ht.1 ht.2.1 i hk (ht.2.2 (.cone i) (mem_mGuards.2 hk)))).add continuousOn_const
      | psm i => exact ((h.relPath 1 hN hk.2).psm_cont _ _ _).mono (fun t ht => ht.1))
    (fun k hk j _ t ht htT hg hp => multi_deriv hc hσ h ht (mi t ht htT.le hg) (mem_mAll.1 hk) j hp)
    (fun t ht htT hg hp k hk => by
      have hin := mi t ht htT.le hg
      exact multi_barrier hc hσ hin (mem_mAll.1 hk) (hp k hk) (hbar t ht htT hin hp k hk))
    (fun k _ M => polyAlpha_linear _ (mCoefs_classK k) M)
    (fun t ht htT hg hp g hgm hz => by
      cases g with
      | own g =>
        have hp' : ∀ k : InspIx, ∀ j ∈ mJ (.own k), 0 < inspH c.toInspConfig k j (ownView (x t)) + mShift k := fun k => hp (.own k) (mem_own _ k)
        cases g
        · have h1 : 0 < chiefH c.radius c.aMax (ownView (x t)) + 0 := hp' .coll 0 (by simp [mJ])
          have hz' : norm2 (pySlice (ownView (x t)) 0 3) - c.radius = 0 := hz
          unfold chiefH at h1
          rw [hz', mul_zero, sqrt_zero, zero_add, add_zero] at h1
          exact h1
        · have h1 : 0 < maxH c.rMax c.aMax (ownView (x t)) + -(1 / 1000) + 1 / 1000 := hp' .rmax 0 (by simp [mJ])
          have hz' : c.rMax - norm2 (pySlice (ownView (x t)) 0 3) = 0 := hz
          unfold maxH at h1
          rw [hz', mul_zero, sqrt_zero, zero_sub] at h1
          show 0 < -(_ / _)
          linarith
        · have h1 : 0 < sunH c.fov c.aMax c.sunVel (ownView (x t)) + -(1 / 1000) + 0 := hp' .sun 0 (by simp [mJ])
          have hz' : coneM (c.fov / 2) (pySlice (ownView (x t)) 0 3) (sunVector (ownView (x t))) = 0 := hz
          unfold sunH at h1
          rw [hz', mul_zero, sqrt_zero, zero_add] at h1
          show 0 < coneRate _ _ _ _ _
          linarith
      | out i =>
        have h1 : 0 < chiefH (c.deputyRadius * 2) (2 * c.aMax) (relView 1 i (x t)) := hp (.coll i) (mem_pair (mem_mGuards.1 hgm)).1 0 (by simp [mJ])
        have hz' : norm2 (pySlice (relView 1 i (x t)) 0 3) - c.deputyRadius * 2 = 0 := hz
        unfold chiefH at h1
        rw [hz', mul_zero, sqrt_zero, zero_add] at h1
        exact h1
      | cone i =>
        have h1 : 0 < sunH c.fov c.aMax c.sunVel (relView (σ i) i (x t)) + -(1 / 1000) :=
          hp (.dsun i) (mem_pair (mem_mGuards.1 hgm)).2.1 0 (by simp [mJ])
        have hz' : coneM (c.fov / 2) (pySlice (relView (σ i) i (x t)) 0 3) (sunVector (relView (σ i) i (x t))) = 0 := hz
        unfold sunH at h1
        rw [hz', mul_zero, sqrt_zero, zero_add] at h1
        show 0 < coneRate _ _ _ _ _
        linarith)
    ⟨im h0, h0'⟩ t ht htT
  exact ⟨mi t ht htT key.1, key.2⟩

end
end RTA
