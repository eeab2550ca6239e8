import Verif.Lemmas.Zoo.InspectionModule
import Verif.Props.Zoo.Conic
import Verif.Props.Flow

/-!
The constraints of the inspection module along motions of the deputy.
-/
namespace RTA
open Set Real Filter Topology

theorem stateDot_length {n m sunVel : ℝ} {x u : List ℝ} : (computeStateDot n m sunVel x u).length = 8 := by
  simp [computeStateDot, vadd, cwhA3, cwhB3, matVec]

theorem stateDot_vel {n m sunVel : ℝ} {x u : List ℝ} (hx : x.length = 8) (hu : u.length = 3) :
    comp (computeStateDot n m sunVel x u) 0 = comp x 3 ∧ comp (computeStateDot n m sunVel x u) 1 = comp x 4 ∧
      comp (computeStateDot n m sunVel x u) 2 = comp x 5 ∧ comp (computeStateDot n m sunVel x u) 6 = sunVel := by
  match x, hx, u, hu with
  | [a, b, c, d, e, f, g, h], _, [u1, u2, u3], _ =>
    simp [computeStateDot, cwhA3, cwhB3, matVec, vadd, comp, pySlice]

/-- A gradient that ignores the fuel counter does not see that the module's `f + g u` leaves out its rate. -/
theorem dot_stateDot {n m sunVel : ℝ} {x u q : List ℝ} (hx : x.length = 8) (hu : u.length = 3) (hq : q.length = 8) (h7 : q.getD 7 0 = 0) :
    dot q (vadd (inspectionF n sunVel x) (matVec (inspectionG m) u)) = dot q (computeStateDot n m sunVel x u) := by
  match x, hx, u, hu, q, hq with
  | [a, b, c, d, e, f, g, h], _, [u1, u2, u3], _, [q0, q1, q2, q3, q4, q5, q6, q7], _ =>
    have : q7 = 0 := h7
    subst this
    simp [computeStateDot, inspectionF, inspectionG, cwhA3, cwhB3, matVec, vadd, pySlice]

theorem partials_length {P : Type} (h : List ℝ → P → ℝ) (x : List ℝ) (p : P) : (partials h x p).length = x.length := by simp [partials]

theorem partials_free {P : Type} {h : List ℝ → P → ℝ} {x : List ℝ} {p : P} {i : Nat} (hi : i < x.length)
    (hf : ∀ s, h (x.set i s) p = h x p) : (partials h x p).getD i 0 = 0 := by
  have : (partials h x p).getD i 0 = deriv (fun s => h (x.set i s) p) (x.getD i 0) := by
    simp [partials, List.getD_eq_getElem?_getD, List.getElem?_range hi]
  rw [this]
  have e : (fun s => h (x.set i s) p) = fun _ => h x p := funext hf
  rw [e, deriv_const]

theorem pySlice_set {x : List ℝ} (hx : x.length = 8) (s : ℝ) : pySlice (x.set 7 s) 0 3 = pySlice x 0 3 ∧ pySlice (x.set 7 s) 3 6 = pySlice x 3 6 ∧
    (∀ i < 7, comp (x.set 7 s) i = comp x i) := by
  match x, hx with
  | [a, b, c, d, e, f, g, h], _ =>
    refine ⟨rfl, rfl, fun i hi => ?_⟩
    interval_cases i <;> rfl

theorem comp_pos {x : List ℝ} (hx : x.length = 8) : ∀ i < 3, comp (pySlice x 0 3) i = comp x i ∧ comp (pySlice x 3 6) i = comp x (i + 3) := by
  match x, hx with
  | [a, b, c, d, e, f, g, h], _ =>
    intro i hi
    interval_cases i <;> exact ⟨rfl, rfl⟩

theorem slice_length {x : List ℝ} (hx : x.length = 8) : (pySlice x 0 3).length = 3 ∧ (pySlice x 3 6).length = 3 := by
  simp [pySlice, hx]

/-- What the constraints need to know about a motion: positions move with the velocities and the sun angle at a constant rate. -/
structure SunPath (sunVel : ℝ) (x : ℝ → List ℝ) : Prop where
  len : ∀ t, 0 ≤ t → (x t).length = 8
  cont : ∀ i < 8, ContinuousOn (fun t => comp (x t) i) (Ici 0)
  vel : ∀ t, 0 ≤ t → ∀ i < 3, HasDerivWithinAt (fun s => comp (x s) i) (comp (x t) (i + 3)) (Ici t) t
  angle : ∀ t, 0 ≤ t → HasDerivWithinAt (fun s => comp (x s) 6) sunVel (Ici t) t

namespace SunPath
variable {sunVel : ℝ} {x : ℝ → List ℝ} (h : SunPath sunVel x)
include h

theorem pos : Moves (fun t => pySlice (x t) 0 3) (fun t => pySlice (x t) 3 6) where
  lenP t ht := (slice_length (h.len t ht)).1
  lenV t ht := (slice_length (h.len t ht)).2
  cont i hi := (h.cont i (by omega)).congr fun t ht => (comp_pos (h.len t ht) i hi).1
  deriv i hi t ht := by
    refine ((h.vel t ht i hi).congr (fun s hs => (comp_pos (h.len s (ht.trans hs)) i hi).1) (comp_pos (h.len t ht) i hi).1).congr_deriv ?_
    rw [(comp_pos (h.len t ht) i hi).2]

theorem sun : Moves (fun t => sunVector (x t)) (fun t => cross [0, 0, sunVel] (sunVector (x t))) :=
  C58_sun_turns (h.cont 6 (by omega)) h.angle

/-- Positions, velocities and the axis in terms of continuous components. -/
theorem cont_pieces : ContinuousOn (fun t => dot (pySlice (x t) 0 3) (pySlice (x t) 3 6)) (Ici 0) ∧
    ContinuousOn (fun t => dot (pySlice (x t) 3 6) (sunVector (x t)) +
      dot (pySlice (x t) 0 3) (cross [0, 0, sunVel] (sunVector (x t)))) (Ici 0) := by
  have e : ∀ t ∈ Ici (0 : ℝ), x t = List.ofFn (toVec 8 (x t)) := fun t ht => (ofFn_toVec (h.len t ht)).symm
  have hk : ∀ i : Fin 8, ContinuousOn (fun t => toVec 8 (x t) i) (Ici 0) := fun i => h.cont i i.2
  constructor
  · refine ContinuousOn.congr (f := fun t => toVec 8 (x t) 0 * toVec 8 (x t) 3 + toVec 8 (x t) 1 * toVec 8 (x t) 4 + toVec 8 (x t) 2 * toVec 8 (x t) 5)
      ((((hk 0).mul (hk 3)).add ((hk 1).mul (hk 4))).add ((hk 2).mul (hk 5))) fun t ht => ?_
    show dot (pySlice (x t) 0 3) (pySlice (x t) 3 6) = _
    conv_lhs => rw [e t ht]
    exact dot8 _
  · have hs := continuous_sin.comp_continuousOn (hk 6)
    have hcs := continuous_cos.comp_continuousOn (hk 6)
    refine ContinuousOn.congr ((((hk 3).mul hcs).add ((hk 4).mul hs)).neg.add
      (continuousOn_const (c := sunVel) |>.mul (((hk 0).mul hs).sub ((hk 1).mul hcs)))) fun t ht => ?_
    rw [e t ht]
    exact (dotv8 _ _).trans rfl

theorem of_state {f : List ℝ → ℝ} (hf : Continuous fun y : Fin 8 → ℝ => f (List.ofFn y)) : ContinuousOn (fun t => f (x t)) (Ici 0) := by
  have hk : ContinuousOn (fun t => toVec 8 (x t)) (Ici 0) := continuousOn_pi.2 fun i => h.cont i i.2
  refine (hf.comp_continuousOn hk).congr fun t ht => ?_
  simp only [Function.comp, ofFn_toVec (h.len t ht)]

/-- The radial velocity. -/
theorem radial_cont {S : Set ℝ} (hS : S ⊆ Ici 0) (hr : ∀ t ∈ S, norm2 (pySlice (x t) 0 3) ≠ 0) :
    ContinuousOn (fun t => dot (pySlice (x t) 0 3) (pySlice (x t) 3 6) / norm2 (pySlice (x t) 0 3)) S :=
  (h.cont_pieces.1.mono hS).div (h.pos.norm_cont.mono hS) hr

theorem coneRate_cont (θ : ℝ) {S : Set ℝ} (hS : S ⊆ Ici 0) (hax : ∀ t ∈ S, axisDist (pySlice (x t) 0 3) (sunVector (x t)) ≠ 0) :
    ContinuousOn (fun t => coneRate θ [0, 0, sunVel] (pySlice (x t) 0 3) (pySlice (x t) 3 6) (sunVector (x t))) S := by
  obtain ⟨h1, h2⟩ := h.cont_pieces
  exact ((continuousOn_const.div ((axisDist_cont h.pos h.sun).mono hS) hax).mul
      ((h1.mono hS).sub (((dot_along_cont h.pos h.sun).mono hS).mul (h2.mono hS)))).sub (continuousOn_const.mul (h2.mono hS))

theorem chiefH_cont (R a : ℝ) {S : Set ℝ} (hS : S ⊆ Ici 0) (hr : ∀ t ∈ S, norm2 (pySlice (x t) 0 3) ≠ 0) :
    ContinuousOn (fun t => chiefH R a (x t)) S :=
  (continuousOn_const.mul ((h.pos.norm_cont.mono hS).sub continuousOn_const)).sqrt.add (h.radial_cont hS hr)

theorem maxH_cont (R a : ℝ) {S : Set ℝ} (hS : S ⊆ Ici 0) (hr : ∀ t ∈ S, norm2 (pySlice (x t) 0 3) ≠ 0) :
    ContinuousOn (fun t => maxH R a (x t)) S :=
  (continuousOn_const.mul (continuousOn_const.sub (h.pos.norm_cont.mono hS))).sqrt.sub (h.radial_cont hS hr)

theorem sunH_cont (fov a : ℝ) {S : Set ℝ} (hS : S ⊆ Ici 0) (hax : ∀ t ∈ S, axisDist (pySlice (x t) 0 3) (sunVector (x t)) ≠ 0) :
    ContinuousOn (fun t => sunH fov a sunVel (x t)) S :=
  (continuousOn_const.mul ((coneM_cont h.pos h.sun _).mono hS)).sqrt.add (h.coneRate_cont _ hS hax)

theorem psm_cont (n r R : ℝ) : ContinuousOn (fun t => psmFutureState n (x t) r R) (Ici 0) := by
  refine h.of_state (f := fun y => psmFutureState n y r R) ?_
  simp only [vec8]
  unfold psmFutureState norm2
  simp only [comp, List.getD_cons_zero, List.getD_cons_succ, sqNorm, dot_cons, dot_nil_left, div_eq_mul_inv]
  fun_prop

theorem rel_cont (v0 v1 d : ℝ) : ContinuousOn (fun t => relativeVelocity 3 v0 v1 d (1 / 100000) (x t)) (Ici 0) :=
  h.of_state (f := relativeVelocity 3 v0 v1 d (1 / 100000)) (continuous_iff_continuousAt.2 fun _ => rel_diff.continuousAt)

end SunPath

namespace InspectionMotion
variable {n m sunVel : ℝ} {x u : ℝ → List ℝ} (h : InspectionMotion n m sunVel x u)
include h

theorem path : SunPath sunVel x where
  len := h.len
  cont := h.cont
  vel t ht i hi := by
    refine (h.deriv t ht i (by omega)).congr_deriv ?_
    obtain ⟨h0, h1, h2, -⟩ := stateDot_vel (n := n) (m := m) (sunVel := sunVel) (h.len t ht) (h.ulen t ht)
    interval_cases i
    · exact h0
    · exact h1
    · exact h2
  angle t ht := (h.deriv t ht 6 (by omega)).congr_deriv (stateDot_vel (h.len t ht) (h.ulen t ht)).2.2.2

/-- A differentiable function of the state changes along the motion at the rate its gradient gives. -/
theorem along {P : Type} {f : List ℝ → P → ℝ} {p : P} {t : ℝ} (ht : 0 ≤ t)
    (hd : DifferentiableAt ℝ (fun y : Fin 8 → ℝ => f (List.ofFn y) p) (toVec 8 (x t))) :
    HasDerivWithinAt (fun s => f (x s) p) (dot (partials f (x t) p) (computeStateDot n m sunVel (x t) (u t))) (Ici t) t :=
  partials_along (n := 8) self_mem_Ici (fun s hs => h.len s (ht.trans hs)) stateDot_length (h.deriv t ht) hd

end InspectionMotion

/-! ### The guards -/

inductive InspGuard
  | outside
  | inside
  | cone

/-- Distance from the chief's sphere, from the outer sphere, and from the cone. -/
noncomputable def inspGuard (c : InspConfig) : InspGuard → List ℝ → ℝ
  | .outside, x => norm2 (pySlice x 0 3) - c.radius
  | .inside, x => c.rMax - norm2 (pySlice x 0 3)
  | .cone, x => coneM (c.fov / 2) (pySlice x 0 3) (sunVector x)

/-- Their rates of change. -/
noncomputable def inspGuardRate (c : InspConfig) : InspGuard → List ℝ → ℝ
  | .outside, x => dot (pySlice x 0 3) (pySlice x 3 6) / norm2 (pySlice x 0 3)
  | .inside, x => -(dot (pySlice x 0 3) (pySlice x 3 6) / norm2 (pySlice x 0 3))
  | .cone, x => coneRate (c.fov / 2) [0, 0, c.sunVel] (pySlice x 0 3) (pySlice x 3 6) (sunVector x)

/-- What a configuration has to satisfy. -/
structure InspOK (c : InspConfig) : Prop where
  radius : 0 < c.radius
  aMax : 0 < c.aMax
  fov0 : 0 < c.fov
  fov : c.fov < π

theorem InspOK.cos_ne {c : InspConfig} (hc : InspOK c) : cos (c.fov / 2) ≠ 0 :=
  (cos_pos_of_mem_Ioo ⟨by linarith [hc.fov0, pi_pos], by linarith [hc.fov]⟩).ne'

section
variable {c : InspConfig} {x : ℝ → List ℝ} (h : SunPath c.sunVel x)
include h

theorem guard_cont (g : InspGuard) : ContinuousOn (fun t => inspGuard c g (x t)) (Ici 0) := by
  cases g
  · exact h.pos.norm_cont.sub continuousOn_const
  · exact continuousOn_const.sub h.pos.norm_cont
  · exact coneM_cont h.pos h.sun _

theorem guard_deriv {t : ℝ} (ht : 0 ≤ t) (hax : axisDist (pySlice (x t) 0 3) (sunVector (x t)) ≠ 0)
    (h0 : norm2 (pySlice (x t) 0 3) ≠ 0) (g : InspGuard) :
    HasDerivWithinAt (fun s => inspGuard c g (x s)) (inspGuardRate c g (x t)) (Ici t) t := by
  cases g
  · exact (h.pos.norm_deriv ht h0).sub_const _
  · exact ((hasDerivWithinAt_const t _ c.rMax).sub (h.pos.norm_deriv ht h0)).congr_deriv (zero_sub _)
  · exact coneM_deriv h.pos h.sun _ ht hax

theorem rate_cont {S : Set ℝ} (hS : S ⊆ Ici 0) (hr : ∀ t ∈ S, norm2 (pySlice (x t) 0 3) ≠ 0)
    (hax : ∀ t ∈ S, axisDist (pySlice (x t) 0 3) (sunVector (x t)) ≠ 0) (g : InspGuard) :
    ContinuousOn (fun t => inspGuardRate c g (x t)) S := by
  cases g
  · exact h.radial_cont hS hr
  · exact (h.radial_cont hS hr).neg
  · exact h.coneRate_cont _ hS hax

end

/-! ### The constraints -/

inductive InspIx
  | rel
  | sun
  | rmax
  | psm
  | vx
  | vy
  | vz
  | coll
  deriving DecidableEq

def inspAll : List InspIx := [.rel, .sun, .rmax, .psm, .vx, .vy, .vz, .coll]

theorem mem_inspAll (k : InspIx) : k ∈ inspAll := by cases k <;> simp [inspAll]

noncomputable def inspCoefs : InspIx → List ℝ
  | .rel => [0, 5 / 100, 0, 5 / 1000]
  | .sun => [0, 1 / 1000, 0, 1 / 10000]
  | .rmax => [0, 1 / 100, 0, 1 / 1000]
  | .psm => [0, 1 / 100, 0, 1 / 1000]
  | .vx => [0, 1 / 10, 0, 1 / 100]
  | .vy => [0, 1 / 10, 0, 1 / 100]
  | .vz => [0, 1 / 10, 0, 1 / 100]
  | .coll => [0, 1 / 100, 0, 1 / 1000]

theorem inspCoefs_classK (k : InspIx) : ClassKCoefs (inspCoefs k) := by
  cases k <;>
  · refine ⟨fun i c h => ?_, 1, _, rfl, by norm_num⟩
    match i, h with
    | 0, h => simp [inspCoefs] at h; subst h; simp
    | 1, h => simp [inspCoefs] at h; subst h; exact ⟨by simp, by norm_num⟩
    | 2, h => simp [inspCoefs] at h; subst h; simp
    | 3, h => simp [inspCoefs] at h; subst h; exact ⟨by decide, by norm_num⟩
    | (i + 4), h => simp [inspCoefs] at h

noncomputable def inspC (c : InspConfig) : InspIx → String × Constraint ℝ (List ℝ) InspParams
  | .rel => ("rel_vel", inspRelVel (inspCoefs .rel) (-(1 / 1000)) c.v0 (c.v1Coef * c.n) c.v0Distance)
  | .sun => ("sun", inspSun (inspCoefs .sun) (-(1 / 1000)) c.aMax c.fov c.sunVel)
  | .rmax => ("r_max", inspMaxDistance (inspCoefs .rmax) (-(1 / 1000)) c.rMax c.aMax)
  | .psm => ("PSM", inspPSM (inspCoefs .psm) c.radius c.n 1 100)
  | .vx => ("x_vel", inspLimit (inspCoefs .vx) (-(1 / 1000)) c.velLimit 3)
  | .vy => ("y_vel", inspLimit (inspCoefs .vy) (-(1 / 1000)) c.velLimit 4)
  | .vz => ("z_vel", inspLimit (inspCoefs .vz) (-(1 / 1000)) c.velLimit 5)
  | .coll => ("chief_collision", inspCollision (inspCoefs .coll) c.radius c.aMax)

theorem inspC_mem (c : InspConfig) (k : InspIx) : inspC c k ∈ inspConstraints c := by
  cases k <;> simp [inspConstraints, inspCommon, inspC, inspCoefs]

theorem inspConstraints_eq (c : InspConfig) : inspConstraints c = inspAll.map (inspC c) := rfl

theorem inspC_alpha (c : InspConfig) (k : InspIx) : (inspC c k).2.alpha = some (polyAlpha (inspCoefs k)) := by cases k <;> rfl

theorem inspC_enabled (c : InspConfig) (k : InspIx) : (inspC c k).2.enabled = true := by cases k <;> rfl

theorem inspC_noslack (c : InspConfig) (k : InspIx) : (inspC c k).2.slackPriorityScale = none := by cases k <;> rfl

/-- The values of the constraints, of the passive safety constraint at each sample. -/
noncomputable def inspH (c : InspConfig) : InspIx → ℕ → List ℝ → ℝ
  | .rel, _, x => relativeVelocity 3 c.v0 (c.v1Coef * c.n) c.v0Distance (1 / 100000) x + -(1 / 1000)
  | .sun, _, x => sunH c.fov c.aMax c.sunVel x + -(1 / 1000)
  | .rmax, _, x => maxH c.rMax c.aMax x + -(1 / 1000)
  | .psm, j, x => psmFutureState c.n x ((j + 1) * 1) c.radius
  | .vx, _, x => c.velLimit ^ 2 - stateAt x 3 ^ 2 + -(1 / 1000)
  | .vy, _, x => c.velLimit ^ 2 - stateAt x 4 ^ 2 + -(1 / 1000)
  | .vz, _, x => c.velLimit ^ 2 - stateAt x 5 ^ 2 + -(1 / 1000)
  | .coll, _, x => chiefH c.radius c.aMax x

/-- The samples of a constraint. -/
def inspJ : InspIx → Finset ℕ
  | .psm => Finset.range 100
  | _ => {0}

/-- The gradients. -/
noncomputable def inspGrad (c : InspConfig) : InspIx → ℕ → List ℝ → List ℝ
  | .psm, j, x => partials (fun y _ => psmFutureState c.n y ((j + 1) * 1) c.radius) x ()
  | k, _, x => (inspC c k).2.gradFn x (inspC c k).2.params

/-- Inside all the guards and off the axis. -/
structure InspIn (c : InspConfig) (x : List ℝ) : Prop where
  len : x.length = 8
  axis : axisDist (pySlice x 0 3) (sunVector x) ≠ 0
  guard : ∀ g, 0 < inspGuard c g x

section
variable {c : InspConfig} (hc : InspOK c)
include hc

theorem InspIn.norm_pos {x : List ℝ} (h : InspIn c x) : 0 < norm2 (pySlice x 0 3) := by
  have : 0 < norm2 (pySlice x 0 3) - c.radius := h.guard .outside
  linarith [hc.radius]

/-- The values the constraints take. -/
theorem inspC_value {x : List ℝ} (h : InspIn c x) {k : InspIx} (hk : k ≠ .psm) (j : ℕ) : (inspC c k).2.value x = inspH c k j x := by
  have h0 := h.norm_pos hc
  have h1 : 0 < norm2 (pySlice x 0 3) - c.radius := h.guard .outside
  have h2 : 0 < c.rMax - norm2 (pySlice x 0 3) := h.guard .inside
  cases k
  case psm => exact absurd rfl hk
  case rel => rfl
  case vx => rfl
  case vy => rfl
  case vz => rfl
  case sun =>
    show _ + _ = _ + _
    rw [← sun_value hc.aMax.le hc.cos_ne h.len h0.ne' h.axis (h.guard .cone)]
    rfl
  case rmax =>
    show _ + _ = _ + _
    rw [← max_value hc.aMax.le (by linarith) h0.ne']
    rfl
  case coll =>
    show _ + 0 = _
    rw [add_zero, inspH, ← chief_value hc.aMax.le (by linarith) h0.ne']
    rfl

end

/-- The value of a minimum over the whole seconds up to 100, and where it is attained. -/
theorem min_samples (F : ℝ → List ℝ → ℝ) (x : List ℝ) :
    ∃ v, jnpMin ((linspace 1 ((100 : ℕ) * 1) 100).map fun t => F t x) = .ok v ∧ (∀ j ∈ Finset.range 100, v ≤ F (((j : ℕ) + 1) * 1) x) ∧
      ∀ t ∈ leastTimes F (linspace 1 ((100 : ℕ) * 1) 100) x, ∃ j ∈ Finset.range 100, t = ((j : ℕ) + 1) * 1 ∧ F (((j : ℕ) + 1) * 1) x = v := by
  obtain ⟨v, hv⟩ : ∃ v, jnpMin ((linspace 1 ((100 : ℕ) * 1) 100).map fun t => F t x) = .ok v := by
    rw [linspace_dt]
    exact ⟨_, rfl⟩
  refine ⟨v, hv, fun j hj => ?_, fun t ht => ?_⟩
  · have h := hv
    rw [linspace_dt, List.map_map] at h
    exact (jnpMin_spec h).1 _ (List.mem_map.2 ⟨j, List.mem_range.2 (Finset.mem_range.1 hj), rfl⟩)
  · unfold leastTimes at ht
    rw [List.mem_filter, hv, linspace_dt] at ht
    obtain ⟨ht, he⟩ := ht
    obtain ⟨j, hj, rfl⟩ := List.mem_map.1 ht
    refine ⟨j, Finset.mem_range.2 (List.mem_range.1 hj), rfl, ?_⟩
    simpa using he

theorem leastTimes_ne (F : ℝ → List ℝ → ℝ) (x : List ℝ) : leastTimes F (linspace 1 ((100 : ℕ) * 1) 100) x ≠ [] := by
  obtain ⟨v, hv, -, -⟩ := min_samples F x
  obtain ⟨t, ht, e⟩ := List.mem_map.1 (jnpMin_spec hv).2
  have : t ∈ leastTimes F (linspace 1 ((100 : ℕ) * 1) 100) x := by
    unfold leastTimes
    rw [List.mem_filter]
    refine ⟨ht, ?_⟩
    rw [hv, e]
    simp
  exact List.ne_nil_of_mem this

theorem psm_samples (n radius : ℝ) (x : List ℝ) :
    ∃ v, psmCompute n radius 1 100 x = .ok v ∧ (∀ j ∈ Finset.range 100, v ≤ psmFutureState n x (((j : ℕ) + 1) * 1) radius) ∧
      ∃ j ∈ Finset.range 100, psmFutureState n x (((j : ℕ) + 1) * 1) radius = v := by
  obtain ⟨v, hv, hle, hl⟩ := min_samples (fun t y => psmFutureState n y t radius) x
  obtain ⟨t, ht⟩ := List.exists_mem_of_ne_nil _ (leastTimes_ne (fun t y => psmFutureState n y t radius) x)
  obtain ⟨j, hj, -, e⟩ := hl t ht
  exact ⟨v, hv, hle, j, hj, e⟩

/-- The average of rates is at most the greatest. -/
theorem exists_rate {l : List ℝ} (hl : l ≠ []) (G : ℝ → List ℝ) {n : Nat} (hG : ∀ t, (G t).length = n) (v : List ℝ) {b : ℝ}
    (h : b ≤ dot (vscale (1 / (l.length : ℝ)) (l.foldr (fun t acc => vadd (G t) acc) (zeros n))) v) : ∃ t ∈ l, b ≤ dot (G t) v := by
  have hlen : ∀ l : List ℝ, (l.foldr (fun t acc => vadd (G t) acc) (zeros n)).length = n := by
    intro l
    induction l with
    | nil => simp
    | cons t l ih => rw [List.foldr_cons, vadd_length _ _ ((hG t).trans ih.symm), ih]
  by_contra hno
  push Not at hno
  have key : ∀ l : List ℝ, (∀ t ∈ l, dot (G t) v < b) → dot (l.foldr (fun t acc => vadd (G t) acc) (zeros n)) v ≤ l.length * b ∧
      (l ≠ [] → dot (l.foldr (fun t acc => vadd (G t) acc) (zeros n)) v < l.length * b) := by
    intro l
    induction l with
    | nil => intro _; simp [dot_zeros_left]
    | cons t l ih =>
      intro hl
      have h1 := (ih fun q hq => hl q (List.mem_cons_of_mem _ hq)).1
      have h2 := hl t List.mem_cons_self
      rw [List.foldr_cons, dot_vadd_left ((hG t).trans (hlen l).symm)]
      have : ((t :: l).length : ℝ) * b = b + l.length * b := by push_cast [List.length_cons]; ring
      rw [this]
      exact ⟨by linarith, fun _ => by linarith⟩
  have hk := (key l hno).2 hl
  have hpos : (0 : ℝ) < l.length := by exact_mod_cast List.length_pos_iff.2 hl
  rw [dot_vscale_left, one_div, le_inv_mul_iff₀ hpos] at h
  linarith

/-- A rate along the gradient of the minimum is reached by one of the samples that attain it. -/
theorem minGrad_rate (F : ℝ → List ℝ → ℝ) (x v : List ℝ) {b : ℝ} (h : b ≤ dot (minGrad F (linspace 1 ((100 : ℕ) * 1) 100) x) v) :
    ∃ j ∈ Finset.range 100, jnpMin ((linspace 1 ((100 : ℕ) * 1) 100).map fun t => F t x) = .ok (F (((j : ℕ) + 1) * 1) x) ∧
      (∀ i ∈ Finset.range 100, F (((j : ℕ) + 1) * 1) x ≤ F (((i : ℕ) + 1) * 1) x) ∧
      b ≤ dot (partials (fun y _ => F (((j : ℕ) + 1) * 1) y) x ()) v := by
  obtain ⟨w, hw, hle, hl⟩ := min_samples F x
  obtain ⟨t, ht, hr⟩ := exists_rate (leastTimes_ne F x) (fun t => partials (fun y _ => F t y) x ())
      (n := x.length) (fun t => partials_length _ _ _) _ h
  obtain ⟨j, hj, rfl, e⟩ := hl t ht
  refine ⟨j, hj, by rw [e]; exact hw, fun i hi => by rw [e]; exact hle i hi, hr⟩

theorem minGrad_length (F : ℝ → List ℝ → ℝ) (times x : List ℝ) : (minGrad F times x).length = x.length := by
  unfold minGrad
  rw [vscale_length]
  generalize leastTimes F times x = l
  induction l with
  | nil => simp
  | cons t l ih => rw [List.foldr_cons, vadd_length _ _ ((partials_length _ _ _).trans ih.symm), ih]

/-! ### Along motions -/

theorem inspGrad_shape {c : InspConfig} {x : List ℝ} (hx : x.length = 8) (k : InspIx) (j : ℕ) :
    (inspGrad c k j x).length = 8 ∧ (inspGrad c k j x).getD 7 0 = 0 := by
  have hp := fun s => (pySlice_set hx s).1
  have hv := fun s => (pySlice_set hx s).2.1
  have hs := fun s => (pySlice_set hx s).2.2
  have key : ∀ {P : Type} (f : List ℝ → P → ℝ) (p : P), (∀ s, f (x.set 7 s) p = f x p) →
      (partials f x p).length = 8 ∧ (partials f x p).getD 7 0 = 0 :=
    fun f p hf => ⟨by rw [partials_length, hx], partials_free (by omega) hf⟩
  have hlim : ∀ i < 6, (gradAt x.length i (-(2 * stateAt x i))).length = 8 ∧ (gradAt x.length i (-(2 * stateAt x i))).getD 7 0 = 0 := by
    intro i hi
    rw [hx]
    interval_cases i <;> simp [gradAt, List.range_succ]
  cases k
  case rel =>
    have e : inspGrad c .rel j x = partials (inspC c .rel).2.computeFn x (inspC c .rel).2.params := rfl
    rw [e]
    refine key _ _ fun s => ?_
    match x, hx with
    | [a, b, c, d, e, f, g, h], _ => rfl
  case sun =>
    have e : inspGrad c .sun j x = partials (inspC c .sun).2.computeFn x (inspC c .sun).2.params := rfl
    rw [e]
    refine key _ _ fun s => ?_
    simp only [inspC, inspSun, adConstraint, Constraint.mk']
    have e : sunVector (x.set 7 s) = sunVector x := by unfold sunVector; rw [hs s 6 (by omega)]
    rw [hp, hv, e]
  case rmax =>
    have e : inspGrad c .rmax j x = partials (inspC c .rmax).2.computeFn x (inspC c .rmax).2.params := rfl
    rw [e]
    refine key _ _ fun s => ?_
    simp only [inspC, inspMaxDistance, adConstraint, Constraint.mk']
    unfold maxDistance
    rw [hp, hv]
  case psm =>
    unfold inspGrad
    refine key _ _ fun s => ?_
    unfold psmFutureState
    simp only [hs s _ (show 0 < 7 by omega), hs s _ (show 1 < 7 by omega), hs s _ (show 2 < 7 by omega), hs s _ (show 3 < 7 by omega),
      hs s _ (show 4 < 7 by omega), hs s _ (show 5 < 7 by omega)]
  case vx => exact hlim 3 (by omega)
  case vy => exact hlim 4 (by omega)
  case vz => exact hlim 5 (by omega)
  case coll =>
    have e : inspGrad c .coll j x = partials (inspC c .coll).2.computeFn x (inspC c .coll).2.params := rfl
    rw [e]
    refine key _ _ fun s => ?_
    simp only [inspC, inspCollision, adConstraint, Constraint.mk']
    unfold chiefCollision
    rw [hp, hv]

/-- What the barrier condition of a constraint says. -/
theorem insp_barrier {c : InspConfig} (hc : InspOK c) {x u : List ℝ} (hin : InspIn c x) (hu : u.length = 3) {k : InspIx}
    (hpos : ∀ j ∈ inspJ k, 0 < inspH c k j x)
    (hb : BarrierOK (inspectionF c.n c.sunVel) (fun _ => inspectionG c.m) (inspC c k).2 x u 0) :
    ∃ j ∈ inspJ k, (∀ i ∈ inspJ k, inspH c k j x ≤ inspH c k i x) ∧
      -polyAlpha (inspCoefs k) (inspH c k j x) ≤ dot (inspGrad c k j x) (computeStateDot c.n c.m c.sunVel x u) := by
  obtain ⟨m, hm, hm0⟩ := hb
  rw [barrierValue, inspC_alpha] at hm
  simp only [Option.map_some, Option.some.injEq] at hm
  by_cases hk : k = .psm
  · subst hk
    obtain ⟨v, hv, hle, j0, hj0, e0⟩ := psm_samples c.n c.radius x
    have hval : (inspC c .psm).2.computeFn x (inspC c .psm).2.params + (inspC c .psm).2.bias = v := by
      simp only [inspC, inspPSM, Constraint.mk', hv, add_zero, Except.orZero]
    have hv0 : 0 ≤ v := by
      rw [← e0]
      exact (hpos j0 hj0).le
    rw [hval, strengthening, if_pos hv0] at hm
    have hg : (inspC c .psm).2.gradFn x (inspC c .psm).2.params = psmGrad c.n c.radius 1 100 x := rfl
    rw [hg] at hm
    have hr : -polyAlpha (inspCoefs .psm) v ≤ dot (psmGrad c.n c.radius 1 100 x)
        (vadd (inspectionF c.n c.sunVel x) (matVec (inspectionG c.m) u)) := by linarith
    obtain ⟨j, hj, hmin, hle', hr⟩ := minGrad_rate (fun t y => psmFutureState c.n y t c.radius) x _ hr
    have e' : inspH c .psm j x = v := Except.ok.inj (hmin.symm.trans hv)
    refine ⟨j, hj, hle', ?_⟩
    rw [e', ← dot_stateDot hin.len hu (inspGrad_shape hin.len _ _).1 (inspGrad_shape hin.len _ _).2]
    exact hr
  · have hj : inspJ k = {0} := by cases k <;> first | rfl | exact absurd rfl hk
    have hg : inspGrad c k 0 x = (inspC c k).2.gradFn x (inspC c k).2.params := by cases k <;> first | rfl | exact absurd rfl hk
    have hv : (inspC c k).2.computeFn x (inspC c k).2.params + (inspC c k).2.bias = inspH c k 0 x := inspC_value hc hin hk 0
    have hp := hpos 0 (by rw [hj]; simp)
    rw [hv, strengthening, if_pos hp.le, ← hg, dot_stateDot hin.len hu (inspGrad_shape hin.len _ _).1 (inspGrad_shape hin.len _ _).2] at hm
    refine ⟨0, by rw [hj]; simp, fun i hi => ?_, by linarith⟩
    rw [hj, Finset.mem_singleton] at hi
    rw [hi]

theorem InspIn.nearby {c : InspConfig} {x : ℝ → List ℝ} (h : SunPath c.sunVel x) {t : ℝ} (ht : 0 ≤ t) (hin : InspIn c (x t)) :
    ∀ᶠ s in 𝓝[≥] t, InspIn c (x s) := by
  have e : ∀ g, ∀ᶠ s in 𝓝[≥] t, 0 < inspGuard c g (x s) := fun g =>
    ((guard_cont h g t ht).mono (Ici_subset_Ici.2 ht)).eventually (lt_mem_nhds (hin.guard g))
  have ea : ∀ᶠ s in 𝓝[≥] t, axisDist (pySlice (x s) 0 3) (sunVector (x s)) ≠ 0 :=
    ((axisDist_cont h.pos h.sun t ht).mono (Ici_subset_Ici.2 ht)).eventually_ne hin.axis
  filter_upwards [e .outside, e .inside, e .cone, ea, self_mem_nhdsWithin] with s h1 h2 h3 h4 h5
  exact ⟨h.len s (ht.trans h5), h4, fun g => by cases g <;> assumption⟩

/-- Inside the guards the constraints are differentiable. -/
theorem fn_diff {c : InspConfig} (hc : InspOK c) {y0 : Fin 8 → ℝ} (hin : InspIn c (List.ofFn y0)) {k : InspIx} (hk : k ≠ .psm) :
    DifferentiableAt ℝ (fun y : Fin 8 → ℝ => (inspC c k).2.computeFn (List.ofFn y) (inspC c k).2.params) y0 := by
  have h0 := hin.norm_pos hc
  have h1 : 0 < norm2 (pySlice (List.ofFn y0) 0 3) - c.radius := hin.guard .outside
  have h2 : 0 < c.rMax - norm2 (pySlice (List.ofFn y0) 0 3) := hin.guard .inside
  have hlim : ∀ i : Fin 8, DifferentiableAt ℝ (fun y : Fin 8 → ℝ => c.velLimit ^ 2 - stateAt (List.ofFn y) i ^ 2) y0 := by
    intro i
    have e : ∀ y : Fin 8 → ℝ, stateAt (List.ofFn y) i = y i := fun y => congrFun (toVec_ofFn y) i
    simp only [e]
    fun_prop
  cases k
  case psm => exact absurd rfl hk
  case rel => exact rel_diff
  case vx => exact hlim 3
  case vy => exact hlim 4
  case vz => exact hlim 5
  case sun => exact sun_diff hc.aMax hc.cos_ne h0 hin.axis (hin.guard .cone)
  case rmax => exact max_diff hc.aMax h0 (sub_pos.1 h2)
  case coll => exact chief_diff hc.aMax hc.radius.le (sub_pos.1 h1)

section
variable {c : InspConfig} (hc : InspOK c) {x u : ℝ → List ℝ} (h : InspectionMotion c.n c.m c.sunVel x u)
include hc h

omit hc in
theorem InspIn.eventually {t : ℝ} (ht : 0 ≤ t) (hin : InspIn c (x t)) : ∀ᶠ s in 𝓝[≥] t, InspIn c (x s) :=
  hin.nearby h.path ht

/-- Inside the guards the constraints change at the rates their gradients give. -/
theorem insp_deriv {t : ℝ} (ht : 0 ≤ t) (hin : InspIn c (x t)) (k : InspIx) (j : ℕ) (hpos : 0 < inspH c k j (x t)) :
    HasDerivWithinAt (fun s => inspH c k j (x s)) (dot (inspGrad c k j (x t)) (computeStateDot c.n c.m c.sunVel (x t) (u t))) (Ici t) t := by
  have ex := ofFn_toVec (h.len t ht)
  by_cases hk : k = .psm
  · subst hk
    exact h.along (f := fun y _ => psmFutureState c.n y ((j + 1) * 1) c.radius) (p := ()) ht
      (psm_diff hc.radius.le (by rw [ex]; exact hpos))
  · have hlim : ∀ i < 8, HasDerivWithinAt (fun s => c.velLimit ^ 2 - stateAt (x s) i ^ 2)
        (dot (gradAt (x t).length i (-(2 * stateAt (x t) i))) (computeStateDot c.n c.m c.sunVel (x t) (u t))) (Ici t) t := by
      intro i hi
      rw [h.len t ht, dot_gradAt _ _ hi _ _ stateDot_length]
      refine ((hasDerivWithinAt_const t _ (c.velLimit ^ 2)).sub ((h.deriv t ht i hi).pow 2)).congr_deriv ?_
      simp only [stateAt, comp]
      ring
    have hdiff := fn_diff hc (y0 := toVec 8 (x t)) (by rw [ex]; exact hin) hk
    have hd : HasDerivWithinAt (fun s => (inspC c k).2.computeFn (x s) (inspC c k).2.params)
        (dot (inspGrad c k j (x t)) (computeStateDot c.n c.m c.sunVel (x t) (u t))) (Ici t) t := by
      cases k
      case psm => exact absurd rfl hk
      case vx => exact hlim 3 (by omega)
      case vy => exact hlim 4 (by omega)
      case vz => exact hlim 5 (by omega)
      case rel => exact h.along ht hdiff
      case sun => exact h.along ht hdiff
      case rmax => exact h.along ht hdiff
      case coll => exact h.along ht hdiff
    refine (hd.add_const (inspC c k).2.bias).congr_of_eventuallyEq ?_ (inspC_value hc hin hk j).symm
    filter_upwards [hin.eventually h ht] with s hs
    exact (inspC_value hc hs hk j).symm

end

theorem insp_cont {c : InspConfig} {x : ℝ → List ℝ} (h : SunPath c.sunVel x) {S : Set ℝ} (hS : S ⊆ Ici 0)
    (hr : ∀ t ∈ S, norm2 (pySlice (x t) 0 3) ≠ 0)
    (hax : ∀ t ∈ S, axisDist (pySlice (x t) 0 3) (sunVector (x t)) ≠ 0) (k : InspIx) (j : ℕ) :
    ContinuousOn (fun t => inspH c k j (x t)) S := by
  have hlim : ∀ i < 8, ContinuousOn (fun t => c.velLimit ^ 2 - stateAt (x t) i ^ 2 + -(1 / 1000)) S := fun i hi =>
    (continuousOn_const.sub (((h.cont i hi).mono hS).pow 2)).add continuousOn_const
  cases k
  case rel => exact ((h.rel_cont _ _ _).mono hS).add continuousOn_const
  case psm => exact (h.psm_cont _ _ _).mono hS
  case vx => exact hlim 3 (by omega)
  case vy => exact hlim 4 (by omega)
  case vz => exact hlim 5 (by omega)
  case sun => exact (h.sunH_cont _ _ hS hax).add continuousOn_const
  case rmax => exact (h.maxH_cont _ _ hS hr).add continuousOn_const
  case coll => exact h.chiefH_cont _ _ hS hr

section
variable {c : InspConfig} (hc : InspOK c) {x u : ℝ → List ℝ} (h : InspectionMotion c.n c.m c.sunVel x u)
include hc h

/-- Barrier conditions up to time `T` keep the constraints and the guards positive. -/
theorem insp_stays {T : ℝ} (hax : ∀ t, 0 ≤ t → t ≤ T → axisDist (pySlice (x t) 0 3) (sunVector (x t)) ≠ 0)
    (hbar : ∀ t, 0 ≤ t → t < T → InspIn c (x t) → (∀ k, ∀ j ∈ inspJ k, 0 < inspH c k j (x t)) →
      ∀ k, BarrierOK (inspectionF c.n c.sunVel) (fun _ => inspectionG c.m) (inspC c k).2 (x t) (u t) 0)
    (h0 : InspIn c (x 0)) (h0' : ∀ k, ∀ j ∈ inspJ k, 0 < inspH c k j (x 0)) :
    ∀ t, 0 ≤ t → t ≤ T → InspIn c (x t) ∧ ∀ k, ∀ j ∈ inspJ k, 0 < inspH c k j (x t) := by
  intro t ht htT
  have mem : ∀ g : InspGuard, g ∈ [InspGuard.outside, .inside, .cone] := fun g => by cases g <;> simp
  have hr : ∀ t, 0 ≤ inspGuard c .outside (x t) → norm2 (pySlice (x t) 0 3) ≠ 0 := fun t ht => by
    have : 0 ≤ norm2 (pySlice (x t) 0 3) - c.radius := ht
    linarith [hc.radius]
  have key := guarded (I := inspAll) (J := inspJ) (G := [InspGuard.outside, .inside, .cone]) (T := T)
    (H := fun k j t => inspH c k j (x t))
    (H' := fun k j t => dot (inspGrad c k j (x t)) (computeStateDot c.n c.m c.sunVel (x t) (u t)))
    (al := fun k => polyAlpha (inspCoefs k)) (d := fun g t => inspGuard c g (x t)) (w := fun g t => inspGuardRate c g (x t))
    (fun g _ => guard_cont h.path g)
    (fun g _ t ht htT hg => guard_deriv h.path ht (hax t ht htT.le) (hr t (hg _ (mem .outside)).le) g)
    (fun g _ => rate_cont h.path (fun t ht => ht.1) (fun t ht => hr t (ht.2.2 _ (mem _))) (fun t ht => hax t ht.1 ht.2.1) g)
    (fun k _ j _ => insp_cont h.path (fun t ht => ht.1) (fun t ht => hr t (ht.2.2 _ (mem _))) (fun t ht => hax t ht.1 ht.2.1) k j)
    (fun k _ j _ t ht htT hg hp => insp_deriv hc h ht ⟨h.len t ht, hax t ht htT.le, fun g => hg g (mem g)⟩ k j hp)
    (fun t ht htT hg hp k _ => by
      have hin : InspIn c (x t) := ⟨h.len t ht, hax t ht htT.le, fun g => hg g (mem g)⟩
      exact insp_barrier hc hin (h.ulen t ht) (hp k (mem_inspAll k)) (hbar t ht htT hin (fun k => hp k (mem_inspAll k)) k))
    (fun k _ M => polyAlpha_linear _ (inspCoefs_classK k) M)
    (fun t ht htT hg hp g _ hz => by
      cases g
      · have h1 : 0 < chiefH c.radius c.aMax (x t) := hp .coll (mem_inspAll _) 0 (by simp [inspJ])
        have hz' : norm2 (pySlice (x t) 0 3) - c.radius = 0 := hz
        unfold chiefH at h1
        rw [hz', mul_zero, sqrt_zero, zero_add] at h1
        exact h1
      · have h1 : 0 < maxH c.rMax c.aMax (x t) + -(1 / 1000) := hp .rmax (mem_inspAll _) 0 (by simp [inspJ])
        have hz' : c.rMax - norm2 (pySlice (x t) 0 3) = 0 := hz
        unfold maxH at h1
        rw [hz', mul_zero, sqrt_zero, zero_sub] at h1
        show 0 < -(_ / _)
        linarith
      · have h1 : 0 < sunH c.fov c.aMax c.sunVel (x t) + -(1 / 1000) := hp .sun (mem_inspAll _) 0 (by simp [inspJ])
        have hz' : coneM (c.fov / 2) (pySlice (x t) 0 3) (sunVector (x t)) = 0 := hz
        unfold sunH at h1
        rw [hz', mul_zero, sqrt_zero, zero_add] at h1
        show 0 < coneRate _ _ _ _ _
        linarith)
    ⟨fun g _ => h0.guard g, fun k _ => h0' k⟩ t ht htT
  exact ⟨⟨h.len t ht, hax t ht htT, fun g => key.1 g (mem g)⟩, fun k => key.2 k (mem_inspAll k)⟩

end
end RTA
