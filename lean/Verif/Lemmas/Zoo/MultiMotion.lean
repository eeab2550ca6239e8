import Verif.Lemmas.Zoo.InspectionMotion
import Verif.Lemmas.Zoo.MultiDynamics

/-!
The constraints of the multi-deputy inspection module are those of the 1v1 module for two views of the state: the deputy's own, and the
one relative to another deputy.
-/
namespace RTA
open Set Real Filter Topology

/-- The state of the first deputy as a state of the 1v1 problem (without the fuel counter). -/
def ownView (x : List ℝ) : List ℝ := [comp x 0, comp x 1, comp x 2, comp x 3, comp x 4, comp x 5, comp x (x.length - 1), 0]

/-- The state of the first deputy relative to deputy `i`, times a sign. -/
def relView (σ : ℝ) (i : Nat) (x : List ℝ) : List ℝ :=
  [σ * (comp x 0 - comp x (6 * i)), σ * (comp x 1 - comp x (6 * i + 1)), σ * (comp x 2 - comp x (6 * i + 2)),
   σ * (comp x 3 - comp x (6 * i + 3)), σ * (comp x 4 - comp x (6 * i + 4)), σ * (comp x 5 - comp x (6 * i + 5)), comp x (x.length - 1), 0]

theorem ownView_pos {x : List ℝ} (h : 6 ≤ x.length) : pySlice (ownView x) 0 3 = pySlice x 0 3 := (slice3 0 (by omega)).symm

theorem ownView_vel {x : List ℝ} (h : 6 ≤ x.length) : pySlice (ownView x) 3 6 = pySlice x 3 6 := (slice3 3 (by omega)).symm

theorem ownView_sun (x : List ℝ) : sunVector (ownView x) = multiSun x := rfl

theorem relView_sun (σ : ℝ) (i : Nat) (x : List ℝ) : sunVector (relView σ i x) = multiSun x := rfl

theorem relView_pos (σ : ℝ) {i : Nat} {x : List ℝ} (h6 : 6 ≤ x.length) (h : 6 * i + 6 ≤ x.length) :
    pySlice (relView σ i x) 0 3 = vscale σ (relPos i x) := by
  unfold relPos
  have e1 : pySlice x 0 3 = [comp x 0, comp x (0 + 1), comp x (0 + 2)] := slice3 0 (by omega)
  rw [slice3 (6 * i) (by omega), e1]
  rfl

theorem relView_vel (σ : ℝ) {i : Nat} {x : List ℝ} (h6 : 6 ≤ x.length) (h : 6 * i + 6 ≤ x.length) :
    pySlice (relView σ i x) 3 6 = vscale σ (relVel i x) := by
  unfold relVel
  have e1 : pySlice x 3 6 = [comp x 3, comp x (3 + 1), comp x (3 + 2)] := slice3 3 (by omega)
  have e2 : pySlice x (6 * i + 3) (6 * i + 6) = [comp x (6 * i + 3), comp x (6 * i + 3 + 1), comp x (6 * i + 3 + 2)] := slice3 (6 * i + 3) (by omega)
  rw [e1, e2]
  rfl

theorem relView_pos1 {i : Nat} {x : List ℝ} (h6 : 6 ≤ x.length) (h : 6 * i + 6 ≤ x.length) : pySlice (relView 1 i x) 0 3 = relPos i x := by
  rw [relView_pos 1 h6 h]
  simp [vscale]

theorem relView_vel1 {i : Nat} {x : List ℝ} (h6 : 6 ≤ x.length) (h : 6 * i + 6 ≤ x.length) : pySlice (relView 1 i x) 3 6 = relVel i x := by
  rw [relView_vel 1 h6 h]
  simp [vscale]

/-- The collision constraint for another deputy is that for the chief, with twice the braking acceleration. -/
theorem deputyCollision_eq {R a : ℝ} {i : Nat} {x : List ℝ} (h6 : 6 ≤ x.length) (h : 6 * i + 6 ≤ x.length) :
    deputyCollision R a i x = chiefCollision R (2 * a) (relView 1 i x) := by
  unfold deputyCollision chiefCollision
  rw [relView_pos1 h6 h, relView_vel1 h6 h, mul_comm i 6, ← mul_assoc, show (2 : ℝ) * 2 = 4 by norm_num]
  rfl

/-- The passive safety of two deputies is that of the relative state. -/
theorem psmDeputy_eq {n t R : ℝ} {i : Nat} {x : List ℝ} : psmDeputyFutureState n i x t R = psmFutureState n (relView 1 i x) t R := by
  unfold psmDeputyFutureState psmFutureState psmCoast norm2 vsub
  simp only [List.zipWith_cons_cons, List.zipWith_nil_right, relView, comp, List.getD_cons_zero, List.getD_cons_succ, one_mul, add_zero, zero_add,
    mul_comm i 6]
  congr 4
  · ring
  · congr 1
    · ring
    · congr 1
      ring

theorem deputySun_eq {fov a sunVel : ℝ} {i : Nat} {x : List ℝ} (h6 : 6 ≤ x.length) (h : 6 * i + 6 ≤ x.length) :
    deputySun fov a sunVel i x = conicKeepOut fov a [0, 0, sunVel] (pySlice (relView (getSign i x) i x) 0 3)
      (pySlice (relView (getSign i x) i x) 3 6) (sunVector (relView (getSign i x) i x)) := by
  unfold deputySun
  rw [relView_pos _ h6 h, relView_vel _ h6 h, relView_sun]

theorem multiSun_unit (x : List ℝ) : sqNorm (multiSun x) = 1 := by
  rw [sqNorm3 rfl]; simp [multiSun, comp]

theorem relPos_length {i : Nat} {x : List ℝ} (h6 : 6 ≤ x.length) (h : 6 * i + 6 ≤ x.length) : (relPos i x).length = 3 := by
  unfold relPos
  rw [slice3 (6 * i) (by omega), slice3 0 (by omega)]
  rfl

/-- The sign is that of the component of the relative position along the axis. -/
theorem getSign_eq {i : Nat} {x : List ℝ} (h6 : 6 ≤ x.length) (h : 6 * i + 6 ≤ x.length) (h0 : norm2 (relPos i x) ≠ 0) :
    getSign i x = if dot (relPos i x) (multiSun x) < 0 then -1 else 1 := by
  have hl := relPos_length h6 h
  have hu := multiSun_unit x
  have hn : norm2 (multiSun x) = 1 := by unfold norm2; rw [hu, sqrt_one]
  have e1 : vdivF (relPos i x) (norm2 (relPos i x)) = some ((relPos i x).map (· / norm2 (relPos i x))) := by simp [vdivF, h0]
  have e2 : vdivF (multiSun x) (norm2 (multiSun x)) = some (multiSun x) := by simp [vdivF, hn]
  have hm := cos_angle_mem hl (c := multiSun x) rfl hu h0
  have hd : dot ((relPos i x).map (· / norm2 (relPos i x))) (multiSun x) = dot (relPos i x) (multiSun x) / norm2 (relPos i x) := by
    rw [dot_comm]; exact dot_unit hl rfl hu h0
  have hpos : 0 < norm2 (relPos i x) := lt_of_le_of_ne (sqrt_nonneg _) (Ne.symm h0)
  unfold getSign
  simp only [e1, e2, Option.bind_eq_bind, Option.bind_some, hd, arccosF]
  rw [if_neg (by push Not; exact hm)]
  simp only
  by_cases hs : dot (relPos i x) (multiSun x) < 0
  · rw [if_pos hs, if_pos]
    rw [gt_iff_lt, ← not_le, arccos_le_pi_div_two, not_le]
    exact div_neg_of_neg_of_pos hs hpos
  · rw [if_neg hs, if_neg]
    rw [gt_iff_lt, not_lt, arccos_le_pi_div_two]
    exact div_nonneg (not_lt.1 hs) hpos.le

/-! ### Differentiability through a view -/

theorem comp_ofFn_diff {M : Nat} (i : Nat) : Differentiable ℝ fun y : Fin M → ℝ => comp (List.ofFn y) i := by
  rcases Nat.lt_or_ge i M with h | h
  · have e : (fun y : Fin M → ℝ => comp (List.ofFn y) i) = fun y => y ⟨i, h⟩ := by
      funext y
      exact congrFun (toVec_ofFn y) ⟨i, h⟩
    rw [e]
    fun_prop
  · have e : (fun y : Fin M → ℝ => comp (List.ofFn y) i) = fun _ => 0 := by
      funext y
      simp [comp, List.getD_eq_getElem?_getD, List.getElem?_eq_none (l := List.ofFn y) (i := i) (by simpa using h)]
    rw [e]
    fun_prop

theorem ownView_diff {M : Nat} (i : Fin 8) : Differentiable ℝ fun y : Fin M → ℝ => comp (ownView (List.ofFn y)) i := by
  have hk := fun j => comp_ofFn_diff (M := M) j
  have e : ∀ y : Fin M → ℝ, (List.ofFn y).length = M := fun y => List.length_ofFn
  unfold ownView
  simp only [e]
  fin_cases i <;> first | exact hk _ | exact differentiable_const _

theorem relView_diff {M : Nat} (σ : ℝ) (q : Nat) (i : Fin 8) : Differentiable ℝ fun y : Fin M → ℝ => comp (relView σ q (List.ofFn y)) i := by
  have hk := fun j => comp_ofFn_diff (M := M) j
  have e : ∀ y : Fin M → ℝ, (List.ofFn y).length = M := fun y => List.length_ofFn
  unfold relView
  simp only [e]
  fin_cases i <;> first | exact hk _ | exact differentiable_const _ | exact ((hk _).sub (hk _)).const_mul σ

theorem diff_view {M : Nat} {f : List ℝ → ℝ} {V : List ℝ → List ℝ} (hV : ∀ x, (V x).length = 8)
    (hd : ∀ i : Fin 8, Differentiable ℝ fun y : Fin M → ℝ => comp (V (List.ofFn y)) i) {x : List ℝ} (hx : x.length = M)
    (hf : DifferentiableAt ℝ (fun z : Fin 8 → ℝ => f (List.ofFn z)) (toVec 8 (V x))) :
    DifferentiableAt ℝ (fun y : Fin M → ℝ => f (V (List.ofFn y))) (toVec M x) := by
  have e : (fun y : Fin M → ℝ => f (V (List.ofFn y))) = (fun z : Fin 8 → ℝ => f (List.ofFn z)) ∘ fun y : Fin M → ℝ => toVec 8 (V (List.ofFn y)) := by
    funext y
    simp only [Function.comp, ofFn_toVec (hV _)]
  rw [e]
  refine DifferentiableAt.comp _ ?_ (differentiableAt_pi.2 fun i => (hd i) _)
  rw [ofFn_toVec hx]
  exact hf

/-! ### Motions of the views -/

theorem cwh_pos_rate {n m : ℝ} {s u : List ℝ} (hs : s.length = 6) (hu : u.length = 3) {j : Nat} (hj : j < 3) :
    comp (vadd (matVec (cwhA3 n) s) (matVec (cwhB3 m) u)) j = comp s (j + 3) := by
  match s, hs, u, hu with
  | [a, b, c, d, e, f], _, [u1, u2, u3], _ =>
    interval_cases j <;> simp [matVec, cwhA3, cwhB3, vadd, comp]

section
variable {n m sunVel : ℝ} {N : Nat} {x : ℝ → List ℝ} {w : ℝ → Nat → List ℝ} (h : FleetMotion n m sunVel N x w)
include h

theorem FleetMotion.pos_rate {t : ℝ} (ht : 0 ≤ t) {q : Nat} (hq : q < N) {j : Nat} (hj : j < 3) :
    HasDerivWithinAt (fun s => comp (x s) (6 * q + j)) (comp (x t) (6 * q + j + 3)) (Ici t) t := by
  have hl := h.len t ht
  refine (h.deriv t ht q hq j (by omega)).congr_deriv ?_
  rw [cwh_pos_rate (by rw [pySlice_length (by omega)]; omega) (h.wlen t ht q hq) hj, comp_pySlice (by omega), add_assoc]

theorem FleetMotion.last_cont : ContinuousOn (fun t => comp (x t) ((x t).length - 1)) (Ici 0) :=
  (h.cont (6 * N) (by omega)).congr fun t ht => by rw [h.len t ht]; rfl

theorem FleetMotion.last_rate {t : ℝ} (ht : 0 ≤ t) : HasDerivWithinAt (fun s => comp (x s) ((x s).length - 1)) sunVel (Ici t) t :=
  (h.angle t ht).congr (fun s hs => by rw [h.len s (ht.trans hs)]; rfl) (by rw [h.len t ht]; rfl)

theorem FleetMotion.ownPath (hN : 0 < N) : SunPath sunVel fun t => ownView (x t) where
  len _ _ := rfl
  cont i hi := by
    have hk := fun j (hj : j < 6) => h.cont j (by omega)
    interval_cases i
    · exact hk 0 (by omega)
    · exact hk 1 (by omega)
    · exact hk 2 (by omega)
    · exact hk 3 (by omega)
    · exact hk 4 (by omega)
    · exact hk 5 (by omega)
    · exact h.last_cont
    · exact continuousOn_const
  vel t ht i hi := by
    have hp := h.pos_rate ht hN hi
    simp only [Nat.mul_zero, zero_add] at hp
    interval_cases i
    · exact hp
    · exact hp
    · exact hp
  angle t ht := h.last_rate ht

theorem FleetMotion.relPath (σ : ℝ) {i : Nat} (hN : 0 < N) (hi : i < N) : SunPath sunVel fun t => relView σ i (x t) where
  len _ _ := rfl
  cont j hj := by
    have hk := fun j (hj : j < 6) => (continuousOn_const (c := σ)).mul ((h.cont j (by omega)).sub (h.cont (6 * i + j) (by omega)))
    interval_cases j
    · exact hk 0 (by omega)
    · exact hk 1 (by omega)
    · exact hk 2 (by omega)
    · exact hk 3 (by omega)
    · exact hk 4 (by omega)
    · exact hk 5 (by omega)
    · exact h.last_cont
    · exact continuousOn_const
  vel t ht j hj := by
    have h1 := h.pos_rate ht hN hj
    have h2 := h.pos_rate ht hi hj
    simp only [Nat.mul_zero, zero_add] at h1
    have h3 := (h1.sub h2).const_mul σ
    interval_cases j
    · exact h3
    · exact h3
    · exact h3
  angle t ht := h.last_rate ht

end
end RTA
