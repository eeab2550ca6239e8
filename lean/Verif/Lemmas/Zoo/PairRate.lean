import Verif.Lemmas.Zoo.MultiStays

/-!
The rate of the collision constraint between two deputies.
-/
namespace RTA
open Set Real Filter Topology

/-- The constraint for relative position `p` and velocity `v`, braking acceleration `a` and radius `R`. -/
noncomputable def pairH (R a p1 p2 p3 v1 v2 v3 : ℝ) : ℝ :=
  √(2 * a * (√(p1 ^ 2 + p2 ^ 2 + p3 ^ 2) - R)) + (p1 * v1 + p2 * v2 + p3 * v3) / √(p1 ^ 2 + p2 ^ 2 + p3 ^ 2)

/-- Its rate of change when `p` changes at rate `q` and `v` at rate `w`. -/
noncomputable def pairRate (R a p1 p2 p3 v1 v2 v3 q1 q2 q3 w1 w2 w3 : ℝ) : ℝ :=
  a * ((p1 * q1 + p2 * q2 + p3 * q3) / √(p1 ^ 2 + p2 ^ 2 + p3 ^ 2)) / √(2 * a * (√(p1 ^ 2 + p2 ^ 2 + p3 ^ 2) - R)) +
    (q1 * v1 + q2 * v2 + q3 * v3 + (p1 * w1 + p2 * w2 + p3 * w3)) / √(p1 ^ 2 + p2 ^ 2 + p3 ^ 2) -
    (p1 * v1 + p2 * v2 + p3 * v3) * (p1 * q1 + p2 * q2 + p3 * q3) / √(p1 ^ 2 + p2 ^ 2 + p3 ^ 2) ^ 3

theorem pairH_deriv {R a : ℝ} (hR : 0 ≤ R) (ha : 0 < a) {p1 p2 p3 v1 v2 v3 : ℝ → ℝ} {q1 q2 q3 w1 w2 w3 t : ℝ}
    (hp1 : HasDerivAt p1 q1 t) (hp2 : HasDerivAt p2 q2 t) (hp3 : HasDerivAt p3 q3 t)
    (hv1 : HasDerivAt v1 w1 t) (hv2 : HasDerivAt v2 w2 t) (hv3 : HasDerivAt v3 w3 t)
    (h : R < √(p1 t ^ 2 + p2 t ^ 2 + p3 t ^ 2)) :
    HasDerivAt (fun s => pairH R a (p1 s) (p2 s) (p3 s) (v1 s) (v2 s) (v3 s))
      (pairRate R a (p1 t) (p2 t) (p3 t) (v1 t) (v2 t) (v3 t) q1 q2 q3 w1 w2 w3) t := by
  have hD0 : 0 < √(p1 t ^ 2 + p2 t ^ 2 + p3 t ^ 2) := hR.trans_lt h
  have hsq : p1 t ^ 2 + p2 t ^ 2 + p3 t ^ 2 ≠ 0 := fun e => by rw [e, sqrt_zero] at hD0; exact lt_irrefl _ hD0
  have hD : HasDerivAt (fun s => √(p1 s ^ 2 + p2 s ^ 2 + p3 s ^ 2)) ((p1 t * q1 + p2 t * q2 + p3 t * q3) / √(p1 t ^ 2 + p2 t ^ 2 + p3 t ^ 2)) t := by
    refine ((((hp1.pow 2).add (hp2.pow 2)).add (hp3.pow 2)).sqrt hsq).congr_deriv ?_
    simp only [Pi.add_apply, Pi.pow_apply]
    field_simp
    push_cast
    ring
  have hin : 0 < 2 * a * (√(p1 t ^ 2 + p2 t ^ 2 + p3 t ^ 2) - R) := mul_pos (by linarith) (by linarith)
  have hS := ((hD.sub_const R).const_mul (2 * a)).sqrt hin.ne'
  have hN := ((hp1.mul hv1).add (hp2.mul hv2)).add (hp3.mul hv3)
  refine (hS.add (hN.div hD hD0.ne')).congr_deriv ?_
  have hs0 := sqrt_pos.2 hin
  unfold pairRate
  simp only [Pi.add_apply, Pi.mul_apply]
  generalize √(2 * a * (√(p1 t ^ 2 + p2 t ^ 2 + p3 t ^ 2) - R)) = S at *
  generalize √(p1 t ^ 2 + p2 t ^ 2 + p3 t ^ 2) = D at *
  field_simp
  ring

theorem chiefH_pair (R a : ℝ) (x : List ℝ) : chiefH R a (relView 1 1 x) =
    pairH R a (comp x 0 - comp x 6) (comp x 1 - comp x 7) (comp x 2 - comp x 8) (comp x 3 - comp x 9) (comp x 4 - comp x 10) (comp x 5 - comp x 11) := by
  unfold chiefH norm2
  rw [sqNorm3 rfl, dot3 rfl rfl]
  unfold pairH relView
  simp only [one_mul]
  rfl

theorem relView_norm (x : List ℝ) : norm2 (pySlice (relView 1 1 x) 0 3) =
    √((comp x 0 - comp x 6) ^ 2 + (comp x 1 - comp x 7) ^ 2 + (comp x 2 - comp x 8) ^ 2) := by
  unfold norm2
  rw [sqNorm3 rfl]
  unfold relView
  simp only [one_mul]
  rfl

/-- The gradient of the constraint of two deputies, applied to a direction. -/
theorem pair_grad {c : MultiConfig} (hc : MultiOK c) {x v : List ℝ} (hx : x.length = 13) (hv : v.length = 13)
    (h : c.deputyRadius * 2 < √((comp x 0 - comp x 6) ^ 2 + (comp x 1 - comp x 7) ^ 2 + (comp x 2 - comp x 8) ^ 2)) :
    dot ((multiC c (.coll 1)).2.gradFn x (multiC c (.coll 1)).2.params) v =
      pairRate (c.deputyRadius * 2) (2 * c.aMax) (comp x 0 - comp x 6) (comp x 1 - comp x 7) (comp x 2 - comp x 8) (comp x 3 - comp x 9)
        (comp x 4 - comp x 10) (comp x 5 - comp x 11) (comp v 0 - comp v 6) (comp v 1 - comp v 7) (comp v 2 - comp v 8) (comp v 3 - comp v 9)
        (comp v 4 - comp v 10) (comp v 5 - comp v 11) := by
  have hR : 0 ≤ c.deputyRadius * 2 := by linarith [hc.deputyRadius]
  have ha : 0 < 2 * c.aMax := by linarith [hc.aMax]
  set y : ℝ → List ℝ := fun s => vadd x (vscale s v) with hy
  have hsl : ∀ s, (vscale s v).length = 13 := fun s => by simp [vscale, hv]
  have hyl : ∀ s, (y s).length = 13 := fun s => by rw [hy]; simp only; rw [vadd_length x _ (by rw [hx, hsl]), hsl]
  have hyc : ∀ s i, comp (y s) i = comp x i + s * comp v i := fun s i => by
    rw [hy]; simp only
    rw [comp_vadd (by rw [hx, hsl])]
    congr 1
    simp [comp, vscale, List.getD_eq_getElem?_getD]
    cases v[i]? <;> simp
  have hyd : ∀ i, HasDerivAt (fun s => comp (y s) i) (comp v i) 0 := fun i => by
    simp only [hyc]
    simpa using ((hasDerivAt_id (0 : ℝ)).mul_const (comp v i)).const_add (comp x i)
  have hy0 : y 0 = x := by
    refine List.ext_getElem (by rw [hyl, hx]) fun i h1 h2 => ?_
    have := hyc 0 i
    simpa [comp, List.getD_eq_getElem?_getD, h1, h2] using this
  have hdiff : DifferentiableAt ℝ (fun z : Fin 13 → ℝ => (multiC c (.coll 1)).2.computeFn (List.ofFn z) (multiC c (.coll 1)).2.params) (toVec 13 (y 0)) := by
    have e : (fun z : Fin 13 → ℝ => (multiC c (.coll 1)).2.computeFn (List.ofFn z) (multiC c (.coll 1)).2.params) =
        fun z => (chiefCollision (c.deputyRadius * 2) (2 * c.aMax) (relView 1 1 (List.ofFn z))).getD 0 := funext fun z => by
      show (deputyCollision _ _ 1 _).getD 0 = _
      rw [deputyCollision_eq (by simp) (by simp)]
      rfl
    rw [e]
    refine diff_view (f := fun z => (chiefCollision (c.deputyRadius * 2) (2 * c.aMax) z).getD 0) (fun _ => rfl) (relView_diff 1 1) (hyl 0) ?_
    refine chief_diff ha hR ?_
    rw [ofFn_rel, hy0, relView_norm]
    exact h
  have h1 := partials_along (n := 13) (mem_univ (0 : ℝ)) (fun s _ => hyl s) hv (fun i _ => (hyd i).hasDerivWithinAt) hdiff
  rw [hasDerivWithinAt_univ, hy0] at h1
  have h' : c.deputyRadius * 2 < √((comp (y 0) 0 - comp (y 0) 6) ^ 2 + (comp (y 0) 1 - comp (y 0) 7) ^ 2 + (comp (y 0) 2 - comp (y 0) 8) ^ 2) := by
    rw [hy0]; exact h
  have h2 := pairH_deriv (R := c.deputyRadius * 2) (a := 2 * c.aMax) hR ha ((hyd 0).sub (hyd 6)) ((hyd 1).sub (hyd 7)) ((hyd 2).sub (hyd 8))
    ((hyd 3).sub (hyd 9)) ((hyd 4).sub (hyd 10)) ((hyd 5).sub (hyd 11)) h'
  simp only [Pi.sub_apply, hy0] at h2
  refine h1.unique (h2.congr_of_eventuallyEq ?_)
  have hcont : ContinuousAt (fun s => √((comp (y s) 0 - comp (y s) 6) ^ 2 + (comp (y s) 1 - comp (y s) 7) ^ 2 + (comp (y s) 2 - comp (y s) 8) ^ 2)) 0 := by
    have hc' := fun i => (hyd i).continuousAt
    exact (((((hc' 0).sub (hc' 6)).pow 2).add (((hc' 1).sub (hc' 7)).pow 2)).add (((hc' 2).sub (hc' 8)).pow 2)).sqrt
  filter_upwards [hcont.eventually (lt_mem_nhds h')] with s hs
  show (deputyCollision _ _ 1 _).getD 0 = _
  rw [deputyCollision_eq (by rw [hyl]; omega) (by rw [hyl]; omega)]
  show (chiefCollision (c.deputyRadius * 2) (2 * c.aMax) _).getD 0 = _
  rw [chief_value ha.le (by rw [relView_norm]; exact hs.le) (by rw [relView_norm]; exact (hR.trans_lt hs).ne'), chiefH_pair]

theorem pair_value {c : MultiConfig} (hc : MultiOK c) {x : List ℝ} (hx : x.length = 13)
    (h : c.deputyRadius * 2 < √((comp x 0 - comp x 6) ^ 2 + (comp x 1 - comp x 7) ^ 2 + (comp x 2 - comp x 8) ^ 2)) :
    (multiC c (.coll 1)).2.value x = pairH (c.deputyRadius * 2) (2 * c.aMax) (comp x 0 - comp x 6) (comp x 1 - comp x 7) (comp x 2 - comp x 8)
      (comp x 3 - comp x 9) (comp x 4 - comp x 10) (comp x 5 - comp x 11) := by
  show (deputyCollision _ _ 1 _).getD 0 + 0 = _
  rw [add_zero, deputyCollision_eq (by rw [hx]; omega) (by rw [hx]; omega)]
  show (chiefCollision (c.deputyRadius * 2) (2 * c.aMax) _).getD 0 = _
  rw [chief_value (by linarith [hc.aMax]) (by rw [relView_norm]; exact h.le)
    (by rw [relView_norm]; exact ((show (0 : ℝ) ≤ c.deputyRadius * 2 by linarith [hc.deputyRadius]).trans_lt h).ne'), chiefH_pair]

theorem multi_comp2 {c : MultiConfig} (hN : c.numDeputies = 2) (x0 x1 x2 x3 x4 x5 x6 x7 x8 x9 xa xb xc u1 u2 u3 : ℝ) :
    vadd (multiF c [x0, x1, x2, x3, x4, x5, x6, x7, x8, x9, xa, xb, xc]) (matVec (multiG c) [u1, u2, u3]) =
      [x3, x4, x5, 3 * c.n ^ 2 * x0 + 2 * c.n * x4 + 1 / c.m * u1, -2 * c.n * x3 + 1 / c.m * u2, -c.n ^ 2 * x2 + 1 / c.m * u3,
       x9, xa, xb, 3 * c.n ^ 2 * x6 + 2 * c.n * xa, -2 * c.n * x9, -c.n ^ 2 * x8, c.sunVel] := by
  unfold multiF multiG
  rw [hN]
  simp [multiA, multiB, blockDiag, cwhA3, cwhB3, matVec, vadd, pySlice, zeros, List.replicate, dot]

end RTA
