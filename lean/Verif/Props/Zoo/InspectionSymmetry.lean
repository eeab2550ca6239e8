import Verif.Props.SymmetryDiscrete
import Verif.Props.Zoo.DockingSymmetry
import Verif.Props.Zoo.InspectionDiscreteRefuted

/-!
C107 for the discrete inspection module: the reflection in the orbital plane.
-/
namespace RTA
open Real

theorem norm_mirror (a b z : ℝ) : norm2 [a, b, -z] = norm2 [a, b, z] := by simp [norm2, sqNorm, dot]

theorem dot_mirror (a b z d e w : ℝ) : dot [a, b, -z] [d, e, -w] = dot [a, b, z] [d, e, w] := by simp [dot]

theorem dot_plane (a b z p q : ℝ) : dot [a, b, -z] [p, q, 0] = dot [a, b, z] [p, q, 0] := by simp [dot]

theorem proj_mirror (fov a b z p q : ℝ) : conicProj fov [a, b, -z] [p, q, 0] = (conicProj fov [a, b, z] [p, q, 0]).map (flip [1, 1, -1]) := by
  have hn : norm2 (vsub [a, b, -z] (vscale (dot [a, b, z] [p, q, 0]) [p, q, 0])) =
      norm2 (vsub [a, b, z] (vscale (dot [a, b, z] [p, q, 0]) [p, q, 0])) := by simp [norm2, sqNorm, dot, vsub, vscale]
  unfold conicProj
  simp only [dot_plane, hn]
  generalize dot [a, b, z] [p, q, 0] = k
  generalize norm2 (vsub [a, b, z] (vscale k [p, q, 0])) = N
  unfold vdivF
  by_cases h : N = 0
  · simp [h]
  · simp [h, flip, vadd, vsub, vscale]
    ring

theorem proj_form (fov a b z p q : ℝ) {r : List ℝ} (h : conicProj fov [a, b, z] [p, q, 0] = some r) : ∃ r0 r1 r2, r = [r0, r1, r2] := by
  unfold conicProj vdivF at h
  simp only at h
  split at h
  · simp at h
  · simp [vadd, vsub, vscale] at h
    exact ⟨_, _, _, h.symm⟩

theorem mag_mirror (fov a b z p q : ℝ) : conicMag fov [a, b, -z] [p, q, 0] = conicMag fov [a, b, z] [p, q, 0] := by
  unfold conicMag vdivF
  rw [norm_mirror]
  generalize norm2 [a, b, z] = N
  by_cases h : N = 0
  · simp [h]
  · simp [h, dot]

theorem conic_mirror (fov aMax s a b z d e w p q : ℝ) :
    conicKeepOut fov aMax [0, 0, s] [a, b, -z] [d, e, -w] [p, q, 0] = conicKeepOut fov aMax [0, 0, s] [a, b, z] [d, e, w] [p, q, 0] := by
  unfold conicKeepOut
  by_cases h : norm2 [p, q, 0] = 0
  · simp [vdivF, h]
  · simp only [vdivF, h, if_false, List.map_cons, List.map_nil, zero_div, Option.bind_eq_bind, Option.bind_some, proj_mirror, mag_mirror]
    generalize p / norm2 [p, q, 0] = p'
    generalize q / norm2 [p, q, 0] = q'
    rcases hp : conicProj fov [a, b, z] [p', q', 0] with _ | r
    · simp
    · obtain ⟨r0, r1, r2, rfl⟩ := proj_form fov a b z p' q' hp
      have hd : dot (vsub [a, b, -z] [r0, r1, -r2]) (vsub [d, e, -w] (cross [0, 0, s] [r0, r1, -r2])) =
          dot (vsub [a, b, z] [r0, r1, r2]) (vsub [d, e, w] (cross [0, 0, s] [r0, r1, r2])) := by
        simp [dot, vsub, cross, comp]
        ring
      have hf : flip [1, 1, -1] [r0, r1, r2] = [r0, r1, -r2] := by simp [flip]
      simp only [Option.map_some, Option.bind_some, hf, hd]

/-- Every constraint of the module has the same value in states that are reflections of each other in the orbital plane. -/
theorem dC_mirror (c : InspConfig) (k : InspIx) (a b z d e w t q : ℝ) :
    hval (dC c k).2 [a, b, -z, d, e, -w, t, q] = hval (dC c k).2 [a, b, z, d, e, w, t, q] := by
  have hs : ∀ i j k l m n o p : ℝ, pySlice [i, j, k, l, m, n, o, p] 0 3 = [i, j, k] ∧ pySlice [i, j, k, l, m, n, o, p] 3 6 = [l, m, n] := by
    intro i j k l m n o p; exact ⟨rfl, rfl⟩
  unfold hval
  cases k
  case coll => simp only [dC, inspCollision, adConstraint, Constraint.mk', chiefCollision, keepOut, (hs _ _ _ _ _ _ _ _).1, (hs _ _ _ _ _ _ _ _).2, norm_mirror, dot_mirror]
  case rmax => simp only [dC, inspMaxDistance, adConstraint, Constraint.mk', maxDistance, (hs _ _ _ _ _ _ _ _).1, (hs _ _ _ _ _ _ _ _).2, norm_mirror, dot_mirror]
  case rel => simp [dC, inspRelVel, adConstraint, Constraint.mk', relativeVelocity, normWithDelta, pySlice]
  case sun =>
    have hp : ∀ i j k l m n o p : ℝ, jaxPad [i, j, k, l, m, n, o, p] = [i, j, k, l, m, n, o, p] := by intros; simp [jaxPad]
    simp only [dC, discInspSun, inspSun, adConstraint, Constraint.mk', hp, (hs _ _ _ _ _ _ _ _).1, (hs _ _ _ _ _ _ _ _).2, sunVector]
    rw [conic_mirror]
    rfl
  case psm =>
    have hps : ∀ n t' R : ℝ, psmFutureState n [a, b, -z, d, e, -w, t, q] t' R = psmFutureState n [a, b, z, d, e, w, t, q] t' R := by
      intro n t' R
      simp [psmFutureState, norm2, sqNorm, dot, comp]
      congr 2
      ring
    simp only [dC, inspPSM, Constraint.mk', psmCompute, hps]
  all_goals simp [dC, inspLimit, Constraint.mk', stateAt]

/-- The next states are reflections of each other too. -/
theorem discInspNext_mirror (c : InspConfig) (a b z d e w t q dt u1 u2 u3 : ℝ) :
    ∃ a' b' z' d' e' w' t' q' : ℝ, discInspNext c [a, b, z, d, e, w, t, q] dt [u1, u2, u3] = [a', b', z', d', e', w', t', q'] ∧
      discInspNext c [a, b, -z, d, e, -w, t, q] dt [u1, u2, -u3] = [a', b', -z', d', e', -w', t', q'] := by
  have hl := discInspNext_length (c := c) (x := [a, b, z, d, e, w, t, q]) (u := [u1, u2, u3]) (dt := dt)
  generalize hr : discInspNext c [a, b, z, d, e, w, t, q] dt [u1, u2, u3] = r at hl
  obtain ⟨a', b', z', d', e', w', t', q', rfl⟩ : ∃ a' b' z' d' e' w' t' q' : ℝ, r = [a', b', z', d', e', w', t', q'] := by
    match r, hl with
    | [i1, i2, i3, i4, i5, i6, i7, i8], _ => exact ⟨_, _, _, _, _, _, _, _, rfl⟩
  refine ⟨a', b', z', d', e', w', t', q', rfl, ?_⟩
  simp [discInspNext, discreteNext, jaxPad, discreteA, discreteB, pySlice, comp, matVec, dot, vadd] at hr ⊢
  obtain ⟨h1, h2, h3, h4, h5, h6, h7, h8⟩ := hr
  refine ⟨h1, h2, ?_, h4, h5, ?_, h7, h8⟩
  · rw [← h3]; ring
  · rw [← h6]; ring

/-- **C107, inspection in discrete time.** The discrete inspection module, constructed with any parameters and symmetric bounds: if it answers, it answers
in the situation reflected in the orbital plane, with a control as far from the reflected desired control; its reflection is admissible in the original
situation; and it is the reflection of the original answer if only one admissible control is closest to the desired one. (A constraint value that is NaN in
the code is read as zero, in both situations alike.) -/
theorem C107_inspection_discrete {solver : NLPSolver ℝ} (hsound : NLPSound solver) (hglob : NLPGlobal solver) (hcomp : NLPComplete solver)
    {c : InspConfig} {U epsilon : ℝ} {s : DiscObj ℝ (List ℝ) InspParams}
    (hinit : discInsp c (some (.scalar U)) (some (.scalar (-U))) epsilon true = .ok s) (a b z d e w t q u1 u2 u3 : ℝ) {dt : ℝ} (hdt : 0 < dt)
    {v : List ℝ} (h : (discreteASIF solver (discInspNext c) s (.array [a, b, z, d, e, w, t, q]) dt [u1, u2, u3]).1 = .ok v) :
    ∃ r, (discreteASIF solver (discInspNext c) s (.array [a, b, -z, d, e, -w, t, q]) dt [u1, u2, -u3]).1 = .ok r ∧
      sqDist r [u1, u2, -u3] = sqDist v [u1, u2, u3] ∧
      AdmissibleDS (discInspNext c) s [a, b, z, d, e, w, t, q] dt (flip [1, 1, -1] r) [] ∧
      ((∀ v1 v2, AdmissibleDS (discInspNext c) s [a, b, z, d, e, w, t, q] dt v1 [] → AdmissibleDS (discInspNext c) s [a, b, z, d, e, w, t, q] dt v2 [] →
        (∀ v3, AdmissibleDS (discInspNext c) s [a, b, z, d, e, w, t, q] dt v3 [] → sqDist v1 [u1, u2, u3] ≤ sqDist v3 [u1, u2, u3]) →
        sqDist v2 [u1, u2, u3] = sqDist v1 [u1, u2, u3] → v1 = v2) → r = flip [1, 1, -1] v) := by
  obtain ⟨hinv, hcs, hdim, -, hen, hlo, hhi, hex⟩ := discInsp_init hinit
  have hall : ∀ (p : String × Constraint ℝ (List ℝ) InspParams → Prop), (∀ k, p (dC c k)) → ∀ kc ∈ s.constraints, p kc := by
    intro p hp kc hkc
    rw [hcs, discInspConstraints_eq] at hkc
    obtain ⟨k, -, rfl⟩ := List.mem_map.1 hkc
    exact hp k
  have he : flip [1, 1, -1] [u1, u2, u3] = [u1, u2, -u3] := by simp [flip]
  have := C107_discrete hsound hglob hcomp hinv hen hex (hall _ fun k => dC_noslack c k)
    (hall _ fun k _ => by rw [dC_alpha]; rfl) (lo := some (-U)) (hi := some U) (by rw [hlo]; rfl) (by rw [hhi]; rfl)
    (sg := [1, 1, -1]) (by simp) hdim.symm (by rw [hlo, hhi]; exact symmetric_scalar _ U) (y := [a, b, -z, d, e, -w, t, q]) hdt
    (hall _ fun k _ => dC_mirror c k a b z d e w t q)
    (hall _ fun k _ r hr => by
      obtain ⟨r1, r2, r3, rfl⟩ := List.length_eq_three.1 (hr.trans hdim)
      obtain ⟨a', b', z', d', e', w', t', q', h1, h2⟩ := discInspNext_mirror c a b z d e w t q dt r1 r2 r3
      have : flip [1, 1, -1] [r1, r2, r3] = [r1, r2, -r3] := by simp [flip]
      rw [this, h1, h2]
      exact dC_mirror c k a' b' z' d' e' w' t' q') h
  rwa [he] at this

/-- An instance: the default module half a revolution after and before crossing the orbital plane. From 100 m above the chief it accepts the desired control,
so from 100 m below its answer is at distance zero from the reflected one. -/
example {epsilon : ℝ} {s : DiscObj ℝ (List ℝ) InspParams}
    (hs : discInsp inspDefault (some (.scalar 1)) (some (.scalar (-1))) epsilon true = .ok s) :
    ∃ r, (discreteASIF refNLP (discInspNext inspDefault) s (.array [0, 0, -100, 0, 0, -0, 0, 0]) (π / inspDefault.n) [0, 0, -0]).1 = .ok r ∧
      sqDist r [0, 0, -0] = 0 := by
  have hn : inspDefault.n = 1027 / 1000000 := rfl
  have hn0 : inspDefault.n ≠ 0 := by rw [hn]; norm_num
  have hdt : 1000 ≤ π / inspDefault.n := by
    rw [hn, le_div_iff₀ (by norm_num)]; linarith [pi_gt_three]
  have hnext : discInspNext inspDefault (axisState 100 0 0 0) (π / inspDefault.n) [0, 0, 0] =
      axisState (-100) 0 (0 - inspDefault.sunVel * (π / inspDefault.n)) 0 := by
    rw [axis_next, mul_div_cancel₀ _ hn0]
    simp
  have hcall := discInsp_accepts refNLP_sound refNLP_global refNLP_complete hs (x := axisState 100 0 0 0) (u := [0, 0, 0]) (dt := π / inspDefault.n)
    (by linarith) rfl (by simp) fun k => long_step hdt k (crossing_positive (by norm_num) k) (by
      rw [hnext]; exact crossing_positive (by norm_num) k)
  obtain ⟨r, h1, h2, -⟩ := C107_inspection_discrete refNLP_sound refNLP_global refNLP_complete hs 0 0 100 0 0 0 0 0 0 0 0 (by linarith) hcall
  exact ⟨r, h1, by rw [h2]; simp [sqDist, sqNorm, vsub, dot]⟩

end RTA
