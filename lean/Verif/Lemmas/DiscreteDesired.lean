import Verif.Props.Discrete

/-!
A discrete module without slack returns the desired control when it is admissible.
-/
set_option linter.unusedSectionVars false
namespace RTA
variable {K S P : Type} [Field K] [LinearOrder K] [IsStrictOrderedRing K]

theorem sqDist_zero {u v : List K} (hl : v.length = u.length) (h : sqDist v u ≤ 0) : v = u := by
  induction u generalizing v with
  | nil => exact List.length_eq_zero_iff.1 hl
  | cons a u ih =>
    rcases v with _ | ⟨b, v⟩
    · simp at hl
    · have hnn : ∀ (u v : List K), 0 ≤ sqDist v u := by
        intro u v
        simp only [sqDist, sqNorm]
        exact sqNorm_nonneg _
      have e : sqDist (b :: v) (a :: u) = (b - a) * (b - a) + sqDist v u := by
        simp [sqDist, sqNorm, vsub, dot]
      rw [e] at h
      have h1 := hnn u v
      have h2 := mul_self_nonneg (b - a)
      have h3 : (b - a) * (b - a) = 0 := by linarith
      have h4 : b = a := by
        have := mul_self_eq_zero.1 h3
        linarith
      rw [h4, ih (v := v) (by simpa using hl) (by linarith)]

theorem disc_desired [HasSqrt K] [LawfulSqrt K] {solver : NLPSolver K} (hsound : NLPSound solver) (hglob : NLPGlobal solver)
    (hcomp : NLPComplete solver) {next : S → K → List K → S} {s : DiscObj K S P} (hinv : DiscInv s)
    (hslack : slackScales s.constraints = []) (hen : s.enable = true) {lo hi : Option K}
    (hlo : scalarBound s.controlBoundsLow = .ok lo) (hhi : scalarBound s.controlBoundsHigh = .ok hi)
    (ha : ∀ kc ∈ s.constraints, kc.2.enabled = true → kc.2.alpha.isSome = true) {x : S} {dt : K} (hdt : 0 < dt) {u : List K}
    (hu : AdmissibleDS next s x dt u []) : (discreteASIF solver next s (.array x) dt u).1 = .ok u := by
  have hn : s.ext.numSlack = 0 := by rw [hinv.slack, hslack]; rfl
  rw [C40_problem solver next hinv hen hlo hhi ha x dt u hu.len]
  simp only
  have hfs := enabledCbfs_eq (next := next) (n := s.ext.controlDim) (x := x) (dt := dt) s.constraints 0 ha
  change enabledCbfs _ _ _ _ _ _ _ _ = .ok (discreteIneqs next s x dt) at hfs
  have hlen : (u ++ zeros s.ext.numSlack : List K).length = (List.replicate s.ext.controlDim (lo, hi) ++
      List.replicate s.ext.numSlack ((none, none) : Option K × Option K)).length := by simp [hu.len]
  have hfeas : NLPFeasible (discreteIneqs next s x dt) (List.replicate s.ext.controlDim (lo, hi) ++
      List.replicate s.ext.numSlack ((none, none) : Option K × Option K)) (u ++ []) := by
    have hb := (bounds_spec hlo hhi (k := s.ext.numSlack) (d := []) hu.len).2 hu.bounds
    refine ⟨by simp [hu.len, hn], hb.1, hb.2, ?_⟩
    exact (enabledCbfs_spec hdt s.constraints 0 hfs (d := []) hu.len).2 (by simpa using hu.barrier)
  have hobj : ∀ v : List K, v.length = s.ext.controlDim →
      discObj s.ext.objWeight (u ++ zeros s.ext.numSlack) v = sqDist v u / 2 - sqNorm u / 2 := by
    intro v hv
    have := C40_objective hinv (by rw [ScalesPos, hslack]; simp) u v [] hu.len hv (by rw [hn]; rfl)
    rw [List.append_nil] at this
    rw [this, slackCost, hslack]
    simp [dot]
  rw [List.append_nil] at hfeas
  have hlen' : ∀ z, NLPFeasible (discreteIneqs next s x dt) (List.replicate s.ext.controlDim (lo, hi) ++
      List.replicate s.ext.numSlack ((none, none) : Option K × Option K)) z → z.length = s.ext.controlDim := by
    intro z hz
    rw [hz.len]; simp [hn]
  have hself : sqDist u u = 0 := by
    have : ∀ u : List K, sqDist u u = 0 := by
      intro u
      induction u with
      | nil => simp [sqDist, sqNorm, vsub, dot]
      | cons a u ih =>
        have e : sqDist (a :: u) (a :: u) = (a - a) * (a - a) + sqDist u u := by
          simp [sqDist, sqNorm, vsub, dot]
        rw [e, ih]; simp
    exact this u
  have hnn : ∀ v : List K, 0 ≤ sqDist v u := fun v => by
    simp only [sqDist, sqNorm]
    exact sqNorm_nonneg _
  have hmin : ∀ y, NLPFeasible (discreteIneqs next s x dt) (List.replicate s.ext.controlDim (lo, hi) ++
      List.replicate s.ext.numSlack ((none, none) : Option K × Option K)) y →
      discObj s.ext.objWeight (u ++ zeros s.ext.numSlack) u ≤ discObj s.ext.objWeight (u ++ zeros s.ext.numSlack) y := by
    intro y hy
    rw [hobj y (hlen' y hy), hobj u hu.len, hself]
    linarith [hnn y]
  have hs := hcomp (discObj s.ext.objWeight (u ++ zeros s.ext.numSlack)) _ _ _ hlen ⟨u, hfeas, hmin⟩
  have hf := hsound _ _ _ _ hlen hs
  have hle := hglob _ _ _ _ hlen hs u hfeas
  rw [hobj _ (hlen' _ hf), hobj u hu.len, hself] at hle
  have heq := sqDist_zero ((hlen' _ hf).trans hu.len.symm) (by linarith)
  rw [hs, heq, if_neg (by simp), ← hu.len, List.take_length]
  have hfit : ∀ (b : Option (Bound K)) r n, scalarBound b = .ok r → BoundFits n b := by
    intro b r n hb
    rcases b with _ | ⟨b⟩ | ⟨j, l⟩
    · trivial
    · trivial
    · rcases l with _ | ⟨a, _ | ⟨a', l⟩⟩ <;> simp [scalarBound, BoundFits] at hb ⊢
  exact C05_clip_identity s.toBase u (hfit _ _ _ hlo) (hfit _ _ _ hhi) hu.bounds

end RTA
