import Verif.Lemmas.DiscreteDesired

/-!
A discrete ASIF module without slack answers whenever there is a closest admissible control.
-/
namespace RTA
variable {K S P : Type} [Field K] [LinearOrder K] [IsStrictOrderedRing K]

theorem disc_total [HasSqrt K] [LawfulSqrt K] {solver : NLPSolver K} (hsound : NLPSound solver) (hglob : NLPGlobal solver)
    (hcomp : NLPComplete solver) {next : S → K → List K → S} {s : DiscObj K S P} (hinv : DiscInv s)
    (hslack : slackScales s.constraints = []) (hen : s.enable = true) {lo hi : Option K}
    (hlo : scalarBound s.controlBoundsLow = .ok lo) (hhi : scalarBound s.controlBoundsHigh = .ok hi)
    (ha : ∀ kc ∈ s.constraints, kc.2.enabled = true → kc.2.alpha.isSome = true) {x : S} {dt : K} (hdt : 0 < dt) {u w : List K}
    (hu : u.length = s.ext.controlDim) (hw : AdmissibleDS next s x dt w [])
    (hmin : ∀ v, AdmissibleDS next s x dt v [] → sqDist w u ≤ sqDist v u) :
    ∃ v, (discreteASIF solver next s (.array x) dt u).1 = .ok v ∧ AdmissibleDS next s x dt v [] ∧ sqDist v u ≤ sqDist w u := by
  have hn : s.ext.numSlack = 0 := by rw [hinv.slack, hslack]; rfl
  rw [C40_problem solver next hinv hen hlo hhi ha x dt u hu]
  simp only
  have hfs := enabledCbfs_eq (next := next) (n := s.ext.controlDim) (x := x) (dt := dt) s.constraints 0 ha
  change enabledCbfs _ _ _ _ _ _ _ _ = .ok (discreteIneqs next s x dt) at hfs
  have hlen : (u ++ zeros s.ext.numSlack : List K).length = (List.replicate s.ext.controlDim (lo, hi) ++
      List.replicate s.ext.numSlack ((none, none) : Option K × Option K)).length := by simp [hu]
  have hfeas : ∀ v : List K, NLPFeasible (discreteIneqs next s x dt) (List.replicate s.ext.controlDim (lo, hi) ++
      List.replicate s.ext.numSlack ((none, none) : Option K × Option K)) v ↔ AdmissibleDS next s x dt v [] := by
    intro v
    constructor
    · intro h
      have hl : v.length = s.ext.controlDim := by rw [h.len]; simp [hn]
      have h' := h
      rw [← List.append_nil v] at h'
      exact ⟨hl, by rw [hslack], (bounds_spec hlo hhi (k := s.ext.numSlack) (d := []) hl).1 ⟨h'.low, h'.high⟩,
        by simpa using (enabledCbfs_spec hdt s.constraints 0 hfs (d := []) hl).1 h'.ineq⟩
    · intro h
      have hb := (bounds_spec hlo hhi (k := s.ext.numSlack) (d := []) h.len).2 h.bounds
      have : NLPFeasible (discreteIneqs next s x dt) (List.replicate s.ext.controlDim (lo, hi) ++
          List.replicate s.ext.numSlack ((none, none) : Option K × Option K)) (v ++ []) :=
        ⟨by simp [h.len, hn], hb.1, hb.2, (enabledCbfs_spec hdt s.constraints 0 hfs (d := []) h.len).2 (by simpa using h.barrier)⟩
      rwa [List.append_nil] at this
  have hobj : ∀ v : List K, v.length = s.ext.controlDim →
      discObj s.ext.objWeight (u ++ zeros s.ext.numSlack) v = sqDist v u / 2 - sqNorm u / 2 := by
    intro v hv
    have := C40_objective hinv (by rw [ScalesPos, hslack]; simp) u v [] hu hv (by rw [hn]; rfl)
    rw [List.append_nil] at this
    rw [this, slackCost, hslack]
    simp [dot]
  have hs := hcomp (discObj s.ext.objWeight (u ++ zeros s.ext.numSlack)) _ _ _ hlen ⟨w, (hfeas w).2 hw, fun y hy => by
    have hy' := (hfeas y).1 hy
    rw [hobj y hy'.len, hobj w hw.len]
    linarith [hmin y hy']⟩
  have hf := (hfeas _).1 (hsound _ _ _ _ hlen hs)
  have hle := hglob _ _ _ _ hlen hs w ((hfeas w).2 hw)
  rw [hobj _ hf.len, hobj w hw.len] at hle
  rw [hs, if_neg (by simp)]
  refine ⟨_, ?_, hf, by linarith⟩
  have hfit : ∀ (b : Option (Bound K)) r n, scalarBound b = .ok r → BoundFits n b := by
    intro b r n hb
    rcases b with _ | ⟨b⟩ | ⟨j, l⟩
    · trivial
    · trivial
    · rcases l with _ | ⟨a, _ | ⟨a', l⟩⟩ <;> simp [scalarBound, BoundFits] at hb ⊢
  rw [List.take_of_length_le hf.len.le]
  exact C05_clip_identity s.toBase _ (hfit _ _ _ hlo) (hfit _ _ _ hhi) hf.bounds

end RTA
