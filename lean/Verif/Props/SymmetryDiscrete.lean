import Verif.Props.Symmetry
import Verif.Props.OrderDiscrete

/-!
C107 for modules that check the next state: in the mirror image of a situation they answer exactly if they answer in the situation itself, and their answer
is as far from the desired control. It is the mirror image of the other answer if only one admissible control is closest; otherwise it need not be.
-/
set_option linter.unusedSectionVars false
namespace RTA

section
variable {K S P : Type} [Field K] [LinearOrder K] [IsStrictOrderedRing K] [HasSqrt K] [LawfulSqrt K]

/-- The mirror image of an admissible control is admissible in the mirrored state. -/
theorem admissibleDS_flip {next : S → K → List K → S} {s : DiscObj K S P} (hns : ∀ kc ∈ s.constraints, kc.2.slackPriorityScale = none)
    {sg : List K} (hsg : ∀ a ∈ sg, a = 1 ∨ a = -1) (hsl : sg.length = s.ext.controlDim)
    (hb : SymmetricBounds sg s.controlBoundsLow s.controlBoundsHigh) {x y : S} {dt : K}
    (h0 : ∀ kc ∈ s.constraints, kc.2.enabled = true → hval kc.2 y = hval kc.2 x)
    (h1 : ∀ kc ∈ s.constraints, kc.2.enabled = true → ∀ w : List K, w.length = s.ext.controlDim →
      hval kc.2 (next y dt (flip sg w)) = hval kc.2 (next x dt w)) {w e : List K} (h : AdmissibleDS next s x dt w e) :
    AdmissibleDS next s y dt (flip sg w) [] := by
  refine ⟨by rw [flip_length, hsl, h.len, min_self], by simp [scales_nil_of_noslack hns], flip_within hsg hb (h.len.trans hsl.symm) h.bounds,
    fun cd hcd hen => ?_⟩
  rw [assignSlack_plain hns] at hcd
  obtain ⟨kc, hkc, rfl⟩ := List.mem_map.1 hcd
  obtain ⟨al, ha, hle⟩ := h.barrier (kc.2, 0) (by rw [assignSlack_plain hns]; exact List.mem_map.2 ⟨kc, hkc, rfl⟩) hen
  refine ⟨al, ha, ?_⟩
  rw [h0 kc hkc hen, h1 kc hkc hen w h.len]
  exact hle

/-- **C107, mirror images, discrete modules.** Let the states `x` and `y` be mirror images of each other, in that every enabled constraint has the same
value in both, and the same value in the states reached from them with controls whose components `i` differ by the sign `sg i`; and let the bounds be
symmetric. If the module answers in `x` with `v`, it answers in `y` to the mirrored desired control, with a control that is as far from it as `v` is from
`u`; its mirror image is admissible in `x`; and it is the mirror image of `v` if only one control admissible in `x` is closest to `u`. -/
theorem C107_discrete {solver : NLPSolver K} (hsound : NLPSound solver) (hglob : NLPGlobal solver) (hcomp : NLPComplete solver)
    {next : S → K → List K → S} {s : DiscObj K S P} (hs : DiscInv s) (hen : s.enable = true) (hex : s.ext.solverException = true)
    (hns : ∀ kc ∈ s.constraints, kc.2.slackPriorityScale = none)
    (ha : ∀ kc ∈ s.constraints, kc.2.enabled = true → kc.2.alpha.isSome = true) {lo hi : Option K}
    (hl : scalarBound s.controlBoundsLow = .ok lo) (hh : scalarBound s.controlBoundsHigh = .ok hi)
    {sg : List K} (hsg : ∀ a ∈ sg, a = 1 ∨ a = -1) (hsl : sg.length = s.ext.controlDim)
    (hb : SymmetricBounds sg s.controlBoundsLow s.controlBoundsHigh) {x y : S} {dt : K} (hdt : 0 < dt)
    (h0 : ∀ kc ∈ s.constraints, kc.2.enabled = true → hval kc.2 y = hval kc.2 x)
    (h1 : ∀ kc ∈ s.constraints, kc.2.enabled = true → ∀ w : List K, w.length = s.ext.controlDim →
      hval kc.2 (next y dt (flip sg w)) = hval kc.2 (next x dt w)) {u v : List K}
    (h : (discreteASIF solver next s (.array x) dt u).1 = .ok v) :
    ∃ w, (discreteASIF solver next s (.array y) dt (flip sg u)).1 = .ok w ∧ sqDist w (flip sg u) = sqDist v u ∧
      AdmissibleDS next s x dt (flip sg w) [] ∧
      ((∀ a b, AdmissibleDS next s x dt a [] → AdmissibleDS next s x dt b [] → (∀ c, AdmissibleDS next s x dt c [] → sqDist a u ≤ sqDist c u) →
        sqDist b u = sqDist a u → a = b) → w = flip sg v) := by
  have hcall : discreteASIF solver next s (.array x) dt u = (.ok v, (discreteASIF solver next s (.array x) dt u).2) := Prod.ext h rfl
  obtain ⟨d, hd, hmin⟩ := C40_closest_admissible hsound hglob hs (scalesPos_of_noslack' hns) hen hdt hex hcall
  obtain ⟨-, -, -, -, -, -, -, hu, -⟩ := disc_solved hsound hs hen hdt hcall hex
  have hmin0 : ∀ c e, AdmissibleDS next s x dt c e → sqDist v u ≤ sqDist c u := by
    intro c e hc
    have := hmin c e hc
    rwa [scales_nil_of_noslack hns, slackCost_nil, slackCost_nil] at this
  have hff : ∀ w : List K, w.length = s.ext.controlDim → flip sg (flip sg w) = w := fun w hw => flip_flip hsg (by omega)
  have hfl : ∀ w : List K, w.length = s.ext.controlDim → (flip sg w).length = s.ext.controlDim := fun w hw => by
    rw [flip_length, hsl, hw, min_self]
  have hback : ∀ c e, AdmissibleDS next s y dt c e → AdmissibleDS next s x dt (flip sg c) [] := fun c e hc =>
    admissibleDS_flip hns hsg hsl hb (fun kc hkc he => (h0 kc hkc he).symm)
      (fun kc hkc he w hw => by have := h1 kc hkc he (flip sg w) (hfl w hw); rw [hff w hw] at this; exact this.symm) hc
  have hdist : ∀ c : List K, c.length = s.ext.controlDim → sqDist (flip sg c) u = sqDist c (flip sg u) := fun c hc => by
    have := sqDist_flip hsg (v := c) (w := flip sg u) (by omega)
    rwa [hff u hu] at this
  have hself : sqDist (flip sg v) (flip sg u) = sqDist v u := sqDist_flip hsg (by rw [hd.len, hsl])
  obtain ⟨w, hw, haw, hle⟩ := disc_total hsound hglob hcomp hs (scales_nil_of_noslack hns) hen hl hh ha hdt (u := flip sg u) (hfl u hu)
    (admissibleDS_flip hns hsg hsl hb h0 h1 hd) (fun c hc => by
      rw [hself, ← hdist c hc.len]; exact hmin0 _ [] (hback c [] hc))
  have hx := hback w [] haw
  have he : sqDist w (flip sg u) = sqDist v u := le_antisymm (hle.trans hself.le) (by
    rw [← hdist w haw.len]; exact hmin0 _ [] hx)
  refine ⟨w, hw, he, hx, fun huniq => ?_⟩
  have hv0 : AdmissibleDS next s x dt v [] := by
    have := hback _ _ (admissibleDS_flip hns hsg hsl hb h0 h1 hd)
    rwa [hff v hd.len] at this
  rw [huniq v (flip sg w) hv0 hx (fun c hc => hmin0 c [] hc) (by rw [hdist w haw.len, he]), hff w haw.len]

end

/-- The bounds ±2 of the module `tieObj` are symmetric. -/
theorem tie_symmetric (swap : Bool) : SymmetricBounds [-1] (tieObj swap).controlBoundsLow (tieObj swap).controlBoundsHigh := by
  intro i hi
  simp [tieObj, Base.init, boundAt]

/-- Its constraints have the same values in opposite states. -/
theorem tie_mirror (swap : Bool) (x y : ℝ) (h : y = -x) : ∀ kc ∈ (tieObj swap).constraints, kc.2.enabled = true → hval kc.2 y = hval kc.2 x := by
  subst h
  cases swap <;> simp [tieObj, tieAway, tieTrivial, Constraint.mk', hval]

/-- Some instances: the module that keeps away from the origin, with an exact solver. The answer to `u` in `x` and the answer to `-u` in `-x`. -/
example (swap : Bool) (x u : ℝ) {v : List ℝ} (h : (discreteASIF refNLP stepNext (tieObj swap) (.array x) 1 [u]).1 = .ok v) :
    ∃ w, (discreteASIF refNLP stepNext (tieObj swap) (.array (-x)) 1 [-u]).1 = .ok w ∧ sqDist w [-u] = sqDist v [u] := by
  obtain ⟨w, h1, h2, -⟩ := C107_discrete refNLP_sound refNLP_global refNLP_complete (tie_inv swap) rfl rfl
    (by cases swap <;> simp [tieObj, tieAway, tieTrivial, Constraint.mk']) (by cases swap <;> simp [tieObj, tieAway, tieTrivial, Constraint.mk'])
    (lo := some (-2)) (hi := some 2) rfl rfl (sg := [-1]) (by simp) rfl (tie_symmetric swap) (y := -x) (by norm_num) (tie_mirror swap x (-x) rfl)
    (fun kc hkc he w hw => tie_mirror swap (stepNext x 1 w) (stepNext (-x) 1 (flip [-1] w)) (by
      obtain ⟨a, rfl⟩ := List.length_eq_one_iff.1 hw
      simp [stepNext, flip]; ring) kc hkc he) h
  refine ⟨w, ?_, ?_⟩
  · simpa [flip] using h1
  · simpa [flip] using h2

/-- **C107, mirror images, is false for the control itself of a discrete module**, whatever exact solver is used. At the origin, which is its own mirror
image, the module that keeps away from it is asked for no control, which is its own mirror image too. It answers, and its answer is not its own mirror
image. -/
theorem C107_refuted_discrete {solver : NLPSolver ℝ} (hsound : NLPSound solver) (hglob : NLPGlobal solver) (hcomp : NLPComplete solver) :
    ∃ v, (discreteASIF solver stepNext (tieObj false) (.array 0) 1 [0]).1 = .ok v ∧ flip [-1] v ≠ v := by
  have hadm : ∀ a : ℝ, AdmissibleDS stepNext (tieObj false) 0 1 [a] [] ↔ 1 ≤ a * a ∧ -2 ≤ a ∧ a ≤ 2 := by
    intro a
    constructor
    · intro h
      obtain ⟨al, hal, hle⟩ := h.barrier (tieAway, 0) (by simp [tieObj, assignSlack, tieAway, Constraint.mk']) rfl
      obtain ⟨h1, h2⟩ := h.bounds 0 a rfl
      refine ⟨?_, h1 _ rfl, h2 _ rfl⟩
      simp [tieAway, Constraint.mk'] at hal
      subst hal
      simp [tieAway, Constraint.mk', hval, stepNext] at hle
      nlinarith [abs_mul_abs_self a]
    · rintro ⟨h1, h2, h3⟩
      refine ⟨rfl, rfl, ?_, ?_⟩
      · intro i c hc
        rcases i with _ | i
        · simp at hc
          subst hc
          constructor <;> intro b hb <;> simp [tieObj, Base.init, boundAt] at hb <;> subst hb <;> assumption
        · simp at hc
      · intro cd hcd _
        simp [tieObj, assignSlack, tieAway, tieTrivial, Constraint.mk'] at hcd
        rcases hcd with rfl | rfl
        · exact ⟨id, rfl, by simp [hval, stepNext]; nlinarith [abs_mul_abs_self a, abs_nonneg a]⟩
        · exact ⟨id, rfl, by simp [hval]⟩
  obtain ⟨v, hv, hav, -⟩ := disc_total hsound hglob hcomp (tie_inv false) (by simp [tieObj, slackScales, tieAway, tieTrivial, Constraint.mk']) rfl
    (lo := some (-2)) (hi := some 2) rfl rfl (by simp [tieObj, tieAway, tieTrivial, Constraint.mk']) (x := 0) (dt := 1) (next := stepNext) one_pos
    (u := [0]) (w := [1]) rfl ((hadm 1).2 ⟨by norm_num, by norm_num, by norm_num⟩) (fun c hc => by
      obtain ⟨a, rfl⟩ := List.length_eq_one_iff.1 hc.len
      have := ((hadm a).1 hc).1
      simp only [sqDist, sqNorm, vsub, dot, List.zipWith_cons_cons, List.zipWith_nil_left, List.foldr]
      nlinarith)
  refine ⟨v, hv, fun hf => ?_⟩
  obtain ⟨a, rfl⟩ := List.length_eq_one_iff.1 hav.len
  have h1 := ((hadm a).1 hav).1
  have h2 : -a = a := by simpa [flip] using hf
  have h3 : a = 0 := by linarith
  rw [h3] at h1
  norm_num at h1

end RTA
