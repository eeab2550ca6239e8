import Verif.Lemmas.BoundsChange
import Verif.Props.ASIF
import Verif.Props.Discrete

/-!
C88: control bounds that the user changes after construction.

A simplex module with changed bounds is the module that would have been constructed with them. An optimisation based module solves
the problem with the bounds of its construction and clips the solution to the new ones.
-/
set_option linter.unusedSectionVars false
namespace RTA
variable {K S P X A : Type}

section
variable [Field K] [LinearOrder K] [IsStrictOrderedRing K] [HasSqrt K]

/-! ### The returned control respects the new bounds -/

/-- **C88, new bounds are respected (explicit optimisation).** -/
theorem C88_respected_asif {solver : Solver K} {f : S → List K} {g : S → List (List K)} {s s' : ASIFObj K S P X}
    {high low : Option (Bound K)} (hcons : BoundsConsistent low high) (hen : s.enable = true) {x : S} {dt : K} {u v : List K}
    (h : explicitASIF solver f g (s.withBounds high low) (.array x) dt u = (.ok v, s')) : Within low high v := by
  have h1 := call_withBounds (ignores_asif (P := P) (X := X) solver f g) hen high low x dt u
  have hv : (filterControlCB getStateDefault (asifFilter solver (explicitGenRows f g)) (s.withBounds high low) (.array x) dt u).1 =
    .ok v := congrArg Prod.fst h
  rw [hv] at h1
  rcases hw : (asifFilter solver (explicitGenRows f g) (prep s x u) x dt u).1 with e | w
  · rw [hw] at h1; simp at h1
  · rw [hw] at h1
    exact clip_within (Base.init high low) w v hcons h1.symm

/-- **C88, new bounds are respected (discrete optimisation).** -/
theorem C88_respected_discrete {solver : NLPSolver K} {next : S → K → List K → S} {s s' : DiscObj K S P}
    {high low : Option (Bound K)} (hcons : BoundsConsistent low high) (hen : s.enable = true) {x : S} {dt : K} {u v : List K}
    (h : discreteASIF solver next (s.withBounds high low) (.array x) dt u = (.ok v, s')) : Within low high v := by
  have h1 := call_withBounds (ignores_disc (P := P) solver next) hen high low x dt u
  have hv : (filterControlCB getStateDefault (discFilter solver next) (s.withBounds high low) (.array x) dt u).1 = .ok v :=
    congrArg Prod.fst h
  rw [hv] at h1
  rcases hw : (discFilter solver next (prep s x u) x dt u).1 with e | w
  · rw [hw] at h1; simp at h1
  · rw [hw] at h1
    exact clip_within (Base.init high low) w v hcons h1.symm

/-- **C88, simplex modules.** Assigning new bounds gives the module that would have been constructed with them. -/
theorem C88_simplex {high low : Option (Bound K)} {all : Dict (Constraint K S P)} {use : Option (List String)}
    {latchTime window : K} {ctrl : BackupController K S A} {s : SimplexObj K S P A}
    (h : simplexInit high low all use latchTime window ctrl = .ok s) (high' low' : Option (Bound K)) :
    simplexInit high' low' all use latchTime window ctrl = .ok (CBObj.withBounds s high' low') := by
  unfold simplexInit CBObj.init at h ⊢
  rcases hsel : selectConstraints all use with e | cs
  · rw [hsel] at h; simp at h
  · rw [hsel] at h
    simp only [Except.ok.injEq] at h
    subst h
    rfl

/-! ### Optimisation based modules: what they do with new bounds -/

section
variable [LawfulSqrt K]

/-- **C88, explicit optimisation.** If some control satisfies all conditions with the bounds of the construction, the module with new
bounds returns the control it returned with the old ones, clipped to the new ones. -/
theorem C88_asif_clips {solver : Solver K} (hspec : SolverSpec solver) {f : S → List K} {g : S → List (List K)}
    {s s' : ASIFObj K S P X} (hs : ExplicitModule solver f g s) (hpos : ScalesPos s.constraints) (hen : s.enable = true) (x : S)
    (dt : K) (u v : List K) (h : explicitASIF solver f g s (.array x) dt u = (.ok v, s')) (hadm : ∃ w d, AdmissibleS f g s x w d)
    (high low : Option (Bound K)) :
    (explicitASIF solver f g (s.withBounds high low) (.array x) dt u).1 = clipTo high low v := by
  have h1 := call_withBounds (ignores_asif (P := P) (X := X) solver f g) hen high low x dt u
  rw [asif_raw hspec hs.inv.1 hs.inv.2 hpos hen h hadm] at h1
  exact h1

/-- **C88 for tighter bounds that the answer still respects.** If every control within the new bounds is within the old ones and the
answer with the old bounds is within the new ones, it is also the answer with the new bounds: the closest control that satisfies all
conditions and the new bounds. What is missing from C88 is shown to be false by `C88_refuted_tightened` and `C88_refuted_loosened`. -/
theorem C88_asif_tightened_partial {solver : Solver K} (hspec : SolverSpec solver) {f : S → List K} {g : S → List (List K)}
    {s s' : ASIFObj K S P X} (hs : ExplicitModule solver f g s) (hns : slackScales s.constraints = []) (hen : s.enable = true)
    (x : S) (dt : K) (u v : List K) (h : explicitASIF solver f g s (.array x) dt u = (.ok v, s'))
    (hadm : ∃ w, Admissible f g s x w) (high low : Option (Bound K))
    (htight : ∀ w, Within low high w → Within s.controlBoundsLow s.controlBoundsHigh w) (hv : Within low high v)
    (hfl : BoundFits s.ext.controlDim low) (hfh : BoundFits s.ext.controlDim high) :
    (explicitASIF solver f g (s.withBounds high low) (.array x) dt u).1 = .ok v ∧
      Admissible f g (s.withBounds high low) x v ∧
      ∀ w, Admissible f g (s.withBounds high low) x w → w ≠ v → sqDist v u < sqDist w u := by
  obtain ⟨hav, hmin⟩ := C24_closest_admissible hspec hs hns hen x dt u v h hadm
  have hpos : ScalesPos s.constraints := by intro w hw; rw [hns] at hw; simp at hw
  obtain ⟨w0, hw0⟩ := hadm
  have h1 := C88_asif_clips hspec hs hpos hen x dt u v h ⟨w0, [], (admissibleS_noslack hns).2 ⟨rfl, hw0⟩⟩ high low
  refine ⟨?_, ⟨hav.len, hv, hav.barrier, hav.direct⟩, fun w hw hne => hmin w ⟨hw.len, htight w hw.bounds, hw.barrier, hw.direct⟩ hne⟩
  rw [h1]
  exact C05_clip_identity (Base.init high low) v (by rw [hav.len]; exact hfl) (by rw [hav.len]; exact hfh) hv

end

/-- **C88, discrete optimisation.** The module with new bounds returns the control it returned with the old ones, clipped to the new
ones. -/
theorem C88_discrete_clips {solver : NLPSolver K} (hsound : NLPSound solver) {next : S → K → List K → S} {s s' : DiscObj K S P}
    (hinv : DiscInv s) (hen : s.enable = true) (hexc : s.ext.solverException = true) (x : S) (dt : K) (u v : List K)
    (h : discreteASIF solver next s (.array x) dt u = (.ok v, s')) (high low : Option (Bound K)) :
    (discreteASIF solver next (s.withBounds high low) (.array x) dt u).1 = clipTo high low v := by
  have h1 := call_withBounds (ignores_disc (P := P) solver next) hen high low x dt u
  have h0 := call_withBounds_self (ignores_disc (P := P) solver next) hen x dt u
  have hv : (filterControlCB getStateDefault (discFilter solver next) s (.array x) dt u).1 = .ok v := congrArg Prod.fst h
  rw [hv] at h0
  rcases hw : discFilter solver next (prep s x u) x dt u with ⟨e | w, t⟩
  · rw [hw] at h0; simp at h0
  · rw [hw] at h0 h1
    simp only at h0 h1
    obtain ⟨r1, r2, r3⟩ := disc_raw (s := prep s x u) hsound hexc hw
    have e1 : (prep s x u).ext.optLow = s.controlBoundsLow := hinv.low
    have e2 : (prep s x u).ext.optHigh = s.controlBoundsHigh := hinv.high
    rw [e1, e2] at r1
    rw [e1] at r2
    rw [e2] at r3
    have hc : clipTo s.controlBoundsHigh s.controlBoundsLow w = .ok w := C05_clip_identity s.toBase w r2 r3 r1
    rw [hc, Except.ok.injEq] at h0
    subst h0
    exact h1

end

/-- The hypotheses of `C88_asif_tightened_partial` and of `C88_asif_clips` hold for the module of `Props/ASIF` when its bounds ±2 are
replaced by ±3/2, at `x = 1` with desired control `-2`: `-1` is returned as before. -/
example : (explicitASIF refSolver toyF toyG ((toyObj none true).withBounds (some (.scalar (3 / 2))) (some (.scalar (-3 / 2))))
    (.array 1) (1 : ℝ) [-2]).1 = .ok [-1] := by
  have hadm : ∃ w, Admissible toyF toyG (toyObj none true) (1 : ℝ) w := ⟨[-1], (toy_admissible none true 1 [-1]).2 ⟨-1, rfl, by norm_num⟩⟩
  obtain ⟨v, s', h⟩ := toy_call true 1 1 (-2) hadm
  have hv := toy_result refSolver refSolver_spec true 1 v s' h
  subst hv
  refine (C88_asif_tightened_partial refSolver_spec (toy_module refSolver none true) (by simp [toyObj, slackScales, toyC]) rfl 1 1 [-2]
    [-1] h hadm (some (.scalar (3 / 2))) (some (.scalar (-3 / 2))) ?_ ?_ trivial trivial).1
  · intro w hw i a ha
    have h1 := (hw i a ha).1 (-3 / 2) rfl
    have h2 := (hw i a ha).2 (3 / 2) rfl
    constructor <;> intro b hb <;> simp only [toyObj, Base.init, boundAt, Option.some.injEq] at hb <;> subst hb <;> linarith
  · intro i a ha
    rcases i with _ | i
    · simp at ha; subst ha
      constructor <;> intro b hb <;> simp only [boundAt, Option.some.injEq] at hb <;> subst hb <;> norm_num
    · simp at ha

/-- The hypotheses of `C88_discrete_clips`: the module of `Props/Discrete` with the upper bound lowered to `-5/4` returns the old answer
`-1`, clipped. -/
example : (discreteASIF refNLP stepNext ((stepObj true).withBounds (some (.scalar (-5 / 4))) (some (.scalar (-2)))) (.array 1) (1 / 2)
    [-2]).1 = .ok [-5 / 4] := by
  rw [C88_discrete_clips refNLP_sound (step_inv true) rfl rfl 1 (1 / 2) [-2] [-1] (Prod.ext step_call rfl)]
  have : clipTo (some (.scalar (-5 / 4 : ℝ))) (some (.scalar (-2))) [-1] = .ok [min (max (-1) (-2)) (-5 / 4)] := rfl
  rw [this]
  norm_num

/-! ### Counterexamples -/

/-- **C88 is false for looser bounds.** The module of `Props/ASIF` is constructed with bounds ±2. After the bounds are set to ±10 the
desired control `5` satisfies everything at `x = 1`, but `2` is returned, whatever the solver. -/
theorem C88_refuted_loosened (solver : Solver ℝ) (hspec : SolverSpec solver) (dt : ℝ) :
    Admissible toyF toyG ((toyObj none true).withBounds (some (.scalar 10)) (some (.scalar (-10)))) (1 : ℝ) [5] ∧
    (explicitASIF solver toyF toyG ((toyObj none true).withBounds (some (.scalar 10)) (some (.scalar (-10)))) (.array 1) dt [5]).1 =
      .ok [2] := by
  have hin : ∀ u : ℝ, -10 ≤ u → u ≤ 10 → Within (some (.scalar (-10))) (some (.scalar 10)) [u] := by
    intro u h1 h2 i v hv
    rcases i with _ | i
    · simp only [List.getElem?_cons_zero, Option.some.injEq] at hv
      subst hv
      refine ⟨fun b hb => ?_, fun b hb => ?_⟩
      · simp only [boundAt, Option.some.injEq] at hb; rw [← hb]; exact h1
      · simp only [boundAt, Option.some.injEq] at hb; rw [← hb]; exact h2
    · simp at hv
  refine ⟨⟨rfl, hin 5 (by norm_num) (by norm_num), ?_, by simp [toyObj, CBObj.withBounds]⟩, ?_⟩
  · intro kc hkc _
    have : kc = ("c", toyC none) := by simpa [toyObj, CBObj.withBounds] using hkc
    subst this
    exact (toy_barrier none 1 5 0).2 (by norm_num)
  · have h2 : Admissible toyF toyG (toyObj none true) (1 : ℝ) [2] := (toy_admissible none true 1 [2]).2 ⟨2, rfl, by norm_num⟩
    obtain ⟨v, hv⟩ := C24_returns hspec (toy_module solver none true) (toy_pos_none true) rfl 1 (toy_shapes none true 1) dt [5] rfl
      ⟨_, _, admissible_iff_zeros.1 h2⟩
    have hcall : explicitASIF solver toyF toyG (toyObj none true) (.array 1) dt [5] =
      (.ok v, (explicitASIF solver toyF toyG (toyObj none true) (.array 1) dt [5]).2) := Prod.ext hv rfl
    obtain ⟨hav, hmin⟩ := C24_closest_admissible hspec (toy_module solver none true) (by simp [toyObj, slackScales, toyC]) rfl 1 dt [5] v
      hcall ⟨_, h2⟩
    obtain ⟨w, rfl, hw, hb⟩ := (toy_admissible none true 1 v).1 hav
    have hw2 : w = 2 := by
      by_contra hne
      have := hmin [2] h2 (by simpa using fun e => hne e.symm)
      simp only [sqDist, vsub, sqNorm, List.zipWith_cons_cons, List.zipWith_nil_right, dot_cons, dot_nil_left] at this
      nlinarith
    subst hw2
    rw [C88_asif_clips hspec (toy_module solver none true) (toy_pos_none true) rfl 1 dt [5] [2] hcall
      ⟨_, _, admissible_iff_zeros.1 h2⟩]
    exact C05_clip_identity (Base.init (some (.scalar 10)) (some (.scalar (-10)))) [2] trivial trivial
      (hin 2 (by norm_num) (by norm_num))

/-! Two controls in ±2, `dx/dt = u1 + u2`, constraint `x >= 0` with the identity as strengthener. -/

noncomputable def duoG : ℝ → List (List ℝ) := fun _ => [[1, 1]]

/-- The constructed module. -/
noncomputable def duoInit : Except PyErr (ASIFObj ℝ ℝ Unit Unit) :=
  asifInit (some (.scalar 2)) (some (.scalar (-2))) [("c", toyC none)] none (1 / 10000) 2 true [] ()

noncomputable def duoObj : ASIFObj ℝ ℝ Unit Unit :=
  { toBase := Base.init (some (.scalar 2)) (some (.scalar (-2)))
    constraints := [("c", toyC none)], params := [("c", ())], constraintEnabled := [("c", true)], constraintValues := []
    isStaleConstraints := false
    ext := { epsilon := 1 / 10000, controlDim := 2, solverException := true, numSlack := 0, objWeight := [1, 1]
             constraintNames := ["u1_min", "u2_min", "u1_max", "u2_max", "c"]
             actuation := [⟨[1, 0], -2⟩, ⟨[0, 1], -2⟩, ⟨[-1, -0], -2⟩, ⟨[-0, -1], -2⟩]
             direct := [], directParams := [], directEnabled := [], causing := none, extra := () } }

theorem duo_init : duoInit = .ok duoObj := by
  unfold duoInit asifInit
  rfl

theorem duo_module (solver : Solver ℝ) : ExplicitModule solver toyF duoG duoObj :=
  ⟨_, _, _, _, _, _, _, _, _, _, [], by simp [dictKeys], by simp [dictKeys], duo_init, rfl⟩

theorem duo_shapes (x : ℝ) : ShapesOK toyF duoG duoObj x :=
  ⟨by simp [duoObj, toyC], by simp [duoObj, toyC, toyF], rfl, by simp [duoG, duoObj], by simp [duoObj]⟩

theorem duo_barrier (a b d : ℝ) : BarrierOK toyF duoG (toyC none) 1 [a, b] d ↔ d ≤ a + b + 1 := by
  have e : barrierValue toyF duoG (toyC none) 1 [a, b] = some (a + b + 1) := by
    have := toy_strength none 1
    rw [if_pos (by norm_num)] at this
    simp [barrierValue, toyC, toyF, duoG, matVec, vadd, dot] at this ⊢
    linarith
  unfold BarrierOK
  rw [e]
  simp

theorem within_two {lo hi : Option (Bound ℝ)} {a b : ℝ} : Within lo hi [a, b] ↔ WithinAt lo hi 0 a ∧ WithinAt lo hi 1 b := by
  constructor
  · intro h; exact ⟨h 0 a rfl, h 1 b rfl⟩
  · rintro ⟨h0, h1⟩ i v hv
    rcases i with _ | _ | i
    · simp at hv; subst hv; exact h0
    · simp at hv; subst hv; exact h1
    · simp at hv

/-- **C88 is false for tighter bounds.** After the upper bound of the first control is lowered to `-3/4`, the control `(-3/4, -1/4)`
satisfies everything at `x = 1`; for the desired control `(-1, -1)` the module returns `(-3/4, -1/2)` instead, which violates the
constraint, whatever the solver and without raising, although it was constructed with `solver_exception=True`. -/
theorem C88_refuted_tightened (solver : Solver ℝ) (hspec : SolverSpec solver) (dt : ℝ) :
    let s := duoObj.withBounds (some (.arr false [-3 / 4, 2])) (some (.scalar (-2)))
    Admissible toyF duoG s (1 : ℝ) [-3 / 4, -1 / 4] ∧
    (explicitASIF solver toyF duoG s (.array 1) dt [-1, -1]).1 = .ok [-3 / 4, -1 / 2] ∧
    ¬ BarrierOK toyF duoG (toyC none) 1 [-3 / 4, -1 / 2] 0 := by
  intro s
  have hbar : ∀ (t : ASIFObj ℝ ℝ Unit Unit), t.constraints = [("c", toyC none)] → ∀ a b : ℝ, -1 ≤ a + b →
      ∀ kc ∈ t.constraints, kc.2.enabled = true → BarrierOK toyF duoG kc.2 1 [a, b] 0 := by
    intro t ht a b hab kc hkc _
    have : kc = ("c", toyC none) := by simpa [ht] using hkc
    subst this
    exact (duo_barrier a b 0).2 (by linarith)
  refine ⟨⟨rfl, ?_, hbar s rfl _ _ (by norm_num), by simp [s, duoObj, CBObj.withBounds]⟩, ?_, ?_⟩
  · refine within_two.2 ⟨⟨fun b hb => ?_, fun b hb => ?_⟩, ⟨fun b hb => ?_, fun b hb => ?_⟩⟩ <;>
      simp [s, CBObj.withBounds, boundAt] at hb <;> subst hb <;> norm_num
  · have h2 : Admissible toyF duoG duoObj (1 : ℝ) [-1 / 2, -1 / 2] := by
      refine ⟨rfl, ?_, hbar duoObj rfl _ _ (by norm_num), by simp [duoObj]⟩
      refine within_two.2 ⟨⟨fun b hb => ?_, fun b hb => ?_⟩, ⟨fun b hb => ?_, fun b hb => ?_⟩⟩ <;>
        simp [duoObj, Base.init, boundAt] at hb <;> subst hb <;> norm_num
    have hpos : ScalesPos duoObj.constraints := by intro q hq; simp [duoObj, slackScales, toyC] at hq
    obtain ⟨v, hv⟩ := C24_returns hspec (duo_module solver) hpos rfl 1 (duo_shapes 1) dt [-1, -1] rfl
      ⟨_, _, admissible_iff_zeros.1 h2⟩
    have hcall : explicitASIF solver toyF duoG duoObj (.array 1) dt [-1, -1] =
      (.ok v, (explicitASIF solver toyF duoG duoObj (.array 1) dt [-1, -1]).2) := Prod.ext hv rfl
    obtain ⟨hav, hmin⟩ := C24_closest_admissible hspec (duo_module solver) (by simp [duoObj, slackScales, toyC]) rfl 1 dt [-1, -1] v
      hcall ⟨_, h2⟩
    have hv2 : v = [-1 / 2, -1 / 2] := by
      by_contra hne
      have hlt := hmin [-1 / 2, -1 / 2] h2 (fun e => hne e.symm)
      obtain ⟨a, b, rfl⟩ := List.length_eq_two.1 (show v.length = 2 from hav.len)
      have hb := (duo_barrier a b 0).1 (hav.barrier ("c", toyC none) (by simp [duoObj]) rfl)
      simp only [sqDist, vsub, sqNorm, List.zipWith_cons_cons, List.zipWith_nil_right, dot_cons, dot_nil_left] at hlt
      nlinarith [sq_nonneg (a - b), sq_nonneg (a + b + 1)]
    subst hv2
    rw [C88_asif_clips hspec (duo_module solver) hpos rfl 1 dt [-1, -1] _ hcall ⟨_, _, admissible_iff_zeros.1 h2⟩]
    have e : clipTo (some (.arr false [-3 / 4, 2])) (some (.scalar (-2))) [-1 / 2, -1 / 2] =
        .ok [min (max (-1 / 2 : ℝ) (-2)) (-3 / 4), min (max (-1 / 2) (-2)) 2] := rfl
    rw [e]
    norm_num
  · rw [duo_barrier]
    norm_num

/-- **C88 is false for discrete modules and looser bounds.** The module of `Props/Discrete` is constructed with bounds ±2. After the
bounds are set to ±10 every control it returns is still at most 2, although the desired control `5` is admissible at `x = 3`. -/
theorem C88_refuted_discrete (solver : NLPSolver ℝ) (hsound : NLPSound solver) :
    AdmissibleDS stepNext ((stepObj true).withBounds (some (.scalar 10)) (some (.scalar (-10)))) 3 (1 / 2) [5] [] ∧
    ∀ v s', discreteASIF solver stepNext ((stepObj true).withBounds (some (.scalar 10)) (some (.scalar (-10)))) (.array 3) (1 / 2)
      [5] = (.ok v, s') → v ≠ [5] := by
  constructor
  · refine ⟨rfl, rfl, ?_, ?_⟩
    · intro i v hv
      rcases i with _ | i
      · simp at hv; subst hv
        constructor <;> intro b hb <;> simp [CBObj.withBounds, boundAt] at hb <;> subst hb <;> norm_num
      · simp at hv
    · intro cd hcd hen
      have : cd = (stepC true, 0) ∨ cd = (stepC false, 0) := by
        simpa [stepObj, CBObj.withBounds, assignSlack, stepC] using hcd
      rcases this with rfl | rfl
      · exact ⟨id, rfl, by simp [hval, stepC, stepNext]; norm_num⟩
      · simp [stepC] at hen
  · rintro v s' h rfl
    have h1 := call_withBounds (ignores_disc (P := Unit) solver stepNext) (s := stepObj true) rfl (some (.scalar 10))
      (some (.scalar (-10))) 3 (1 / 2) [5]
    have hv : (filterControlCB getStateDefault (discFilter solver stepNext) ((stepObj true).withBounds (some (.scalar 10))
      (some (.scalar (-10)))) (.array 3) (1 / 2) [5]).1 = .ok [5] := congrArg Prod.fst h
    rw [hv] at h1
    rcases hw : discFilter solver stepNext (prep (stepObj true) 3 [5]) 3 (1 / 2) [5] with ⟨e | w, t⟩
    · rw [hw] at h1; simp at h1
    · rw [hw] at h1
      simp only at h1
      obtain ⟨r1, -, -⟩ := disc_raw (s := prep (stepObj true) 3 [5]) hsound rfl hw
      have hc : clipTo (some (.scalar 10)) (some (.scalar (-10))) w = .ok [5] := h1.symm
      have hin : Within (some (.scalar (-10))) (some (.scalar 10)) w := by
        intro i a ha
        have h2 := (r1 i a ha).2 2 rfl
        have h3 := (r1 i a ha).1 (-2) rfl
        constructor <;> intro b hb <;> simp only [boundAt, Option.some.injEq] at hb <;> subst hb <;> linarith
      have hid : clipTo (some (.scalar 10)) (some (.scalar (-10))) w = .ok w :=
        C05_clip_identity (Base.init (some (.scalar 10)) (some (.scalar (-10)))) w trivial trivial hin
      rw [hid, Except.ok.injEq] at hc
      subst hc
      have := (r1 0 5 rfl).2 2 rfl
      norm_num at this

end RTA
