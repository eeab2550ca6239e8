import Verif.Lemmas.ToleranceDiscrete
import Verif.Props.Discrete
import Verif.Props.Tolerance

/-!
C102, discrete modules: with a solver that meets inequalities up to `ε` and bounds up to `η` and minimises up to `δ`, the
guarantees of discrete ASIF modules hold up to correspondingly small errors.
-/
set_option linter.unusedSectionVars false
namespace RTA
variable {K S P : Type}

section
variable [Field K] [LinearOrder K] [IsStrictOrderedRing K]

/-! ### The contract -/

/-- A solver that satisfies its constraints exactly and finds global minima meets the contracts for all tolerances. -/
theorem C102_discrete_exact {solver : NLPSolver K} {ε η δ : K} (hε : 0 ≤ ε) (hη : 0 ≤ η) (hδ : 0 ≤ δ) :
    (NLPSound solver → NLPTol ε η solver) ∧ (NLPGlobal solver → NLPNear δ solver) := by
  refine ⟨fun h obj x0 fs bounds hx hs => ?_, fun h obj x0 fs bounds hx hs z hz => (h obj x0 fs bounds hx hs z hz).trans (by linarith)⟩
  have hf := h obj x0 fs bounds hx hs
  refine ⟨hf.len, fun i l u hb v hv => ?_, fun i l u hb v hv => ?_, fun f hf' => ?_⟩
  · have := hf.low i l u hb v hv
    linarith
  · have := hf.high i l u hb v hv
    linarith
  · have := hf.ineq f hf'
    linarith

/-- A contract without tolerances is the exact contract. -/
theorem C102_discrete_zero {solver : NLPSolver K} : (NLPTol 0 0 solver ↔ NLPSound solver) ∧ (NLPNear 0 solver ↔ NLPGlobal solver) := by
  refine ⟨⟨fun h obj x0 fs bounds hx hs => ?_, (C102_discrete_exact le_rfl le_rfl le_rfl).1⟩, ?_⟩
  · obtain ⟨h1, h2, h3, h4⟩ := h obj x0 fs bounds hx hs
    exact ⟨h1, by simpa using h2, by simpa using h3, by simpa using h4⟩
  · unfold NLPNear NLPGlobal
    simp only [add_zero]

/-- A solver that works with relaxed inequalities meets the contracts: it is not exact where an inequality is tight. -/
theorem C102_discrete_relaxed {solver : NLPSolver K} (hsound : NLPSound solver) (hglob : NLPGlobal solver) {ε η δ : K} (hε : 0 ≤ ε)
    (hη : 0 ≤ η) (hδ : 0 ≤ δ) : NLPTol ε η (relaxedNLP ε solver) ∧ NLPNear δ (relaxedNLP ε solver) := by
  refine ⟨fun obj x0 fs bounds hx hs => ?_, fun obj x0 fs bounds hx hs z hz => ?_⟩
  · have hf := hsound obj x0 _ bounds hx hs
    refine ⟨hf.len, fun i l u hb v hv => ?_, fun i l u hb v hv => ?_, fun f hf' => ?_⟩
    · have := hf.low i l u hb v hv
      linarith
    · have := hf.high i l u hb v hv
      linarith
    · have := hf.ineq _ (List.mem_map_of_mem hf')
      show -ε ≤ f (solver obj x0 (fs.map fun f z => f z + ε) bounds).x
      linarith
  · refine (hglob obj x0 _ bounds hx hs z ⟨hz.len, hz.low, hz.high, fun f hf => ?_⟩).trans (by linarith)
    obtain ⟨q, hq, rfl⟩ := List.mem_map.1 hf
    have := hz.ineq q hq
    simp only
    linarith

variable [HasSqrt K]

/-! ### One call -/

/-- **C102, discrete, conditions.** A control returned by a module that raises on failed solves respects its bounds exactly, and it
is within `η` per component of the control `w` the solver found (equal to it if `η = 0`), for which, with the solver's slack values,
`h(x⁺) ≥ h(x) - dt·alpha(h(x)) + dt·slack - dt·ε` for every enabled constraint. -/
theorem C102_discrete_conditions {ε η : K} (hη : 0 ≤ η) {solver : NLPSolver K} (htol : NLPTol ε η solver)
    {next : S → K → List K → S} {s s' : DiscObj K S P} {x : S} {dt : K} {u v : List K} (hinv : DiscInv s) (hen : s.enable = true)
    (hdt : 0 < dt) (hcons : BoundsConsistent s.controlBoundsLow s.controlBoundsHigh) (hexc : s.ext.solverException = true)
    (hcall : discreteASIF solver next s (.array x) dt u = (.ok v, s')) :
    Within s.controlBoundsLow s.controlBoundsHigh v ∧ v.length = s.ext.controlDim ∧ ∃ w d, w.length = v.length ∧
      d.length = (slackScales s.constraints).length ∧ (∀ i, |v.getD i 0 - w.getD i 0| ≤ η) ∧ (η = 0 → v = w) ∧
      ∀ cd ∈ assignSlack s.constraints d, cd.1.enabled = true → ∃ al, cd.1.alpha = some al ∧
        (cd.1.computeFn x cd.1.params + cd.1.bias) - dt * al (cd.1.computeFn x cd.1.params + cd.1.bias) + dt * cd.2 - dt * ε ≤
          cd.1.computeFn (next x dt w) cd.1.params + cd.1.bias := by
  obtain ⟨w, d, lo, hi, fs, hwl, hdl, hwb, hok, hclip, hlo, hhi, -⟩ := disc_tol htol hinv hen hdt hcall hexc
  have fl := fits_of_scalar _ _ w.length hlo
  have fh := fits_of_scalar _ _ w.length hhi
  obtain ⟨hvl, hnear⟩ := clipControl_near hη fl fh hwb hclip
  refine ⟨clip_within s.toBase w v hcons hclip, hvl.trans hwl, w, d, hvl.symm, hdl, hnear, fun h0 => ?_, fun cd hcd hce => ?_⟩
  · subst h0
    have := C05_clip_identity s.toBase w fl fh (by
      intro i a ha
      obtain ⟨h1, h2⟩ := hwb i a ha
      exact ⟨fun b hb => by simpa using h1 b hb, fun b hb => by simpa using h2 b hb⟩)
    rw [this] at hclip
    exact (Except.ok.inj hclip).symm
  · obtain ⟨al, hal, hle⟩ := hok cd hcd hce
    refine ⟨al, hal, ?_⟩
    unfold hval at hle
    linarith

/-- **C102, discrete, interference.** If the desired control satisfies the bounds and the conditions of all enabled constraints
without slack, a control returned by a module that raises on failed solves is within `√(2δ)` of it, and `intervening` is `False` if
`√(2δ)` does not exceed the module's threshold `epsilon`. -/
theorem C102_discrete_interference [LawfulSqrt K] {ε η δ : K} {solver : NLPSolver K} (htol : NLPTol ε η solver)
    (hnear : NLPNear δ solver) {next : S → K → List K → S} {s s' : DiscObj K S P} {x : S} {dt : K} {u v : List K} (hinv : DiscInv s)
    (hpos : ScalesPos s.constraints) (hen : s.enable = true) (hdt : 0 < dt) (hexc : s.ext.solverException = true)
    (hadm : AdmissibleDS next s x dt u (zeros (slackScales s.constraints).length))
    (hcall : discreteASIF solver next s (.array x) dt u = (.ok v, s')) :
    sqDist v u ≤ 2 * δ ∧ (0 ≤ s.ext.epsilon → 2 * δ ≤ s.ext.epsilon * s.ext.epsilon → s'.intervening = false) := by
  obtain ⟨w, d, lo, hi, fs, hwl, hdl, hwb, hok, hclip, hlo, hhi, hu, hint, hfs, hs, hx⟩ := disc_tol htol hinv hen hdt hcall hexc
  have hx0 : (u ++ zeros s.ext.numSlack).length =
      (List.replicate s.ext.controlDim (lo, hi) ++
        List.replicate s.ext.numSlack ((none, none) : Option K × Option K)).length := by simp [hu]
  have hfeas : NLPFeasible fs (List.replicate s.ext.controlDim (lo, hi) ++
      List.replicate s.ext.numSlack ((none, none) : Option K × Option K)) (u ++ zeros (slackScales s.constraints).length) := by
    have hb := (bounds_spec hlo hhi (k := s.ext.numSlack) (d := zeros (slackScales s.constraints).length) hadm.len).2 hadm.bounds
    refine ⟨by simp [hadm.len, hinv.slack], hb.1, hb.2, ?_⟩
    exact (enabledCbfs_spec hdt s.constraints 0 hfs (d := zeros (slackScales s.constraints).length) hadm.len).2 (by simpa using hadm.barrier)
  have hle := hnear _ _ fs _ hx0 hs _ hfeas
  rw [hx, C40_objective hinv hpos u w d hu hwl (hdl.trans hinv.slack.symm),
    C40_objective hinv hpos u u _ hu hu (by simp [hinv.slack])] at hle
  rw [slackCost_zeros, sqDist_self] at hle
  have h2 : sqDist w u ≤ 2 * δ := by
    have := slackSq_nonneg (W := slackScales s.constraints) hpos d
    unfold slackCost at hle
    linarith
  have h3 := clip_closer (fits_of_scalar _ _ w.length hlo) (fits_of_scalar _ _ w.length hhi) (hu.trans hwl.symm) hadm.bounds hclip
  refine ⟨h3.trans h2, fun he hd => ?_⟩
  rw [hint]
  exact monitor_close (hwl.trans hu.symm) h2 he hd

/-! ### The loop -/

/-- **C102, discrete, loop.** Let at every step the control be what a discrete ASIF module with a tolerant solver returns, let a change
of the control by at most `η` per component change the value of the constraint at the next state by at most `ω`, and
let a step of the strengthened recursion from `-ξ` or above end at `dt·ε + ω - ξ` or above. Then the value of an enabled constraint
without slack never falls below `-ξ`. -/
theorem C102_discrete_loop {ε η ω ξ : K} (hη : 0 ≤ η) {solver : NLPSolver K} (htol : NLPTol ε η solver)
    {next : S → K → List K → S} {k : String} {c : Constraint K S P} {al : K → K} (hce : c.enabled = true)
    (hcs : c.slackPriorityScale = none) (hal : c.alpha = some al) {dts : Nat → K} (hdt : ∀ n, 0 < dts n) {xs : Nat → S}
    (hloop : ∀ n, ∃ (s s' : DiscObj K S P) (uDes v : List K), DiscInv s ∧ s.enable = true ∧ s.ext.solverException = true ∧
      BoundsConsistent s.controlBoundsLow s.controlBoundsHigh ∧ (k, c) ∈ s.constraints ∧
      discreteASIF solver next s (.array (xs n)) (dts n) uDes = (.ok v, s') ∧ xs (n + 1) = next (xs n) (dts n) v)
    (hmod : ∀ n v w, v.length = w.length → (∀ i, |v.getD i 0 - w.getD i 0| ≤ η) →
      c.computeFn (next (xs n) (dts n) w) c.params - ω ≤ c.computeFn (next (xs n) (dts n) v) c.params)
    (hstep : ∀ n y, -ξ ≤ y → dts n * ε + ω - ξ ≤ y - dts n * al y) (h0 : -ξ ≤ c.computeFn (xs 0) c.params + c.bias) :
    ∀ n, -ξ ≤ c.computeFn (xs n) c.params + c.bias := by
  intro n
  induction n with
  | zero => exact h0
  | succ n ih =>
    obtain ⟨s, s', uDes, v, hinv, hen, hexc, hcons, hmem, hcall, hx⟩ := hloop n
    obtain ⟨-, -, w, d, hwl, -, hnear, -, hok⟩ := C102_discrete_conditions hη htol hinv hen (hdt n) hcons hexc hcall
    obtain ⟨al', hal', hle⟩ := hok (c, 0) (mem_assignSlack_none hmem hcs d) hce
    rw [hal] at hal'
    simp only [Option.some.injEq] at hal'
    subst hal'
    have h1 := hstep n _ ih
    have h2 := hmod n v w hwl.symm hnear
    rw [hx]
    simp only at hle
    linarith

/-- **C102, discrete, linear strengtheners.** With slope `a > 0` and `dt a ≤ 1` the tolerances cost `ξ` with `dt ε + ω ≤ dt a ξ`; a
`bias` of at most `-ξ` makes up for it. If the solver respects bounds exactly (`η = 0`), `ε / a` is enough. -/
theorem C102_discrete_linear {ε η ω ξ a dt : K} (hη : 0 ≤ η) {solver : NLPSolver K} (htol : NLPTol ε η solver)
    {next : S → K → List K → S} {k : String} {c : Constraint K S P} (hce : c.enabled = true)
    (hcs : c.slackPriorityScale = none) (hal : c.alpha = some fun y => a * y) (hdt : 0 < dt) (hda : dt * a ≤ 1) {xs : Nat → S}
    (hloop : ∀ n, ∃ (s s' : DiscObj K S P) (uDes v : List K), DiscInv s ∧ s.enable = true ∧ s.ext.solverException = true ∧
      BoundsConsistent s.controlBoundsLow s.controlBoundsHigh ∧ (k, c) ∈ s.constraints ∧
      discreteASIF solver next s (.array (xs n)) dt uDes = (.ok v, s') ∧ xs (n + 1) = next (xs n) dt v)
    (hmod : ∀ n v w, v.length = w.length → (∀ i, |v.getD i 0 - w.getD i 0| ≤ η) →
      c.computeFn (next (xs n) dt w) c.params - ω ≤ c.computeFn (next (xs n) dt v) c.params)
    (hsize : dt * ε + ω ≤ dt * a * ξ) (h0 : -ξ ≤ c.computeFn (xs 0) c.params + c.bias) :
    (∀ n, -ξ ≤ c.computeFn (xs n) c.params + c.bias) ∧ (ξ ≤ -c.bias → ∀ n, 0 ≤ c.computeFn (xs n) c.params) := by
  have key := C102_discrete_loop hη htol (dts := fun _ => dt) hce hcs hal (fun _ => hdt) hloop hmod (fun _ y hy => ?_) h0
  · refine ⟨key, fun hb n => ?_⟩
    have := key n
    linarith
  · have := mul_le_mul_of_nonneg_left hy (show 0 ≤ 1 - dt * a by linarith)
    have e1 : y - dt * (a * y) = (1 - dt * a) * y := by ring
    rw [e1]
    linarith

end

/-! ### Concrete instances -/

/-- The module of `Props/Discrete.lean` with a solver that relaxes inequalities by `ε`: at `x` the desired control `-2` becomes
`-x - ε`, and the next state is `(x - ε) / 2` instead of `x / 2`. -/
theorem step_relaxed {x ε : ℝ} (h0 : -2 ≤ -x - ε) (h1 : -x - ε ≤ 2) :
    (discreteASIF (relaxedNLP ε refNLP) stepNext (stepObj true) (.array x) (1 / 2) [-2]).1 = .ok [-x - ε] := by
  have hp := C40_problem (relaxedNLP ε refNLP) stepNext (step_inv true) rfl (lo := some (-2)) (hi := some 2) rfl rfl
    (by simp [stepObj, stepC]) x (1 / 2) [-2] rfl
  rw [hp]
  simp only
  have hfeas : ∀ z : List ℝ, NLPFeasible ((discreteIneqs stepNext (stepObj true) x (1 / 2)).map fun f z => f z + ε)
      (List.replicate (stepObj true).ext.controlDim (some (-2 : ℝ), some (2 : ℝ)) ++
        List.replicate (stepObj true).ext.numSlack (none, none)) z ↔ ∃ a, z = [a] ∧ -x - ε ≤ a ∧ -2 ≤ a ∧ a ≤ 2 := by
    intro z
    have ef : discreteIneqs stepNext (stepObj true) x (1 / 2) = [fun z => (x + 1 / 2 * (z.take 1).getD 0 0 - x) / (1 / 2) + x] := by
      simp [discreteIneqs, numberSlack, stepObj, stepC, hval, stepNext]
    have eb : List.replicate (stepObj true).ext.controlDim (some (-2 : ℝ), some (2 : ℝ)) ++
        List.replicate (stepObj true).ext.numSlack (none, none) = [(some (-2), some 2)] := rfl
    rw [ef, eb, List.map_singleton]
    constructor
    · intro h
      obtain ⟨a, rfl⟩ := List.length_eq_one_iff.1 h.len
      have h1 := h.ineq _ List.mem_cons_self
      have h2 := h.high 0 _ _ rfl a rfl
      have h3 := h.low 0 _ _ rfl a rfl
      simp only [List.take_succ_cons, List.take_zero, List.getD_cons_zero] at h1
      exact ⟨a, rfl, by linarith, h3, h2⟩
    · rintro ⟨a, rfl, h1, h3, h2⟩
      refine ⟨rfl, ?_, ?_, ?_⟩
      · intro i l h hi v hv
        rcases i with _ | i
        · simp at hi hv; rw [← hi.1, ← hv]; linarith
        · simp at hi
      · intro i l h hi v hv
        rcases i with _ | i
        · simp at hi hv; rw [← hi.2, ← hv]; linarith
        · simp at hi
      · intro f hf
        simp only [List.mem_singleton] at hf
        subst hf
        simp only [List.take_succ_cons, List.take_zero, List.getD_cons_zero]
        linarith
  have hobj : ∀ a : ℝ, discObj (stepObj true).ext.objWeight ([-2] ++ zeros (stepObj true).ext.numSlack) [a] =
      a * a / 2 + 2 * a := by
    intro a
    simp [discObj, stepObj, dot]
  have hex : ∃ z, NLPFeasible ((discreteIneqs stepNext (stepObj true) x (1 / 2)).map fun f z => f z + ε)
      (List.replicate (stepObj true).ext.controlDim (some (-2 : ℝ), some (2 : ℝ)) ++
        List.replicate (stepObj true).ext.numSlack (none, none)) z ∧
      ∀ y, NLPFeasible ((discreteIneqs stepNext (stepObj true) x (1 / 2)).map fun f z => f z + ε)
        (List.replicate (stepObj true).ext.controlDim (some (-2 : ℝ), some (2 : ℝ)) ++
        List.replicate (stepObj true).ext.numSlack (none, none)) y →
        discObj (stepObj true).ext.objWeight ([-2] ++ zeros (stepObj true).ext.numSlack) z ≤
          discObj (stepObj true).ext.objWeight ([-2] ++ zeros (stepObj true).ext.numSlack) y := by
    refine ⟨[-x - ε], (hfeas _).2 ⟨_, rfl, le_rfl, h0, h1⟩, fun y hy => ?_⟩
    obtain ⟨a, rfl, h2, h3, -⟩ := (hfeas y).1 hy
    rw [hobj, hobj]
    nlinarith
  unfold relaxedNLP refNLP
  rw [dif_pos hex]
  obtain ⟨z, hz⟩ : ∃ z, z = hex.choose := ⟨_, rfl⟩
  have hspec := hex.choose_spec
  rw [← hz] at hspec ⊢
  obtain ⟨a, rfl, h2, h4, -⟩ := (hfeas z).1 hspec.1
  have h3 := hspec.2 [-x - ε] ((hfeas _).2 ⟨_, rfl, le_rfl, h0, h1⟩)
  rw [hobj, hobj] at h3
  have : a = -x - ε := by nlinarith
  subst this
  simp only [Bool.true_eq_false, false_and, if_false]
  exact C05_clip_identity (stepObj true).toBase _ trivial trivial (by
    intro i v hv
    rcases i with _ | i
    · simp [stepObj] at hv
      subst hv
      constructor <;> intro b hb <;> simp [stepObj, Base.init, boundAt] at hb <;> subst hb <;> linarith
    · simp [stepObj] at hv)

theorem step_consistent : BoundsConsistent (stepObj true).controlBoundsLow (stepObj true).controlBoundsHigh := by
  intro i l h hl hh
  simp [stepObj, Base.init, boundAt] at hl hh
  linarith

/-- **C102, discrete, the loss is real.** For every tolerance `ε` in `(0, 2]` some solver within it (exact in its bounds and with
objective no worse than the best) leads the loop from a state where the constraint just holds to a violation of `dt ε` in one step;
`bias_negative`, which makes up for solver tolerances in explicit modules, does not enter the conditions of discrete modules. -/
theorem C102_discrete_loss {ε : ℝ} (hε : 0 < ε) (h2 : ε ≤ 2) : ∃ solver : NLPSolver ℝ, NLPTol ε 0 solver ∧ NLPNear 0 solver ∧
    (∃ v s', discreteASIF solver stepNext (stepObj true) (.array 0) (1 / 2) [-2] = (.ok v, s') ∧
      (stepC true).computeFn 0 () + (stepC true).bias = 0 ∧
      (stepC true).computeFn (stepNext 0 (1 / 2) v) () + (stepC true).bias = -(1 / 2 * ε)) ∧
    ∀ (c : Constraint ℝ ℝ Unit) (b x dt d : ℝ) (u : List ℝ),
      DiscreteOK stepNext { c with biasNegative := b } x dt u d ↔ DiscreteOK stepNext c x dt u d := by
  obtain ⟨ht, hn⟩ := C102_discrete_relaxed refNLP_sound refNLP_global (ε := ε) (η := 0) (δ := 0) hε.le le_rfl le_rfl
  refine ⟨_, ht, hn, ⟨[-0 - ε], _, Prod.ext (step_relaxed (by linarith) (by linarith)) rfl, ?_, ?_⟩, fun _ _ _ _ _ _ => Iff.rfl⟩
  · simp [stepC]
  · simp [stepC, stepNext]

/-- C102 (conditions): at `x = 1` with tolerance `1/10` the answer is `-11/10`, which misses the exact condition. -/
example : ¬ (stepC true).computeFn 1 () - 1 / 2 * 1 ≤ stepNext 1 (1 / 2) [-1 - 1 / 10] ∧
    Within (stepObj true).controlBoundsLow (stepObj true).controlBoundsHigh [-1 - 1 / 10] := by
  refine ⟨by simp [stepC, stepNext]; norm_num, ?_⟩
  exact (C102_discrete_conditions le_rfl (C102_discrete_relaxed refNLP_sound refNLP_global (ε := 1 / 10) (η := 0) (δ := 0)
    (by norm_num) le_rfl le_rfl).1 (step_inv true) rfl (by norm_num) step_consistent rfl
    (Prod.ext (step_relaxed (by norm_num) (by norm_num)) rfl)).1

/-- C102 (interference): the desired control `1` is admissible at `x = 1`. -/
example (v : List ℝ) (s' : DiscObj ℝ ℝ Unit)
    (h : discreteASIF (relaxedNLP (1 / 10) refNLP) stepNext (stepObj true) (.array 1) (1 / 2) [1] = (.ok v, s')) :
    sqDist v [1] ≤ 2 * 0 := by
  obtain ⟨ht, hn⟩ := C102_discrete_relaxed refNLP_sound refNLP_global (ε := 1 / 10) (η := 0) (δ := 0) (by norm_num) le_rfl le_rfl
  refine (C102_discrete_interference ht hn (step_inv true) (by simp [ScalesPos, slackScales, stepObj, stepC]) rfl (by norm_num) rfl
    ⟨rfl, rfl, ?_, ?_⟩ h).1
  · intro i v hv
    rcases i with _ | i
    · simp at hv
      subst hv
      constructor <;> intro b hb <;> simp [stepObj, Base.init, boundAt] at hb <;> subst hb <;> norm_num
    · simp at hv
  · intro cd hcd hce
    have e : assignSlack (stepObj true).constraints (zeros (slackScales (stepObj true).constraints).length) =
        [(stepC true, 0), (stepC false, 0)] := by simp [assignSlack, stepObj, stepC]
    rw [e] at hcd
    simp only [List.mem_cons, List.not_mem_nil, or_false] at hcd
    rcases hcd with rfl | rfl
    · exact ⟨id, rfl, by simp [hval, stepC, stepNext]; norm_num⟩
    · simp [stepC] at hce

/-- C102 (loop): the states `x, (x - ε)/2, …` from `0` stay above `-ε`, whatever the solver within the tolerances. -/
example (solver : NLPSolver ℝ) (ht : NLPTol (1 / 10) 0 solver) (xs : Nat → ℝ) (h0 : xs 0 = 0)
    (hloop : ∀ n, ∃ s' uDes v, discreteASIF solver stepNext (stepObj true) (.array (xs n)) (1 / 2) uDes = (.ok v, s') ∧
      xs (n + 1) = stepNext (xs n) (1 / 2) v) : ∀ n, -(1 / 10) ≤ xs n := by
  have := (C102_discrete_linear (ω := 0) (ξ := 1 / 10) (a := 1) (dt := 1 / 2) le_rfl ht (next := stepNext) (k := "a") (c := stepC true) rfl rfl
    (by simp [stepC, Function.id_def]) (by norm_num) (by norm_num) (xs := xs) (fun n => ?_) (fun n v w hl h => ?_) (by norm_num) ?_).1
  · intro n
    have := this n
    simpa [stepC] using this
  · obtain ⟨s', uDes, v, hc, hx⟩ := hloop n
    exact ⟨stepObj true, s', uDes, v, step_inv true, rfl, rfl, step_consistent, by simp [stepObj], hc, hx⟩
  · have := h 0
    have e : v.getD 0 0 - w.getD 0 0 = 0 := by
      have := abs_nonneg (v.getD 0 0 - w.getD 0 0)
      exact abs_eq_zero.1 (le_antisymm (h 0) this)
    simp only [stepC, stepNext]
    linarith
  · simp [stepC, h0]

end RTA
