import Verif.Lemmas.Discrete
import Verif.Lemmas.QPExists
import Verif.Props.ClosedLoop
import Verif.Props.Base

/-!
Discrete-time ASIF modules: C39, C40 and the discrete part of C09.

`DiscInv s` holds for every constructed module (`discInv_init`) and is kept by every call (`disc_keeps`). The external
solver is a parameter; `refNLP` shows that the assumptions made about it can be met.
-/
set_option linter.unusedSectionVars false
namespace RTA
variable {K S P : Type}

section
variable [Field K] [LinearOrder K] [IsStrictOrderedRing K]

/-! ### C39 -/

/-- **C39, condition.** The function handed to the solver for a constraint is non-negative at a control followed by slack
values exactly when `h(x⁺) ≥ h(x) - dt·alpha(h(x)) + dt·slack`, `h` including its bias and `slack` the entry of the
constraint's slack index (zero for constraints without slack). -/
theorem C39_condition (c : Constraint K S P) (al : K → K) (next : S → K → List K → S) (n : Nat) (idx : Option Nat) (x : S)
    (dt : K) (hdt : 0 < dt) (u d : List K) (hu : u.length = n) :
    0 ≤ cbfFn c al next n idx x dt c.params (u ++ d) ↔
      (c.computeFn x c.params + c.bias) - dt * al (c.computeFn x c.params + c.bias) +
          dt * (match idx with | none => 0 | some i => d.getD i 0) ≤
        c.computeFn (next x dt u) c.params + c.bias :=
  cbf_iff hdt hu

/-- What a successful solve guarantees about the returned control. -/
theorem disc_solved [HasSqrt K] {solver : NLPSolver K} (hsound : NLPSound solver) {next : S → K → List K → S}
    {s s' : DiscObj K S P} {x : S} {dt : K} {u v : List K} (hinv : DiscInv s) (hen : s.enable = true) (hdt : 0 < dt)
    (h : discreteASIF solver next s (.array x) dt u = (.ok v, s')) (hexc : s.ext.solverException = true) :
    ∃ d lo hi fs, AdmissibleDS next s x dt v d ∧ scalarBound s.controlBoundsLow = .ok lo ∧
      scalarBound s.controlBoundsHigh = .ok hi ∧ u.length = s.ext.controlDim ∧
      enabledCbfs next s.ext.controlDim x dt 0 (s.constraints.map (·.2)) (s.constraints.map (·.2.params))
        (s.constraints.map (·.2.enabled)) = .ok fs ∧
      (solver (discObj s.ext.objWeight (u ++ zeros s.ext.numSlack)) (u ++ zeros s.ext.numSlack) fs
        (List.replicate s.ext.controlDim (lo, hi) ++ List.replicate s.ext.numSlack (none, none))).success = true ∧
      (solver (discObj s.ext.objWeight (u ++ zeros s.ext.numSlack)) (u ++ zeros s.ext.numSlack) fs
        (List.replicate s.ext.controlDim (lo, hi) ++ List.replicate s.ext.numSlack (none, none))).x = v ++ d := by
  obtain ⟨lo, hi, fs, res, hlo, hhi, hu, hfs, hres, hsucc, hclip, -⟩ := disc_ok hinv hen h
  have hs : res.success = true := by
    rcases hsucc with h | h
    · exact h
    · rw [hexc] at h; simp at h
  have hx0 : (u ++ zeros s.ext.numSlack).length =
      (List.replicate s.ext.controlDim (lo, hi) ++
        List.replicate s.ext.numSlack ((none, none) : Option K × Option K)).length := by simp [hu]
  have hf := hsound _ _ fs _ hx0 (by rw [← hres]; exact hs)
  rw [← hres] at hf
  have hlen : res.x.length = s.ext.controlDim + s.ext.numSlack := by rw [hf.len]; simp
  have htl : (res.x.take s.ext.controlDim).length = s.ext.controlDim := by rw [List.length_take, hlen]; omega
  have hz : res.x.take s.ext.controlDim ++ res.x.drop s.ext.controlDim = res.x := List.take_append_drop _ _
  have hw : Within s.controlBoundsLow s.controlBoundsHigh (res.x.take s.ext.controlDim) :=
    (bounds_spec hlo hhi (d := res.x.drop s.ext.controlDim) htl).1 (by rw [hz]; exact ⟨hf.low, hf.high⟩)
  have hfit : ∀ (b : Option (Bound K)) r n, scalarBound b = .ok r → BoundFits n b := by
    intro b r n hb
    rcases b with _ | ⟨b⟩ | ⟨j, l⟩
    · trivial
    · trivial
    · rcases l with _ | ⟨a, _ | ⟨a', l⟩⟩ <;> simp [scalarBound, BoundFits] at hb ⊢
  have hcl := C05_clip_identity s.toBase (res.x.take s.ext.controlDim) (hfit _ _ _ hlo) (hfit _ _ _ hhi) hw
  rw [hcl] at hclip
  simp only [Except.ok.injEq] at hclip
  refine ⟨res.x.drop s.ext.controlDim, lo, hi, fs, ?_, hlo, hhi, hu, hfs, by rw [← hres]; exact hs, by rw [← hres, ← hclip, hz]⟩
  rw [← hclip]
  refine ⟨htl, by rw [List.length_drop, hlen, hinv.slack]; omega, hw, ?_⟩
  have := (enabledCbfs_spec hdt s.constraints 0 hfs (d := res.x.drop s.ext.controlDim) htl).1 (by rw [hz]; exact hf.ineq)
  simpa using this

/-- A call of a discrete module keeps it constructed-like, with the same constraints, bounds and settings. -/
theorem disc_keeps [HasSqrt K] {solver : NLPSolver K} {next : S → K → List K → S} {s s' : DiscObj K S P} {x : S} {dt : K}
    {u v : List K} (hinv : DiscInv s) (hen : s.enable = true)
    (h : discreteASIF solver next s (.array x) dt u = (.ok v, s')) :
    DiscInv s' ∧ s'.enable = true ∧ s'.constraints = s.constraints ∧ s'.ext = s.ext ∧
      s'.controlBoundsLow = s.controlBoundsLow ∧ s'.controlBoundsHigh = s.controlBoundsHigh := by
  obtain ⟨lo, hi, fs, res, -, -, -, -, -, -, -, rfl⟩ := disc_ok hinv hen h
  have hw := wf_prep hinv.wf x u
  exact ⟨⟨⟨hw.nodup, hw.params, hw.enabled⟩, hinv.slack, hinv.weight, hinv.low, hinv.high⟩, hen, rfl, rfl, rfl, rfl⟩

theorem mem_assignSlack_none {k : String} {c : Constraint K S P} {cs : Dict (Constraint K S P)} (h : (k, c) ∈ cs)
    (hs : c.slackPriorityScale = none) (d : List K) : (c, 0) ∈ assignSlack cs d := by
  induction cs generalizing d with
  | nil => simp at h
  | cons kc cs ih =>
    obtain ⟨q, e⟩ := kc
    rcases List.mem_cons.1 h with h | h
    · obtain ⟨rfl, rfl⟩ := Prod.mk.injEq _ _ _ _ ▸ h
      simp [assignSlack, hs]
    · unfold assignSlack
      split <;> exact List.mem_cons_of_mem _ (ih h _)

/-- **C39, closed loop.** Let the solver satisfy its constraints whenever it reports success and let the module raise when
it does not. Then for every sequence of desired controls and step sizes with `dt·alpha(y) ≤ y` for `y ≥ 0`, every enabled
constraint without slack that holds initially holds at every step of the loop formed by the module and the plant it
predicts. -/
theorem C39_closed_loop [HasSqrt K] {solver : NLPSolver K} (hsound : NLPSound solver) (next : S → K → List K → S)
    (dts : Nat → K) (us : Nat → List K) (x0 : S) (s0 : DiscObj K S P) (hinv : DiscInv s0) (hen : s0.enable = true)
    (hexc : s0.ext.solverException = true) (hdt : ∀ n, 0 < dts n) {k : String} {c : Constraint K S P} {al : K → K}
    (hc : (k, c) ∈ s0.constraints) (hce : c.enabled = true) (hcs : c.slackPriorityScale = none) (hal : c.alpha = some al)
    (hk : ∀ n y, 0 ≤ y → dts n * al y ≤ y) (h0 : 0 ≤ c.computeFn x0 c.params + c.bias) (n : Nat) (x : S)
    (s : DiscObj K S P) (h : closedLoop (discreteASIF solver next) next dts us x0 s0 n = some (x, s)) :
    0 ≤ c.computeFn x c.params + c.bias := by
  refine (closedLoop_invariant (fun x (s : DiscObj K S P) => 0 ≤ hval c x ∧ DiscInv s ∧ s.enable = true ∧
      s.constraints = s0.constraints ∧ s.ext = s0.ext) ⟨h0, hinv, hen, rfl, rfl⟩ ?_ n x s h).1
  clear h n x s
  rintro n x s v s' ⟨hx, hi, he, hcons, hext⟩ hcall
  obtain ⟨hi', he', hcons', hext', -, -⟩ := disc_keeps hi he hcall
  refine ⟨?_, hi', he', hcons'.trans hcons, hext'.trans hext⟩
  obtain ⟨d, -, -, -, had, -⟩ := disc_solved hsound hi he (hdt n) hcall (by rw [hext]; exact hexc)
  obtain ⟨al', hal', hle⟩ := had.barrier (c, 0) (mem_assignSlack_none (by rw [hcons]; exact hc) hcs d) hce
  rw [hal] at hal'
  simp only [Option.some.injEq] at hal'
  subst hal'
  have := hk n _ hx
  simp only at hle
  linarith

/-! ### C40 -/

/-- **C40, objective.** The value `obj` of a control `v` with slack values `d` is half of `|v - u_des|² + Σ wᵢ dᵢ²`, `wᵢ` the
slack priority scales, minus a number that depends only on the desired control. -/
theorem C40_objective [HasSqrt K] [LawfulSqrt K] {s : DiscObj K S P} (hinv : DiscInv s)
    (hpos : ScalesPos s.constraints) (u v d : List K) (hu : u.length = s.ext.controlDim) (hv : v.length = s.ext.controlDim)
    (hd : d.length = s.ext.numSlack) :
    discObj s.ext.objWeight (u ++ zeros s.ext.numSlack) (v ++ d) =
      slackCost (slackScales s.constraints) u v d / 2 - sqNorm u / 2 := by
  rw [hinv.weight, ← hu, slackWeights_eq, hinv.slack]
  exact discObj_eq (hv.trans hu.symm) (fun w hw => (hpos w hw).le) (hd.trans hinv.slack)

/-- **C40, closest.** When the solver finds global minima, the control returned by a call that did not fail is admissible
together with some slack values, and no admissible pair is closer to the desired control. -/
theorem C40_closest_admissible [HasSqrt K] [LawfulSqrt K] {solver : NLPSolver K} (hsound : NLPSound solver)
    (hglob : NLPGlobal solver) {next : S → K → List K → S} {s s' : DiscObj K S P} {x : S} {dt : K} {u v : List K}
    (hinv : DiscInv s) (hpos : ScalesPos s.constraints) (hen : s.enable = true) (hdt : 0 < dt)
    (hexc : s.ext.solverException = true) (h : discreteASIF solver next s (.array x) dt u = (.ok v, s')) :
    ∃ d, AdmissibleDS next s x dt v d ∧
      ∀ w e, AdmissibleDS next s x dt w e →
        slackCost (slackScales s.constraints) u v d ≤ slackCost (slackScales s.constraints) u w e := by
  obtain ⟨d, lo, hi, fs, had, hlo, hhi, hu, hfs, hs, hx⟩ := disc_solved hsound hinv hen hdt h hexc
  refine ⟨d, had, fun w e hadm => ?_⟩
  have hx0 : (u ++ zeros s.ext.numSlack).length =
      (List.replicate s.ext.controlDim (lo, hi) ++
        List.replicate s.ext.numSlack ((none, none) : Option K × Option K)).length := by simp [hu]
  have hfeas : NLPFeasible fs (List.replicate s.ext.controlDim (lo, hi) ++
      List.replicate s.ext.numSlack ((none, none) : Option K × Option K)) (w ++ e) := by
    have hb := (bounds_spec hlo hhi (k := s.ext.numSlack) (d := e) hadm.len).2 hadm.bounds
    refine ⟨by simp [hadm.len, hadm.slen, hinv.slack], hb.1, hb.2, ?_⟩
    exact (enabledCbfs_spec hdt s.constraints 0 hfs (d := e) hadm.len).2 (by simpa using hadm.barrier)
  have hle := hglob _ _ fs _ hx0 hs _ hfeas
  rw [hx, C40_objective hinv hpos u v d hu had.len (had.slen.trans hinv.slack.symm),
    C40_objective hinv hpos u w e hu hadm.len (hadm.slen.trans hinv.slack.symm)] at hle
  linarith

/-- Slack indices: the constraints that ask for slack are numbered in order. -/
def numberSlack : Nat → Dict (Constraint K S P) → List (Constraint K S P × Option Nat)
  | _, [] => []
  | i, (_, c) :: cs =>
    if c.slackPriorityScale.isSome then (c, some i) :: numberSlack (i + 1) cs else (c, none) :: numberSlack i cs

/-- The inequalities of the documented optimisation problem: one per enabled constraint, with that constraint's own params. -/
def discreteIneqs (next : S → K → List K → S) (s : DiscObj K S P) (x : S) (dt : K) : List (List K → K) :=
  ((numberSlack 0 s.constraints).filter fun ci => ci.1.enabled).map fun ci z =>
    (hval ci.1 (next x dt (z.take s.ext.controlDim)) - hval ci.1 x) / dt + (ci.1.alpha.getD id) (hval ci.1 x) -
      match ci.2 with
      | none => 0
      | some i => z.getD (s.ext.controlDim + i) 0

theorem enabledCbfs_eq {next : S → K → List K → S} {n : Nat} {x : S} {dt : K} (cs : Dict (Constraint K S P)) (sc : Nat)
    (ha : ∀ kc ∈ cs, kc.2.enabled = true → kc.2.alpha.isSome = true) :
    enabledCbfs next n x dt sc (cs.map (·.2)) (cs.map (·.2.params)) (cs.map (·.2.enabled)) =
      .ok (((numberSlack sc cs).filter fun ci => ci.1.enabled).map fun ci z =>
        (hval ci.1 (next x dt (z.take n)) - hval ci.1 x) / dt + (ci.1.alpha.getD id) (hval ci.1 x) -
          match ci.2 with
          | none => 0
          | some i => z.getD (n + i) 0) := by
  induction cs generalizing sc with
  | nil => rfl
  | cons kc cs ih =>
    obtain ⟨q, c⟩ := kc
    have ih' := ih (if c.slackPriorityScale.isSome then sc + 1 else sc) (fun kc h => ha kc (by simp [h]))
    simp only [List.map_cons, enabledCbfs, ih']
    have hc := ha (q, c) (by simp)
    simp only at hc
    cases hen : c.enabled with
    | false => rcases hs : c.slackPriorityScale with _ | w <;> simp [numberSlack, hs, hen]
    | true =>
      obtain ⟨al, hal⟩ := Option.isSome_iff_exists.1 (hc hen)
      rcases hs : c.slackPriorityScale with _ | w
      · simp only [hal, numberSlack, hs, Option.isSome_none, Bool.false_eq_true, if_false, if_true, List.filter_cons, hen,
          List.map_cons, Option.getD_some, sub_zero]
        rfl
      · simp only [hal, numberSlack, hs, Option.isSome_some, if_true, List.filter_cons, hen, List.map_cons, Option.getD_some]
        rfl

/-- **C40, problem.** What every call of an enabled module does: it hands the solver the desired control extended by zero
slack as start point, the objective of `C40_objective`, exactly the inequalities of the enabled constraints (in order, each
evaluated with its own current params), the control bounds for every control component and no bounds for slack; it raises
`SolverError` when the solver fails and the module was told to, and otherwise returns the (clipped) solver output. -/
theorem C40_problem [HasSqrt K] (solver : NLPSolver K) (next : S → K → List K → S) {s : DiscObj K S P} (hinv : DiscInv s)
    (hen : s.enable = true) {lo hi : Option K} (hlo : scalarBound s.controlBoundsLow = .ok lo)
    (hhi : scalarBound s.controlBoundsHigh = .ok hi)
    (ha : ∀ kc ∈ s.constraints, kc.2.enabled = true → kc.2.alpha.isSome = true) (x : S) (dt : K) (u : List K)
    (hu : u.length = s.ext.controlDim) :
    (discreteASIF solver next s (.array x) dt u).1 =
      let res := solver (discObj s.ext.objWeight (u ++ zeros s.ext.numSlack)) (u ++ zeros s.ext.numSlack)
        (discreteIneqs next s x dt)
        (List.replicate s.ext.controlDim (lo, hi) ++ List.replicate s.ext.numSlack (none, none))
      if res.success = false ∧ s.ext.solverException = true then .error .solverError
      else s.toBase.clipControl (res.x.take s.ext.controlDim) := by
  unfold discreteASIF
  rw [call_eq _ hen]
  unfold discFilter
  have e1 : (prep s x u).controlBoundsLow = s.controlBoundsLow := rfl
  have e2 : (prep s x u).controlBoundsHigh = s.controlBoundsHigh := rfl
  have e3 : (prep s x u).ext = s.ext := rfl
  have e4 : (prep s x u).constraints = s.constraints := rfl
  have ep : (prep s x u).params.map (·.2) = s.constraints.map (·.2.params) := by
    have : (prep s x u).params = cacheParams s.constraints := by
      have := congrArg CBObj.params (updateParams_eq (wf_withDesired hinv.wf u)); exact this
    rw [this]; simp [cacheParams]
  have ee : (prep s x u).constraintEnabled.map (·.2) = s.constraints.map (·.2.enabled) := by
    have : (prep s x u).constraintEnabled = cacheEnabled s.constraints := by
      have := congrArg CBObj.constraintEnabled (updateParams_eq (wf_withDesired hinv.wf u)); exact this
    rw [this]; simp [cacheEnabled]
  have hl' : ¬ (u ++ zeros s.ext.numSlack : List K).length ≠ s.ext.controlDim + s.ext.numSlack := by simp [hu]
  simp only [e1, e2, e3, e4, ep, ee, hinv.low, hinv.high, hlo, hhi]
  rw [if_neg hl', enabledCbfs_eq s.constraints 0 ha]
  simp only
  obtain ⟨res, hres⟩ : ∃ res, res = solver (discObj s.ext.objWeight (u ++ zeros s.ext.numSlack)) (u ++ zeros s.ext.numSlack)
        (discreteIneqs next s x dt)
        (List.replicate s.ext.controlDim (lo, hi) ++ List.replicate s.ext.numSlack (none, none)) := ⟨_, rfl⟩
  have hres' := hres
  unfold discreteIneqs at hres'
  rw [← hres', ← hres]
  cases hs : res.success <;> cases hx : s.ext.solverException
  · simp only [Bool.false_eq_true, not_false_eq_true, and_false, if_false]
    rw [clip_eta s.toBase]
    rcases s.toBase.clipControl (res.x.take s.ext.controlDim) <;> rfl
  · simp
  · simp only [not_true_eq_false, false_and, if_false, Bool.true_eq_false]
    rw [clip_eta s.toBase]
    rcases s.toBase.clipControl (res.x.take s.ext.controlDim) <;> rfl
  · simp only [not_true_eq_false, false_and, if_false, Bool.true_eq_false]
    rw [clip_eta s.toBase]
    rcases s.toBase.clipControl (res.x.take s.ext.controlDim) <;> rfl

/-! ### C09, discrete modules -/

/-- **C09, admitted controls.** A control is admissible (with suitable slack values) for a module exactly when it is for the
module without the disabled constraints. -/
theorem C09_discrete_admitted_controls {next : S → K → List K → S} {s t : DiscObj K S P}
    (hlo : t.controlBoundsLow = s.controlBoundsLow) (hhi : t.controlBoundsHigh = s.controlBoundsHigh)
    (hdim : t.ext.controlDim = s.ext.controlDim) (hcs : t.constraints = s.constraints.filter fun kc => kc.2.enabled) (x : S)
    (dt : K) (u : List K) : (∃ d, AdmissibleDS next t x dt u d) ↔ ∃ d, AdmissibleDS next s x dt u d := by
  have hcs' : t.constraints = onlyEnabled s.constraints := hcs
  constructor
  · rintro ⟨d, h⟩
    refine ⟨embedSlack s.constraints d, by rw [← hdim]; exact h.len, embedSlack_length _ _,
      by rw [← hlo, ← hhi]; exact h.bounds, ?_⟩
    intro cd hcd hen
    have : cd ∈ (assignSlack s.constraints (embedSlack s.constraints d)).filter fun cd => cd.1.enabled :=
      List.mem_filter.2 ⟨hcd, hen⟩
    rw [assignSlack_embed, ← hcs'] at this
    exact h.barrier cd this hen
  · rintro ⟨d, h⟩
    refine ⟨projSlack s.constraints d, by rw [hdim]; exact h.len, by rw [hcs']; exact projSlack_length _ _,
      by rw [hlo, hhi]; exact h.bounds, ?_⟩
    intro cd hcd hen
    rw [hcs', assignSlack_proj] at hcd
    exact h.barrier cd (List.mem_filter.1 hcd).1 hen

theorem numberSlack_enabled (cs : Dict (Constraint K S P)) (i : Nat)
    (hs : ∀ kc ∈ cs, kc.2.enabled = false → kc.2.slackPriorityScale = none) :
    (numberSlack i (cs.filter fun kc => kc.2.enabled)).filter (fun ci => ci.1.enabled) =
      (numberSlack i cs).filter fun ci => ci.1.enabled := by
  induction cs generalizing i with
  | nil => rfl
  | cons kc cs ih =>
    obtain ⟨q, c⟩ := kc
    have ih' := fun i => ih i (fun kc h => hs kc (by simp [h]))
    have hc := hs (q, c) (by simp)
    simp only at hc
    cases he : c.enabled with
    | false => simp [numberSlack, he, hc he, ih']
    | true => rcases hsl : c.slackPriorityScale with _ | w <;> simp [numberSlack, he, hsl, ih']

theorem slackScales_enabled (cs : Dict (Constraint K S P))
    (hs : ∀ kc ∈ cs, kc.2.enabled = false → kc.2.slackPriorityScale = none) :
    slackScales (cs.filter fun kc => kc.2.enabled) = slackScales cs := by
  induction cs with
  | nil => rfl
  | cons kc cs ih =>
    obtain ⟨q, c⟩ := kc
    have ih' := ih (fun kc h => hs kc (by simp [h]))
    have hc := hs (q, c) (by simp)
    simp only at hc
    cases he : c.enabled with
    | false => simp [he, slackScales_cons, hc he, ih']
    | true => simp [he, slackScales_cons, ih']

/-- **C09, result.** When the disabled constraints use no slack, a module and the module without them answer every call
alike, whatever the solver does: the solver is handed the very same problem. -/
theorem C09_discrete_disabled_no_influence [HasSqrt K] (solver : NLPSolver K) (next : S → K → List K → S)
    {s t : DiscObj K S P} (hs : DiscInv s) (ht : DiscInv t) (hens : s.enable = true) (hent : t.enable = true)
    (hlo : t.controlBoundsLow = s.controlBoundsLow) (hhi : t.controlBoundsHigh = s.controlBoundsHigh)
    (hdim : t.ext.controlDim = s.ext.controlDim) (hexc : t.ext.solverException = s.ext.solverException)
    (hcs : t.constraints = s.constraints.filter fun kc => kc.2.enabled)
    (hsl : ∀ kc ∈ s.constraints, kc.2.enabled = false → kc.2.slackPriorityScale = none) {lo hi : Option K}
    (hl : scalarBound s.controlBoundsLow = .ok lo) (hh : scalarBound s.controlBoundsHigh = .ok hi)
    (ha : ∀ kc ∈ s.constraints, kc.2.enabled = true → kc.2.alpha.isSome = true) (x : S) (dt : K) (u : List K)
    (hu : u.length = s.ext.controlDim) :
    (discreteASIF solver next t (.array x) dt u).1 = (discreteASIF solver next s (.array x) dt u).1 := by
  rw [C40_problem solver next hs hens hl hh ha x dt u hu,
    C40_problem solver next ht hent (by rw [hlo]; exact hl) (by rw [hhi]; exact hh)
      (fun kc hkc => ha kc (by rw [hcs] at hkc; exact (List.mem_filter.1 hkc).1)) x dt u (by rw [hdim]; exact hu)]
  have e1 : discreteIneqs next t x dt = discreteIneqs next s x dt := by
    unfold discreteIneqs
    rw [hcs, numberSlack_enabled _ _ hsl, hdim]
  have e2 : t.ext.numSlack = s.ext.numSlack := by rw [ht.slack, hs.slack, hcs, slackScales_enabled _ hsl]
  have e3 : t.ext.objWeight = s.ext.objWeight := by
    rw [ht.weight, hs.weight, hdim, slackWeights_eq, slackWeights_eq, hcs, slackScales_enabled _ hsl]
  rw [e1, e2, e3, hdim, hexc]
  simp only [clipControl_congr s.toBase hlo hhi]

end

/-! ### Instances -/

open Classical in
/-- A solver meeting the assumptions: it succeeds exactly when a feasible global minimum exists and returns one. -/
noncomputable def refNLP : NLPSolver ℝ := fun obj x0 fs bounds =>
  if h : ∃ z, NLPFeasible fs bounds z ∧ ∀ y, NLPFeasible fs bounds y → obj z ≤ obj y then ⟨true, h.choose⟩ else ⟨false, x0⟩

theorem refNLP_sound : NLPSound refNLP := by
  intro obj x0 fs bounds _ hs
  unfold refNLP at hs ⊢
  split
  · rename_i h; exact h.choose_spec.1
  · rename_i h; rw [dif_neg h] at hs; simp at hs

theorem refNLP_global : NLPGlobal refNLP := by
  intro obj x0 fs bounds _ hs z hz
  unfold refNLP at hs ⊢
  split
  · rename_i h; exact h.choose_spec.2 z hz
  · rename_i h; rw [dif_neg h] at hs; simp at hs

theorem refNLP_complete : NLPComplete refNLP := by
  intro obj x0 fs bounds _ h
  unfold refNLP
  rw [dif_pos h]

/-- `h(x) = x ≥ 0`, strengthener `y ↦ y`. -/
noncomputable def stepC (en : Bool) : Constraint ℝ ℝ Unit :=
  { computeFn := fun x _ => x, phiFn := fun x _ => x, gradFn := fun _ _ => [1], alpha := some id, alphaNeg := none
    bias := 0, biasNegative := 0, slackPriorityScale := none, params := (), enabled := en, subsample := {} }

/-- `x⁺ = x + dt·u`. -/
noncomputable def stepNext : ℝ → ℝ → List ℝ → ℝ := fun x dt u => x + dt * u.getD 0 0

/-- A module with this constraint (and a disabled one) and control bounds ±2. -/
noncomputable def stepInit (exc : Bool) : Except PyErr (DiscObj ℝ ℝ Unit) :=
  discInit (some (.scalar 2)) (some (.scalar (-2))) [("a", stepC true), ("b", stepC false)] none (1 / 10000) 1 exc

noncomputable def stepObj (exc : Bool) : DiscObj ℝ ℝ Unit :=
  { toBase := Base.init (some (.scalar 2)) (some (.scalar (-2)))
    constraints := [("a", stepC true), ("b", stepC false)], params := [("a", ()), ("b", ())]
    constraintEnabled := [("a", true), ("b", false)], constraintValues := [], isStaleConstraints := false
    ext := { epsilon := 1 / 10000, controlDim := 1, solverException := exc, numSlack := 0, objWeight := [1]
             optLow := some (.scalar (-2)), optHigh := some (.scalar 2) } }

theorem step_init (exc : Bool) : stepInit exc = .ok (stepObj exc) := rfl

theorem step_inv (exc : Bool) : DiscInv (stepObj exc) :=
  discInv_init (by simp [dictKeys]) (step_init exc)

/-- The hypotheses of `C39_closed_loop` are met by the module above with step size one half, from `x = 3`, for any desired
controls. -/
example (us : Nat → List ℝ) (n : Nat) (x : ℝ) (s : DiscObj ℝ ℝ Unit)
    (h : closedLoop (discreteASIF refNLP stepNext) stepNext (fun _ => 1 / 2) us 3 (stepObj true) n = some (x, s)) : 0 ≤ x := by
  have := C39_closed_loop refNLP_sound stepNext (fun _ => 1 / 2) us 3 (stepObj true) (step_inv true) rfl rfl
    (fun _ => by norm_num) (k := "a") (c := stepC true) (al := id) (by simp [stepObj]) rfl rfl rfl
    (fun _ y hy => by simp only [id]; linarith) (by simp [stepC]) n x s h
  simpa [stepC] using this

/-- The solver's problem at `x = 1`, `dt = 1/2`, desired control `-2`: `2·((1 + z/2) - 1) + 1 ≥ 0`, so the call returns a
control of at least `-1`, in fact exactly `-1`. -/
theorem step_call : (discreteASIF refNLP stepNext (stepObj true) (.array 1) (1 / 2) [-2]).1 = .ok [-1] := by
  have hp := C40_problem refNLP stepNext (step_inv true) rfl (lo := some (-2)) (hi := some 2) rfl rfl
    (by simp [stepObj, stepC]) 1 (1 / 2) [-2] rfl
  rw [hp]
  simp only
  have hfeas : ∀ z : List ℝ, NLPFeasible (discreteIneqs stepNext (stepObj true) 1 (1 / 2))
      (List.replicate (stepObj true).ext.controlDim (some (-2 : ℝ), some (2 : ℝ)) ++
        List.replicate (stepObj true).ext.numSlack (none, none)) z ↔ ∃ a, z = [a] ∧ -1 ≤ a ∧ a ≤ 2 := by
    intro z
    have ef : discreteIneqs stepNext (stepObj true) 1 (1 / 2) = [fun z => (1 + 1 / 2 * (z.take 1).getD 0 0 - 1) / (1 / 2) + 1] := by
      simp [discreteIneqs, numberSlack, stepObj, stepC, hval, stepNext]
    have eb : List.replicate (stepObj true).ext.controlDim (some (-2 : ℝ), some (2 : ℝ)) ++
        List.replicate (stepObj true).ext.numSlack (none, none) = [(some (-2), some 2)] := rfl
    rw [ef, eb]
    constructor
    · intro h
      obtain ⟨a, rfl⟩ := List.length_eq_one_iff.1 h.len
      have h1 := h.ineq _ List.mem_cons_self
      have h2 := h.high 0 _ _ rfl a rfl
      simp only [List.take_succ_cons, List.take_zero, List.getD_cons_zero] at h1
      exact ⟨a, rfl, by linarith, h2⟩
    · rintro ⟨a, rfl, h1, h2⟩
      refine ⟨rfl, ?_, ?_, ?_⟩
      · intro i l h hi v hv
        rcases i with _ | i
        · simp at hi hv; rw [← hi.1, ← hv]; linarith
        · simp at hi
      · intro i l h hi v hv
        rcases i with _ | i
        · simp at hi hv; rw [← hi.2, ← hv]; linarith
        · simp at hi
      · intro f hf
        simp only [List.mem_singleton] at hf
        subst hf
        simp only [List.take_succ_cons, List.take_zero, List.getD_cons_zero]
        linarith
  have hobj : ∀ a : ℝ, discObj (stepObj true).ext.objWeight ([-2] ++ zeros (stepObj true).ext.numSlack) [a] =
      a * a / 2 + 2 * a := by
    intro a
    simp [discObj, stepObj, dot]
  have hex : ∃ z, NLPFeasible (discreteIneqs stepNext (stepObj true) 1 (1 / 2))
      (List.replicate (stepObj true).ext.controlDim (some (-2 : ℝ), some (2 : ℝ)) ++
        List.replicate (stepObj true).ext.numSlack (none, none)) z ∧
      ∀ y, NLPFeasible (discreteIneqs stepNext (stepObj true) 1 (1 / 2))
        (List.replicate (stepObj true).ext.controlDim (some (-2 : ℝ), some (2 : ℝ)) ++
        List.replicate (stepObj true).ext.numSlack (none, none)) y →
        discObj (stepObj true).ext.objWeight ([-2] ++ zeros (stepObj true).ext.numSlack) z ≤
          discObj (stepObj true).ext.objWeight ([-2] ++ zeros (stepObj true).ext.numSlack) y := by
    refine ⟨[-1], (hfeas _).2 ⟨-1, rfl, by norm_num, by norm_num⟩, fun y hy => ?_⟩
    obtain ⟨a, rfl, h1, -⟩ := (hfeas y).1 hy
    rw [hobj, hobj]
    nlinarith
  unfold refNLP
  rw [dif_pos hex]
  obtain ⟨z, hz⟩ : ∃ z, z = hex.choose := ⟨_, rfl⟩
  have hspec := hex.choose_spec
  rw [← hz] at hspec ⊢
  obtain ⟨a, rfl, h1, h2⟩ := (hfeas z).1 hspec.1
  have h3 := hspec.2 [-1] ((hfeas _).2 ⟨-1, rfl, by norm_num, by norm_num⟩)
  rw [hobj, hobj] at h3
  have : a = -1 := by nlinarith
  subst this
  simp only [Bool.true_eq_false, false_and, if_false]
  exact C05_clip_identity (stepObj true).toBase _ trivial trivial (by
    intro i v hv
    rcases i with _ | i
    · simp [stepObj] at hv
      subst hv
      constructor <;> intro b hb <;> simp [stepObj, Base.init, boundAt] at hb <;> subst hb <;> norm_num
    · simp [stepObj] at hv)

/-- The hypotheses of `C40_closest_admissible` are met by that call. -/
example : ∃ d, AdmissibleDS stepNext (stepObj true) 1 (1 / 2) [-1] d ∧
    ∀ w e, AdmissibleDS stepNext (stepObj true) 1 (1 / 2) w e →
      slackCost (slackScales (stepObj true).constraints) [-2] [-1] d ≤
        slackCost (slackScales (stepObj true).constraints) [-2] w e :=
  C40_closest_admissible refNLP_sound refNLP_global (step_inv true) (by simp [ScalesPos, slackScales, stepObj, stepC]) rfl
    (by norm_num) rfl (Prod.ext step_call rfl)

/-- The objective with desired control `2` at control `5`, half the squared distance minus two. -/
example : discObj (stepObj true).ext.objWeight ([2] ++ zeros 0) ([5] ++ []) = 9 / 2 - 2 := by
  have := C40_objective (step_inv true) (by simp [ScalesPos, slackScales, stepObj, stepC]) [2] [5] [] rfl rfl rfl
  have e : (stepObj true).ext.numSlack = 0 := rfl
  rw [e] at this
  rw [this]
  simp [slackScales, stepObj, stepC, slackCost, sqDist, sqNorm, vsub, dot]
  norm_num

/-- Removing the disabled constraint `b`: hypotheses of `C09_discrete_disabled_no_influence`. -/
example : ∃ t : DiscObj ℝ ℝ Unit, t.constraints = [("a", stepC true)] ∧ ∀ solver x dt u,
    (discreteASIF solver stepNext t (.array x) dt [u]).1 = (discreteASIF solver stepNext (stepObj true) (.array x) dt [u]).1 := by
  obtain ⟨t, ht⟩ : ∃ t : DiscObj ℝ ℝ Unit, t = { stepObj true with
    constraints := [("a", stepC true)], params := [("a", ())], constraintEnabled := [("a", true)] } := ⟨_, rfl⟩
  have hi : DiscInv t := by subst ht; exact ⟨⟨by simp [dictKeys], rfl, rfl⟩, rfl, rfl, rfl, rfl⟩
  refine ⟨t, by rw [ht], fun solver x dt u => ?_⟩
  refine C09_discrete_disabled_no_influence solver stepNext (step_inv true) hi rfl (by rw [ht]; rfl)
    (by rw [ht]) (by rw [ht]) (by rw [ht]) (by rw [ht]) ?_ ?_ (lo := some (-2)) (hi := some 2) rfl rfl ?_ x dt [u] rfl
  · simp [ht, stepObj, stepC]
  · simp [stepObj, stepC]
  · simp [stepObj, stepC]

/-- **A failed solve is not caught by default.** With `solver_exception = False` (the default) a module whose (sound) solver
reports failure applies the solver's output anyway: here it drives the plant from the safe state `1` to `-1`. -/
theorem C39_failed_solve_unsafe : ∃ solver : NLPSolver ℝ, NLPSound solver ∧ NLPGlobal solver ∧
    ∃ x s, closedLoop (discreteASIF solver stepNext) stepNext (fun _ => 1) (fun _ => [-2]) 1 (stepObj false) 1 = some (x, s) ∧
      0 ≤ (stepC true).computeFn 1 () + (stepC true).bias ∧ (stepC true).computeFn x () + (stepC true).bias < 0 := by
  refine ⟨fun _ x0 _ _ => ⟨false, x0⟩, fun _ _ _ _ _ h => by simp at h, fun _ _ _ _ _ h => by simp at h, ?_⟩
  have hp := C40_problem (fun _ x0 _ _ => ⟨false, x0⟩) stepNext (step_inv false) rfl (lo := some (-2)) (hi := some 2) rfl rfl
    (by simp [stepObj, stepC]) 1 1 [-2] rfl
  have hr : (discreteASIF (fun _ x0 _ _ => ⟨false, x0⟩) stepNext (stepObj false) (.array 1) 1 [-2]).1 = .ok [-2] := by
    rw [hp]
    simp only [stepObj, Bool.false_eq_true, and_false, if_false]
    exact C05_clip_identity (stepObj false).toBase [-2] trivial trivial (by
      intro i v hv
      rcases i with _ | i
      · simp at hv
        subst hv
        constructor <;> intro b hb <;> simp [stepObj, Base.init, boundAt] at hb <;> subst hb <;> norm_num
      · simp at hv)
  refine ⟨-1, (discreteASIF (fun _ x0 _ _ => ⟨false, x0⟩) stepNext (stepObj false) (.array 1) 1 [-2]).2, ?_, ?_, ?_⟩
  · simp only [closedLoop]
    rcases hd : discreteASIF (fun _ x0 _ _ => ⟨false, x0⟩) stepNext (stepObj false) (.array 1) 1 [-2] with ⟨_ | c, s'⟩
    · rw [hd] at hr; simp at hr
    · rw [hd] at hr
      simp only [Except.ok.injEq] at hr
      subst hr
      simp [stepNext]
      norm_num
  · simp [stepC]
  · simp [stepC]

end RTA
