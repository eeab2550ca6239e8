import Verif.Props.Cascade
import Verif.Props.ClosedLoop
import Verif.Props.Discrete
import Verif.Props.ASIF

/-!
C124: a switching module behind another module.

A cascade whose last stage is an explicit switching (simplex) module is safe whatever the stage before it does. Behind an optimisation based module
with the same constraints the switching module is silent: it passes on what it is given, as long as the optimisation problem has a solution and the
predicted change of a constraint is no worse than the one the optimisation module reckons with.
-/
namespace RTA
variable {K S P A B X M N I : Type}

/-- Objects of two classes in one list. -/
instance sumBase [HasBase M K] [HasBase N K] : HasBase (M ⊕ N) K where
  get
    | .inl a => HasBase.get a
    | .inr b => HasBase.get b
  set b
    | .inl a => .inl (HasBase.set b a)
    | .inr a => .inr (HasBase.set b a)
  get_set b s := by cases s <;> exact HasBase.get_set _ _
  set_get s := by cases s <;> simp [HasBase.set_get]
  set_set b b' s := by cases s <;> simp [HasBase.set_set]

/-- `filter_control` of a list with objects of two classes. -/
def eitherFilter (fA : M → I → K → List K → Except PyErr (List K) × M) (fB : N → I → K → List K → Except PyErr (List K) × N) :
    M ⊕ N → I → K → List K → Except PyErr (List K) × (M ⊕ N)
  | .inl a, x, dt, u => ((fA a x dt u).1, .inl (fA a x dt u).2)
  | .inr b, x, dt, u => ((fB b x dt u).1, .inr (fB b x dt u).2)

/-- What a successful call of an enabled cascade of two stages did. -/
theorem two_stages_ok [HasBase M K] [HasBase N K] [LinearOrder K] {fA : M → I → K → List K → Except PyErr (List K) × M}
    {fB : N → I → K → List K → Except PyErr (List K) × N} {s s' : CascadeObj K (M ⊕ N)} {a : M} {b : N} (hl : s.rtaList = [.inl a, .inr b])
    (hen : s.enable = true) {x : I} {dt : K} {u c : List K} (h : cascadeFilter (eitherFilter fA fB) s x dt u = (.ok c, s')) :
    ∃ w a' out b', fA a x dt u = (.ok w, a') ∧ fB b x dt w = (.ok out, b') ∧ s.toBase.clipControl out = .ok c ∧
      s'.rtaList = [.inl a', .inr b'] ∧ s'.enable = true ∧ s'.controlBoundsHigh = s.controlBoundsHigh ∧
      s'.controlBoundsLow = s.controlBoundsLow ∧
      (s'.intervening = true ↔ (HasBase.get a' : Base K).intervening = true ∨ (HasBase.get b' : Base K).intervening = true) := by
  unfold cascadeFilter filterControl cascadeCompute at h
  simp only [modifyBase, HasBase.get, HasBase.set, hen, if_true, hl, cascadeLoop, eitherFilter] at h
  rcases h1 : fA a x dt u with ⟨_ | w, a'⟩
  · simp [h1] at h
  simp only [h1] at h
  rcases h2 : fB b x dt w with ⟨_ | out, b'⟩
  · simp [h2] at h
  simp only [h2] at h
  split at h
  · simp at h
  · rename_i c' hc
    simp only [Prod.mk.injEq, Except.ok.injEq] at h
    obtain ⟨rfl, rfl⟩ := h
    refine ⟨w, a', out, b', rfl, h2, hc, rfl, rfl, rfl, rfl, ?_⟩
    cases (HasBase.get a' : Base K).intervening <;> cases (HasBase.get b' : Base K).intervening <;> simp

/-! ### The net holds -/

section net
variable [AddCommMonoid K] [LinearOrder K] [HasBase M K]

/-- **C124**, the net holds. A cascade without bounds of its own whose second and last stage is an explicit switching module: let the first stage be
anything at all whose answers lie within the bounds of the switching module (`hfirst`, with `J` for what is known of the object), and let the backup
law keep the safe states. Then the closed loop of the cascade satisfies every enabled constraint of the switching module at every step, for all
desired controls, step sizes and latch times, for as long as the calls return. -/
theorem C124_net (pred : S → K → List K → S) (fA : M → InputState S → K → List K → Except PyErr (List K) × M) (J : M → Prop) (dts : Nat → K)
    (us : Nat → List K) (x0 : S) (s0 : CascadeObj K (M ⊕ SimplexObj K S P A)) (a0 : M) (t0 : SimplexObj K S P A)
    (hl : s0.rtaList = [.inl a0, .inr t0]) (hen : s0.enable = true) (hnb : s0.controlBoundsHigh = none ∧ s0.controlBoundsLow = none)
    (hJ : J a0) (hfirst : ∀ a n x w a', J a → fA a (.array x) (dts n) (us n) = (.ok w, a') → J a' ∧ t0.toBase.clipControl w = .ok w)
    (hwf : WF t0) (hent : t0.enable = true) (hsafe : SafeAt t0.constraints x0)
    (hback : ∀ n x z ub z' cb, SafeAt t0.constraints x → t0.ext.ctrl.gen x (dts n) z = some (ub, z') →
      t0.toBase.clipControl ub = .ok cb → SafeAt t0.constraints (pred x (dts n) cb))
    (n : Nat) (x : S) (s : CascadeObj K (M ⊕ SimplexObj K S P A))
    (h : closedLoop (cascadeFilter (eitherFilter fA (explicitSimplex pred))) pred dts us x0 s0 n = some (x, s)) : SafeAt t0.constraints x := by
  refine (closedLoop_invariant (fun x s => SafeAt t0.constraints x ∧ s.enable = true ∧
      (s.controlBoundsHigh = none ∧ s.controlBoundsLow = none) ∧ ∃ a t, s.rtaList = [.inl a, .inr t] ∧ J a ∧ WF t ∧ t.enable = true ∧
      t.constraints = t0.constraints ∧ t.controlBoundsHigh = t0.controlBoundsHigh ∧ t.controlBoundsLow = t0.controlBoundsLow ∧
      t.ext.ctrl.gen = t0.ext.ctrl.gen) ⟨hsafe, hen, hnb, a0, t0, hl, hJ, hwf, hent, rfl, rfl, rfl, rfl⟩ ?_ n x s h).1
  clear h n x s
  rintro n x s c s' ⟨hx, he, ⟨hb1, hb2⟩, a, t, hls, hJa, hw, het, hcs, hhi, hlo, hgen⟩ hcall
  obtain ⟨w, a', out, t', hA, hT, hclipo, hls', he', hh', hl', -⟩ := two_stages_ok hls he hcall
  have ho : out = c := by
    unfold Base.clipControl at hclipo
    simpa [hb1, hb2] using hclipo
  subst ho
  obtain ⟨hJ', hcw⟩ := hfirst a n x w a' hJa hA
  have hclip : ∀ u, t.toBase.clipControl u = t0.toBase.clipControl u := by
    intro u; unfold Base.clipControl; rw [hhi, hlo]
  have hw' : WF t' := by
    have := (filterControlCB_frame frame_getStateDefault (frameFilter_simplex (monFrame_explicit pred)) t (.array x) (dts n) w).2 hw
    unfold explicitSimplex at hT
    rwa [hT] at this
  obtain ⟨⟨het', hcs', hhi', hlo'⟩, hd⟩ := simplex_ok (monFrame_explicit pred) het hT
  have hgen' : t'.ext.ctrl.gen = t.ext.ctrl.gen := by
    rcases hd with ⟨_, _, z, _, hext⟩ | ⟨_, b, sm, sv, _, _, ⟨_, z, _, hext⟩ | ⟨_, _, hext⟩⟩ <;> rw [hext]
  refine ⟨?_, he', ⟨hh'.trans hb1, hl'.trans hb2⟩, a', t', hls', hJ', hw', het', hcs'.trans hcs, hhi'.trans hhi, hlo'.trans hlo,
    hgen'.trans hgen⟩
  have hb : ∀ z, IsBackup t x (dts n) out z → SafeAt t0.constraints (pred x (dts n) out) := by
    rintro z ⟨ub, hg, hc⟩
    rw [hgen] at hg
    rw [hclip] at hc
    exact hback n x _ ub z out hx hg hc
  rcases hd with ⟨_, _, z, hz, _⟩ | ⟨hnl, b, sm, sv, hm, hib, ⟨_, z, hz, _⟩ | ⟨hbf, hcu, _⟩⟩
  · exact hb z hz
  · exact hb z hz
  · rw [hclip, hcw] at hcu
    obtain rfl : w = out := by simpa using hcu
    rw [← hcs]
    exact (C13_explicit_decision pred t t' hw het x (dts n) w w hnl hT).1.1 (hib.trans hbf)

end net

/-! ### The net is silent -/

section silent
variable [Field K] [LinearOrder K] [IsStrictOrderedRing K]

/-- **C124**, silent behind a discrete-time optimisation module with the same prediction. Let every enabled constraint of the switching module be an
enabled constraint of the optimisation module, without slack, satisfied in the present state, with a strengthener that `dt` does not overshoot. What
the optimisation module answers, the unlatched switching module passes on without intervening. -/
theorem C124_discrete [HasSqrt K] {solver : NLPSolver K} (hsound : NLPSound solver) {next : S → K → List K → S} {s s' : DiscObj K S P}
    (hinv : DiscInv s) (hen : s.enable = true) (hexc : s.ext.solverException = true) {t t' : SimplexObj K S P A} (hwf : WF t)
    (het : t.enable = true) (hnl : ¬ Latched t) {x : S} {dt : K} (hdt : 0 < dt)
    (hsub : ∀ kc ∈ t.constraints, kc.2.enabled = true → (∃ k, (k, kc.2) ∈ s.constraints) ∧ kc.2.slackPriorityScale = none ∧
      0 ≤ hval kc.2 x ∧ ∃ al, kc.2.alpha = some al ∧ ∀ y, 0 ≤ y → dt * al y ≤ y)
    {u v c : List K} (h1 : discreteASIF solver next s (.array x) dt u = (.ok v, s')) (hclip : t.toBase.clipControl v = .ok v)
    (h2 : explicitSimplex next t (.array x) dt v = (.ok c, t')) : c = v ∧ t'.intervening = false := by
  obtain ⟨d, -, -, -, had, -⟩ := disc_solved hsound hinv hen hdt h1 hexc
  obtain ⟨k1, k2, -⟩ := C13_explicit_decision next t t' hwf het x dt v c hnl h2
  have hs : SafeAt t.constraints (next x dt v) := by
    intro kc hkc hke
    obtain ⟨⟨k, hk⟩, hsl, hx, al, hal, hle⟩ := hsub kc hkc hke
    obtain ⟨al', hal', hle'⟩ := had.barrier (kc.2, 0) (mem_assignSlack_none hk hsl d) hke
    rw [hal] at hal'
    obtain rfl : al = al' := by simpa using hal'
    have h3 := hle _ hx
    simp only at hle'
    show 0 ≤ hval kc.2 (next x dt v)
    linarith
  refine ⟨?_, k1.2 hs⟩
  have := (k2 hs).symm.trans hclip
  simpa using this

/-- **C124**, silent behind an explicit optimisation module. As before, and the predicted change of a constraint is at least `dt` times the rate the
optimisation module reckons with: with the Euler prediction this holds with equality for affine constraints, and for convex ones. -/
theorem C124_explicit [HasSqrt K] [LawfulSqrt K] {solver : Solver K} (hspec : SolverSpec solver) {f : S → List K} {g : S → List (List K)}
    {pred : S → K → List K → S} {s s' : ASIFObj K S P X} (hs : ExplicitModule solver f g s) (hns : slackScales s.constraints = [])
    (hen : s.enable = true) {t t' : SimplexObj K S P A} (hwf : WF t) (het : t.enable = true) (hnl : ¬ Latched t) {x : S} {dt : K} (hdt : 0 ≤ dt)
    (hsub : ∀ kc ∈ t.constraints, kc.2.enabled = true → (∃ k, (k, kc.2) ∈ s.constraints) ∧ 0 ≤ hval kc.2 x ∧
      (∃ al, kc.2.alpha = some al ∧ ∀ y, 0 ≤ y → dt * al y ≤ y) ∧
      ∀ v, hval kc.2 x + dt * dot (kc.2.gradFn x kc.2.params) (vadd (f x) (matVec (g x) v)) ≤ hval kc.2 (pred x dt v))
    (hadm : ∃ w, Admissible f g s x w) {u v c : List K} (h1 : explicitASIF solver f g s (.array x) dt u = (.ok v, s'))
    (hclip : t.toBase.clipControl v = .ok v) (h2 : explicitSimplex pred t (.array x) dt v = (.ok c, t')) : c = v ∧ t'.intervening = false := by
  obtain ⟨hv, -⟩ := C24_closest_admissible hspec hs hns hen x dt u v h1 hadm
  obtain ⟨k1, k2, -⟩ := C13_explicit_decision pred t t' hwf het x dt v c hnl h2
  have hsafe : SafeAt t.constraints (pred x dt v) := by
    intro kc hkc hke
    obtain ⟨⟨k, hk⟩, hx, ⟨al, hal, hle⟩, hch⟩ := hsub kc hkc hke
    obtain ⟨m, hm, h0⟩ := hv.barrier (k, kc.2) hk hke
    unfold barrierValue at hm
    rw [hal] at hm
    simp only [Option.map_some, Option.some.injEq] at hm
    have hst : strengthening kc.2 al (kc.2.computeFn x kc.2.params + kc.2.bias) = al (hval kc.2 x) := if_pos hx
    rw [hst] at hm
    have h3 := hle _ hx
    have h4 := hch v
    have h5 := mul_nonneg hdt (hm ▸ h0 : 0 ≤ dot (kc.2.gradFn x kc.2.params) (vadd (f x) (matVec (g x) v)) + al (hval kc.2 x))
    show 0 ≤ hval kc.2 (pred x dt v)
    rw [mul_add] at h5
    linarith
  refine ⟨?_, k1.2 hsafe⟩
  have := (k2 hsafe).symm.trans hclip
  simpa using this

end silent

/-! ### Examples -/

/-- The Euler prediction `x⁺ = x + dt·u`. -/
noncomputable def eulerLine : ℝ → ℝ → List ℝ → ℝ := fun x dt u => x + dt * u.headD 0

/-- The discrete-time module with the constraint `x ≥ 0` and the bounds of `toyObj none`. -/
noncomputable def smallDisc : DiscObj ℝ ℝ Unit :=
  { toBase := Base.init (some (.scalar 2)) (some (.scalar (-2)))
    constraints := [("c", toyC none)], params := [("c", ())], constraintEnabled := [("c", true)], constraintValues := []
    isStaleConstraints := false
    ext := { epsilon := 1 / 10000, controlDim := 1, solverException := true, numSlack := 0, objWeight := [1]
             optLow := some (.scalar (-2)), optHigh := some (.scalar 2) } }

theorem small_disc_init : discInit (some (.scalar 2)) (some (.scalar (-2))) [("c", toyC none)] none (1 / 10000) 1 true = .ok smallDisc := rfl

/-- C124: whatever is asked of it, a first stage that always answers -5 cannot bring the loop below 3. -/
example (us : Nat → List Int) (b : Base Int) (n : Nat) (x : Int) (s : CascadeObj Int (Base Int ⊕ SimplexObj Int Int Int Unit))
    (h : closedLoop (cascadeFilter (eitherFilter (fun a _ _ _ => (.ok [-5], a)) (explicitSimplex toyPred))) toyPred (fun _ => 1) us 4
      (cascadeInit none none [.inl b, .inr (toySimplex (-9) 9)]) n = some (x, s)) : 3 ≤ x := by
  rw [← toy_safe_iff (-9) 9]
  refine C124_net toyPred _ (fun _ => True) _ us 4 _ b (toySimplex (-9) 9) rfl rfl ⟨rfl, rfl⟩ trivial ?_ (wf_toySimplex _ _) rfl
    (by rw [toy_safe_iff]; decide) ?_ n x s h
  · intro a n x w a' _ h
    simp only [Prod.mk.injEq, Except.ok.injEq] at h
    obtain ⟨rfl, -⟩ := h
    exact ⟨trivial, rfl⟩
  · intro n x z ub z' cb hx hg hc
    rw [toy_safe_iff] at hx ⊢
    simp only [toySimplex, Option.some.injEq, Prod.mk.injEq] at hg
    obtain ⟨rfl, _⟩ := hg
    have : (toySimplex (-9) 9).toBase.clipControl [0] = .ok [0] := rfl
    rw [this] at hc
    obtain rfl : [0] = cb := by simpa using hc
    simpa [toyPred] using hx

/-- The loop does run. -/
example : (closedLoop (cascadeFilter (eitherFilter (fun (a : Base Int) (_ : InputState Int) _ _ => (.ok [-5], a)) (explicitSimplex toyPred)))
    toyPred (fun _ => 1) (fun _ => [1]) 9 (cascadeInit none none [.inl (Base.init none none), .inr (toySimplex (-9) 9)]) 3).map Prod.fst =
    some 4 := rfl

/-- A switching module over the reals: one constraint, bounds ±2, backup control 0. -/
noncomputable def netObj (c : Constraint ℝ ℝ Unit) : SimplexObj ℝ ℝ Unit Unit :=
  { toBase := Base.init (some (.scalar 2)) (some (.scalar (-2))), constraints := [("c", c)], params := [("c", c.params)]
    constraintEnabled := [("c", c.enabled)], constraintValues := [], isStaleConstraints := false
    ext := { latchTime := 0, latchedElapsed := 0, backupWindow := 0
             ctrl := { gen := fun _ _ z => some ([0], z), stateInitial := .none, stateSaved := .none, state := .none } } }

theorem net_wf (c : Constraint ℝ ℝ Unit) : WF (netObj c) :=
  ⟨by simp [dictKeys, netObj], by simp [dictKeys, netObj], by simp [dictKeys, netObj]⟩

theorem net_unlatched (c : Constraint ℝ ℝ Unit) : ¬ Latched (netObj c) := by simp [Latched, netObj, Base.init]

theorem net_clip (c : Constraint ℝ ℝ Unit) (v : ℝ) (h : -2 ≤ v ∧ v ≤ 2) : (netObj c).toBase.clipControl [v] = .ok [v] :=
  C05_clip_identity _ _ trivial trivial ((toy_within none true v).2 h)

theorem net_runs (c : Constraint ℝ ℝ Unit) (pred : ℝ → ℝ → List ℝ → ℝ) (x dt v : ℝ) (h : -2 ≤ v ∧ v ≤ 2) :
    ∃ r t', explicitSimplex pred (netObj c) (.array x) dt [v] = (.ok r, t') :=
  C13_explicit_returns pred (netObj c) (net_wf c) rfl x dt [v] [0] [0] [v] .none rfl (net_clip c 0 (by norm_num)) (net_clip c v h)

/-- C124: behind the explicit module for `x ≥ 0` the switching module for the same constraint passes on every answer, for steps up to one second. -/
example {solver : Solver ℝ} (hspec : SolverSpec solver) (x dt u : ℝ) (hx : 0 ≤ x) (h0 : 0 ≤ dt) (h1 : dt ≤ 1) :
    ∃ v, (explicitASIF solver toyF toyG (toyObj none true) (.array x) dt [u]).1 = .ok v ∧
      (explicitSimplex eulerLine (netObj (toyC none)) (.array x) dt v).1 = .ok v ∧
      (explicitSimplex eulerLine (netObj (toyC none)) (.array x) dt v).2.intervening = false := by
  have hadm : ∃ w, Admissible toyF toyG (toyObj none true) x w := ⟨[0], (toy_admissible none true x _).2 ⟨0, rfl, by norm_num, by simp [hx]⟩⟩
  obtain ⟨v, hv⟩ := (explicit_total hspec (toy_module solver none true).inv.1 (toy_module solver none true).inv.2 (toy_pos_none true)
    (toy_shapes none true x) dt (u := [u]) rfl rfl).1 ⟨_, [], (admissibleS_noslack (by simp [toyObj, slackScales, toyC])).2 ⟨rfl, hadm.choose_spec⟩⟩
  have hcall : explicitASIF solver toyF toyG (toyObj none true) (.array x) dt [u] =
      (.ok v, (explicitASIF solver toyF toyG (toyObj none true) (.array x) dt [u]).2) := Prod.ext hv rfl
  have hns : slackScales (toyObj none true).constraints = [] := by simp [toyObj, slackScales, toyC]
  obtain ⟨q, rfl, hq, -⟩ := (toy_admissible none true x v).1 (C24_closest_admissible hspec (toy_module solver none true) hns rfl x dt [u] v
    hcall hadm).1
  obtain ⟨r, t', hr⟩ := net_runs (toyC none) eulerLine x dt q hq
  obtain ⟨rfl, hi⟩ := C124_explicit hspec (toy_module solver none true) hns rfl (net_wf _) rfl (net_unlatched _) h0 (by
    intro kc hkc _
    simp only [netObj, List.mem_singleton] at hkc
    subst hkc
    refine ⟨⟨"c", by simp [toyObj]⟩, by simpa [hval, toyC] using hx, ⟨id, rfl, fun y hy => by simp only [id]; nlinarith⟩, fun v => ?_⟩
    cases v <;> simp [hval, toyC, toyF, toyG, matVec, vadd, dot, eulerLine]) hadm hcall (net_clip _ q hq) hr
  exact ⟨[q], hv, by rw [hr], by rw [hr]; exact hi⟩

/-- `h(x) = 1 - x²`, the identity as strengthener. -/
noncomputable def capC : Constraint ℝ ℝ Unit :=
  { computeFn := fun x _ => 1 - x ^ 2, phiFn := fun x _ => 1 - x ^ 2, gradFn := fun x _ => [-2 * x], alpha := some id, alphaNeg := none
    bias := 0, biasNegative := -(1 / 100), slackPriorityScale := none, params := (), enabled := true, subsample := {} }

noncomputable def capObj : ASIFObj ℝ ℝ Unit Unit :=
  { toyObj none true with constraints := [("c", capC)] }

theorem cap_module (solver : Solver ℝ) : ExplicitModule solver toyF toyG capObj :=
  ⟨some (.scalar 2), some (.scalar (-2)), [("c", capC)], none, 1 / 10000, 1, true, [], (), capObj, [], by simp [dictKeys], by simp [dictKeys],
    rfl, rfl⟩

theorem cap_shapes (x : ℝ) : ShapesOK toyF toyG capObj x :=
  ⟨by simp [capObj, capC], by simp [capObj, capC, toyF], rfl, by simp [toyG, capObj, toyObj], by simp [capObj, toyObj]⟩

/-- **C124 needs the condition on the predicted change.** With the constraint `1 - x² ≥ 0`, in its middle and with a step of one second, the
optimisation module lets the desired control 2 pass, since the constraint does not change at first; the switching module with the same constraint
sees where it leads and answers with its backup control. -/
theorem C124_refuted_curved (solver : Solver ℝ) (hspec : SolverSpec solver) :
    (explicitASIF solver toyF toyG capObj (.array 0) 1 [2]).1 = .ok [2] ∧
    (explicitASIF solver toyF toyG capObj (.array 0) 1 [2]).2.intervening = false ∧
    (explicitSimplex eulerLine (netObj capC) (.array 0) 1 [2]).1 = .ok [0] ∧
    (explicitSimplex eulerLine (netObj capC) (.array 0) 1 [2]).2.intervening = true := by
  have hadm : Admissible toyF toyG capObj 0 [2] := by
    refine ⟨rfl, (toy_within none true 2).2 (by norm_num), ?_, by simp [capObj, toyObj]⟩
    intro kc hkc _
    simp only [capObj, List.mem_singleton] at hkc
    subst hkc
    refine ⟨_, rfl, ?_⟩
    simp [capC, strengthening, toyF, toyG, matVec, vadd, dot]
  obtain ⟨h1, h2⟩ := C25_no_interference hspec (cap_module solver) (by intro q hq; simp [capObj, slackScales, capC] at hq)
    (by norm_num [capObj, toyObj]) rfl 0 (cap_shapes 0) 1 [2] hadm
  obtain ⟨r, t', hr⟩ := net_runs capC eulerLine 0 1 2 (by norm_num)
  obtain ⟨k1, k2, k3⟩ := C13_explicit_decision eulerLine (netObj capC) t' (net_wf _) rfl 0 1 [2] r (net_unlatched _) hr
  have hun : ¬ SafeAt (netObj capC).constraints (eulerLine 0 1 [2]) := by
    intro h
    have := h ("c", capC) (by simp [netObj]) rfl
    norm_num [capC, eulerLine] at this
  obtain ⟨z, ub, hg, hc⟩ := k3 hun
  simp only [netObj, Option.some.injEq, Prod.mk.injEq] at hg
  obtain ⟨rfl, -⟩ := hg
  rw [net_clip capC 0 (by norm_num)] at hc
  refine ⟨h1, h2, by rw [hr]; exact hc.symm, ?_⟩
  rw [hr]
  by_contra hne
  exact hun (k1.1 (by simpa using hne))

/-- C124: the discrete-time module for `x ≥ 0` and the switching module behind it. -/
example {nlp : NLPSolver ℝ} (hsound : NLPSound nlp) (x dt : ℝ) (hx : 0 ≤ x) (h0 : 0 < dt) (h1 : dt ≤ 1) (u v c : List ℝ) (s' : DiscObj ℝ ℝ Unit)
    (t' : SimplexObj ℝ ℝ Unit Unit) (hv : discreteASIF nlp eulerLine smallDisc (.array x) dt u = (.ok v, s'))
    (hclip : (netObj (toyC none)).toBase.clipControl v = .ok v)
    (hc : explicitSimplex eulerLine (netObj (toyC none)) (.array x) dt v = (.ok c, t')) : c = v ∧ t'.intervening = false :=
  C124_discrete hsound (discInv_init (by simp [dictKeys]) small_disc_init) rfl rfl (net_wf _) rfl (net_unlatched _) h0 (by
    intro kc hkc _
    simp only [netObj, List.mem_singleton] at hkc
    subst hkc
    exact ⟨⟨"c", by simp [smallDisc]⟩, rfl, by simpa [hval, toyC] using hx, id, rfl, fun y hy => by simp only [id]; nlinarith⟩) hv hclip hc

end RTA
