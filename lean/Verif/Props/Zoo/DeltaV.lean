import Verif.Lemmas.Zoo.DeltaV
import Verif.Props.Cascade
import Mathlib.Algebra.Order.Ring.Rat

/-!
C42: the switching delta-v limiter.
-/
namespace RTA
variable {K : Type} [Field K] [LinearOrder K]

/-- A constructed limiter has matrices of the right shapes. -/
theorem deltaVInit_shape {m n L : K} {N : Nat} {hi lo : Option (Bound K)} {K1 K2 : List (List K)} {s : DeltaVObj K}
    (h1 : K1.length = 3) (h2 : K2.length = 3) (h : deltaVInit m n L N hi lo K1 K2 = .ok s) : DVShape s := by
  unfold deltaVInit at h
  split at h
  · simp at h
  · simp only [Except.ok.injEq] at h
    subst h
    exact ⟨rfl, rfl, h1, h2⟩

/-- What one call of an enabled, not yet latched limiter does. -/
theorem deltaV_unlatched_call (s : DeltaVObj K) (hs : DVShape s) (hen : s.enable = true) (hl : s.latched = false)
    (inp u c : List K) (dt : K) (xs is : Nat → List K)
    (hp : IsPrediction s inp dt u xs is) (er : List K) (he : s.trackError inp = .ok er)
    (hc : s.toBase.clipControl u = .ok c) :
    deltaVFilter s inp dt u = (.ok c, { bump { s with controlDesired := some u } er dt (exceeding s.deltaVLimit xs 0 s.nSteps)
      with controlActual := some c }) := by
  unfold deltaVFilter filterControl deltaVCompute
  simp only [modifyBase, HasBase.get, HasBase.set, hen, if_true, hl]
  have hstart : DeltaVObj.predState { s with controlDesired := some u } inp dt u = .ok (xs 0) := hp.start
  have hl0 : s = { s with latched := false, enable := true } := by rw [← hl, ← hen]
  have hp' : IsPrediction { s with controlDesired := some u } inp dt u xs is := ⟨hp.start, hp.integral, hp.step⟩
  have hloop := loop_eq (s := { s with controlDesired := some u }) ⟨hs.A, hs.B, hs.K1, hs.K2⟩ hp' he s.nSteps 0 s.errorIntegral
    s.latched s.intervening
  rw [hp.integral, hl] at hloop
  have hstart' := hstart
  rw [hl0] at hstart'
  simp only at hstart'
  simp only [hstart']
  rw [hl0] at hloop
  simp only at hloop
  rw [hloop]
  simp only
  have hcb : ∀ b : DeltaVObj K, (b.controlBoundsHigh = s.controlBoundsHigh) → (b.controlBoundsLow = s.controlBoundsLow) →
      b.toBase.clipControl u = .ok c := by
    intro b h1 h2
    rw [← hc]
    unfold Base.clipControl
    rw [h1, h2]
  rw [hcb _ (by rw [bump_fields]) (by rw [bump_fields])]

/-- **C42, what the limiter decides.** An enabled, unlatched limiter latches exactly when the predicted delta-v use (one step
of the desired control, then the backup controller) exceeds the limit at the end of its horizon; for a positive mass and a
non-negative step size this is the same as exceeding it anywhere after the first step. It then also reports intervening. -/
theorem C42_latches_iff_predicted_exceeds [IsStrictOrderedRing K] (s : DeltaVObj K) (hs : DVShape s) (hen : s.enable = true)
    (hl : s.latched = false) (hm : 0 < s.m) (inp u c : List K) (dt : K) (hdt : 0 ≤ dt)
    (xs is : Nat → List K) (hp : IsPrediction s inp dt u xs is) (hc : s.toBase.clipControl u = .ok c) :
    ((deltaVFilter s inp dt u).2.latched = true ↔ 0 < s.nSteps ∧ s.deltaVLimit < dvOf (xs s.nSteps)) ∧
    ((deltaVFilter s inp dt u).2.latched = true ↔ ∃ k, 1 ≤ k ∧ k ≤ s.nSteps ∧ s.deltaVLimit < dvOf (xs k)) ∧
    ((deltaVFilter s inp dt u).2.latched = true → (generateInfo (deltaVFilter s inp dt u).2).intervening = true) := by
  have hin := (predState_len hs hp.start).2.1
  obtain ⟨er, he⟩ := trackError_ok s (by omega : 5 ≤ inp.length)
  rw [deltaV_unlatched_call s hs hen hl inp u c dt xs is hp er he hc]
  have key : (exceeding s.deltaVLimit xs 0 s.nSteps ≠ 0) ↔ ∃ k, 1 ≤ k ∧ k ≤ s.nSteps ∧ s.deltaVLimit < dvOf (xs k) := by
    rw [Ne, exceeding_zero_iff]
    push Not
    constructor
    · rintro ⟨i, hi, h⟩
      exact ⟨0 + i + 1, by omega, by omega, h⟩
    · rintro ⟨k, h1, h2, h3⟩
      refine ⟨k - 1, by omega, ?_⟩
      rwa [show 0 + (k - 1) + 1 = k by omega]
  rw [bump_fields]
  have e : ((if exceeding s.deltaVLimit xs 0 s.nSteps = 0 then s.latched else true) = true) ↔
      exceeding s.deltaVLimit xs 0 s.nSteps ≠ 0 := by
    by_cases h : exceeding s.deltaVLimit xs 0 s.nSteps = 0 <;> simp [h, hl]
  refine ⟨?_, ?_, ?_⟩
  · simp only
    rw [e, key]
    constructor
    · rintro ⟨k, h1, h2, h3⟩
      exact ⟨by omega, lt_of_lt_of_le h3 (pred_mono hs hm hdt hp h2)⟩
    · rintro ⟨h1, h2⟩
      exact ⟨s.nSteps, h1, le_refl _, h2⟩
  · simp only
    rw [e, key]
  · simp only
    rw [e]
    intro h
    simp only [generateInfo, HasBase.get, if_neg h]

/-- **C42 refuted: the call that latches.** Whether or not the predicted use exceeds the limit, an enabled limiter that was
not latched returns the desired control (clipped to the bounds): the backup control computed at the moment of latching is
thrown away (`zoo/cwh/inspection_1v1.py:716`). -/
theorem C42_refuted_latching_call_returns_desired (s : DeltaVObj K) (hs : DVShape s) (hen : s.enable = true)
    (hl : s.latched = false) (inp u c : List K) (dt : K) (hin : inp.length = 8) (hu : u.length = 3)
    (hc : s.toBase.clipControl u = .ok c) : (deltaVFilter s inp dt u).1 = .ok c := by
  obtain ⟨xs, is, hp⟩ := prediction_exists hs dt hin hu
  obtain ⟨er, he⟩ := trackError_ok s (by omega : 5 ≤ inp.length)
  rw [deltaV_unlatched_call s hs hen hl inp u c dt xs is hp er he hc]

/-- The error integral after the latching call: the error at the current state has been added once for every predicted
state beyond the limit, not once. -/
theorem C42_latching_integral (s : DeltaVObj K) (hs : DVShape s) (hen : s.enable = true)
    (hl : s.latched = false) (inp u c : List K) (dt : K) (xs is : Nat → List K)
    (hp : IsPrediction s inp dt u xs is) (er : List K) (he : s.trackError inp = .ok er)
    (hc : s.toBase.clipControl u = .ok c) :
    (deltaVFilter s inp dt u).2.errorIntegral =
      (fun e => vadd e (er.map (· * dt)))^[((List.range s.nSteps).filter fun i => s.deltaVLimit < dvOf (xs (i + 1))).length]
        s.errorIntegral := by
  have count : ∀ k j, exceeding s.deltaVLimit xs j k =
      ((List.range k).filter fun i => s.deltaVLimit < dvOf (xs (j + i + 1))).length := by
    intro k
    induction k with
    | zero => intro j; rfl
    | succ k ih =>
      intro j
      rw [exceeding, ih, List.range_succ_eq_map, List.filter_cons, List.filter_map, List.length_eq_countP_add_countP (fun _ => true)]
      have e : ((fun i => decide (s.deltaVLimit < dvOf (xs (j + i + 1)))) ∘ Nat.succ) =
          fun i => decide (s.deltaVLimit < dvOf (xs (j + 1 + i + 1))) := by
        funext i
        simp only [Function.comp, Nat.succ_eq_add_one, show j + (i + 1) + 1 = j + 1 + i + 1 by omega]
      rw [e]
      by_cases h : s.deltaVLimit < dvOf (xs (j + 1))
      · simp [h]; omega
      · simp [h]
  rw [deltaV_unlatched_call s hs hen hl inp u c dt xs is hp er he hc, bump_fields, count]
  simp only [Nat.zero_add]

/-- What one call of an enabled, latched limiter does. -/
theorem deltaV_latched_call (s : DeltaVObj K) (hs : DVShape s) (hen : s.enable = true) (hl : s.latched = true)
    (inp u : List K) (dt : K) (hin : 5 ≤ inp.length) :
    ∃ ub ei, s.backupControl inp dt s.errorIntegral = .ok (ub, ei) ∧ (deltaVFilter s inp dt u).1 = s.toBase.clipControl ub ∧
      (deltaVFilter s inp dt u).2.errorIntegral = ei ∧
      (deltaVFilter s inp dt u).2.intervening = s.intervening := by
  obtain ⟨ub, ei, hb, _⟩ := backup_ok hs dt hin s.errorIntegral
  refine ⟨ub, ei, hb, ?_⟩
  obtain ⟨⟨hi, lo, en, iv, cd, ca⟩, m, n, L, N, A, B, K1, K2, e, l⟩ := s
  simp only at hen hl
  subst hen hl
  unfold deltaVFilter filterControl deltaVCompute
  simp only [modifyBase, HasBase.get, HasBase.set, if_true, Bool.true_eq_false, if_false]
  have hb' : DeltaVObj.backupControl ⟨⟨hi, lo, true, iv, some u, ca⟩, m, n, L, N, A, B, K1, K2, e, true⟩ inp dt e = .ok (ub, ei) :=
    hb
  rw [hb']
  simp only
  have hc' : Base.clipControl ⟨hi, lo, true, iv, some u, ca⟩ ub = Base.clipControl ⟨hi, lo, true, iv, cd, ca⟩ ub := rfl
  rcases hc : Base.clipControl ⟨hi, lo, true, iv, cd, ca⟩ ub with er | c
  · rw [hc] at hc'
    simp only [hc']
    exact ⟨trivial, trivial, trivial⟩
  · rw [hc] at hc'
    simp only [hc']
    exact ⟨trivial, trivial, trivial⟩

/-- Frame of one operation: matrices, masses and limit never change, and a latched limiter stays latched. -/
theorem stepDV_frame (s : DeltaVObj K) (op : DVOp K) :
    ((stepDV s op).A = s.A ∧ (stepDV s op).B = s.B ∧ (stepDV s op).K1 = s.K1 ∧ (stepDV s op).K2 = s.K2 ∧
      (stepDV s op).m = s.m ∧ (stepDV s op).n = s.n ∧ (stepDV s op).deltaVLimit = s.deltaVLimit ∧
      (stepDV s op).nSteps = s.nSteps ∧ (stepDV s op).controlBoundsHigh = s.controlBoundsHigh ∧
      (stepDV s op).controlBoundsLow = s.controlBoundsLow) ∧
    (s.latched = true → (stepDV s op).latched = true) ∧
    ((stepDV s op).latched = false → (stepDV s op).errorIntegral = s.errorIntegral) := by
  cases op with
  | setEnable b => exact ⟨⟨rfl, rfl, rfl, rfl, rfl, rfl, rfl, rfl, rfl, rfl⟩, id, fun _ => rfl⟩
  | reset => exact ⟨⟨rfl, rfl, rfl, rfl, rfl, rfl, rfl, rfl, rfl, rfl⟩, id, fun _ => rfl⟩
  | call inp dt u =>
    obtain ⟨⟨hi, lo, en, iv, cd, ca⟩, m, n, L, N, A, B, K1, K2, e, l⟩ := s
    simp only [stepDV]
    unfold deltaVFilter filterControl deltaVCompute
    simp only [modifyBase, HasBase.get, HasBase.set]
    cases en with
    | false => exact ⟨⟨rfl, rfl, rfl, rfl, rfl, rfl, rfl, rfl, rfl, rfl⟩, id, fun _ => rfl⟩
    | true =>
      simp only [if_true]
      cases l with
      | true =>
        simp only [Bool.true_eq_false, if_false]
        rcases DeltaVObj.backupControl _ inp dt e with er | ⟨ub, ei⟩
        · exact ⟨⟨rfl, rfl, rfl, rfl, rfl, rfl, rfl, rfl, rfl, rfl⟩, fun _ => rfl, fun h => by simp at h⟩
        · simp only
          rcases Base.clipControl _ ub with er | c
          · exact ⟨⟨rfl, rfl, rfl, rfl, rfl, rfl, rfl, rfl, rfl, rfl⟩, fun _ => rfl, fun h => by simp at h⟩
          · exact ⟨⟨rfl, rfl, rfl, rfl, rfl, rfl, rfl, rfl, rfl, rfl⟩, fun _ => rfl, fun h => by simp at h⟩
      | false =>
        simp only [if_true]
        rcases DeltaVObj.predState _ inp dt u with er | pr
        · exact ⟨⟨rfl, rfl, rfl, rfl, rfl, rfl, rfl, rfl, rfl, rfl⟩, fun h => by simp at h, fun _ => rfl⟩
        · simp only
          have hf := loop_frame inp dt N pr e ⟨⟨hi, lo, true, iv, some u, ca⟩, m, n, L, N, A, B, K1, K2, e, false⟩
          rcases hlp : DeltaVObj.loop inp dt N pr e ⟨⟨hi, lo, true, iv, some u, ca⟩, m, n, L, N, A, B, K1, K2, e, false⟩ with ⟨r, t⟩
          rw [hlp] at hf
          simp only at hf
          rcases hf with rfl | ⟨h1, e', rfl⟩
          · cases r with
            | error er => exact ⟨⟨rfl, rfl, rfl, rfl, rfl, rfl, rfl, rfl, rfl, rfl⟩, fun h => by simp at h, fun _ => rfl⟩
            | ok un =>
              simp only
              rcases Base.clipControl _ u with er | c
              · exact ⟨⟨rfl, rfl, rfl, rfl, rfl, rfl, rfl, rfl, rfl, rfl⟩, fun h => by simp at h, fun _ => rfl⟩
              · exact ⟨⟨rfl, rfl, rfl, rfl, rfl, rfl, rfl, rfl, rfl, rfl⟩, fun h => by simp at h, fun _ => rfl⟩
          · cases r with
            | error er => exact ⟨⟨rfl, rfl, rfl, rfl, rfl, rfl, rfl, rfl, rfl, rfl⟩, fun h => by simp at h, fun h => by simp at h⟩
            | ok un =>
              simp only
              rcases Base.clipControl _ u with er | c
              · exact ⟨⟨rfl, rfl, rfl, rfl, rfl, rfl, rfl, rfl, rfl, rfl⟩, fun h => by simp at h, fun h => by simp at h⟩
              · exact ⟨⟨rfl, rfl, rfl, rfl, rfl, rfl, rfl, rfl, rfl, rfl⟩, fun h => by simp at h, fun h => by simp at h⟩

theorem runDV_frame (ops : List (DVOp K)) (s : DeltaVObj K) :
    ((runDV s ops).A = s.A ∧ (runDV s ops).B = s.B ∧ (runDV s ops).K1 = s.K1 ∧ (runDV s ops).K2 = s.K2 ∧
      (runDV s ops).m = s.m ∧ (runDV s ops).n = s.n ∧ (runDV s ops).deltaVLimit = s.deltaVLimit ∧
      (runDV s ops).nSteps = s.nSteps ∧ (runDV s ops).controlBoundsHigh = s.controlBoundsHigh ∧
      (runDV s ops).controlBoundsLow = s.controlBoundsLow) ∧
    (s.latched = true → (runDV s ops).latched = true) ∧
    ((runDV s ops).latched = false → (runDV s ops).errorIntegral = s.errorIntegral) := by
  induction ops generalizing s with
  | nil => exact ⟨⟨rfl, rfl, rfl, rfl, rfl, rfl, rfl, rfl, rfl, rfl⟩, id, fun _ => rfl⟩
  | cons op ops ih =>
    obtain ⟨a, b, c⟩ := stepDV_frame s op
    obtain ⟨a', b', c'⟩ := ih (stepDV s op)
    have hr : runDV s (op :: ops) = runDV (stepDV s op) ops := rfl
    rw [hr]
    refine ⟨?_, fun h => b' (b h), fun h => ?_⟩
    · obtain ⟨a1, a2, a3, a4, a5, a6, a7, a8, a9, a10⟩ := a
      obtain ⟨b1, b2, b3, b4, b5, b6, b7, b8, b9, b10⟩ := a'
      exact ⟨b1.trans a1, b2.trans a2, b3.trans a3, b4.trans a4, b5.trans a5, b6.trans a6, b7.trans a7, b8.trans a8,
        b9.trans a9, b10.trans a10⟩
    · rw [c' h]
      apply c
      by_contra hne
      rw [b' (by simpa using hne)] at h
      simp at h

/-- **C42, the part that holds.** Once a call has latched, every later enabled call, after any number of calls (also failing
ones), enabling, disabling and resets, returns the backup control for the state it is given, clipped to the control bounds:
in particular it does not depend on the desired control. Every component the backup controller asks for lies between -1 and
1. What is missing: the call that latches returns the desired control (`C42_refuted_latching_call_returns_desired`), and
`reset` does not end the takeover (`C42_refuted_reset`). -/
theorem C42_latched_returns_backup_partial [IsStrictOrderedRing K] (s : DeltaVObj K) (hs : DVShape s) (hl : s.latched = true)
    (ops : List (DVOp K)) (hen : (runDV s ops).enable = true) (inp u : List K) (dt : K) (hin : 5 ≤ inp.length) :
    ∃ ub ei, s.backupControl inp dt (runDV s ops).errorIntegral = .ok (ub, ei) ∧
      (deltaVFilter (runDV s ops) inp dt u).1 = s.toBase.clipControl ub ∧
      (deltaVFilter (runDV s ops) inp dt u).2.errorIntegral = ei ∧ (∀ a ∈ ub, -1 ≤ a ∧ a ≤ 1) := by
  obtain ⟨⟨h1, h2, h3, h4, h5, h6, _, _, h9, h10⟩, hl', _⟩ := runDV_frame ops s
  obtain ⟨ub, ei, hb, hr, he, _⟩ := deltaV_latched_call (runDV s ops)
    ⟨by rw [h1, hs.A], by rw [h2, hs.B], by rw [h3, hs.K1], by rw [h4, hs.K2]⟩ hen (hl' hl) inp u dt hin
  refine ⟨ub, ei, ?_, ?_, he, ?_⟩
  · rw [← hb]
    unfold DeltaVObj.backupControl DeltaVObj.trackError
    rw [h3, h4, h6]
  · rw [hr]
    unfold Base.clipControl
    rw [h9, h10]
  · unfold DeltaVObj.backupControl at hb
    split at hb
    · simp at hb
    · simp only [Except.ok.injEq, Prod.mk.injEq] at hb
      intro a ha
      rw [← hb.1] at ha
      obtain ⟨w, _, rfl⟩ := List.mem_map.1 ha
      exact ⟨le_min (le_max_right _ _) (by linarith), min_le_right _ _⟩

/-- **C42, a latched limiter ignores the desired control.** -/
theorem C42_latched_ignores_desired (s : DeltaVObj K) (hs : DVShape s) (hen : s.enable = true)
    (hl : s.latched = true) (inp u w : List K) (dt : K) (hin : 5 ≤ inp.length) :
    (deltaVFilter s inp dt u).1 = (deltaVFilter s inp dt w).1 := by
  obtain ⟨ub, ei, h1, h2, _⟩ := deltaV_latched_call s hs hen hl inp u dt hin
  obtain ⟨vb, ej, k1, k2, _⟩ := deltaV_latched_call s hs hen hl inp w dt hin
  rw [h1] at k1
  simp only [Except.ok.injEq, Prod.mk.injEq] at k1
  rw [h2, k2, k1.1]

/-- **C42 refuted: reset.** A latched limiter stays latched whatever is done to it, `reset()` included. -/
theorem C42_refuted_reset_keeps_latch (s : DeltaVObj K) (hl : s.latched = true) (ops : List (DVOp K)) :
    (runDV s (ops ++ [.reset])).latched = true ∧ (generateInfo (runDV s (ops ++ [.reset]))).intervening = false := by
  refine ⟨(runDV_frame _ s).2.1 hl, ?_⟩
  simp only [runDV, List.foldl_append, List.foldl_cons, List.foldl_nil, stepDV]
  rfl

/-- **C10/C42, the part that holds for reset.** While the limiter has not latched, `reset()` gives back exactly the object
that was constructed. -/
theorem C42_reset_unlatched_partial (m n L : K) (N : Nat) (hi lo : Option (Bound K)) (K1 K2 : List (List K)) (s : DeltaVObj K)
    (h : deltaVInit m n L N hi lo K1 K2 = .ok s) (ops : List (DVOp K)) (hl : (runDV s ops).latched = false) :
    deltaVReset (runDV s ops) = s := by
  obtain ⟨⟨h1, h2, h3, h4, h5, h6, h7, h8, h9, h10⟩, _, h11⟩ := runDV_frame ops s
  have h12 := h11 hl
  unfold deltaVInit at h
  split at h
  · simp at h
  · simp only [Except.ok.injEq] at h
    rcases hr : runDV s ops with ⟨⟨a, b, c, d, e, f⟩, g, i, j, k, o, p, q, r, t, v⟩
    rw [hr] at h1 h2 h3 h4 h5 h6 h7 h8 h9 h10 h12 hl
    simp only at h1 h2 h3 h4 h5 h6 h7 h8 h9 h10 h12 hl
    subst h1 h2 h3 h4 h5 h6 h7 h8 h9 h10 h12 hl
    subst h
    rfl

/-- **C42, transparency and budget.** A call that does not latch leaves the intervening flag alone, and if the desired control
is within the bounds, applying the returned control for one (Euler) step keeps the delta-v use within the limit. -/
theorem C42_untriggered_within_budget [IsStrictOrderedRing K] (s : DeltaVObj K) (hs : DVShape s) (hen : s.enable = true)
    (hl : s.latched = false) (hm : 0 < s.m) (hN : 0 < s.nSteps) (inp u : List K) (dt : K) (hdt : 0 ≤ dt)
    (hin : inp.length = 8) (hu : u.length = 3) (hc : s.toBase.clipControl u = .ok u)
    (hno : (deltaVFilter s inp dt u).2.latched = false) :
    (deltaVFilter s inp dt u).1 = .ok u ∧ (generateInfo (deltaVFilter s inp dt u).2).intervening = s.intervening ∧
    dvOf inp + (u.map fun c => |c|).foldr (· + ·) 0 / s.m * dt ≤ s.deltaVLimit := by
  obtain ⟨xs, is, hp⟩ := prediction_exists hs dt hin hu
  obtain ⟨er, he⟩ := trackError_ok s (by omega : 5 ≤ inp.length)
  have hiff := C42_latches_iff_predicted_exceeds s hs hen hl hm inp u u dt hdt xs is hp hc
  have hcall := deltaV_unlatched_call s hs hen hl inp u u dt xs is hp er he hc
  refine ⟨by rw [hcall], ?_, ?_⟩
  · rw [hcall] at hno ⊢
    rw [bump_fields] at hno ⊢
    simp only [generateInfo, HasBase.get] at hno ⊢
    by_cases h0 : exceeding s.deltaVLimit xs 0 s.nSteps = 0
    · rw [if_pos h0]
    · rw [if_neg h0] at hno; simp at hno
  · have h1 : ¬ s.deltaVLimit < dvOf (xs s.nSteps) := by
      intro h
      rw [hiff.1.2 ⟨hN, h⟩] at hno
      simp at hno
    obtain ⟨y, hy, _, hdv⟩ := predState_ok hs dt hin hu
    have := hp.start
    rw [hy] at this
    simp only [Except.ok.injEq] at this
    rw [← hdv, this]
    exact (pred_mono hs hm hdt hp (Nat.zero_le _)).trans (not_lt.1 h1)

/-! ### Concrete limiter -/

/-- A limiter with limit 1, mass 1, a horizon of two steps and gains that brake the radial velocity. -/
def dvObj : DeltaVObj Rat :=
  { Base.init (some (.scalar 1)) (some (.scalar (-1))) with
    m := 1, n := 0, deltaVLimit := 1, nSteps := 2, A := cwhA3 0, B := cwhB3 1
    K1 := [[0, 0, 0, 1, 0, 0], [0, 0, 0, 0, 1, 0], [0, 0, 0, 0, 0, 0]]
    K2 := [[0, 0, 0, 0, 0, 0], [0, 0, 0, 0, 0, 0], [0, 0, 0, 0, 0, 0]]
    errorIntegral := zeros 6, latched := false }

example : deltaVInit (1 : Rat) 0 1 2 (some (.scalar 1)) (some (.scalar (-1)))
    [[0, 0, 0, 1, 0, 0], [0, 0, 0, 0, 1, 0], [0, 0, 0, 0, 0, 0]]
    [[0, 0, 0, 0, 0, 0], [0, 0, 0, 0, 0, 0], [0, 0, 0, 0, 0, 0]] = .ok dvObj := rfl

theorem dvObj_shape : DVShape dvObj := ⟨rfl, rfl, rfl, rfl⟩

/-- The hypotheses of the latching theorems are met: at rest with no use so far, asking for a full thrust of 1 latches. -/
example : (deltaVFilter dvObj [0, 0, 0, 0, 0, 0, 0, 0] 1 [1, 0, 0]).2.latched = true ∧
    (generateInfo (deltaVFilter dvObj [0, 0, 0, 0, 0, 0, 0, 0] 1 [1, 0, 0]).2).intervening = true ∧
    (deltaVFilter dvObj [0, 0, 0, 0, 0, 0, 0, 0] 1 [1, 0, 0]).1 = .ok [1, 0, 0] := by decide +kernel

/-- ... and asking for nothing does not. -/
example : (deltaVFilter dvObj [0, 0, 0, 0, 0, 0, 0, 0] 1 [0, 0, 0]).2.latched = false := by decide +kernel

/-- **C42 refuted, witness.** In a state with no budget left and no velocity, the limiter latches on a request for thrust, yet
hands out the thrust: the use after the step exceeds the limit although the backup control (zero thrust) would have kept
it. -/
theorem C42_refuted_budget :
    ∃ (inp u : List Rat) (dt : Rat), dvOf inp ≤ dvObj.deltaVLimit ∧
      dvObj.backupControl inp dt dvObj.errorIntegral = .ok ([0, 0, 0], zeros 6) ∧
      (deltaVFilter dvObj inp dt u).2.latched = true ∧ (deltaVFilter dvObj inp dt u).1 = .ok u ∧
      dvObj.deltaVLimit < dvOf inp + (u.map fun c => |c|).foldr (· + ·) 0 / dvObj.m * dt :=
  ⟨[0, 0, 0, 0, 0, 0, 0, 1], [1, 0, 0], 1, by decide +kernel⟩

/-- **C42/C10 refuted, witness.** After a latching call and `reset()` the limiter returns a control that differs from the
desired one, while a new limiter returns the desired one; and it reports not intervening while doing so. -/
theorem C42_refuted_reset :
    let used := deltaVReset (deltaVFilter dvObj [0, 0, 0, 0, 0, 0, 0, 1] 1 [1, 0, 0]).2
    (deltaVFilter used [0, 0, 0, 0, 0, 0, 0, 0] 1 [0, 1 / 2, 0]).1 = .ok [0, 0, 0] ∧
    (generateInfo (deltaVFilter used [0, 0, 0, 0, 0, 0, 0, 0] 1 [0, 1 / 2, 0]).2).intervening = false ∧
    (deltaVFilter dvObj [0, 0, 0, 0, 0, 0, 0, 0] 1 [0, 1 / 2, 0]).1 = .ok [0, 1 / 2, 0] := by
  decide +kernel

/-! ### Cascades of different modules -/

/-- **C10 refuted for cascades.** `reset()` of a cascade does not reset its stages: with the limiter as a stage, a cascade that
was used and reset answers differently from a new one. -/
theorem C10_refuted_cascade_reset :
    let fresh : CascadeObj Rat (DeltaVObj Rat) := cascadeInit none none [dvObj]
    let used := cascadeReset (cascadeFilter deltaVFilter fresh [0, 0, 0, 0, 0, 0, 0, 1] 1 [1, 0, 0]).2
    (cascadeFilter deltaVFilter used [0, 0, 0, 0, 0, 0, 0, 0] 1 [0, 1 / 2, 0]).1 = .ok [0, 0, 0] ∧
    (cascadeFilter deltaVFilter fresh [0, 0, 0, 0, 0, 0, 0, 0] 1 [0, 1 / 2, 0]).1 = .ok [0, 1 / 2, 0] := by
  decide +kernel

/-- A cascade whose stages have different classes: a clipping stage and the limiter. -/
def mixFilter : Base Rat ⊕ DeltaVObj Rat → List Rat → Rat → List Rat → Except PyErr (List Rat) × (Base Rat ⊕ DeltaVObj Rat)
  | .inl b, i, dt, u => ((filterControl (fun s _ _ v => (.ok v, s)) b i dt u).1,
      .inl (filterControl (fun s _ _ v => (.ok v, s)) b i dt u).2)
  | .inr d, i, dt, u => ((deltaVFilter d i dt u).1, .inr (deltaVFilter d i dt u).2)

instance : HasBase (Base Rat ⊕ DeltaVObj Rat) Rat where
  get
    | .inl b => b
    | .inr d => d.toBase
  set b
    | .inl _ => .inl b
    | .inr d => .inr { d with toBase := b }
  get_set b s := by cases s <;> rfl
  set_get s := by cases s <;> rfl
  set_set b b' s := by cases s <;> rfl

/-- The hypotheses of the C41 theorems are met by a cascade of two different stages: the first clips 3 to 1/2, the second
passes it on. -/
example :
    (cascadeFilter mixFilter (cascadeInit none none [.inl (Base.init (some (.scalar (1 / 2))) none), .inr dvObj])
      [0, 0, 0, 0, 0, 0, 0, 0] 1 [3, 0, 0]).1 = .ok [1 / 2, 0, 0] := by decide +kernel

/-- The order of the stages matters: the other way round the limiter sees 3, latches and reports it, and the cascade
reports intervening. -/
example :
    let r := cascadeFilter mixFilter (cascadeInit none none [.inr dvObj, .inl (Base.init (some (.scalar (1 / 2))) none)])
      [0, 0, 0, 0, 0, 0, 0, 0] 1 [3, 0, 0]
    r.1 = .ok [1 / 2, 0, 0] ∧ (generateInfo r.2).intervening = true := by decide +kernel

/-- An exception of a stage aborts the cascade: the limiter raises for a control with two components. -/
example :
    (cascadeFilter mixFilter (cascadeInit none none [.inl (Base.init (some (.scalar (1 / 2))) none), .inr dvObj])
      [0, 0, 0, 0, 0, 0, 0, 0] 1 [3, 0]).1 = .error (.valueError "operands could not be broadcast together") := by
  decide +kernel

/-- **C41, stale flags.** A disabled stage passes the control through but keeps the flag of its last enabled call, and the
cascade then reports intervening although no stage changed anything. -/
theorem C41_refuted_stale_flag :
    let latched := (deltaVFilter dvObj [0, 0, 0, 0, 0, 0, 0, 1] 1 [1, 0, 0]).2
    let casc : CascadeObj Rat (DeltaVObj Rat) := cascadeInit none none [{ latched with enable := false }]
    (cascadeFilter deltaVFilter casc [0, 0, 0, 0, 0, 0, 0, 0] 1 [1, 1, 1]).1 = .ok [1, 1, 1] ∧
    (generateInfo (cascadeFilter deltaVFilter casc [0, 0, 0, 0, 0, 0, 0, 0] 1 [1, 1, 1]).2).intervening = true := by
  decide +kernel

/-- **C41, earlier guarantees are lost.** What an earlier stage ensures need not hold for the cascade: the first stage of this
cascade keeps every component at most -1/2, the latched limiter after it returns zero. -/
theorem C41_refuted_earlier_stage_guarantee :
    let latched := (deltaVFilter dvObj [0, 0, 0, 0, 0, 0, 0, 1] 1 [1, 0, 0]).2
    (∀ (i : List Rat) (dt : Rat) (u c : List Rat) s', mixFilter (.inl (Base.init (some (.scalar (-1 / 2))) none)) i dt u = (.ok c, s') →
      ∀ a ∈ c, a ≤ -1 / 2) ∧
    (cascadeFilter mixFilter (cascadeInit none none [.inl (Base.init (some (.scalar (-1 / 2))) none), .inr latched])
      [0, 0, 0, 0, 0, 0, 0, 0] 1 [3, 0, 0]).1 = .ok [0, 0, 0] := by
  refine ⟨?_, by decide +kernel⟩
  intro i dt u c s' h a ha
  simp only [mixFilter, Prod.mk.injEq] at h
  obtain ⟨k, hk⟩ := List.mem_iff_getElem?.1 ha
  have hc : filterControl (fun s (_ : List Rat) _ v => (.ok v, s)) (Base.init (some (.scalar (-1 / 2))) none) i dt u =
      (.ok c, (filterControl (fun s (_ : List Rat) _ v => (.ok v, s)) (Base.init (some (.scalar (-1 / 2))) none) i dt u).2) := by
    rw [← h.1]
  have := (C01_filtered_control_in_bounds _ _ i dt u c _ rfl hc k a hk).1 (-1 / 2)
  apply this
  unfold filterControl
  simp only [modifyBase, HasBase.get, HasBase.set, Base.init, if_true, id]
  split <;> rfl

end RTA
