import Verif.Props.Latch

/-!
C18 and C19: safety of the closed loop formed by a simplex module and the plant it predicts.
-/
namespace RTA
variable {K S P A : Type}

/-- Closed loop: at step `n` the desired control `us n` is filtered at the current plant state with step size `dts n` and
the plant moves by `pred` under the control the module returned. `none` once a call has raised. -/
def closedLoop {σ : Type} (fc : σ → InputState S → K → List K → Except PyErr (List K) × σ)
    (pred : S → K → List K → S) (dts : Nat → K) (us : Nat → List K) (x0 : S) (s0 : σ) : Nat → Option (S × σ)
  | 0 => some (x0, s0)
  | n + 1 =>
    match closedLoop fc pred dts us x0 s0 n with
    | none => none
    | some (x, s) =>
      match fc s (.array x) (dts n) (us n) with
      | (.error _, _) => none
      | (.ok c, s') => some (pred x (dts n) c, s')

theorem closedLoop_invariant {σ : Type} {fc : σ → InputState S → K → List K → Except PyErr (List K) × σ}
    {pred : S → K → List K → S} {dts : Nat → K} {us : Nat → List K} {x0 : S} {s0 : σ} (I : S → σ → Prop)
    (h0 : I x0 s0)
    (hstep : ∀ n x s c s', I x s → fc s (.array x) (dts n) (us n) = (.ok c, s') → I (pred x (dts n) c) s')
    (n : Nat) (x : S) (s : σ) (h : closedLoop fc pred dts us x0 s0 n = some (x, s)) : I x s := by
  induction n generalizing x s with
  | zero =>
    simp only [closedLoop, Option.some.injEq, Prod.mk.injEq] at h
    obtain ⟨rfl, rfl⟩ := h
    exact h0
  | succ n ih =>
    simp only [closedLoop] at h
    rcases hn : closedLoop fc pred dts us x0 s0 n with _ | ⟨x1, s1⟩
    · rw [hn] at h; simp at h
    rw [hn] at h
    simp only at h
    rcases hf : fc s1 (.array x1) (dts n) (us n) with ⟨_ | c, s2⟩
    · rw [hf] at h; simp at h
    rw [hf] at h
    simp only [Option.some.injEq, Prod.mk.injEq] at h
    obtain ⟨rfl, rfl⟩ := h
    exact hstep n x1 s1 c s2 (ih x1 s1 hn) hf

theorem closedLoop_total' {σ : Type} {fc : σ → InputState S → K → List K → Except PyErr (List K) × σ}
    {pred : S → K → List K → S} {dts : Nat → K} {us : Nat → List K} {x0 : S} {s0 : σ} (I : S → σ → Prop)
    (h0 : I x0 s0)
    (hstep : ∀ n x s c s', I x s → fc s (.array x) (dts n) (us n) = (.ok c, s') →
      closedLoop fc pred dts us x0 s0 (n + 1) = some (pred x (dts n) c, s') → I (pred x (dts n) c) s')
    (htot : ∀ n x s, I x s → ∃ c s', fc s (.array x) (dts n) (us n) = (.ok c, s'))
    (n : Nat) : ∃ x s, closedLoop fc pred dts us x0 s0 n = some (x, s) ∧ I x s := by
  induction n with
  | zero => exact ⟨x0, s0, rfl, h0⟩
  | succ n ih =>
    obtain ⟨x, s, hn, hI⟩ := ih
    obtain ⟨c, s', hc⟩ := htot n x s hI
    have hn' : closedLoop fc pred dts us x0 s0 (n + 1) = some (pred x (dts n) c, s') := by simp only [closedLoop, hn, hc]
    exact ⟨pred x (dts n) c, s', hn', hstep n x s c s' hI hc hn'⟩

theorem closedLoop_total {σ : Type} {fc : σ → InputState S → K → List K → Except PyErr (List K) × σ}
    {pred : S → K → List K → S} {dts : Nat → K} {us : Nat → List K} {x0 : S} {s0 : σ} (I : S → σ → Prop)
    (h0 : I x0 s0)
    (hstep : ∀ n x s c s', I x s → fc s (.array x) (dts n) (us n) = (.ok c, s') → I (pred x (dts n) c) s')
    (htot : ∀ n x s, I x s → ∃ c s', fc s (.array x) (dts n) (us n) = (.ok c, s'))
    (n : Nat) : ∃ x s, closedLoop fc pred dts us x0 s0 n = some (x, s) ∧ I x s :=
  closedLoop_total' I h0 (fun n x s c s' hI hc _ => hstep n x s c s' hI hc) htot n

section explicit
variable [AddCommMonoid K] [LinearOrder K]

/-- **C18**. Let the backup law, after clipping, keep the set of states satisfying the enabled constraints invariant, from
every controller state (`hback`). Then for every sequence of desired controls inside the bounds (`hus`: clipping leaves
them unchanged), every sequence of step sizes, every latch time and whatever happened to the module before (`WF` is all
that is asked of it), the closed loop started at a safe state satisfies every enabled constraint at every step. -/
theorem C18_explicit_closed_loop_safe (pred : S → K → List K → S) (dts : Nat → K) (us : Nat → List K) (x0 : S)
    (s0 : SimplexObj K S P A) (hwf : WF s0) (hen : s0.enable = true) (hsafe : SafeAt s0.constraints x0)
    (hus : ∀ n, s0.toBase.clipControl (us n) = .ok (us n))
    (hback : ∀ n x z ub z' cb, SafeAt s0.constraints x → s0.ext.ctrl.gen x (dts n) z = some (ub, z') →
      s0.toBase.clipControl ub = .ok cb → SafeAt s0.constraints (pred x (dts n) cb))
    (n : Nat) (x : S) (s : SimplexObj K S P A)
    (h : closedLoop (explicitSimplex pred) pred dts us x0 s0 n = some (x, s)) : SafeAt s0.constraints x := by
  refine (closedLoop_invariant (fun x s => SafeAt s0.constraints x ∧ WF s ∧ s.enable = true ∧
      s.constraints = s0.constraints ∧ s.controlBoundsHigh = s0.controlBoundsHigh ∧
      s.controlBoundsLow = s0.controlBoundsLow ∧ s.ext.ctrl.gen = s0.ext.ctrl.gen)
    ⟨hsafe, hwf, hen, rfl, rfl, rfl, rfl⟩ ?_ n x s h).1
  clear h n x s
  rintro n x s c s' ⟨hx, hw, he, hcs, hhi, hlo, hgen⟩ hcall
  have hclip : ∀ u, s.toBase.clipControl u = s0.toBase.clipControl u := by
    intro u; unfold Base.clipControl; rw [hhi, hlo]
  have hw' : WF s' := by
    have := (filterControlCB_frame frame_getStateDefault (frameFilter_simplex (monFrame_explicit pred)) s (.array x)
      (dts n) (us n)).2 hw
    unfold explicitSimplex at hcall
    rwa [hcall] at this
  obtain ⟨⟨he', hcs', hhi', hlo'⟩, hd⟩ := simplex_ok (monFrame_explicit pred) he hcall
  have hgen' : s'.ext.ctrl.gen = s.ext.ctrl.gen := by
    rcases hd with ⟨_, _, z, _, hext⟩ | ⟨_, b, sm, sv, _, _, ⟨_, z, _, hext⟩ | ⟨_, _, hext⟩⟩ <;> rw [hext]
  refine ⟨?_, hw', he', hcs'.trans hcs, hhi'.trans hhi, hlo'.trans hlo, hgen'.trans hgen⟩
  have hb : ∀ z, IsBackup s x (dts n) c z → SafeAt s0.constraints (pred x (dts n) c) := by
    rintro z ⟨ub, hg, hc⟩
    rw [hgen] at hg
    rw [hclip] at hc
    exact hback n x _ ub z c hx hg hc
  rcases hd with ⟨_, _, z, hz, _⟩ | ⟨hnl, b, sm, sv, hm, hib, ⟨_, z, hz, _⟩ | ⟨hbf, hcu, _⟩⟩
  · exact hb z hz
  · exact hb z hz
  · -- accepted: the returned control is the desired one, whose predicted state is safe
    rw [hclip, hus n] at hcu
    obtain rfl : us n = c := by simpa using hcu
    rw [← hcs]
    exact (C13_explicit_decision pred s s' hw he x (dts n) (us n) (us n) hnl hcall).1.1 (hib.trans hbf)

/-- **C18**, progress: if moreover the backup law always produces a control that the bounds accept, no call of the closed
loop raises, so the loop really does run forever. -/
theorem C18_explicit_closed_loop_runs (pred : S → K → List K → S) (dts : Nat → K) (us : Nat → List K) (x0 : S)
    (s0 : SimplexObj K S P A) (hwf : WF s0) (hen : s0.enable = true)
    (hus : ∀ n, s0.toBase.clipControl (us n) = .ok (us n))
    (hlaw : ∀ n x z, ∃ ub z' cb, s0.ext.ctrl.gen x (dts n) z = some (ub, z') ∧ s0.toBase.clipControl ub = .ok cb)
    (n : Nat) : ∃ x s, closedLoop (explicitSimplex pred) pred dts us x0 s0 n = some (x, s) := by
  refine Exists.imp (fun x => Exists.imp fun s => And.left) (closedLoop_total (x0 := x0) (fc := explicitSimplex pred) (pred := pred) (dts := dts) (us := us)
      (fun (_ : S) (s : SimplexObj K S P A) => WF s ∧ s.enable = true ∧
      s.controlBoundsHigh = s0.controlBoundsHigh ∧
      s.controlBoundsLow = s0.controlBoundsLow ∧ s.ext.ctrl.gen = s0.ext.ctrl.gen)
    ⟨hwf, hen, rfl, rfl, rfl⟩ ?_ ?_ n)
  · rintro n x s c s' ⟨hw, he, hhi, hlo, hgen⟩ hcall
    have hw' : WF s' := by
      have := (filterControlCB_frame frame_getStateDefault (frameFilter_simplex (monFrame_explicit pred)) s (.array x)
        (dts n) (us n)).2 hw
      unfold explicitSimplex at hcall
      rwa [hcall] at this
    obtain ⟨⟨he', hcs', hhi', hlo'⟩, hd⟩ := simplex_ok (monFrame_explicit pred) he hcall
    have hgen' : s'.ext.ctrl.gen = s.ext.ctrl.gen := by
      rcases hd with ⟨_, _, z, _, hext⟩ | ⟨_, b, sm, sv, _, _, ⟨_, z, _, hext⟩ | ⟨_, _, hext⟩⟩ <;> rw [hext]
    exact ⟨hw', he', hhi'.trans hhi, hlo'.trans hlo, hgen'.trans hgen⟩
  · rintro n x s ⟨hw, he, hhi, hlo, hgen⟩
    have hclip : ∀ u, s.toBase.clipControl u = s0.toBase.clipControl u := by
      intro u; unfold Base.clipControl; rw [hhi, hlo]
    obtain ⟨ub, z', cb, hg, hc⟩ := hlaw n x s.ext.ctrl.state
    refine simplex_total (monFrame_explicit pred) he ?_ (by rw [hgen]; exact hg) (by rw [hclip]; exact hc)
      (by rw [hclip]; exact hus n)
    intro _
    obtain ⟨b, hb, _⟩ := constraintViolation_fresh (cachesFresh_unlatch (cachesFresh_prep hw x (us n))) [pred x (dts n) (us n)]
    exact ⟨b, _, by unfold explicitMonitor; rw [hb]⟩

/-- The toy module (constraint `x >= 3`, plant `x + dt*u`, bounds ±9, backup control 0) meets all hypotheses, with a
desired control that would leave the set at once. -/
example : WF (toySimplex (-9) 9) ∧ (toySimplex (-9) 9).enable = true ∧ SafeAt (toySimplex (-9) 9).constraints 4 ∧
    (toySimplex (-9) 9).toBase.clipControl [-5] = .ok [-5] ∧
    (∀ x z ub z' cb, SafeAt (toySimplex (-9) 9).constraints x → (toySimplex (-9) 9).ext.ctrl.gen x 1 z = some (ub, z') →
      (toySimplex (-9) 9).toBase.clipControl ub = .ok cb → SafeAt (toySimplex (-9) 9).constraints (toyPred x 1 cb)) ∧
    (closedLoop (explicitSimplex toyPred) toyPred (fun _ => 1) (fun _ => [-5]) 4 (toySimplex (-9) 9) 3).map Prod.fst
      = some 4 := by
  refine ⟨wf_toySimplex _ _, rfl, by rw [toy_safe_iff]; decide, rfl, ?_, rfl⟩
  intro x z ub z' cb hx hg hc
  rw [toy_safe_iff] at hx ⊢
  simp only [toySimplex, Option.some.injEq, Prod.mk.injEq] at hg
  obtain ⟨rfl, _⟩ := hg
  have : cb = [0] := by
    have h : (toySimplex (-9) 9).toBase.clipControl [0] = .ok [0] := rfl
    rw [h] at hc
    simpa using hc.symm
  subst this
  simpa [toyPred] using hx

end explicit

section implicit
variable [Field K] [LinearOrder K] [FloorRing K]

/-- **C19**, with a window that is long enough for the states met only: as `C19_implicit_closed_loop_safe` below, but `hwindow` is
asked only of the plant states in `good`, and the closed loop is known to stay in `good`. -/
theorem C19_implicit_closed_loop_safe_on (good : S → Prop) (pred : S → K → List K → S) (dt : K) (us : Nat → List K) (x0 : S)
    (s0 : SimplexObj K S P A) (hwf : WF s0) (hen : s0.enable = true) (hdt : dt ≠ 0)
    (claw : S → CState A → List K) (next : S → CState A → CState A)
    (hlaw : ∀ x z, ∃ ub, s0.ext.ctrl.gen x dt z = some (ub, next x z) ∧ s0.toBase.clipControl ub = .ok (claw x z))
    (hcopy0 : s0.ext.ctrl.state.copy = .ok s0.ext.ctrl.state)
    (hcopy : ∀ x z, z.copy = .ok z → (next x z).copy = .ok (next x z))
    (hus : ∀ n, s0.toBase.clipControl (us n) = .ok (us n))
    (hwindow : ∀ x z, good x → (∀ k ≤ (pyInt (s0.ext.backupWindow / dt)).toNat,
        SafeAt s0.constraints ((backupIter pred dt claw next)^[k] (x, z)).1) →
      ∀ k, SafeAt s0.constraints ((backupIter pred dt claw next)^[k] (x, z)).1)
    (hsafe : ∀ k, SafeAt s0.constraints ((backupIter pred dt claw next)^[k] (x0, s0.ext.ctrl.state)).1)
    (hgood : ∀ n x s, closedLoop (implicitSimplex pred) pred (fun _ => dt) us x0 s0 n = some (x, s) → good x)
    (n : Nat) : ∃ x s, closedLoop (implicitSimplex pred) pred (fun _ => dt) us x0 s0 n = some (x, s) ∧
      SafeAt s0.constraints x := by
  refine Exists.imp (fun x => Exists.imp fun s => And.imp_right fun hI => hI.2.2.2.2.2.2.2.2 0)
      (closedLoop_total' (x0 := x0) (fc := implicitSimplex pred) (pred := pred) (dts := fun _ => dt)
      (us := us) (s0 := s0)
      (fun (x : S) (s : SimplexObj K S P A) => WF s ∧ s.enable = true ∧ s.constraints = s0.constraints ∧
      s.controlBoundsHigh = s0.controlBoundsHigh ∧
      s.controlBoundsLow = s0.controlBoundsLow ∧ s.ext.ctrl.gen = s0.ext.ctrl.gen ∧
      s.ext.backupWindow = s0.ext.backupWindow ∧ s.ext.ctrl.state.copy = .ok s.ext.ctrl.state ∧
      ∀ k, SafeAt s0.constraints ((backupIter pred dt claw next)^[k] (x, s.ext.ctrl.state)).1)
    ⟨hwf, hen, rfl, rfl, rfl, rfl, rfl, hcopy0, hsafe⟩ ?_ ?_ n)
  · rintro n x s c s' ⟨hw, he, hcs, hhi, hlo, hgen, hwin, hcp, hx⟩ hcall hreach
    have hclip : ∀ u, s.toBase.clipControl u = s0.toBase.clipControl u := by
      intro u; unfold Base.clipControl; rw [hhi, hlo]
    have hw' : WF s' := by
      have := (filterControlCB_frame frame_getStateDefault (frameFilter_simplex (monFrame_implicit pred)) s (.array x)
        dt (us n)).2 hw
      unfold implicitSimplex at hcall
      rwa [hcall] at this
    obtain ⟨⟨he', hcs', hhi', hlo'⟩, hd⟩ := simplex_ok (monFrame_implicit pred) he hcall
    -- the state reached under a backup control is the next point of the backup trajectory
    have hb : ∀ z, IsBackup s x dt c z → z = next x s.ext.ctrl.state ∧ c = claw x s.ext.ctrl.state := by
      rintro z ⟨ub, hg, hc⟩
      obtain ⟨ub', hg', hc'⟩ := hlaw x s.ext.ctrl.state
      rw [hgen, hg'] at hg
      simp only [Option.some.injEq, Prod.mk.injEq] at hg
      obtain ⟨rfl, rfl⟩ := hg
      rw [hclip, hc'] at hc
      exact ⟨rfl, by simpa using hc.symm⟩
    have hbk : ∀ k, SafeAt s0.constraints ((backupIter pred dt claw next)^[k]
        (pred x dt (claw x s.ext.ctrl.state), next x s.ext.ctrl.state)).1 := fun k => by
      have := hx (k + 1)
      rwa [Function.iterate_succ_apply] at this
    rcases hd with ⟨_, _, z, hz, hext⟩ | ⟨hnl, b, sm, sv, hm, hib, ⟨_, z, hz, hext⟩ | ⟨hbf, hcu, hext⟩⟩
    · obtain ⟨rfl, rfl⟩ := hb z hz
      refine ⟨hw', he', hcs'.trans hcs, hhi'.trans hhi, hlo'.trans hlo, by rw [hext]; exact hgen,
        by rw [hext]; exact hwin, by rw [hext]; exact hcopy _ _ hcp, by rw [hext]; exact hbk⟩
    · obtain ⟨rfl, rfl⟩ := hb z hz
      refine ⟨hw', he', hcs'.trans hcs, hhi'.trans hhi, hlo'.trans hlo, by rw [hext]; exact hgen,
        by rw [hext]; exact hwin, by rw [hext]; exact hcopy _ _ hcp, by rw [hext]; exact hbk⟩
    · refine ⟨hw', he', hcs'.trans hcs, hhi'.trans hhi, hlo'.trans hlo, by rw [hext]; exact hgen,
        by rw [hext]; exact hwin, by rw [hext]; exact hcp, ?_⟩
      rw [hclip, hus n] at hcu
      obtain rfl : us n = c := by simpa using hcu
      rw [hext]
      apply hwindow _ _ (hgood (n + 1) _ _ hreach)
      intro k hk
      obtain ⟨b', s'', hm', hb'⟩ := implicitMonitor_eq pred
        (cachesFresh_unlatch (cachesFresh_prep hw x (us n))) hdt
        (claw := claw) (next := next) (by
          intro y z
          obtain ⟨ub, h1, h2⟩ := hlaw y z
          refine ⟨ub, ?_, ?_⟩
          · rw [unlatch_ext]; show s.ext.ctrl.gen y dt z = _; rw [hgen]; exact h1
          · rw [unlatch_toBase]; exact (hclip ub).trans h2)
        (by rw [unlatch_ext]; exact hcp) x (us n)
      rw [hm'] at hm
      simp only [Prod.mk.injEq, Except.ok.injEq] at hm
      rw [hm.1, hbf] at hb'
      by_contra hns
      refine absurd (hb'.2 ⟨k, ?_, ?_⟩) (by simp)
      · rw [unlatch_ext]; show k ≤ (pyInt (s.ext.backupWindow / dt)).toNat; rw [hwin]; exact hk
      · rw [unlatch_ext, unlatch_constraints, show (prep s x (us n)).constraints = s.constraints from rfl, hcs]
        exact hns
  · rintro n x s ⟨hw, he, hcs, hhi, hlo, hgen, hwin, hcp, hx⟩
    have hclip : ∀ u, s.toBase.clipControl u = s0.toBase.clipControl u := by
      intro u; unfold Base.clipControl; rw [hhi, hlo]
    obtain ⟨ub, hg, hc⟩ := hlaw x s.ext.ctrl.state
    refine simplex_total (monFrame_implicit pred) he ?_ (by rw [hgen]; exact hg) (by rw [hclip]; exact hc)
      (by rw [hclip]; exact hus n)
    intro _
    obtain ⟨b', s'', hm', hb'⟩ := implicitMonitor_eq pred
        (cachesFresh_unlatch (cachesFresh_prep hw x (us n))) hdt
        (claw := claw) (next := next) (by
          intro y z
          obtain ⟨ub, h1, h2⟩ := hlaw y z
          refine ⟨ub, ?_, ?_⟩
          · rw [unlatch_ext]; show s.ext.ctrl.gen y dt z = _; rw [hgen]; exact h1
          · rw [unlatch_toBase]; exact (hclip ub).trans h2)
        (by rw [unlatch_ext]; exact hcp) x (us n)
    exact ⟨b', s'', hm'⟩

/-- **C19**. Let the (clipped) backup law be total at step size `dt ≠ 0`: at `(x, z)` it applies `claw x z` and moves to
the controller state `next x z`. If every state of plant and controller whose backup trajectory satisfies the enabled
constraints over the backup window (the first `int(backup_window/dt)` backup steps) satisfies them forever (`hwindow`),
and the initial state has a backup trajectory that is safe forever, then for every sequence of desired controls inside the
bounds the closed loop satisfies every enabled constraint at every step — and no call raises. Any latch time, any stateful
controller. -/
theorem C19_implicit_closed_loop_safe (pred : S → K → List K → S) (dt : K) (us : Nat → List K) (x0 : S)
    (s0 : SimplexObj K S P A) (hwf : WF s0) (hen : s0.enable = true) (hdt : dt ≠ 0)
    (claw : S → CState A → List K) (next : S → CState A → CState A)
    (hlaw : ∀ x z, ∃ ub, s0.ext.ctrl.gen x dt z = some (ub, next x z) ∧ s0.toBase.clipControl ub = .ok (claw x z))
    (hcopy0 : s0.ext.ctrl.state.copy = .ok s0.ext.ctrl.state)
    (hcopy : ∀ x z, z.copy = .ok z → (next x z).copy = .ok (next x z))
    (hus : ∀ n, s0.toBase.clipControl (us n) = .ok (us n))
    (hwindow : ∀ x z, (∀ k ≤ (pyInt (s0.ext.backupWindow / dt)).toNat,
        SafeAt s0.constraints ((backupIter pred dt claw next)^[k] (x, z)).1) →
      ∀ k, SafeAt s0.constraints ((backupIter pred dt claw next)^[k] (x, z)).1)
    (hsafe : ∀ k, SafeAt s0.constraints ((backupIter pred dt claw next)^[k] (x0, s0.ext.ctrl.state)).1)
    (n : Nat) : ∃ x s, closedLoop (implicitSimplex pred) pred (fun _ => dt) us x0 s0 n = some (x, s) ∧
      SafeAt s0.constraints x :=
  C19_implicit_closed_loop_safe_on (fun _ => True) pred dt us x0 s0 hwf hen hdt claw next hlaw hcopy0 hcopy hus
    (fun x z _ => hwindow x z) hsafe (fun _ _ _ _ => trivial) n

/-- The hypotheses of C19 are met by `toyImplicit` (constraint `x <= 3`, window of 4 steps of size 1/2, law `-1` with a
counter as controller state) from 0, with the plant `x + dt*u`: backup trajectories decrease. -/
example : ∃ (claw : Rat → CState Nat → List Rat) (next : Rat → CState Nat → CState Nat),
    (∀ x z, ∃ ub, toyImplicit.ext.ctrl.gen x (1/2) z = some (ub, next x z) ∧
      toyImplicit.toBase.clipControl ub = .ok (claw x z)) ∧
    (∀ x z, z.copy = .ok z → (next x z).copy = .ok (next x z)) ∧
    (∀ x z, SafeAt toyImplicit.constraints x →
      ∀ k, SafeAt toyImplicit.constraints ((backupIter (fun x dt u => x + dt * u.headD 0) (1/2) claw next)^[k] (x, z)).1) ∧
    SafeAt toyImplicit.constraints 0 := by
  have hsafe : ∀ x : Rat, SafeAt toyImplicit.constraints x ↔ x ≤ 3 := by
    intro x; simp [SafeAt, toyImplicit]
  refine ⟨fun _ _ => [-1], fun _ z => match z with | .array n => .array (n + 1) | z => z, ?_, ?_, ?_, by rw [hsafe]; norm_num⟩
  · intro x z
    cases z <;> exact ⟨[-1], rfl, rfl⟩
  · intro x z h
    cases z <;> simp_all [CState.copy]
  · intro x z hx k
    rw [hsafe] at hx ⊢
    induction k generalizing x z with
    | zero => exact hx
    | succ k ih =>
      rw [Function.iterate_succ_apply]
      apply ih
      simp only [List.headD_cons]
      linarith

end implicit

end RTA
