import Verif.Props.ClosedLoop

/-!
C18 with a backup law that is known to be safe only where the closed loop goes, for explicit and implicit simplex modules.
-/
namespace RTA
variable {K S P A : Type}

/-- Runs of finite length with an invariant that depends on the step. -/
theorem closedLoop_upto {σ : Type} {fc : σ → InputState S → K → List K → Except PyErr (List K) × σ}
    {pred : S → K → List K → S} {dts : Nat → K} {us : Nat → List K} {x0 : S} {s0 : σ} (N : Nat) (I : Nat → S → σ → Prop)
    (h0 : I 0 x0 s0)
    (hstep : ∀ n, n < N → ∀ x s c s', closedLoop fc pred dts us x0 s0 n = some (x, s) → I n x s → fc s (.array x) (dts n) (us n) = (.ok c, s') →
      I (n + 1) (pred x (dts n) c) s')
    (htot : ∀ n, n < N → ∀ x s, I n x s → ∃ c s', fc s (.array x) (dts n) (us n) = (.ok c, s'))
    (n : Nat) (hn : n ≤ N) : ∃ x s, closedLoop fc pred dts us x0 s0 n = some (x, s) ∧ I n x s := by
  induction n with
  | zero => exact ⟨x0, s0, rfl, h0⟩
  | succ n ih =>
    obtain ⟨x, s, hr, hI⟩ := ih (by omega)
    obtain ⟨c, s', hc⟩ := htot n (by omega) x s hI
    have hn' : closedLoop fc pred dts us x0 s0 (n + 1) = some (pred x (dts n) c, s') := by simp only [closedLoop, hr, hc]
    exact ⟨pred x (dts n) c, s', hn', hstep n (by omega) x s c s' hr hI hc⟩

section explicit
variable [AddCommMonoid K] [LinearOrder K]

/-- **C18**, for the states met: as `C18_explicit_closed_loop_safe`, but for `N` steps, the backup law has to keep the enabled constraints only
from states in `good`, and whatever the filter answers leads from good states to good states as long as the result is safe. The loop runs for `N`
steps and is safe at each of them. -/
theorem C18_explicit_closed_loop_safe_upto (N : Nat) (good : Nat → S → Prop) (pred : S → K → List K → S) (dts : Nat → K) (us : Nat → List K)
    (x0 : S) (s0 : SimplexObj K S P A) (hwf : WF s0) (hen : s0.enable = true) (hsafe : SafeAt s0.constraints x0)
    (hus : ∀ n, s0.toBase.clipControl (us n) = .ok (us n))
    (hlaw : ∀ n, n < N → ∀ x z, good n x → ∃ ub z' cb, s0.ext.ctrl.gen x (dts n) z = some (ub, z') ∧ s0.toBase.clipControl ub = .ok cb)
    (hback : ∀ n, n < N → ∀ x z ub z' cb, good n x → SafeAt s0.constraints x → s0.ext.ctrl.gen x (dts n) z = some (ub, z') →
      s0.toBase.clipControl ub = .ok cb → SafeAt s0.constraints (pred x (dts n) cb))
    (hgood0 : good 0 x0)
    (hgood : ∀ n, n < N → ∀ x s c s', closedLoop (explicitSimplex pred) pred dts us x0 s0 n = some (x, s) → good n x → SafeAt s0.constraints x →
      explicitSimplex pred s (.array x) (dts n) (us n) = (.ok c, s') → s0.toBase.clipControl c = .ok c →
      SafeAt s0.constraints (pred x (dts n) c) → good (n + 1) (pred x (dts n) c))
    (n : Nat) (hn : n ≤ N) : ∃ x s, closedLoop (explicitSimplex pred) pred dts us x0 s0 n = some (x, s) ∧ SafeAt s0.constraints x ∧ good n x := by
  refine Exists.imp (fun x => Exists.imp fun s => And.imp_right fun hI => ⟨hI.2.1, hI.1⟩)
    (closedLoop_upto N (fun n x s => good n x ∧ SafeAt s0.constraints x ∧ WF s ∧ s.enable = true ∧
      s.constraints = s0.constraints ∧ s.controlBoundsHigh = s0.controlBoundsHigh ∧
      s.controlBoundsLow = s0.controlBoundsLow ∧ s.ext.ctrl.gen = s0.ext.ctrl.gen)
    ⟨hgood0, hsafe, hwf, hen, rfl, rfl, rfl, rfl⟩ ?_ ?_ n hn)
  · rintro n hnN x s c s' hreach ⟨hgx, hx, hw, he, hcs, hhi, hlo, hgen⟩ hcall
    have hclip : ∀ u, s.toBase.clipControl u = s0.toBase.clipControl u := by
      intro u; unfold Base.clipControl; rw [hhi, hlo]
    have hw' : WF s' := by
      have := (filterControlCB_frame frame_getStateDefault (frameFilter_simplex (monFrame_explicit pred)) s (.array x)
        (dts n) (us n)).2 hw
      unfold explicitSimplex at hcall
      rwa [hcall] at this
    obtain ⟨⟨he', hcs', hhi', hlo'⟩, hd⟩ := simplex_ok (monFrame_explicit pred) he hcall
    have hgen' : s'.ext.ctrl.gen = s.ext.ctrl.gen := by
      rcases hd with ⟨_, _, z, _, hext⟩ | ⟨_, b, sm, sv, _, _, ⟨_, z, _, hext⟩ | ⟨_, _, hext⟩⟩ <;> rw [hext]
    have hb : ∀ z, IsBackup s x (dts n) c z → s0.toBase.clipControl c = .ok c ∧ SafeAt s0.constraints (pred x (dts n) c) := by
      rintro z ⟨ub, hg, hc⟩
      rw [hgen] at hg
      rw [hclip] at hc
      exact ⟨C05_clip_idempotent _ _ _ hc, hback n hnN x _ ub z c hgx hx hg hc⟩
    have hS : s0.toBase.clipControl c = .ok c ∧ SafeAt s0.constraints (pred x (dts n) c) := by
      rcases hd with ⟨_, _, z, hz, _⟩ | ⟨hnl, b, sm, sv, hm, hib, ⟨_, z, hz, _⟩ | ⟨hbf, hcu, _⟩⟩
      · exact hb z hz
      · exact hb z hz
      · rw [hclip, hus n] at hcu
        obtain rfl : us n = c := by simpa using hcu
        refine ⟨hus n, ?_⟩
        rw [← hcs]
        exact (C13_explicit_decision pred s s' hw he x (dts n) (us n) (us n) hnl hcall).1.1 (hib.trans hbf)
    exact ⟨hgood n hnN x s c s' hreach hgx hx hcall hS.1 hS.2, hS.2, hw', he', hcs'.trans hcs, hhi'.trans hhi, hlo'.trans hlo, hgen'.trans hgen⟩
  · rintro n hnN x s ⟨hgx, hx, hw, he, hcs, hhi, hlo, hgen⟩
    have hclip : ∀ u, s.toBase.clipControl u = s0.toBase.clipControl u := by
      intro u; unfold Base.clipControl; rw [hhi, hlo]
    obtain ⟨ub, z', cb, hg, hc⟩ := hlaw n hnN x s.ext.ctrl.state hgx
    refine simplex_total (monFrame_explicit pred) he ?_ (by rw [hgen]; exact hg) (by rw [hclip]; exact hc)
      (by rw [hclip]; exact hus n)
    intro _
    obtain ⟨b, hb, _⟩ := constraintViolation_fresh (cachesFresh_unlatch (cachesFresh_prep hw x (us n))) [pred x (dts n) (us n)]
    exact ⟨b, _, by unfold explicitMonitor; rw [hb]⟩

/-- **C18**, for the states met, forever: the closed loop is known to stay in `good`. -/
theorem C18_explicit_closed_loop_safe_on (good : S → Prop) (pred : S → K → List K → S) (dts : Nat → K) (us : Nat → List K) (x0 : S)
    (s0 : SimplexObj K S P A) (hwf : WF s0) (hen : s0.enable = true) (hsafe : SafeAt s0.constraints x0)
    (hus : ∀ n, s0.toBase.clipControl (us n) = .ok (us n))
    (hlaw : ∀ n x z, good x → ∃ ub z' cb, s0.ext.ctrl.gen x (dts n) z = some (ub, z') ∧ s0.toBase.clipControl ub = .ok cb)
    (hback : ∀ n x z ub z' cb, good x → SafeAt s0.constraints x → s0.ext.ctrl.gen x (dts n) z = some (ub, z') →
      s0.toBase.clipControl ub = .ok cb → SafeAt s0.constraints (pred x (dts n) cb))
    (hgood : ∀ n x s, closedLoop (explicitSimplex pred) pred dts us x0 s0 n = some (x, s) → good x)
    (n : Nat) : ∃ x s, closedLoop (explicitSimplex pred) pred dts us x0 s0 n = some (x, s) ∧ SafeAt s0.constraints x := by
  obtain ⟨x, s, h, hs, -⟩ := C18_explicit_closed_loop_safe_upto n (fun _ => good) pred dts us x0 s0 hwf hen hsafe hus (fun n _ => hlaw n)
    (fun n _ => hback n) (hgood 0 x0 s0 rfl) (fun n _ x s c s' hr _ _ hc _ _ => hgood (n + 1) _ s' (by simp only [closedLoop, hr, hc])) n le_rfl
  exact ⟨x, s, h, hs⟩

end explicit

section implicit
variable [Field K] [LinearOrder K] [FloorRing K]

/-- **C18 for implicit simplex modules.** A backup law that keeps the enabled constraints from the states in `good` makes the closed loop of an
implicit module safe as well, whatever its window, as long as the loop stays in `good`. For `N` steps. -/
theorem C18_implicit_closed_loop_safe_upto (N : Nat) (good : Nat → S → Prop) (pred : S → K → List K → S) (dt : K) (us : Nat → List K) (x0 : S)
    (s0 : SimplexObj K S P A) (hwf : WF s0) (hen : s0.enable = true) (hdt : dt ≠ 0) (hsafe : SafeAt s0.constraints x0)
    (claw : S → CState A → List K) (next : S → CState A → CState A)
    (hlaw : ∀ x z, ∃ ub, s0.ext.ctrl.gen x dt z = some (ub, next x z) ∧ s0.toBase.clipControl ub = .ok (claw x z))
    (hcopy0 : s0.ext.ctrl.state.copy = .ok s0.ext.ctrl.state)
    (hcopy : ∀ x z, z.copy = .ok z → (next x z).copy = .ok (next x z))
    (hus : ∀ n, s0.toBase.clipControl (us n) = .ok (us n))
    (hback : ∀ n, n < N → ∀ x z, good n x → SafeAt s0.constraints x → SafeAt s0.constraints (pred x dt (claw x z)))
    (hgood0 : good 0 x0)
    (hgood : ∀ n, n < N → ∀ x s c s', closedLoop (implicitSimplex pred) pred (fun _ => dt) us x0 s0 n = some (x, s) → good n x →
      SafeAt s0.constraints x → implicitSimplex pred s (.array x) dt (us n) = (.ok c, s') → s0.toBase.clipControl c = .ok c →
      SafeAt s0.constraints (pred x dt c) → good (n + 1) (pred x dt c))
    (n : Nat) (hn : n ≤ N) : ∃ x s, closedLoop (implicitSimplex pred) pred (fun _ => dt) us x0 s0 n = some (x, s) ∧
      SafeAt s0.constraints x ∧ good n x := by
  refine Exists.imp (fun x => Exists.imp fun s => And.imp_right fun hI => ⟨hI.2.2.2.2.2.2.2.2.2, hI.2.2.2.2.2.2.2.2.1⟩)
      (closedLoop_upto (x0 := x0) (fc := implicitSimplex pred) (pred := pred) (dts := fun _ => dt)
      (us := us) (s0 := s0) N
      (fun n (x : S) (s : SimplexObj K S P A) => WF s ∧ s.enable = true ∧ s.constraints = s0.constraints ∧
      s.controlBoundsHigh = s0.controlBoundsHigh ∧
      s.controlBoundsLow = s0.controlBoundsLow ∧ s.ext.ctrl.gen = s0.ext.ctrl.gen ∧
      s.ext.backupWindow = s0.ext.backupWindow ∧ s.ext.ctrl.state.copy = .ok s.ext.ctrl.state ∧ good n x ∧ SafeAt s0.constraints x)
    ⟨hwf, hen, rfl, rfl, rfl, rfl, rfl, hcopy0, hgood0, hsafe⟩ ?_ ?_ n hn)
  · rintro n hnN x s c s' hreach ⟨hw, he, hcs, hhi, hlo, hgen, hwin, hcp, hgx, hx⟩ hcall
    have hclip : ∀ u, s.toBase.clipControl u = s0.toBase.clipControl u := by
      intro u; unfold Base.clipControl; rw [hhi, hlo]
    have hw' : WF s' := by
      have := (filterControlCB_frame frame_getStateDefault (frameFilter_simplex (monFrame_implicit pred)) s (.array x)
        dt (us n)).2 hw
      unfold implicitSimplex at hcall
      rwa [hcall] at this
    obtain ⟨⟨he', hcs', hhi', hlo'⟩, hd⟩ := simplex_ok (monFrame_implicit pred) he hcall
    have hb : ∀ z, IsBackup s x dt c z → z = next x s.ext.ctrl.state ∧ c = claw x s.ext.ctrl.state := by
      rintro z ⟨ub, hg, hc⟩
      obtain ⟨ub', hg', hc'⟩ := hlaw x s.ext.ctrl.state
      rw [hgen, hg'] at hg
      simp only [Option.some.injEq, Prod.mk.injEq] at hg
      obtain ⟨rfl, rfl⟩ := hg
      rw [hclip, hc'] at hc
      exact ⟨rfl, by simpa using hc.symm⟩
    have hbs : ∀ z, IsBackup s x dt c z → good (n + 1) (pred x dt c) ∧ SafeAt s0.constraints (pred x dt c) := by
      intro z hz
      obtain ⟨-, rfl⟩ := hb z hz
      have hS := hback n hnN x s.ext.ctrl.state hgx hx
      obtain ⟨ub, -, hc⟩ := hlaw x s.ext.ctrl.state
      exact ⟨hgood n hnN x s _ s' hreach hgx hx hcall (C05_clip_idempotent _ _ _ hc) hS, hS⟩
    rcases hd with ⟨_, _, z, hz, hext⟩ | ⟨hnl, b, sm, sv, hm, hib, ⟨_, z, hz, hext⟩ | ⟨hbf, hcu, hext⟩⟩
    · have hgs := hbs z hz
      obtain ⟨rfl, rfl⟩ := hb z hz
      exact ⟨hw', he', hcs'.trans hcs, hhi'.trans hhi, hlo'.trans hlo, by rw [hext]; exact hgen,
        by rw [hext]; exact hwin, by rw [hext]; exact hcopy _ _ hcp, hgs.1, hgs.2⟩
    · have hgs := hbs z hz
      obtain ⟨rfl, rfl⟩ := hb z hz
      exact ⟨hw', he', hcs'.trans hcs, hhi'.trans hhi, hlo'.trans hlo, by rw [hext]; exact hgen,
        by rw [hext]; exact hwin, by rw [hext]; exact hcopy _ _ hcp, hgs.1, hgs.2⟩
    · rw [hclip, hus n] at hcu
      obtain rfl : us n = c := by simpa using hcu
      suffices hS : SafeAt s0.constraints (pred x dt (us n)) from
        ⟨hw', he', hcs'.trans hcs, hhi'.trans hhi, hlo'.trans hlo, by rw [hext]; exact hgen,
          by rw [hext]; exact hwin, by rw [hext]; exact hcp, hgood n hnN x s _ s' hreach hgx hx hcall (hus n) hS, hS⟩
      obtain ⟨b', s'', hm', hb'⟩ := implicitMonitor_eq pred
        (cachesFresh_unlatch (cachesFresh_prep hw x (us n))) hdt
        (claw := claw) (next := next) (by
          intro y z
          obtain ⟨ub, h1, h2⟩ := hlaw y z
          refine ⟨ub, ?_, ?_⟩
          · rw [unlatch_ext]; show s.ext.ctrl.gen y dt z = _; rw [hgen]; exact h1
          · rw [unlatch_toBase]; exact (hclip ub).trans h2)
        (by rw [unlatch_ext]; exact hcp) x (us n)
      rw [hm'] at hm
      simp only [Prod.mk.injEq, Except.ok.injEq] at hm
      rw [hm.1, hbf] at hb'
      by_contra hns
      refine absurd (hb'.2 ⟨0, Nat.zero_le _, ?_⟩) (by simp)
      rw [unlatch_constraints, show (prep s x (us n)).constraints = s.constraints from rfl, hcs]
      exact hns
  · rintro n hnN x s ⟨hw, he, hcs, hhi, hlo, hgen, hwin, hcp, hgx, hx⟩
    have hclip : ∀ u, s.toBase.clipControl u = s0.toBase.clipControl u := by
      intro u; unfold Base.clipControl; rw [hhi, hlo]
    obtain ⟨ub, hg, hc⟩ := hlaw x s.ext.ctrl.state
    refine simplex_total (monFrame_implicit pred) he ?_ (by rw [hgen]; exact hg) (by rw [hclip]; exact hc)
      (by rw [hclip]; exact hus n)
    intro _
    obtain ⟨b', s'', hm', hb'⟩ := implicitMonitor_eq pred
        (cachesFresh_unlatch (cachesFresh_prep hw x (us n))) hdt
        (claw := claw) (next := next) (by
          intro y z
          obtain ⟨ub, h1, h2⟩ := hlaw y z
          refine ⟨ub, ?_, ?_⟩
          · rw [unlatch_ext]; show s.ext.ctrl.gen y dt z = _; rw [hgen]; exact h1
          · rw [unlatch_toBase]; exact (hclip ub).trans h2)
        (by rw [unlatch_ext]; exact hcp) x (us n)
    exact ⟨b', s'', hm'⟩

/-- **C18 for implicit simplex modules**, forever. -/
theorem C18_implicit_closed_loop_safe_on (good : S → Prop) (pred : S → K → List K → S) (dt : K) (us : Nat → List K) (x0 : S)
    (s0 : SimplexObj K S P A) (hwf : WF s0) (hen : s0.enable = true) (hdt : dt ≠ 0) (hsafe : SafeAt s0.constraints x0)
    (claw : S → CState A → List K) (next : S → CState A → CState A)
    (hlaw : ∀ x z, ∃ ub, s0.ext.ctrl.gen x dt z = some (ub, next x z) ∧ s0.toBase.clipControl ub = .ok (claw x z))
    (hcopy0 : s0.ext.ctrl.state.copy = .ok s0.ext.ctrl.state)
    (hcopy : ∀ x z, z.copy = .ok z → (next x z).copy = .ok (next x z))
    (hus : ∀ n, s0.toBase.clipControl (us n) = .ok (us n))
    (hback : ∀ x z, good x → SafeAt s0.constraints x → SafeAt s0.constraints (pred x dt (claw x z)))
    (hgood : ∀ n x s, closedLoop (implicitSimplex pred) pred (fun _ => dt) us x0 s0 n = some (x, s) → good x)
    (n : Nat) : ∃ x s, closedLoop (implicitSimplex pred) pred (fun _ => dt) us x0 s0 n = some (x, s) ∧
      SafeAt s0.constraints x := by
  obtain ⟨x, s, h, hs, -⟩ := C18_implicit_closed_loop_safe_upto n (fun _ => good) pred dt us x0 s0 hwf hen hdt hsafe claw next hlaw hcopy0 hcopy
    hus (fun _ _ => hback) (hgood 0 x0 s0 rfl) (fun n _ x s c s' hr _ _ hc _ _ => hgood (n + 1) _ s' (by simp only [closedLoop, hr, hc])) n le_rfl
  exact ⟨x, s, h, hs⟩

end implicit
end RTA
