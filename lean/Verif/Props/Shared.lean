import Verif.Spec.Shared
import Verif.Lemmas.Shared
import Mathlib.Data.Rat.Floor

/-!
C97: modules that are given the same backup controller object do not influence each other.

False for controllers with internal state (`C97_refuted_call`, `C97_refuted_reset`); holds for controllers without
(`C97_stateless_partial`), and for a module whose companion never intervenes (`C97_silent_partial`).
-/
namespace RTA
variable {K S P Q A : Type}

section
variable [Field K] [LinearOrder K] [FloorRing K]

/-- **C97, controllers without internal state.** Two simplex modules (explicit or implicit, with any prediction) that share such a
controller return, for every sequence of calls and resets of the two, what they return with controllers of their own. Missing:
controllers with internal state, see the refutations. -/
theorem C97_stateless_partial {f : SimplexCallFn K S P A} {g : SimplexCallFn K S Q A} (hf : IsSimplexCall f) (hg : IsSimplexCall g)
    (a : SimplexObj K S P A) (b : SimplexObj K S Q A) (hab : a.ext.ctrl = b.ext.ctrl) (hc : StatelessCtrl a.ext.ctrl)
    (l : List (SharedOp K S)) : runOps (sharedStep f g) l (a, b) = runOps (ownStep f g) l (a, b) := by
  induction l generalizing a b with
  | nil => rfl
  | cons op l ih =>
    have hstep : sharedStep f g op (a, b) = ownStep f g op (a, b) := by
      unfold sharedStep ownStep
      by_cases ho : op.second = true
      · rw [if_pos ho, if_pos ho]
        simp only
        have := op_keeps hg (hab ▸ hc) op
        rw [this, ← hab]
        rfl
      · rw [if_neg ho, if_neg ho]
        simp only
        have := op_keeps hf hc op
        rw [this, hab]
        rfl
    unfold runOps
    rw [hstep]
    congr 1
    have hnext : ∃ a' b', (ownStep f g op (a, b)).2 = (a', b') ∧ a'.ext.ctrl = a.ext.ctrl ∧ b'.ext.ctrl = b.ext.ctrl := by
      unfold ownStep
      by_cases ho : op.second = true
      · rw [if_pos ho]; exact ⟨_, _, rfl, rfl, op_keeps hg (hab ▸ hc) op⟩
      · rw [if_neg ho]; exact ⟨_, _, rfl, op_keeps hf hc op, rfl⟩
    obtain ⟨a', b', e, ea, eb⟩ := hnext
    rw [e]
    exact ih a' b' (ea.trans (hab.trans eb.symm)) (ea ▸ hc)

/-- **C97, silent companion.** As long as the second module is only called, returns controls and does not intervene, the first
module returns what it returns without the second one, whatever internal state the shared controller has. Missing: companions
that intervene or are reset, see the refutations. -/
theorem C97_silent_partial {f : SimplexCallFn K S P A} {g : SimplexCallFn K S Q A} (hf : IsSimplexCall f) (hg : IsSimplexCall g)
    (a : SimplexObj K S P A) (b : SimplexObj K S Q A) (hab : a.ext.ctrl = b.ext.ctrl) (l : List (SharedOp K S))
    (hsil : SecondSilent f g l (a, b)) : firstResults (runOps (sharedStep f g) l (a, b)) = aloneResults f l a := by
  suffices H : ∀ (l : List (SharedOp K S)) (a a' : SimplexObj K S P A) (b : SimplexObj K S Q A), UpToSaved a' a →
      a.ext.ctrl = b.ext.ctrl → SecondSilent f g l (a, b) →
      firstResults (runOps (sharedStep f g) l (a, b)) = aloneResults f l a' from
    H l a a b ⟨a.ext.ctrl.stateSaved, rfl⟩ hab hsil
  intro l
  induction l with
  | nil => intro a a' b _ _ _; rfl
  | cons op l ih =>
    intro a a' b hs hab hsil
    obtain ⟨h1, h2⟩ := hsil
    by_cases ho : op.second = true
    · obtain ⟨⟨inp, dt, u, rfl⟩, ⟨c, hc⟩, hi⟩ := h1 ho
      have e : sharedStep f g (.call true inp dt u) (a, b) =
          ((g b inp dt u).1.map some, (a.setCtrl (g b inp dt u).2.ext.ctrl, (g b inp dt u).2)) := rfl
      rw [e] at hc hi h2
      obtain ⟨c', hc'⟩ : ∃ c', (g b inp dt u).1 = .ok c' := by
        cases hq : (g b inp dt u).1 with
        | error er => rw [hq] at hc; simp [Except.map] at hc
        | ok c' => exact ⟨c', rfl⟩
      obtain ⟨z, hz⟩ := silent_ctrl hg hc' hi
      have hstep : firstResults (runOps (sharedStep f g) (.call true inp dt u :: l) (a, b)) =
          firstResults (runOps (sharedStep f g) l (a.setCtrl (g b inp dt u).2.ext.ctrl, (g b inp dt u).2)) := rfl
      rw [hstep]
      refine (ih _ a' _ ?_ rfl h2).trans rfl
      obtain ⟨w, rfl⟩ := hs
      refine ⟨z, ?_⟩
      rw [hz, ← hab]
      rfl
    · have hstep : firstResults (runOps (sharedStep f g) (op :: l) (a, b)) =
          (sharedStep f g op (a, b)).1 :: firstResults (runOps (sharedStep f g) l (sharedStep f g op (a, b)).2) := by
        simp [runOps, firstResults, ho]
      have e : sharedStep f g op (a, b) = ((simplexOp f a op).1, ((simplexOp f a op).2, b.setCtrl (simplexOp f a op).2.ext.ctrl)) := by
        unfold sharedStep
        rw [if_neg ho]
      rw [hstep]
      rw [e] at h2 ⊢
      obtain ⟨k1, k2⟩ := op_saved hf hs op
      unfold aloneResults
      rw [if_neg ho, k1]
      simp only [List.cons.injEq, true_and]
      exact ih _ _ _ k2 rfl h2

end

/-! ### Witnesses -/

/-- `x ≤ 0`. -/
def shC : Constraint Rat Rat Unit :=
  { computeFn := fun x _ => -x, phiFn := fun x _ => -x, gradFn := fun _ _ => [-1], alpha := none, alphaNeg := none
    bias := 0, biasNegative := 0, slackPriorityScale := none, params := (), enabled := true, subsample := {} }

/-- A controller that counts its uses and returns the count. -/
def shCtrl : BackupController Rat Rat Rat :=
  { gen := fun _ _ z => match z with
      | .array n => some ([n], .array (n + 1))
      | _ => none
    stateInitial := .array 0, stateSaved := .none, state := .array 0 }

/-- A simplex module for `x ≤ 0` with the counting controller. -/
def shObj : SimplexObj Rat Rat Unit Rat :=
  { toBase := Base.init none none, constraints := [("c", shC)], params := [("c", ())]
    constraintEnabled := [("c", true)], constraintValues := [], isStaleConstraints := true
    ext := { latchTime := 0, latchedElapsed := 0, backupWindow := 2, ctrl := shCtrl } }

/-- One step of `x + u dt`. -/
def shPred (x dt : Rat) (u : List Rat) : Rat := x + u.sum * dt

theorem sh_init : BackupController.init shCtrl.gen (.array 0) = .ok shCtrl := rfl

/-- **C97 is false for controllers with internal state**, calls: both modules must intervene at `x = 1`; the first one's
intervention advances the controller, so the second one returns `1`, with a controller of its own `0`. -/
theorem C97_refuted_call :
    (runOps (sharedStep (explicitSimplex shPred) (explicitSimplex shPred))
      [.call false (.array 1) 1 [5], .call true (.array 1) 1 [5]] (shObj, shObj)) =
        [(false, .ok (some [0])), (true, .ok (some [1]))] ∧
    (runOps (ownStep (explicitSimplex shPred) (explicitSimplex shPred))
      [.call false (.array 1) 1 [5], .call true (.array 1) 1 [5]] (shObj, shObj)) =
        [(false, .ok (some [0])), (true, .ok (some [0]))] := by
  constructor <;> decide +kernel

/-- **C97 is false for controllers with internal state**, resets: resetting the second module starts the first one's backup law
anew in the middle of an intervention. -/
theorem C97_refuted_reset :
    (runOps (sharedStep (explicitSimplex shPred) (explicitSimplex shPred))
      [.call false (.array 1) 1 [5], .reset true, .call false (.array 1) 1 [5]] (shObj, shObj)) =
        [(false, .ok (some [0])), (true, .ok none), (false, .ok (some [0]))] ∧
    (runOps (ownStep (explicitSimplex shPred) (explicitSimplex shPred))
      [.call false (.array 1) 1 [5], .reset true, .call false (.array 1) 1 [5]] (shObj, shObj)) =
        [(false, .ok (some [0])), (true, .ok none), (false, .ok (some [1]))] := by
  constructor <;> decide +kernel

/-- The same module with the constant law `-1`. -/
def shConst : SimplexObj Rat Rat Unit Rat :=
  { shObj with ext := { shObj.ext with ctrl := { gen := fun _ _ z => some ([-1], z), stateInitial := .none, stateSaved := .none,
                                                 state := .none } } }

/-- The constant law is stateless in the sense of `C97_stateless_partial`. -/
example : StatelessCtrl shConst.ext.ctrl :=
  ⟨⟨rfl, fun _ _ _ _ h => by simp [shConst] at h; exact h.2.symm⟩, rfl, rfl⟩

/-- Non-vacuity of `C97_silent_partial`: an implicit module looks ahead with the shared counter and stays silent while the
explicit one intervenes twice. -/
example : SecondSilent (explicitSimplex shPred) (implicitSimplex shPred)
      [.call false (.array 1) 1 [5], .call true (.array (-20)) 1 [5], .call false (.array 1) 1 [5]] (shObj, shObj) ∧
    firstResults (runOps (sharedStep (explicitSimplex shPred) (implicitSimplex shPred))
      [.call false (.array 1) 1 [5], .call true (.array (-20)) 1 [5], .call false (.array 1) 1 [5]] (shObj, shObj)) =
        [.ok (some [0]), .ok (some [1])] := by
  refine ⟨⟨fun h => absurd h (by decide), fun _ => ⟨⟨_, _, _, rfl⟩, ⟨some [5], by decide +kernel⟩, by decide +kernel⟩,
    fun h => absurd h (by decide), trivial⟩, by decide +kernel⟩

end RTA
