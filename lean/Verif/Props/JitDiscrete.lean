import Verif.Lemmas.JitDiscrete

/-!
C85 and C86 for discrete ASIF modules. `discreteASIF` is the module that evaluates its constraints anew in every call,
`discreteASIFJ` the module as it runs. What the user changes between calls is the object together with the attributes that
`next_state_differentiable` reads.
-/
namespace RTA

section
variable {K S P X Sig : Type} [DecidableEq Sig]

/-- What the user does to the module as it runs. -/
def modifyDisc (m : DiscObj K S P × X → DiscObj K S P × X) (j : DiscJ Sig K S P X) : DiscJ Sig K S P X :=
  { obj := (m (j.obj, j.jit.extra)).1, jit := { j.jit with extra := (m (j.obj, j.jit.extra)).2 } }

/-- A call of the module that reads everything anew. -/
def callDisc [Field K] [Max K] [Min K] [HasSqrt K] [LT K] [DecidableLT K] (solver : NLPSolver K)
    (next : X → S → K → List K → S) (s : DiscObj K S P × X) (inp : InputState S) (dt : K) (u : List K) :
    Except PyErr (List K) × (DiscObj K S P × X) :=
  ((discreteASIF solver (next s.2) s.1 inp dt u).1, (discreteASIF solver (next s.2) s.1 inp dt u).2, s.2)

/-- **C85, discrete ASIF.** For every history in which only `params` and `enabled` of constraints change (and whatever else is
neither a constraint nor read by the dynamics), the module as it runs, with either value of `jit_enable`, answers as the one
that evaluates its constraints anew, and ends with the same attributes. -/
theorem C85_discrete_asif [Field K] [Max K] [Min K] [HasSqrt K] [LT K] [DecidableLT K] (solver : NLPSolver K)
    (sig : S → K → P → Sig) (next : X → S → K → List K → S) (jitEnable : Bool) (e : X) (s : DiscObj K S P)
    (l : List (Use (DiscObj K S P × X) K S))
    (hl : ∀ m, Use.modify m ∈ l → ∀ s, SameConstraints s.1.constraints (m s).1.constraints ∧ (m s).2 = s.2) :
    (useAll (discreteASIFJ solver sig next) modifyDisc l (DiscJ.compose jitEnable e s)).1 =
        (useAll (callDisc solver next) (fun m s => m s) l (s, e)).1 ∧
      (useAll (discreteASIFJ solver sig next) modifyDisc l (DiscJ.compose jitEnable e s)).2.obj =
        (useAll (callDisc solver next) (fun m s => m s) l (s, e)).2.1 := by
  have key : ∀ (j : DiscJ Sig K S P X) (s : DiscObj K S P), DiscSim e j s →
      (useAll (discreteASIFJ solver sig next) modifyDisc l j).1 = (useAll (callDisc solver next) (fun m s => m s) l (s, e)).1 ∧
      (useAll (discreteASIFJ solver sig next) modifyDisc l j).2.obj =
        (useAll (callDisc solver next) (fun m s => m s) l (s, e)).2.1 := by
    induction l with
    | nil => exact fun j s h => ⟨rfl, h.obj⟩
    | cons a l ih =>
      intro j s h
      have ih := ih fun m hm => hl m (List.mem_cons_of_mem _ hm)
      cases a with
      | call inp dt u =>
        obtain ⟨h1, h2⟩ := discreteASIFJ_sim solver sig next h inp dt u
        obtain ⟨h3, h4⟩ := ih _ _ h2
        refine ⟨?_, h4⟩
        simp only [useAll]
        rw [h1, h3]
        rfl
      | modify m =>
        obtain ⟨h1, h2⟩ := hl m (.head _) (s, e)
        have h3 : m (s, e) = ((m (s, e)).1, e) := Prod.ext rfl h2
        have hsim : DiscSim e (modifyDisc m j) (m (s, e)).1 := by
          obtain ⟨o, e', ts⟩ := j
          obtain ⟨rfl, rfl, ht⟩ := h
          exact ⟨rfl, h2, TracesOK.mono ht h1⟩
        have := ih _ _ hsim
        simp only [useAll]
        rw [h3]
        exact this
  exact key _ _ ⟨rfl, rfl, TracesOK.new e _⟩

/-- **C86 fails**, discrete ASIF, whatever `jit_enable` is. Once a module has answered a call, then for every later call, after
any history, in which the enabled constraints were enabled in the first call and have the same signature, the constraints
may be replaced by constraints with the same keys, `params`, `enabled` flags and slack (another bias, another strengthening
function, another barrier) and the attributes that the dynamics read by others: the answer stays what it would have been
without the change. -/
theorem C86_frozen_discrete [Field K] [Max K] [Min K] [HasSqrt K] [LT K] [DecidableLT K] (solver : NLPSolver K)
    (sig : S → K → P → Sig) (next : X → S → K → List K → S) (jitEnable : Bool) (e : X) (s : DiscObj K S P)
    (hen : s.enable = true) (x : S) (dt : K) (u v : List K)
    (h : (discreteASIFJ solver sig next (DiscJ.compose jitEnable e s) (.array x) dt u).1 = .ok v)
    (l : List (Use (DiscObj K S P × X) K S)) (j : DiscJ Sig K S P X)
    (hj : j = (useAll (discreteASIFJ solver sig next) modifyDisc l
      (discreteASIFJ solver sig next (DiscJ.compose jitEnable e s) (.array x) dt u).2).2)
    (cs : Dict (Constraint K S P)) (hcs : SameData j.obj.constraints cs)
    (hslack : List.Forall₂ (fun a b : Constraint K S P => a.slackPriorityScale = b.slackPriorityScale)
      (j.obj.constraints.map (·.2)) (cs.map (·.2))) (e' : X) (x' : S) (dt' : K) (u' : List K)
    (hsig : ∀ i p', i < j.obj.constraints.length → ((updateParams j.obj).params.map (·.2))[i]? = some p' →
      ((updateParams j.obj).constraintEnabled.map (·.2))[i]? = some true →
      i < s.constraints.length ∧ ((updateParams s).constraintEnabled.map (·.2))[i]? = some true ∧
        ∃ p, ((updateParams s).params.map (·.2))[i]? = some p ∧ sig x' dt' p' = sig x dt p) :
    (discreteASIFJ solver sig next { obj := { j.obj with constraints := cs }, jit := { j.jit with extra := e' } } (.array x') dt' u').1 =
      (discreteASIFJ solver sig next j (.array x') dt' u').1 := by
  have hinv : ∀ (l : List (Use (DiscObj K S P × X) K S)) (j : DiscJ Sig K S P X) i q, TracedAt j.jit.traces i q →
      TracedAt (useAll (discreteASIFJ solver sig next) modifyDisc l j).2.jit.traces i q := by
    intro l
    induction l with
    | nil => exact fun _ _ _ h => h
    | cons a l ih =>
      intro j i q h
      cases a with
      | call inp dt u => exact ih _ i q (discreteASIFJ_trace solver sig next j inp dt u h)
      | modify m => exact ih (modifyDisc m j) i q h
  have htr : ∀ i p', i < j.obj.constraints.length → ((updateParams j.obj).params.map (·.2))[i]? = some p' →
      ((updateParams j.obj).constraintEnabled.map (·.2))[i]? = some true → TracedAt j.jit.traces i (sig x' dt' p') := by
    intro i p' hi hp he
    obtain ⟨h1, h2, p, h3, h4⟩ := hsig i p' hi hp he
    rw [h4, hj]
    refine hinv l _ i _ ?_
    exact discreteASIFJ_traced solver sig next (j := DiscJ.compose jitEnable e s) hen h h3 h2 h1 (by simpa [DiscJ.compose] using h1)
  obtain ⟨vals, hp⟩ := preFilter_patchDisc hcs e' x' u'
  unfold discreteASIFJ
  refine filterJ_congr (K := K) ?_ ?_
  · rfl
  rw [hp]
  refine discFilterJ_patch solver sig next (preFilter j x' u').obj (patchDisc cs vals (preFilter j x' u').obj) j.jit.extra e'
    j.jit.traces rfl rfl rfl rfl hslack x' dt' u' ?_
  intro i p hi hp he
  rw [List.length_map] at hi
  exact htr i p hi hp he

end

/-! ### Witnesses -/

/-- `x ≥ 0` for a point with `x + u dt / m`. -/
def jitHalfLine : Constraint Rat Rat Unit :=
  { computeFn := fun x _ => x, phiFn := fun x _ => x, gradFn := fun _ _ => [1], alpha := some fun h => h, alphaNeg := none
    bias := 0, biasNegative := 0, slackPriorityScale := none, params := (), enabled := true, subsample := {} }

/-- A discrete ASIF module for `jitHalfLine`. -/
def jitDisc : DiscObj Rat Rat Unit :=
  { toBase := Base.init none none, constraints := [("half", jitHalfLine)], params := [("half", ())]
    constraintEnabled := [("half", true)], constraintValues := [], isStaleConstraints := true
    ext := { epsilon := 0, controlDim := 1, solverException := true, numSlack := 0, objWeight := [1]
             optLow := none, optHigh := none } }

/-- The dynamics with the mass. -/
def jitNext (mass x dt : Rat) (u : List Rat) : Rat := x + u.sum * dt / mass

/-- For one control and one constraint that is affine and increasing in it: the desired control or the end of the half-line. -/
def jitNLP : NLPSolver Rat := fun _ x0 fs _ =>
  match x0, fs with
  | [u], [f] => if 0 ≤ f [u] then ⟨true, [u]⟩ else ⟨true, [- f [0] / (f [1] - f [0])]⟩
  | x0, _ => ⟨true, x0⟩

/-- The user sets `bias` to `-1`. -/
def setDiscBias (s : DiscObj Rat Rat Unit × Rat) : DiscObj Rat Rat Unit × Rat :=
  ({ s.1 with constraints := s.1.constraints.map fun kc => (kc.1, { kc.2 with bias := -1 }) }, s.2)

/-- **C86 fails**, also with `jit_enable=False`: at `x = 1` with desired control `-10` the module answers `-1`. After the bias
is set to `-1` the answer must be `0`, and after the mass is set to 2 it must be `-2`; the module goes on with the old values. -/
theorem C86_refuted_discrete (jitEnable : Bool) :
    letI : HasSqrt Rat := ⟨fun x => x⟩
    (useAll (discreteASIFJ jitNLP (fun _ _ _ => 0) jitNext) modifyDisc
        [.call (.array 1) 1 [-10], .modify setDiscBias, .call (.array 1) 1 [-10]]
        (DiscJ.compose (Sig := Nat) jitEnable 1 jitDisc)).1 = [.ok [-1], .ok [-1]] ∧
    (useAll (callDisc jitNLP jitNext) (fun m s => m s)
        [.call (.array 1) 1 [-10], .modify setDiscBias, .call (.array 1) 1 [-10]] (jitDisc, 1)).1 = [.ok [-1], .ok [0]] ∧
    (useAll (discreteASIFJ jitNLP (fun _ _ _ => 0) jitNext) modifyDisc
        [.call (.array 1) 1 [-10], .modify (fun s => (s.1, 2)), .call (.array 1) 1 [-10]]
        (DiscJ.compose (Sig := Nat) jitEnable 1 jitDisc)).1 = [.ok [-1], .ok [-1]] ∧
    (useAll (callDisc jitNLP jitNext) (fun m s => m s)
        [.call (.array 1) 1 [-10], .modify (fun s => (s.1, 2)), .call (.array 1) 1 [-10]] (jitDisc, 1)).1 = [.ok [-1], .ok [-2]] := by
  cases jitEnable <;> decide +kernel

/-- Switching a constraint off, a change as in `C85_discrete_asif`, is seen. -/
example :
    letI : HasSqrt Rat := ⟨fun x => x⟩
    (useAll (discreteASIFJ jitNLP (fun _ _ _ => 0) jitNext) modifyDisc
        [.call (.array 1) 1 [-10],
          .modify (fun s => ({ s.1 with constraints := s.1.constraints.map fun kc => (kc.1, { kc.2 with enabled := false }) }, s.2)),
          .call (.array 1) 1 [-10]]
        (DiscJ.compose (Sig := Nat) true 1 jitDisc)).1 = [.ok [-1], .ok [-10]] := by
  decide +kernel

/-- The hypotheses of `C86_frozen_discrete` for the witness of `C86_refuted_discrete` (empty history in between). -/
example :
    letI : HasSqrt Rat := ⟨fun x => x⟩
    jitDisc.enable = true ∧
    (discreteASIFJ jitNLP (fun _ _ _ => 0) jitNext (DiscJ.compose (Sig := Nat) false 1 jitDisc) (.array 1) 1 [-10]).1 = .ok [-1] ∧
    SameData jitDisc.constraints (setDiscBias (jitDisc, 1)).1.constraints ∧
    ((updateParams jitDisc).constraintEnabled.map (·.2))[0]? = some true := by
  refine ⟨rfl, by decide +kernel, .cons ⟨rfl, rfl, rfl⟩ .nil, rfl⟩

end RTA
