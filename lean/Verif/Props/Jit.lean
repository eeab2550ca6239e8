import Verif.Lemmas.JitOff
import Mathlib.Algebra.Order.Ring.Rat
import Mathlib.Data.Rat.Floor

/-!
C85 (compiling does not change what a module does), C86 (which changes of attributes a compiled module sees) and C87 (backup
controllers with internal state under compilation).
-/
namespace RTA

section
variable {K S P A X Sig : Type} [DecidableEq Sig]

/-! ### C85 -/

/-- **C85, explicit Simplex.** For every history of calls and of changes of attributes that leave the constraints as they are up
to `params` and `enabled`, a compiled module returns the same results and reaches the same attributes as the module with
`jit_enable=False`, whatever the compilation options and the signatures are. A compiled backup controller has no internal state
and is left as it is by the changes. -/
theorem C85_explicit_simplex [Max K] [Min K] [Add K] [Zero K] [LE K] [DecidableLE K] [LT K] [DecidableLT K]
    (sig : SimplexSig Sig K S P) (pred : S → K → List K → S) (jitEnable ctrlJit : Bool) (opts : Dict Bool)
    (s : SimplexObj K S P A) (hs : jitEnable = true → ctrlJit = true → NoCtrlState s.ext.ctrl) (l : List (Use (SimplexObj K S P A) K S))
    (hl : ∀ m, Use.modify m ∈ l → ∀ s : SimplexObj K S P A, SameConstraints s.constraints (m s).constraints ∧
      (jitEnable = true → ctrlJit = true → (m s).ext.ctrl = s.ext.ctrl)) :
    (useAll (explicitSimplexJ sig pred) (fun m j => { j with obj := m j.obj }) l (SimplexJ.compose jitEnable ctrlJit opts s)).1 =
        (useAll (explicitSimplex pred) (fun m s => m s) l s).1 ∧
      (useAll (explicitSimplexJ sig pred) (fun m j => { j with obj := m j.obj }) l (SimplexJ.compose jitEnable ctrlJit opts s)).2.obj =
        (useAll (explicitSimplex pred) (fun m s => m s) l s).2 := by
  let Sim : SimplexJ Sig K S P A → SimplexObj K S P A → Prop := fun j s => SimplexSim j s ∧ j.jit.integrateJit = false ∧
    (j.jit.ctrlJit = true → jitEnable = true ∧ ctrlJit = true)
  refine useAll_sim (Sim := Sim) (fun _ _ h => h.1.obj) (fun j s inp dt u h => ?_) l (fun m hm j s h => ⟨?_, h.2⟩) ⟨?_, rfl, ?_⟩
  · have h1 := explicitSimplexJ_sim sig pred h.1 inp dt u
    have h2 := explicitSimplexJ_flags sig pred j inp dt u
    exact ⟨h1.1, h1.2, h2.2.2.trans h.2.1, fun hj => h.2.2 (h2.2.1 ▸ hj)⟩
  · rw [h.1.obj]
    refine h.1.change (hl m hm s).1 (fun hj => ?_) (fun hi => absurd (h.2.1.symm.trans hi) (by simp))
    rcases hj with hj | hj
    · exact (hl m hm s).2 (h.2.2 hj).1 (h.2.2 hj).2
    · exact absurd (h.2.1.symm.trans hj) (by simp)
  · have hc : (SimplexJ.compose (Sig := Sig) jitEnable ctrlJit opts s).jit.ctrlJit = true → jitEnable = true ∧ ctrlJit = true := by
      intro h; simpa [SimplexJ.compose] using h
    exact ⟨⟨rfl, fun hj => hs (hc hj).1 (hc hj).2, fun _ p hp => absurd hp (by simp [SimplexJ.compose])⟩,
      fun _ p hp => absurd hp (by simp [SimplexJ.compose]), fun hi => absurd hi (by simp [SimplexJ.compose]),
      fun _ p hp => absurd hp (by simp [SimplexJ.compose])⟩
  · intro h; simpa [SimplexJ.compose] using h

/-- **C85, implicit Simplex.** The same; a compiled prediction (option `integrate`) needs a controller without internal state, and
changes that also leave the backup controller, the backup window and the control bounds as they are. -/
theorem C85_implicit_simplex [Field K] [LinearOrder K] [FloorRing K] (sig : SimplexSig Sig K S P)
    (pred : S → K → List K → S) (jitEnable ctrlJit : Bool) (opts : Dict Bool) (s : SimplexObj K S P A)
    (hs : jitEnable = true → ctrlJit = true → NoCtrlState s.ext.ctrl)
    (hi : jitOption jitEnable opts "integrate" false = true → NoCtrlState s.ext.ctrl ∧ s.ext.ctrl.stateSaved = .none)
    (l : List (Use (SimplexObj K S P A) K S))
    (hl : ∀ m, Use.modify m ∈ l → ∀ s : SimplexObj K S P A, SameConstraints s.constraints (m s).constraints ∧
      (jitEnable = true → ctrlJit = true → (m s).ext.ctrl = s.ext.ctrl) ∧
      (jitOption jitEnable opts "integrate" false = true → (m s).ext.ctrl = s.ext.ctrl ∧
        (m s).ext.backupWindow = s.ext.backupWindow ∧ SameBounds s (m s))) :
    (useAll (implicitSimplexJ sig pred) (fun m j => { j with obj := m j.obj }) l
          (SimplexJ.composeImplicit jitEnable ctrlJit opts s)).1 =
        (useAll (implicitSimplex pred) (fun m s => m s) l s).1 ∧
      (useAll (implicitSimplexJ sig pred) (fun m j => { j with obj := m j.obj }) l
          (SimplexJ.composeImplicit jitEnable ctrlJit opts s)).2.obj =
        (useAll (implicitSimplex pred) (fun m s => m s) l s).2 := by
  let Sim : SimplexJ Sig K S P A → SimplexObj K S P A → Prop := fun j s => SimplexSim j s ∧
    j.jit.integrateJit = jitOption jitEnable opts "integrate" false ∧ (j.jit.ctrlJit = true → jitEnable = true ∧ ctrlJit = true)
  refine useAll_sim (Sim := Sim) (fun _ _ h => h.1.obj) (fun j s inp dt u h => ?_) l (fun m hm j s h => ⟨?_, h.2⟩) ⟨?_, rfl, ?_⟩
  · have h1 := implicitSimplexJ_sim sig pred h.1 inp dt u
    have h2 := implicitSimplexJ_flags sig pred j inp dt u
    exact ⟨h1.1, h1.2, h2.2.2.trans h.2.1, fun hj => h.2.2 (h2.2.1 ▸ hj)⟩
  · rw [h.1.obj]
    refine h.1.change (hl m hm s).1 (fun hj => ?_) (fun hi => ((hl m hm s).2.2 (h.2.1 ▸ hi)).2)
    rcases hj with hj | hj
    · exact (hl m hm s).2.1 (h.2.2 hj).1 (h.2.2 hj).2
    · exact ((hl m hm s).2.2 (h.2.1 ▸ hj)).1
  · have hc : (SimplexJ.composeImplicit (Sig := Sig) jitEnable ctrlJit opts s).jit.ctrlJit = true → jitEnable = true ∧ ctrlJit = true := by
      intro h; simpa [SimplexJ.composeImplicit] using h
    exact ⟨⟨rfl, fun hj => hs (hc hj).1 (hc hj).2, fun _ p hp => absurd hp (by simp [SimplexJ.composeImplicit])⟩,
      fun _ p hp => absurd hp (by simp [SimplexJ.composeImplicit]), hi,
      fun _ p hp => absurd hp (by simp [SimplexJ.composeImplicit])⟩
  · intro h; simpa [SimplexJ.composeImplicit] using h

/-- **C85, explicit ASIF.** The same for every history that also leaves the actuation rows, the dimensions and the attributes of the
subclass (those the dynamics read) as they are. -/
theorem C85_explicit_asif [Add K] [Mul K] [Neg K] [Sub K] [Zero K] [One K] [OfNat K 10] [Max K] [Min K] [HasSqrt K] [LT K]
    [DecidableLT K] (solver : Solver K) (sig : S → K → Dict P → Dict Bool → Sig)
    (sigD : List (Row K) → S → Dict P → Dict Bool → Sig) (f : X → S → List K) (g : X → S → List (List K)) (jitEnable : Bool)
    (opts : Dict Bool) (s : ASIFObj K S P X) (l : List (Use (ASIFObj K S P X) K S))
    (hl : ∀ m, Use.modify m ∈ l → ∀ s, SameASIF s (m s)) :
    (useAll (explicitASIFJ solver sig sigD f g) (fun m j => { j with obj := m j.obj }) l (ASIFJ.compose jitEnable opts s)).1 =
        (useAll (fun s : ASIFObj K S P X => explicitASIF solver (f s.ext.extra) (g s.ext.extra) s) (fun m s => m s) l s).1 ∧
      (useAll (explicitASIFJ solver sig sigD f g) (fun m j => { j with obj := m j.obj }) l (ASIFJ.compose jitEnable opts s)).2.obj =
        (useAll (fun s : ASIFObj K S P X => explicitASIF solver (f s.ext.extra) (g s.ext.extra) s) (fun m s => m s) l s).2 := by
  let Sim : ASIFJ Sig K S P X → ASIFObj K S P X → Prop := fun j t => ASIFSim s.ext.extra j t ∧ j.jit.integrateJit = false
  refine useAll_sim (Sim := Sim) (fun _ _ h => h.1.obj) (fun j t inp dt u h => ?_) l (fun m hm j t h => ⟨?_, h.2⟩)
    ⟨⟨rfl, fun _ p hp => absurd hp (by simp [ASIFJ.compose]), fun _ p hp => absurd hp (by simp [ASIFJ.compose]), rfl,
      fun _ p hp => absurd hp (by simp [ASIFJ.compose])⟩, rfl⟩
  · rw [h.1.extra]
    have h1 := explicitASIFJ_sim solver sig sigD f g h.1 inp dt u
    exact ⟨h1.1, h1.2, (explicitASIFJ_flags solver sig sigD f g j inp dt u).2.2.trans h.2⟩
  · rw [h.1.obj]
    exact h.1.of_same (hl m hm t) fun hi => absurd (h.2.symm.trans hi) (by simp)

/-- **C85, implicit ASIF.** The same for every history that leaves the actuation rows, the dimensions, the backup window, the backup
controller and the control bounds as they are. The backup controller has no internal state. -/
theorem C85_implicit_asif [Field K] [LinearOrder K] [FloorRing K] [HasSqrt K] (solver : Solver K)
    (sigI : List K → K → Nat → Sig) (sig : List K → Nat → List (List K × List (List K)) → Dict P → Dict Bool → Sig)
    (sigD : List (Row K) → List K → Dict P → Dict Bool → Sig) (ad : (List K → List K) → List K → List (List K))
    (f : List K → List K) (g : List K → List (List K)) (pred : List K → K → List K → List K) (jitEnable : Bool) (opts : Dict Bool)
    (s : ImplicitObj K P A) (hs : NoCtrlState s.ext.extra.ctrl) (hsaved : s.ext.extra.ctrl.stateSaved = .none)
    (l : List (Use (ImplicitObj K P A) K (List K)))
    (hl : ∀ m, Use.modify m ∈ l → ∀ s : ImplicitObj K P A, SameASIF s (m s) ∧ SameBounds s (m s)) :
    (useAll (implicitASIFJ solver sigI sig sigD ad f g pred) (fun m j => { j with obj := m j.obj }) l
          (ASIFJ.composeImplicit jitEnable opts s)).1 =
        (useAll (implicitASIF solver ad f g pred) (fun m s => m s) l s).1 ∧
      (useAll (implicitASIFJ solver sigI sig sigD ad f g pred) (fun m j => { j with obj := m j.obj }) l
          (ASIFJ.composeImplicit jitEnable opts s)).2.obj =
        (useAll (implicitASIF solver ad f g pred) (fun m s => m s) l s).2 := by
  refine useAll_sim (Sim := ASIFSim s.ext.extra) (fun _ _ h => h.obj)
    (fun j t inp dt u h => implicitASIFJ_sim solver sigI sig sigD ad f g pred ⟨hs, hsaved⟩ h inp dt u) l
    (fun m hm j t h => by rw [h.obj]; exact h.of_same (hl m hm t).1 fun _ => (hl m hm t).2)
    ⟨rfl, fun _ p hp => absurd hp (by simp [ASIFJ.composeImplicit]), fun _ p hp => absurd hp (by simp [ASIFJ.composeImplicit]), rfl,
      fun _ p hp => absurd hp (by simp [ASIFJ.composeImplicit])⟩

/-- The changes a user makes through `constraint.params[...] = ...` and `constraint.enabled = ...` are changes as in the theorems. -/
theorem C85_params_enabled (cs : Dict (Constraint K S P)) (p : String → P → P) (e : String → Bool → Bool) :
    SameConstraints cs (cs.map fun kc => (kc.1, { kc.2 with params := p kc.1 kc.2.params, enabled := e kc.1 kc.2.enabled })) := by
  induction cs with
  | nil => exact .nil
  | cons a l ih => exact .cons ⟨rfl, rfl⟩ ih

/-! ### C86 -/

/-- **C86, the part that holds.** With `jit_enable=False` every change of attributes, of whatever kind, is seen by the next call
(Simplex). Missing: it is not so with `jit_enable=True`, see `C86_refuted_bias`, nor for constraints inside a `HOCBFConstraint`,
see `C86_refuted_hocbf`. -/
theorem C86_uncompiled_simplex_partial [Max K] [Min K] [Add K] [Zero K] [LE K] [DecidableLE K] [LT K] [DecidableLT K]
    (sig : SimplexSig Sig K S P) (pred : S → K → List K → S) (ctrlJit : Bool) (opts : Dict Bool)
    (s : SimplexObj K S P A) (l : List (Use (SimplexObj K S P A) K S)) :
    (useAll (explicitSimplexJ sig pred) (fun m j => { j with obj := m j.obj }) l (SimplexJ.compose false ctrlJit opts s)).1 =
      (useAll (explicitSimplex pred) (fun m s => m s) l s).1 := by
  refine (useAll_sim (Sim := UncompiledSim) (fun _ _ h => h.1) (fun j s inp dt u h => ?_) l (fun m _ j s h => ⟨by rw [h.1], h.2⟩)
    ⟨rfl, by simp [SimplexJ.compose, jitOption], by simp [SimplexJ.compose], by simp [SimplexJ.compose]⟩).1
  have h1 := explicitSimplexJ_sim sig pred h.sim inp dt u
  have h2 := explicitSimplexJ_flags sig pred j inp dt u
  exact ⟨h1.1, h1.2.obj, h2.1.trans h.2.1, h2.2.1.trans h.2.2.1, h2.2.2.trans h.2.2.2⟩

/-- **C86, the part that holds**, implicit Simplex. -/
theorem C86_uncompiled_implicit_simplex_partial [Field K] [LinearOrder K] [FloorRing K] (sig : SimplexSig Sig K S P)
    (pred : S → K → List K → S) (ctrlJit : Bool) (opts : Dict Bool) (s : SimplexObj K S P A)
    (l : List (Use (SimplexObj K S P A) K S)) :
    (useAll (implicitSimplexJ sig pred) (fun m j => { j with obj := m j.obj }) l (SimplexJ.composeImplicit false ctrlJit opts s)).1 =
      (useAll (implicitSimplex pred) (fun m s => m s) l s).1 := by
  refine (useAll_sim (Sim := UncompiledSim) (fun _ _ h => h.1) (fun j s inp dt u h => ?_) l (fun m _ j s h => ⟨by rw [h.1], h.2⟩)
    ⟨rfl, by simp [SimplexJ.composeImplicit, jitOption], by simp [SimplexJ.composeImplicit],
      by simp [SimplexJ.composeImplicit, jitOption]⟩).1
  have h1 := implicitSimplexJ_sim sig pred h.sim inp dt u
  have h2 := implicitSimplexJ_flags sig pred j inp dt u
  exact ⟨h1.1, h1.2.obj, h2.1.trans h.2.1, h2.2.1.trans h.2.2.1, h2.2.2.trans h.2.2.2⟩

/-- **C86, the part that holds**, ASIF. The changes include the attributes that the dynamics read. -/
theorem C86_uncompiled_asif_partial [Add K] [Mul K] [Neg K] [Sub K] [Zero K] [One K] [OfNat K 10] [Max K] [Min K] [HasSqrt K] [LT K]
    [DecidableLT K] (solver : Solver K) (sig : S → K → Dict P → Dict Bool → Sig)
    (sigD : List (Row K) → S → Dict P → Dict Bool → Sig) (f : X → S → List K) (g : X → S → List (List K))
    (opts : Dict Bool) (s : ASIFObj K S P X) (l : List (Use (ASIFObj K S P X) K S)) :
    (useAll (explicitASIFJ solver sig sigD f g) (fun m j => { j with obj := m j.obj }) l (ASIFJ.compose false opts s)).1 =
      (useAll (fun s : ASIFObj K S P X => explicitASIF solver (f s.ext.extra) (g s.ext.extra) s) (fun m s => m s) l s).1 := by
  let Sim : ASIFJ Sig K S P X → ASIFObj K S P X → Prop := fun j s =>
    ASIFSim s.ext.extra j s ∧ j.jit.barrierJit = false ∧ j.jit.directJit = false ∧ j.jit.integrateJit = false
  refine (useAll_sim (Sim := Sim) (fun _ _ h => h.1.obj) (fun j s inp dt u h => ?_) l (fun m _ j s h => ?_) ?_).1
  · have h1 := explicitASIFJ_sim solver sig sigD f g h.1 inp dt u
    have h2 := explicitASIFJ_flags solver sig sigD f g j inp dt u
    refine ⟨h1.1, ?_, h2.1.trans h.2.1, h2.2.1.trans h.2.2.1, h2.2.2.trans h.2.2.2⟩
    rw [h1.2.extra]
    exact h1.2
  · refine ⟨⟨by rw [h.1.obj], fun hv => ?_, fun hv => ?_, rfl, fun hv => ?_⟩, h.2⟩
    · rw [h.2.1] at hv; exact absurd hv (by simp)
    · rw [h.2.2.1] at hv; exact absurd hv (by simp)
    · rw [h.2.2.2] at hv; exact absurd hv (by simp)
  · refine ⟨⟨rfl, fun hv => ?_, fun hv => ?_, rfl, fun hv => ?_⟩, rfl, rfl, rfl⟩ <;>
      exact absurd hv (by simp [ASIFJ.compose, jitOption])

/-- **C86, the part that holds**, implicit ASIF. The backup controller may keep internal state. -/
theorem C86_uncompiled_implicit_asif_partial [Field K] [LinearOrder K] [FloorRing K] [HasSqrt K] (solver : Solver K)
    (sigI : List K → K → Nat → Sig) (sig : List K → Nat → List (List K × List (List K)) → Dict P → Dict Bool → Sig)
    (sigD : List (Row K) → List K → Dict P → Dict Bool → Sig) (ad : (List K → List K) → List K → List (List K))
    (f : List K → List K) (g : List K → List (List K)) (pred : List K → K → List K → List K) (opts : Dict Bool)
    (s : ImplicitObj K P A) (l : List (Use (ImplicitObj K P A) K (List K))) :
    (useAll (implicitASIFJ solver sigI sig sigD ad f g pred) (fun m j => { j with obj := m j.obj }) l
        (ASIFJ.composeImplicit false opts s)).1 =
      (useAll (implicitASIF solver ad f g pred) (fun m s => m s) l s).1 :=
  (useAll_sim (Sim := OffSim) (fun _ _ h => h.1) (fun _ _ inp dt u h => implicitASIFJ_off solver sigI sig sigD ad f g pred h inp dt u) l
    (fun m _ j s h => ⟨by rw [h.1], h.2⟩) ⟨rfl, rfl, rfl, rfl⟩).1

/-- **C86 fails**, explicit ASIF. Once a compiled module has answered a call, then for every later call with the same signature,
after any history, the constraints may be replaced by constraints with the same keys, `params` and `enabled` flags (another
bias, another strengthening function, another barrier) and the attributes that the dynamics read (a mass) by others: the
answer stays what it would have been without the change. -/
theorem C86_frozen_asif [Add K] [Mul K] [Neg K] [Sub K] [Zero K] [One K] [OfNat K 10] [Max K] [Min K] [HasSqrt K] [LT K]
    [DecidableLT K] (solver : Solver K) (sig : S → K → Dict P → Dict Bool → Sig)
    (sigD : List (Row K) → S → Dict P → Dict Bool → Sig) (f : X → S → List K) (g : X → S → List (List K))
    (j : ASIFJ Sig K S P X) (hj : j.jit.barrierJit = true) (hen : j.obj.enable = true) (x : S) (dt : K) (u v : List K)
    (h : (explicitASIFJ solver sig sigD f g j (.array x) dt u).1 = .ok v) (l : List (Use (ASIFObj K S P X) K S))
    (j2 : ASIFJ Sig K S P X)
    (hj2 : j2 = (useAll (explicitASIFJ solver sig sigD f g) (fun m j => { j with obj := m j.obj }) l
      (explicitASIFJ solver sig sigD f g j (.array x) dt u).2).2)
    (cs : Dict (Constraint K S P)) (hcs : SameData j2.obj.constraints cs) (e : X) (x' : S) (dt' : K) (u' : List K)
    (hsig : sig x' dt' (updateParams j2.obj).params (updateParams j2.obj).constraintEnabled =
      sig x dt (updateParams j.obj).params (updateParams j.obj).constraintEnabled) :
    (explicitASIFJ solver sig sigD f g
        { j2 with obj := { j2.obj with constraints := cs, ext := { j2.obj.ext with extra := e } } } (.array x') dt' u').1 =
      (explicitASIFJ solver sig sigD f g j2 (.array x') dt' u').1 := by
  obtain ⟨o, ho⟩ := explicitASIFJ_traced solver sig sigD f g hj hen h
  have hfl : (explicitASIFJ solver sig sigD f g j (.array x) dt u).2.jit.barrierJit = true :=
    (explicitASIFJ_flags solver sig sigD f g j (.array x) dt u).1.trans hj
  have ht := useAll_inv (Q := fun c : ASIFJit Sig (ASIFObj K S P X) => jitLookup c.barrier
      (sig x dt (updateParams j.obj).params (updateParams j.obj).constraintEnabled) = some o)
    (fun j inp dt u h => explicitASIFJ_trace solver sig sigD f g h inp dt u) l ho
  have hb := useAll_inv (Q := fun c : ASIFJit Sig (ASIFObj K S P X) => c.barrierJit = true)
    (fun j inp dt u h => (explicitASIFJ_flags solver sig sigD f g j inp dt u).1.trans h) l hfl
  rw [← hj2, ← hsig] at ht
  rw [← hj2] at hb
  obtain ⟨vals, hp⟩ := preFilter_patchASIF hcs e x' u'
  unfold explicitASIFJ
  refine filterJ_congr (K := K) ?_ ?_
  · rfl
  rw [hp]
  exact asifFilterJ_patch solver sig sigD f g j2.jit hb (preFilter j2 x' u').obj x' dt' u' ht cs vals e

/-- **C86 fails**, explicit Simplex: the same after a first call that was not made while intervening. -/
theorem C86_frozen_simplex [Max K] [Min K] [Add K] [Zero K] [LE K] [DecidableLE K] [LT K] [DecidableLT K]
    (sig : SimplexSig Sig K S P) (pred : S → K → List K → S) (j : SimplexJ Sig K S P A)
    (hj : j.jit.violationJit = true) (hen : j.obj.enable = true) (hin : j.obj.intervening = false) (x : S) (dt : K) (u v : List K)
    (h : (explicitSimplexJ sig pred j (.array x) dt u).1 = .ok v) (l : List (Use (SimplexObj K S P A) K S))
    (j2 : SimplexJ Sig K S P A)
    (hj2 : j2 = (useAll (explicitSimplexJ sig pred) (fun m j => { j with obj := m j.obj }) l
      (explicitSimplexJ sig pred j (.array x) dt u).2).2)
    (cs : Dict (Constraint K S P)) (hcs : SameData j2.obj.constraints cs) (x' : S) (dt' : K) (u' : List K)
    (hsig : sig.violation [pred x' dt' u'] (updateParams j2.obj).params (updateParams j2.obj).constraintEnabled =
      sig.violation [pred x dt u] (updateParams j.obj).params (updateParams j.obj).constraintEnabled) :
    (explicitSimplexJ sig pred { j2 with obj := { j2.obj with constraints := cs } } (.array x') dt' u').1 =
      (explicitSimplexJ sig pred j2 (.array x') dt' u').1 := by
  obtain ⟨o, ho⟩ := explicitSimplexJ_traced sig pred hj hen hin h
  have hfl : (explicitSimplexJ sig pred j (.array x) dt u).2.jit.violationJit = true :=
    (explicitSimplexJ_flags sig pred j (.array x) dt u).1.trans hj
  have ht := useAll_inv (Q := fun c : SimplexJit Sig (SimplexObj K S P A) => jitLookup c.violation
      (sig.violation [pred x dt u] (updateParams j.obj).params (updateParams j.obj).constraintEnabled) = some o)
    (fun j inp dt u h => explicitSimplexJ_trace sig pred h inp dt u) l ho
  have hb := useAll_inv (Q := fun c : SimplexJit Sig (SimplexObj K S P A) => c.violationJit = true)
    (fun j inp dt u h => (explicitSimplexJ_flags sig pred j inp dt u).1.trans h) l hfl
  rw [← hj2, ← hsig] at ht
  rw [← hj2] at hb
  obtain ⟨vals, hp⟩ := preFilter_patchSimplex hcs x' u'
  unfold explicitSimplexJ
  refine filterJ_congr (K := K) ?_ ?_
  · rfl
  rw [hp]
  exact simplexFilterJ_patch sig pred j2.jit hb (preFilter j2 x' u').obj x' dt' u' ht cs vals

/-- **C86 fails**, the backup controller. Once a compiled backup controller has answered a call of an explicit Simplex module,
its law (a gain it reads) may be replaced: every later call with the same signature is answered as without the change, after any
history of calls and changes. -/
theorem C86_frozen_controller [Max K] [Min K] [Add K] [Zero K] [LE K] [DecidableLE K] [LT K] [DecidableLT K]
    (sig : SimplexSig Sig K S P) (pred : S → K → List K → S) (j : SimplexJ Sig K S P A)
    (hj : j.jit.ctrlJit = true) (hen : j.obj.enable = true) (x : S) (dt : K) (u v : List K)
    (h : (explicitSimplexJ sig pred j (.array x) dt u).1 = .ok v)
    (hi : (explicitSimplexJ sig pred j (.array x) dt u).2.obj.intervening = true) (l : List (Use (SimplexObj K S P A) K S))
    (j2 : SimplexJ Sig K S P A)
    (hj2 : j2 = (useAll (explicitSimplexJ sig pred) (fun m j => { j with obj := m j.obj }) l
      (explicitSimplexJ sig pred j (.array x) dt u).2).2)
    (g : S → K → CState A → Option (List K × CState A)) (x' : S) (dt' : K) (u' : List K)
    (hsig : sig.control x' dt' = sig.control x dt) :
    (explicitSimplexJ sig pred
        { j2 with obj := { j2.obj with ext := { j2.obj.ext with ctrl := { j2.obj.ext.ctrl with gen := g } } } } (.array x') dt' u').1 =
      (explicitSimplexJ sig pred j2 (.array x') dt' u').1 := by
  obtain ⟨o, ho⟩ := explicitSimplexJ_ctrl_traced sig pred hj hen h hi
  have hfl : (explicitSimplexJ sig pred j (.array x) dt u).2.jit.ctrlJit = true :=
    (explicitSimplexJ_flags sig pred j (.array x) dt u).2.1.trans hj
  have ht := useAll_inv (Q := fun c : SimplexJit Sig (SimplexObj K S P A) => jitLookup c.control (sig.control x dt) = some o)
    (fun j inp dt u h => explicitSimplexJ_ctrl_trace sig pred h inp dt u) l ho
  have hb := useAll_inv (Q := fun c : SimplexJit Sig (SimplexObj K S P A) => c.ctrlJit = true)
    (fun j inp dt u h => (explicitSimplexJ_flags sig pred j inp dt u).2.1.trans h) l hfl
  rw [← hj2, ← hsig] at ht
  rw [← hj2] at hb
  unfold explicitSimplexJ
  refine filterJ_congr (K := K) ?_ ?_
  · rfl
  exact simplexFilterJ_gen sig pred j2.jit hb (preFilter j2 x' u').obj x' dt' u' ht g

/-- **C86, the part that holds**, the backup controller: `reset()` makes the compiled controller read its attributes anew. After
a reset that does not raise, a backup control is what the uncompiled module computes. Missing: without a reset it is not so,
see `C86_frozen_controller`. -/
theorem C86_reset_controller_partial [Max K] [Min K] (sig : SimplexSig Sig K S P) (j : SimplexJ Sig K S P A)
    (hz : NoCtrlState (simplexReset j.obj).2.ext.ctrl) (h : (simplexResetJ j).1 = .ok ()) (x : S) (dt : K) :
    (backupControlJ sig (simplexResetJ j).2 x dt).1 = (backupControl (simplexReset j.obj).2 x dt).1 ∧
      (backupControlJ sig (simplexResetJ j).2 x dt).2.obj = (backupControl (simplexReset j.obj).2 x dt).2 := by
  unfold simplexResetJ at h ⊢
  rcases hr : simplexReset j.obj with ⟨r, o⟩
  rw [hr] at hz h
  cases r with
  | error e => cases h
  | ok q =>
    obtain ⟨h1, c, h2, -⟩ := backupControlJ_sim sig
      (j := ({ obj := o, jit := { j.jit with control := [] } } : SimplexJ Sig K S P A)) (s := o)
      ⟨rfl, fun _ => hz, fun _ p hp => absurd hp (by simp)⟩ x dt
    exact ⟨h1, by rw [h2]⟩

/-! ### C87 -/

/-- **C87 fails**, explicit Simplex. With compilation on, the default, and a backup controller with internal state (an array or
a dict), a call in which the uncompiled module answers with the backup control raises `ValueError`; the calls that do not need
the backup controller are answered as without compilation. -/
theorem C87_refuted_explicit [Max K] [Min K] [Add K] [Zero K] [LE K] [DecidableLE K] [LT K] [DecidableLT K]
    (sig : SimplexSig Sig K S P) (pred : S → K → List K → S) (opts : Dict Bool) (s : SimplexObj K S P A)
    (hz : s.ext.ctrl.state ≠ .none) (hen : s.enable = true) (x : S) (dt : K) (u v : List K)
    (h : (explicitSimplex pred s (.array x) dt u).1 = .ok v) :
    ((explicitSimplex pred s (.array x) dt u).2.intervening = true →
      (explicitSimplexJ sig pred (SimplexJ.compose true true opts s) (.array x) dt u).1 = .error (.valueError nonHashableMsg)) ∧
    ((explicitSimplex pred s (.array x) dt u).2.intervening = false →
      (explicitSimplexJ sig pred (SimplexJ.compose true true opts s) (.array x) dt u).1 = .ok v) := by
  unfold explicitSimplex at h ⊢
  unfold explicitSimplexJ
  rw [filterCB_enabled _ hen] at h ⊢
  rw [filterJ_enabled _ hen]
  obtain ⟨j, hj⟩ : ∃ j : SimplexJ Sig K S P A, j = preFilter (SimplexJ.compose true true opts s) x u := ⟨_, rfl⟩
  have hobj : updateConstraintValuesAt (updateParams { s with controlDesired := some u }) x true = j.obj := by rw [hj]; rfl
  rw [hobj] at h ⊢
  rw [← hj]
  have key := @simplexFilterJ_stateful K S P A Sig _ _ _ _ _ _ _ _ _ sig pred j (by rw [hj]; rfl) (by rw [hj]; exact hz)
    (by rw [hj]; rfl) x dt u
  rcases hf : simplexFilter (explicitMonitor pred) j.obj x dt u with ⟨r, o⟩
  rw [hf] at h key
  cases r with
  | error e => cases h
  | ok c =>
    have key := key rfl
    dsimp only at h key ⊢
    cases hcl : o.toBase.clipControl c with
    | error e => rw [hcl] at h; cases h
    | ok a =>
      rw [hcl] at h
      constructor
      · intro ht
        have ht : o.intervening = true := ht
        rw [if_pos ht] at key
        rcases hq : simplexFilterJ sig (explicitMonitorJ sig pred) j x dt u with ⟨r', j'⟩
        rw [hq] at key
        obtain rfl : r' = _ := key
        rfl
      · intro ht
        have ht : o.intervening = false := ht
        rw [if_neg (by rw [ht]; simp)] at key
        rcases hq : simplexFilterJ sig (explicitMonitorJ sig pred) j x dt u with ⟨r', j'⟩
        rw [hq] at key
        obtain ⟨rfl, hk⟩ : r' = _ ∧ j'.obj = o := key
        dsimp only
        rw [hk, hcl]
        exact h

/-- **C87 fails**, implicit Simplex. With compilation on and a backup controller with internal state, every call of an enabled
module that is not intervening raises `ValueError`, when the backup window holds at least one step. -/
theorem C87_refuted_implicit [Field K] [LinearOrder K] [IsStrictOrderedRing K] [FloorRing K]
    (sig : SimplexSig Sig K S P) (pred : S → K → List K → S) (opts : Dict Bool) (s : SimplexObj K S P A)
    (hz : (∃ z, s.ext.ctrl.state = .array z) ∨ ∃ z, s.ext.ctrl.state = .dict z) (hen : s.enable = true) (hin : s.intervening = false)
    (x : S) (dt : K) (hdt : 0 < dt) (hw : dt ≤ s.ext.backupWindow) (u : List K) :
    (implicitSimplexJ sig pred (SimplexJ.composeImplicit true true opts s) (.array x) dt u).1 = .error (.valueError nonHashableMsg) := by
  have hn : ∃ n : Nat, backupSteps s.ext.backupWindow dt = .ok ((n : Int) + 1) := by
    have h1 : (1 : K) ≤ s.ext.backupWindow / dt := (one_le_div hdt).2 hw
    have h2 : (1 : Int) ≤ ⌊s.ext.backupWindow / dt⌋ := Int.le_floor.2 (by simpa using h1)
    obtain ⟨n, hn⟩ := Int.eq_ofNat_of_zero_le (show 0 ≤ ⌊s.ext.backupWindow / dt⌋ - 1 by omega)
    refine ⟨n, ?_⟩
    unfold backupSteps pyInt
    rw [if_neg hdt.ne', if_pos (by linarith)]
    congr 1
    omega
  obtain ⟨n, hn⟩ := hn
  unfold implicitSimplexJ
  rw [filterJ_enabled _ hen]
  obtain ⟨j, hj⟩ : ∃ j : SimplexJ Sig K S P A, j = preFilter (SimplexJ.composeImplicit true true opts s) x u := ⟨_, rfl⟩
  rw [← hj]
  have hsave : ∃ o, backupControllerSave j.obj = (.ok (), o) ∧ o.ext.ctrl.state ≠ .none := by
    unfold backupControllerSave BackupController.save
    have hst : j.obj.ext.ctrl.state = s.ext.ctrl.state := by rw [hj]; rfl
    rw [hst]
    rcases hz with ⟨z, hz⟩ | ⟨z, hz⟩ <;> rw [hz] <;>
      exact ⟨_, rfl, by simp [SimplexObj.setCtrl]⟩
  obtain ⟨o, ho, hoz⟩ := hsave
  have hint : (implicitIntegrateJ sig pred j x dt u).1 = .error (.valueError nonHashableMsg) := by
    unfold implicitIntegrateJ
    have hb : backupSteps j.obj.ext.backupWindow dt = .ok ((n : Int) + 1) := by rw [hj]; exact hn
    rw [hb]
    dsimp only
    rw [ho]
    have h1 : ((n : Int) + 1).toNat = n + 1 := by omega
    dsimp only
    rw [h1]
    unfold integrateLoopJ
    rw [backupControlJ_stateful sig (j := ({ j with obj := o } : SimplexJ Sig K S P A)) (by rw [hj]; rfl) hoz]
  have hfil : (simplexFilterJ sig (implicitMonitorJ sig pred) j x dt u).1 = .error (.valueError nonHashableMsg) := by
    have hi : ¬ j.obj.intervening = true := by
      rw [hj]
      show ¬ s.intervening = true
      rw [hin]; simp
    unfold simplexFilterJ
    simp only [if_neg hi, Bool.false_eq_true, if_false]
    have hm : (implicitMonitorJ sig pred j x dt u).1 = .error (.valueError nonHashableMsg) := by
      have hfn : (integrateFnJ sig pred j x dt u).1 = .error (.valueError nonHashableMsg) := by
        have hc : j.jit.integrate = [] := by rw [hj]; rfl
        unfold integrateFnJ
        rcases hq : implicitIntegrateJ sig pred j x dt u with ⟨r, j'⟩
        rw [hq] at hint
        obtain rfl : r = _ := hint
        rw [hc]
        cases j.jit.integrateJit <;> rfl
      unfold implicitMonitorJ
      rcases hq : integrateFnJ sig pred j x dt u with ⟨r, j'⟩
      rw [hq] at hfn
      obtain rfl : r = _ := hfn
      rfl
    rcases hq : implicitMonitorJ sig pred j x dt u with ⟨r, j'⟩
    rw [hq] at hm
    obtain rfl : r = _ := hm
    rfl
  rcases hq : simplexFilterJ sig (implicitMonitorJ sig pred) j x dt u with ⟨r, j'⟩
  rw [hq] at hfil
  obtain rfl : r = _ := hfil
  rfl

/-- **C87, the part that holds.** A controller that is not compiled may have internal state: the module with
`_constraint_violation` compiled or not answers every history as without compilation (implicit Simplex, with the default `False` of
the option `integrate`). Missing: with a compiled controller it is not so, see `C87_refuted_explicit` and `C87_refuted_implicit`. -/
theorem C87_uncompiled_controller_partial [Field K] [LinearOrder K] [FloorRing K] (sig : SimplexSig Sig K S P)
    (pred : S → K → List K → S) (jitEnable : Bool) (opts : Dict Bool) (hopts : dictGet opts "integrate" ≠ some true)
    (s : SimplexObj K S P A) (l : List (Use (SimplexObj K S P A) K S))
    (hl : ∀ m, Use.modify m ∈ l → ∀ s : SimplexObj K S P A, SameConstraints s.constraints (m s).constraints) :
    (useAll (implicitSimplexJ sig pred) (fun m j => { j with obj := m j.obj }) l
          (SimplexJ.composeImplicit jitEnable false opts s)).1 =
        (useAll (implicitSimplex pred) (fun m s => m s) l s).1 ∧
      (useAll (implicitSimplexJ sig pred) (fun m j => { j with obj := m j.obj }) l
          (SimplexJ.composeImplicit jitEnable false opts s)).2.obj =
        (useAll (implicitSimplex pred) (fun m s => m s) l s).2 := by
  have hoff : ¬ jitOption jitEnable opts "integrate" false = true := by
    unfold jitOption
    cases jitEnable with
    | false => simp
    | true =>
      cases hd : dictGet opts "integrate" with
      | none => simp
      | some b =>
        cases b with
        | false => simp
        | true => exact absurd hd hopts
  exact C85_implicit_simplex sig pred jitEnable false opts s (fun _ h => absurd h (by simp)) (fun h => absurd h hoff) l
    (fun m hm s => ⟨hl m hm s, fun _ h => absurd h (by simp), fun h => absurd h hoff⟩)

end

/-! ### Witnesses -/

/-- `x ≤ 5`, on numbers. -/
def jitBound : Constraint Rat Rat Unit :=
  { computeFn := fun x _ => 5 - x, phiFn := fun x _ => 5 - x, gradFn := fun _ _ => [-1], alpha := none, alphaNeg := none
    bias := 0, biasNegative := 0, slackPriorityScale := none, params := (), enabled := true, subsample := {} }

/-- A simplex module for `jitBound` whose backup control is `-1`, with the controller state `z`. -/
def jitSimplex (z : CState Rat) : SimplexObj Rat Rat Unit Rat :=
  { toBase := Base.init none none, constraints := [("bound", jitBound)], params := [("bound", ())]
    constraintEnabled := [("bound", true)], constraintValues := [], isStaleConstraints := true
    ext := { latchTime := 0, latchedElapsed := 0, backupWindow := 2
             ctrl := { gen := fun _ _ z => some ([-1], z), stateInitial := z, stateSaved := .none, state := z } } }

/-- One step of `x + u dt`. -/
def jitPred (x dt : Rat) (u : List Rat) : Rat := x + u.sum * dt

/-- Every array of states has the same shape. -/
def jitSig : SimplexSig Nat Rat Rat Unit := { violation := fun l _ _ => l.length, control := fun _ _ => 0, integrate := fun _ _ _ => 0 }

/-- The user moves the bound by two: `constraint.bias = -2`. -/
def setBias (o : SimplexObj Rat Rat Unit Rat) : SimplexObj Rat Rat Unit Rat :=
  { o with constraints := o.constraints.map fun kc => (kc.1, { kc.2 with bias := -2 }) }

/-- **C86 fails**: after the first call the bias is set to `-2`; at `x = 3` with the control `1` the uncompiled module sees
`5 - 4 - 2 < 0` and intervenes, the compiled module lets the control pass. -/
theorem C86_refuted_bias :
    (useAll (explicitSimplexJ jitSig jitPred) (fun m j => { j with obj := m j.obj })
        [.call (.array 0) 1 [1], .modify setBias, .call (.array 3) 1 [1]] (SimplexJ.compose true true [] (jitSimplex .none))).1 =
      [.ok [1], .ok [1]] ∧
    (useAll (explicitSimplex jitPred) (fun m s => m s)
        [.call (.array 0) 1 [1], .modify setBias, .call (.array 3) 1 [1]] (jitSimplex .none)).1 =
      [.ok [1], .ok [-1]] := by
  constructor <;> decide +kernel

/-- The hypotheses of `C85_explicit_simplex`: a controller without state, and a history that disables the constraint. -/
example : NoCtrlState (jitSimplex .none).ext.ctrl :=
  ⟨rfl, fun _ _ _ z h => by
    have h : some ([(-1 : Rat)], CState.none) = some (_, z) := h
    simp only [Option.some.injEq, Prod.mk.injEq] at h
    exact h.2.symm⟩

/-- Disabling the constraint after a call is seen by the compiled module. -/
example :
    (useAll (explicitSimplexJ jitSig jitPred) (fun m j => { j with obj := m j.obj })
        [.call (.array 5) 1 [1],
          .modify (fun o => { o with constraints := o.constraints.map fun kc => (kc.1, { kc.2 with enabled := false }) }),
          .call (.array 5) 1 [1]] (SimplexJ.compose true true [] (jitSimplex .none))).1 = [.ok [-1], .ok [1]] := by
  decide +kernel

/-- The hypotheses of `C86_frozen_simplex` for the witness of `C86_refuted_bias`. -/
example :
    let j : SimplexJ Nat Rat Rat Unit Rat := SimplexJ.compose true true [] (jitSimplex .none)
    j.jit.violationJit = true ∧ j.obj.enable = true ∧ j.obj.intervening = false ∧
      (explicitSimplexJ jitSig jitPred j (.array 0) 1 [1]).1 = .ok [1] ∧
      SameData j.obj.constraints (setBias j.obj).constraints := by
  refine ⟨rfl, rfl, rfl, by decide +kernel, .cons ⟨rfl, rfl, rfl⟩ .nil⟩

/-- The hypotheses of `C87_refuted_explicit`, and the two outcomes: the compiled module passes a safe control and raises when
it has to intervene. -/
example :
    (jitSimplex (.array 0)).ext.ctrl.state ≠ .none ∧
    (explicitSimplex jitPred (jitSimplex (.array 0)) (.array 5) 1 [1]).1 = .ok [-1] ∧
    (explicitSimplex jitPred (jitSimplex (.array 0)) (.array 5) 1 [1]).2.intervening = true ∧
    (explicitSimplexJ jitSig jitPred (SimplexJ.compose true true [] (jitSimplex (.array 0))) (.array 5) 1 [1]).1 =
      .error (.valueError nonHashableMsg) ∧
    (explicitSimplexJ jitSig jitPred (SimplexJ.compose true true [] (jitSimplex (.array 0))) (.array 0) 1 [1]).1 = .ok [1] := by
  refine ⟨by simp [jitSimplex], ?_⟩
  decide +kernel

/-- The hypotheses of `C87_refuted_implicit`; the uncompiled module lets the same call pass. -/
example :
    (∃ z, (jitSimplex (.array 0)).ext.ctrl.state = .array z) ∧ (jitSimplex (.array 0)).enable = true ∧
    (jitSimplex (.array 0)).intervening = false ∧ (1 : Rat) ≤ (jitSimplex (.array 0)).ext.backupWindow ∧
    (implicitSimplex jitPred (jitSimplex (.array 0)) (.array 0) 1 [1]).1 = .ok [1] ∧
    (implicitSimplexJ jitSig jitPred (SimplexJ.composeImplicit true false [] (jitSimplex (.array 0))) (.array 0) 1 [1]).1 = .ok [1] := by
  refine ⟨⟨0, rfl⟩, rfl, rfl, ?_⟩
  decide +kernel

/-- The user changes the backup control from `-1` to `-3`. -/
def setGain (o : SimplexObj Rat Rat Unit Rat) : SimplexObj Rat Rat Unit Rat :=
  { o with ext := { o.ext with ctrl := { o.ext.ctrl with gen := fun _ _ z => some ([-3], z) } } }

/-- **C86 fails**: the backup control is changed after it was used once. The compiled module goes on with the old one, the
uncompiled module uses the new one; after `reset()` the compiled module uses it as well. -/
theorem C86_refuted_controller :
    let h : List (Use (SimplexObj Rat Rat Unit Rat) Rat Rat) := [.call (.array 5) 1 [1], .modify setGain, .call (.array 5) 1 [1]]
    let j := useAll (explicitSimplexJ jitSig jitPred) (fun m j => { j with obj := m j.obj }) h (SimplexJ.compose true true [] (jitSimplex .none))
    j.1 = [.ok [-1], .ok [-1]] ∧
    (useAll (explicitSimplex jitPred) (fun m s => m s) h (jitSimplex .none)).1 = [.ok [-1], .ok [-3]] ∧
    (explicitSimplexJ jitSig jitPred (simplexResetJ j.2).2 (.array 5) 1 [1]).1 = .ok [-3] := by
  refine ⟨?_, ?_, ?_⟩ <;> decide +kernel

/-- The hypotheses of `C86_frozen_controller` and of `C86_reset_controller_partial`. -/
example :
    let j : SimplexJ Nat Rat Rat Unit Rat := SimplexJ.compose true true [] (jitSimplex .none)
    j.jit.ctrlJit = true ∧ j.obj.enable = true ∧ (explicitSimplexJ jitSig jitPred j (.array 5) 1 [1]).1 = .ok [-1] ∧
      (explicitSimplexJ jitSig jitPred j (.array 5) 1 [1]).2.obj.intervening = true ∧
      (simplexResetJ j).1 = .ok () ∧ NoCtrlState (simplexReset j.obj).2.ext.ctrl := by
  refine ⟨rfl, rfl, by decide +kernel, by decide +kernel, rfl, rfl, fun _ _ _ z h => ?_⟩
  have h : some ([(-1 : Rat)], CState.none) = some (_, z) := h
  simp only [Option.some.injEq, Prod.mk.injEq] at h
  exact h.2.symm

/-- The hypotheses of `C85_implicit_simplex` with the prediction compiled: the second call replays the trace, and sees that the
constraint was switched off. -/
example :
    let opts : Dict Bool := [("integrate", true)]
    jitOption true opts "integrate" false = true ∧ (jitSimplex .none).ext.ctrl.stateSaved = .none ∧
    (useAll (implicitSimplexJ jitSig jitPred) (fun m j => { j with obj := m j.obj })
        [.call (.array 5) 1 [1],
          .modify (fun o => { o with constraints := o.constraints.map fun kc => (kc.1, { kc.2 with enabled := false }) }),
          .call (.array 5) 1 [1]] (SimplexJ.composeImplicit true true opts (jitSimplex .none))).1 = [.ok [-1], .ok [1]] := by
  refine ⟨by decide +kernel, rfl, by decide +kernel⟩

/-- An ASIF module for `jitBound`; `extra` is the mass. -/
def jitASIF (mass : Rat) : ASIFObj Rat Rat Unit Rat :=
  { toBase := Base.init none none, constraints := [("bound", { jitBound with alpha := some fun h => h })], params := [("bound", ())]
    constraintEnabled := [("bound", true)], constraintValues := [], isStaleConstraints := true
    ext := { epsilon := 0, controlDim := 1, solverException := false, numSlack := 0, objWeight := [1], constraintNames := []
             actuation := [], direct := [], directParams := [], directEnabled := [], causing := none, extra := mass } }

/-- For one control and one row `w u ≥ b`: the desired control, or the end of the half-line. -/
def jitSolver : Solver Rat := fun _ a rows =>
  match a, rows with
  | [u], [r] => if u * r.w.sum ≥ r.b then .solved [u] [] else .solved [r.b / r.w.sum] []
  | a, _ => .solved a []

/-- The hypotheses of `C86_frozen_asif`, and the effect: the mass is changed from 1 to 2 after the first call, the compiled
module goes on with 1. -/
example :
    letI : HasSqrt Rat := ⟨fun x => x⟩
    let f : Rat → Rat → List Rat := fun _ _ => [0]
    let g : Rat → Rat → List (List Rat) := fun m _ => [[1 / m]]
    let j : ASIFJ Nat Rat Rat Unit Rat := ASIFJ.compose true [] (jitASIF 1)
    let l : List (Use (ASIFObj Rat Rat Unit Rat) Rat Rat) := [.call (.array 0) 1 [1],
      .modify (fun o => { o with ext := { o.ext with extra := 2 } }), .call (.array 1) 1 [10]]
    j.jit.barrierJit = true ∧ j.obj.enable = true ∧
      (explicitASIFJ jitSolver (fun _ _ _ _ => 0) (fun _ _ _ _ => 0) f g j (.array 0) 1 [1]).1 = .ok [1] ∧
      (useAll (explicitASIFJ jitSolver (fun _ _ _ _ => 0) (fun _ _ _ _ => 0) f g) (fun m j => { j with obj := m j.obj }) l j).1 =
        [.ok [1], .ok [4]] ∧
      (useAll (fun s : ASIFObj Rat Rat Unit Rat => explicitASIF jitSolver (f s.ext.extra) (g s.ext.extra) s) (fun m s => m s) l
        (jitASIF 1)).1 = [.ok [1], .ok [8]] := by
  refine ⟨rfl, rfl, ?_⟩
  decide +kernel

/-- The hypotheses of `C85_implicit_asif`: a module with the backup law `u = -1`; the history switches the constraint off
through `enabled`, which the compiled module sees. -/
example :
    letI : HasSqrt Rat := ⟨fun x => x⟩
    let c : Constraint Rat (List Rat) Unit :=
      { computeFn := fun x _ => 5 - x.sum, phiFn := fun x _ => 5 - x.sum, gradFn := fun _ _ => [-1], alpha := some fun h => h
        alphaNeg := none, bias := 0, biasNegative := 0, slackPriorityScale := none, params := (), enabled := true, subsample := {} }
    let s : ImplicitObj Rat Unit Unit :=
      { toBase := Base.init none none, constraints := [("bound", c)], params := [("bound", ())]
        constraintEnabled := [("bound", true)], constraintValues := [], isStaleConstraints := true
        ext := { epsilon := 0, controlDim := 1, solverException := false, numSlack := 0, objWeight := [1], constraintNames := []
                 actuation := [], direct := [], directParams := [], directEnabled := [], causing := none
                 extra := { backupWindow := 0
                            ctrl := { gen := fun _ _ z => some ([-1], z), stateInitial := .none, stateSaved := .none, state := .none } } } }
    let l : List (Use (ImplicitObj Rat Unit Unit) Rat (List Rat)) := [.call (.array [1]) 1 [10],
      .modify (fun o => { o with constraints := o.constraints.map fun kc => (kc.1, { kc.2 with enabled := false }) }),
      .call (.array [1]) 1 [10]]
    (useAll (implicitASIFJ jitSolver (fun _ _ _ => 0) (fun _ _ _ _ _ => 0) (fun _ _ _ _ => 0) (fun _ _ => [[0]]) (fun _ => [0])
        (fun _ => [[1]]) (fun x _ _ => x)) (fun m j => { j with obj := m j.obj }) l
        (ASIFJ.composeImplicit (Sig := Nat) true [] s)).1 = [.ok [4], .ok [10]] := by
  decide +kernel

end RTA
