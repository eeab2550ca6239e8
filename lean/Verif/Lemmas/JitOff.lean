import Verif.Lemmas.JitFrozen

/-!
Modules with `jit_enable=False`, whatever their backup controllers keep.
-/
namespace RTA

section
variable {K S P A X Sig : Type} [DecidableEq Sig]

theorem jitCall_off {Sig O R : Type} [DecidableEq Sig] (run : O → Except PyErr R) (cache : JitCache Sig O) (q : Sig) (self : O) :
    jitCall false run cache q self = (run self, cache) := rfl

/-- Nothing is compiled, and the objects are the same. -/
def OffSim (j : ASIFJ Sig K S P X) (s : ASIFObj K S P X) : Prop :=
  j.obj = s ∧ j.jit.barrierJit = false ∧ j.jit.directJit = false ∧ j.jit.integrateJit = false

omit [DecidableEq Sig] in
theorem OffSim.up (j : ASIFJ Sig K S P X) (s : ASIFObj K S P X) (h : OffSim j s) (o : ASIFObj K S P X)
    (_ : o.constraints = s.constraints) (_ : o.ext = s.ext) (_ : SameBounds s o) : OffSim { j with obj := o } o := ⟨rfl, h.2⟩

theorem directRowsJ_off [Zero K] (sig : List (Row K) → S → Dict P → Dict Bool → Sig) {j : ASIFJ Sig K S P X}
    {s : ASIFObj K S P X} (h : OffSim j s) (rows : List (Row K)) (x : S) :
    (directRowsJ sig j rows x).1 =
        directRows s.ext.directParams s.ext.directEnabled s.ext.controlDim s.ext.numSlack x s.ext.direct ∧
      OffSim (directRowsJ sig j rows x).2 s := by
  obtain ⟨rfl, h1, h2, h3⟩ := h
  unfold directRowsJ
  rw [h2, jitCall_off]
  exact ⟨rfl, rfl, h1, h2, h3⟩

theorem asifFilterJ_off [Add K] [Mul K] [Sub K] [Zero K] [HasSqrt K] [LT K] [DecidableLT K]
    (solver : Solver K) (sigD : List (Row K) → S → Dict P → Dict Bool → Sig)
    {genJ : ASIFJ Sig K S P X → S → K → Except PyErr (List (Row K)) × ASIFJ Sig K S P X}
    {gen : ASIFObj K S P X → S → K → Except PyErr (List (Row K)) × ASIFObj K S P X}
    (hg : ∀ j s x dt, OffSim j s → (genJ j x dt).1 = (gen s x dt).1 ∧ OffSim (genJ j x dt).2 (gen s x dt).2)
    {j : ASIFJ Sig K S P X} {s : ASIFObj K S P X} (h : OffSim j s) (x : S) (dt : K) (u : List K) :
    (asifFilterJ solver sigD genJ j x dt u).1 = (asifFilter solver gen s x dt u).1 ∧
      OffSim (asifFilterJ solver sigD genJ j x dt u).2 (asifFilter solver gen s x dt u).2 := by
  obtain ⟨rfl, hf⟩ := h
  have h1 : OffSim { j with obj := updateDirectParams j.obj } (updateDirectParams j.obj) := ⟨rfl, hf⟩
  obtain ⟨h2, h3⟩ := hg _ _ x dt h1
  unfold asifFilterJ asifFilter
  dsimp only
  rcases hj : genJ { j with obj := updateDirectParams j.obj } x dt with ⟨r, j'⟩
  rcases hs : gen (updateDirectParams j.obj) x dt with ⟨r', s'⟩
  rw [hj, hs] at h2 h3
  obtain rfl : r = r' := h2
  have h3 : OffSim j' s' := h3
  cases r with
  | error e => exact ⟨rfl, h3⟩
  | ok rows =>
    dsimp only
    obtain ⟨h4, h5⟩ := directRowsJ_off sigD h3 rows x
    rcases hd : directRowsJ sigD j' rows x with ⟨r2, j2⟩
    rw [hd] at h4 h5
    have h4 : r2 = directRows s'.ext.directParams s'.ext.directEnabled s'.ext.controlDim s'.ext.numSlack x s'.ext.direct := h4
    have h5 : OffSim j2 s' := h5
    rw [← h4]
    cases r2 with
    | error e => exact ⟨rfl, h5⟩
    | ok drows =>
      dsimp only
      rw [h5.1]
      rcases optimize solver s' u (rows ++ drows) with ⟨r3, o⟩
      cases r3 <;> exact ⟨rfl, rfl, h5.2⟩

theorem implicitGenRowsJ_off [Field K] [LinearOrder K] [FloorRing K] (sigI : List K → K → Nat → Sig)
    (sig : List K → Nat → List (List K × List (List K)) → Dict P → Dict Bool → Sig)
    (ad : (List K → List K) → List K → List (List K)) (f : List K → List K) (g : List K → List (List K))
    (pred : List K → K → List K → List K)
    {j : ASIFJ Sig K (List K) P (ImplicitExt K A)} {s : ImplicitObj K P A} (h : OffSim j s) (x : List K) (dt : K) :
    (implicitGenRowsJ sigI sig ad f g pred j x dt).1 = (implicitGenRows ad f g pred s x dt).1 ∧
      OffSim (implicitGenRowsJ sigI sig ad f g pred j x dt).2 (implicitGenRows ad f g pred s x dt).2 := by
  obtain ⟨rfl, hf⟩ := h
  unfold implicitGenRowsJ implicitGenRows
  cases backupSteps j.obj.ext.extra.backupWindow dt with
  | error er => exact ⟨rfl, rfl, hf⟩
  | ok m =>
    dsimp only
    by_cases hm : m < 0
    · rw [if_pos hm, if_pos hm]; exact ⟨rfl, rfl, hf⟩
    · rw [if_neg hm, if_neg hm]
      have hs : sensIntegrateJ sigI ad f g pred j x dt (m.toNat + 1) =
          ((sensIntegrate ad f g pred j.obj x dt (m.toNat + 1)).1,
            { obj := (sensIntegrate ad f g pred j.obj x dt (m.toNat + 1)).2, jit := j.jit }) := by
        unfold sensIntegrateJ
        rw [hf.2.2, jitCall_off]
        obtain ⟨o, c⟩ := j
        obtain ⟨b, d, i, cb, cd, ci⟩ := c
        obtain rfl : i = false := hf.2.2
        rfl
      rw [hs]
      rcases hq : sensIntegrate ad f g pred j.obj x dt (m.toNat + 1) with ⟨r, s'⟩
      cases r with
      | error er => exact ⟨rfl, rfl, hf⟩
      | ok traj =>
        dsimp only
        rw [hf.1, jitCall_off]
        cases implicitRows f g s'.params s'.constraintEnabled s'.ext.controlDim s'.ext.numSlack x traj 0 s'.constraints with
        | error er => exact ⟨rfl, rfl, rfl, hf.2⟩
        | ok rows => exact ⟨rfl, rfl, rfl, hf.2⟩

theorem implicitASIFJ_off [Field K] [LinearOrder K] [FloorRing K] [HasSqrt K] (solver : Solver K)
    (sigI : List K → K → Nat → Sig) (sig : List K → Nat → List (List K × List (List K)) → Dict P → Dict Bool → Sig)
    (sigD : List (Row K) → List K → Dict P → Dict Bool → Sig) (ad : (List K → List K) → List K → List (List K))
    (f : List K → List K) (g : List K → List (List K)) (pred : List K → K → List K → List K)
    {j : ASIFJ Sig K (List K) P (ImplicitExt K A)} {s : ImplicitObj K P A} (h : OffSim j s) (inp : InputState (List K)) (dt : K)
    (u : List K) :
    (implicitASIFJ solver sigI sig sigD ad f g pred j inp dt u).1 = (implicitASIF solver ad f g pred s inp dt u).1 ∧
      OffSim (implicitASIFJ solver sigI sig sigD ad f g pred j inp dt u).2 (implicitASIF solver ad f g pred s inp dt u).2 := by
  refine filterControlJ_sim (fun _ _ h => h.1) OffSim.up (fun j t inp dt u h => ?_) h inp dt u
  refine computeFilteredControlJ_sim (fun _ _ h => h.1) OffSim.up getStateDefault_same (fun j t x dt u h => ?_) h inp dt u
  exact asifFilterJ_off solver sigD (fun j t x dt h => implicitGenRowsJ_off sigI sig ad f g pred h x dt) h x dt u

end

end RTA
