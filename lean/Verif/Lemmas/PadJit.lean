import Verif.Model.Zoo.InspectionJit
import Verif.Lemmas.JitFrozen

/-!
Helper lemmas: a compiled module whose `_get_state` overwrites attributes that the compiled methods read.
-/
namespace RTA

section
variable {K S P X Sig : Type}

/-- A module object with another attribute. -/
def withExtra (v : X) (o : ASIFObj K S P X) : ASIFObj K S P X := { o with ext := { o.ext with extra := v } }

/-- A compiled module with another attribute, also in the traces that do not read it. -/
def freezeJ (v : X) (j : ASIFJ Sig K S P X) : ASIFJ Sig K S P X :=
  { obj := withExtra v j.obj, jit := { j.jit with direct := j.jit.direct.map fun p => (p.1, withExtra v p.2) } }

theorem withExtra_self {v : X} {o : ASIFObj K S P X} (h : o.ext.extra = v) : withExtra v o = o := by
  rcases o with ⟨b, c, p, en, vv, st, ep, cd, se, ns, ow, cn, ac, di, dp, de, ca, ex⟩
  cases h
  rfl

theorem jitLookup_map {O : Type} [DecidableEq Sig] (F : O → O) (c : JitCache Sig O) (q : Sig) :
    jitLookup (c.map fun p => (p.1, F p.2)) q = (jitLookup c q).map F := by
  induction c with
  | nil => rfl
  | cons a l ih =>
    obtain ⟨s, o⟩ := a
    simp only [List.map_cons, jitLookup]
    by_cases h : s = q
    · simp only [if_pos h, Option.map_some]
    · simp only [if_neg h, ih]

theorem jitCall_map {O R : Type} [DecidableEq Sig] {F : O → O} {run : O → Except PyErr R} (hr : ∀ o, run (F o) = run o) (on : Bool)
    (c : JitCache Sig O) (q : Sig) (self : O) :
    jitCall on run (c.map fun p => (p.1, F p.2)) q (F self) =
      ((jitCall on run c q self).1, (jitCall on run c q self).2.map fun p => (p.1, F p.2)) := by
  unfold jitCall
  cases on with
  | false => simp only [Bool.false_eq_true, if_false, hr]
  | true =>
    simp only [if_true, jitLookup_map]
    cases jitLookup c q with
    | some o => simp only [Option.map_some, hr]
    | none =>
      simp only [Option.map_none, hr]
      cases run self <;> rfl

theorem directRowsJ_freeze [DecidableEq Sig] [Zero K] (sigD : List (Row K) → S → Dict P → Dict Bool → Sig) (v : X)
    (j : ASIFJ Sig K S P X) (rows : List (Row K)) (x : S) :
    directRowsJ sigD (freezeJ v j) rows x =
      ((directRowsJ sigD j rows x).1, freezeJ v (directRowsJ sigD j rows x).2) := by
  have h := jitCall_map (F := withExtra v)
    (run := fun o : ASIFObj K S P X => directRows j.obj.ext.directParams j.obj.ext.directEnabled o.ext.controlDim o.ext.numSlack x o.ext.direct)
    (fun _ => rfl) j.jit.directJit j.jit.direct (sigD rows x j.obj.ext.directParams j.obj.ext.directEnabled) j.obj
  unfold directRowsJ
  have e : jitCall (freezeJ v j).jit.directJit
      (fun o : ASIFObj K S P X => directRows (freezeJ v j).obj.ext.directParams (freezeJ v j).obj.ext.directEnabled o.ext.controlDim
        o.ext.numSlack x o.ext.direct) (freezeJ v j).jit.direct
      (sigD rows x (freezeJ v j).obj.ext.directParams (freezeJ v j).obj.ext.directEnabled) (freezeJ v j).obj = _ := h
  rw [e]
  rfl

theorem asifFilterJ_freeze [DecidableEq Sig] [Add K] [Mul K] [Neg K] [Sub K] [Zero K] [One K] [OfNat K 10]
    [HasSqrt K] [LT K] [DecidableLT K] (solver : Solver K) (sig : S → K → Dict P → Dict Bool → Sig)
    (sigD : List (Row K) → S → Dict P → Dict Bool → Sig) (f : X → S → List K) (g : X → S → List (List K)) (v : X)
    (j : ASIFJ Sig K S P X) (hJ : j.jit.barrierJit = true) {snap : ASIFObj K S P X} (x : S) (dt : K)
    (u : List K) (h : jitLookup j.jit.barrier (sig x dt j.obj.params j.obj.constraintEnabled) = some snap) :
    asifFilterJ solver sigD (explicitGenRowsJ sig f g) (freezeJ v j) x dt u =
      ((asifFilterJ solver sigD (explicitGenRowsJ sig f g) j x dt u).1,
        freezeJ v (asifFilterJ solver sigD (explicitGenRowsJ sig f g) j x dt u).2) := by
  let run : ASIFObj K S P X → Except PyErr (List (Row K)) := fun t =>
    (explicitGenRows (f t.ext.extra) (g t.ext.extra)
        { t with params := j.obj.params, constraintEnabled := j.obj.constraintEnabled } x dt).1
  have hg : ∀ t : ASIFJ Sig K S P X, t.obj.params = j.obj.params → t.obj.constraintEnabled = j.obj.constraintEnabled →
      t.jit.barrierJit = true → t.jit.barrier = j.jit.barrier → explicitGenRowsJ sig f g t x dt = (run snap, t) := by
    intro t h1 h2 h3 h4
    unfold explicitGenRowsJ
    dsimp only
    rw [h1, h2, h3, h4, jitCall_hit h]
    rcases t with ⟨o, b, d, i, cb, cd, ci⟩
    obtain rfl : b = true := h3
    obtain rfl : cb = j.jit.barrier := h4
    rfl
  let j1 : ASIFJ Sig K S P X := { j with obj := updateDirectParams j.obj }
  have e1 : ({ freezeJ v j with obj := updateDirectParams (freezeJ v j).obj } : ASIFJ Sig K S P X) = freezeJ v j1 := rfl
  unfold asifFilterJ
  rw [e1, hg (freezeJ v j1) rfl rfl hJ rfl, hg j1 rfl rfl hJ rfl]
  cases run snap with
  | error er => rfl
  | ok rows =>
    dsimp only
    rw [directRowsJ_freeze]
    rcases directRowsJ sigD j1 rows x with ⟨r, j2⟩
    cases r with
    | error er => rfl
    | ok drows =>
      dsimp only
      have ho := optimize_patch solver j2.obj.constraints j2.obj.constraintValues v j2.obj u (rows ++ drows)
      have e2 : (freezeJ v j2).obj = patchASIF j2.obj.constraints j2.obj.constraintValues v j2.obj := rfl
      rw [e2, ho]
      have ho' : (optimize solver j2.obj u (rows ++ drows)).2.constraints = j2.obj.constraints ∧
          (optimize solver j2.obj u (rows ++ drows)).2.constraintValues = j2.obj.constraintValues := by
        unfold optimize
        dsimp only
        split
        · split <;> exact ⟨rfl, rfl⟩
        · split_ifs <;> exact ⟨rfl, rfl⟩
      rcases hopt : optimize solver j2.obj u (rows ++ drows) with ⟨r3, o3⟩
      rw [hopt] at ho'
      obtain ⟨a1, a2⟩ := ho'
      have a3 : patchASIF j2.obj.constraints j2.obj.constraintValues v o3 = withExtra v o3 := by
        have a1 : o3.constraints = j2.obj.constraints := a1
        have a2 : o3.constraintValues = j2.obj.constraintValues := a2
        unfold patchASIF withExtra
        rw [← a1, ← a2]
      cases r3 with
      | error er => dsimp only; rw [a3]; rfl
      | ok w => dsimp only; rw [a3]; rfl

theorem freezeJ_freezeJ (v w : X) (j : ASIFJ Sig K S P X) : freezeJ v (freezeJ w j) = freezeJ v j := by
  unfold freezeJ withExtra
  simp [List.map_map, Function.comp_def]

/-- A call of an enabled module is a call of `explicitASIFJ` after the attribute is set and the state completed. -/
theorem padASIFJ_eq [DecidableEq Sig] [Add K] [Mul K] [Neg K] [Sub K] [Zero K] [One K] [OfNat K 10] [Max K] [Min K]
    [HasSqrt K] [LT K] [DecidableLT K] (solver : Solver K) (sig : S → K → Dict P → Dict Bool → Sig)
    (sigD : List (Row K) → S → Dict P → Dict Bool → Sig) (pad : S → S) (upd : X → S → X) (f : X → S → List K)
    (g : X → S → List (List K)) (j : ASIFJ Sig K S P X) (hen : j.obj.enable = true) (x : S) (dt : K) (u : List K) :
    padASIFJ solver sig sigD pad upd f g j (.array x) dt u =
      explicitASIFJ solver sig sigD f g { j with obj := withExtra (upd j.obj.ext.extra x) j.obj } (.array (pad x)) dt u := by
  unfold padASIFJ explicitASIFJ filterControl
  have e1 : (HasBase.get (modifyBase (K := K) (fun b => { b with controlDesired := some u }) j)).enable = true := hen
  have e2 : (HasBase.get (modifyBase (K := K) (fun b => { b with controlDesired := some u })
      ({ j with obj := withExtra (upd j.obj.ext.extra x) j.obj } : ASIFJ Sig K S P X))).enable = true := hen
  dsimp only
  rw [if_pos e1, if_pos e2]
  rfl

theorem computeFilteredControlJ_of {E I C : Type} {getState : CBObj K S P E → I → Except PyErr S × CBObj K S P E}
    {fJ : JObj (CBObj K S P E) C → S → K → List K → Except PyErr (List K) × JObj (CBObj K S P E) C}
    {self j' : JObj (CBObj K S P E) C} {inp : I} {x : S} {o : CBObj K S P E}
    (h : getState (updateParams self.obj) inp = (.ok x, o)) (hj : ⟨updateConstraintValuesAt o x true, self.jit⟩ = j') (dt : K)
    (u : List K) :
    computeFilteredControlJ getState fJ self inp dt u =
      match fJ j' x dt u with
      | (.error e, self) => (.error e, self)
      | (.ok c, self) => (.ok c, { self with obj := { self.obj with controlActual := some c } }) := by
  subst hj
  unfold computeFilteredControlJ
  rw [h]
  dsimp only
  rcases fJ ⟨updateConstraintValuesAt o x true, self.jit⟩ x dt u with ⟨r, j2⟩
  cases r <;> rfl

/-- Once traced, a compiled module computes with the attribute of the trace. -/
theorem padASIFJ_freeze [DecidableEq Sig] [Add K] [Mul K] [Neg K] [Sub K] [Zero K] [One K] [OfNat K 10] [Max K] [Min K]
    [HasSqrt K] [LT K] [DecidableLT K] (solver : Solver K) (sig : S → K → Dict P → Dict Bool → Sig)
    (sigD : List (Row K) → S → Dict P → Dict Bool → Sig) (pad : S → S) (upd : X → S → X) (f : X → S → List K)
    (g : X → S → List (List K)) (v : X) (j : ASIFJ Sig K S P X) (hJ : j.jit.barrierJit = true) {snap : ASIFObj K S P X} (x : S)
    (dt : K) (u : List K)
    (h : jitLookup j.jit.barrier (sig (pad x) dt (updateParams j.obj).params (updateParams j.obj).constraintEnabled) = some snap) :
    explicitASIFJ solver sig sigD f g (freezeJ v j) (.array (pad x)) dt u =
      ((padASIFJ solver sig sigD pad upd f g j (.array x) dt u).1,
        freezeJ v (padASIFJ solver sig sigD pad upd f g j (.array x) dt u).2) := by
  let o1 : ASIFObj K S P X := updateParams { j.obj with controlDesired := some u }
  let j1 : ASIFJ Sig K S P X := { j with obj := updateConstraintValuesAt (withExtra (upd o1.ext.extra x) o1) (pad x) true }
  have hf := asifFilterJ_freeze solver sig sigD f g v j1 hJ (pad x) dt u h
  have hp := computeFilteredControlJ_of (fJ := asifFilterJ solver sigD (explicitGenRowsJ sig f g)) (getState := getStateSet pad upd)
    (self := modifyBase (K := K) (fun b => { b with controlDesired := some u }) j) (inp := .array x)
    (x := pad x) (o := withExtra (upd o1.ext.extra x) o1) rfl (j' := j1) rfl dt u
  have hq := computeFilteredControlJ_of (fJ := asifFilterJ solver sigD (explicitGenRowsJ sig f g)) (getState := getStateDefault)
    (self := modifyBase (K := K) (fun b => { b with controlDesired := some u }) (freezeJ v j)) (inp := .array (pad x))
    (x := pad x) (o := withExtra v o1) rfl (j' := freezeJ v j1) rfl dt u
  unfold padASIFJ explicitASIFJ filterControl
  dsimp only
  by_cases hen : j.obj.enable = true
  · have e1 : (HasBase.get (modifyBase (K := K) (fun b => { b with controlDesired := some u }) j)).enable = true := hen
    have e2 : (HasBase.get (modifyBase (K := K) (fun b => { b with controlDesired := some u }) (freezeJ v j))).enable = true := hen
    rw [if_pos e1, if_pos e2, hp, hq, hf]
    rcases asifFilterJ solver sigD (explicitGenRowsJ sig f g) j1 (pad x) dt u with ⟨r, j2⟩
    cases r with
    | error e => rfl
    | ok c =>
      dsimp only
      have e3 : (HasBase.get ({ freezeJ v j2 with obj := { (freezeJ v j2).obj with controlActual := some c } } : ASIFJ Sig K S P X) : Base K) =
        HasBase.get ({ j2 with obj := { j2.obj with controlActual := some c } } : ASIFJ Sig K S P X) := rfl
      rw [e3]
      cases (HasBase.get ({ j2 with obj := { j2.obj with controlActual := some c } } : ASIFJ Sig K S P X) : Base K).clipControl c <;> rfl
  · have e1 : ¬ (HasBase.get (modifyBase (K := K) (fun b => { b with controlDesired := some u }) j)).enable = true := hen
    have e2 : ¬ (HasBase.get (modifyBase (K := K) (fun b => { b with controlDesired := some u }) (freezeJ v j))).enable = true := hen
    rw [if_neg e1, if_neg e2]
    rfl

theorem optimize_withExtra [Zero K] (solver : Solver K) (v : X) (o : ASIFObj K S P X) (u : List K) (rows : List (Row K)) :
    optimize solver (withExtra v o) u rows = ((optimize solver o u rows).1, withExtra v (optimize solver o u rows).2) := by
  rcases o with ⟨b, c, p, en, vv, st, ep, cd, se, ns, ow, cn, ac, di, dp, de, ca, ex⟩
  unfold optimize
  dsimp only [withExtra]
  cases quadprogSolve solver ow (u ++ zeros ns) rows with
  | solved v iact =>
    dsimp only
    rcases causingLoop cn iact [] with ⟨r, l⟩
    cases r <;> rfl
  | valueError msg =>
    dsimp only
    by_cases h1 : msg = inconsistentMsg
    · simp only [if_pos h1]
      cases se <;> rfl
    · simp only [if_neg h1]

/-- The uncompiled filter does not read the attribute by itself. -/
theorem explicitASIF_withExtra [Add K] [Mul K] [Neg K] [Sub K] [Zero K] [One K] [OfNat K 10] [Max K] [Min K]
    [HasSqrt K] [LT K] [DecidableLT K] (solver : Solver K) (f : S → List K) (g : S → List (List K)) (v : X)
    (s : ASIFObj K S P X) (x : S) (dt : K) (u : List K) :
    explicitASIF solver f g (withExtra v s) (.array x) dt u =
      ((explicitASIF solver f g s (.array x) dt u).1, withExtra v (explicitASIF solver f g s (.array x) dt u).2) := by
  have hf : ∀ t : ASIFObj K S P X, asifFilter solver (explicitGenRows f g) (withExtra v t) x dt u =
      ((asifFilter solver (explicitGenRows f g) t x dt u).1, withExtra v (asifFilter solver (explicitGenRows f g) t x dt u).2) := by
    intro t
    unfold asifFilter
    dsimp only
    have hg : explicitGenRows f g (updateDirectParams (withExtra v t)) x dt =
        ((explicitGenRows f g (updateDirectParams t) x dt).1, withExtra v (explicitGenRows f g (updateDirectParams t) x dt).2) := by
      unfold explicitGenRows
      dsimp only [withExtra, updateDirectParams, CBObj.setExt]
      cases explicitRows f g t.params t.constraintEnabled t.ext.controlDim t.ext.numSlack x 0 t.constraints <;> rfl
    rw [hg]
    rcases explicitGenRows f g (updateDirectParams t) x dt with ⟨r, t1⟩
    cases r with
    | error e => rfl
    | ok rows =>
      dsimp only
      have hd : directRows (withExtra v t1).ext.directParams (withExtra v t1).ext.directEnabled (withExtra v t1).ext.controlDim
          (withExtra v t1).ext.numSlack x (withExtra v t1).ext.direct =
        directRows t1.ext.directParams t1.ext.directEnabled t1.ext.controlDim t1.ext.numSlack x t1.ext.direct := rfl
      rw [hd]
      cases directRows t1.ext.directParams t1.ext.directEnabled t1.ext.controlDim t1.ext.numSlack x t1.ext.direct with
      | error e => rfl
      | ok drows =>
        dsimp only
        rw [optimize_withExtra]
        rcases optimize solver t1 u (rows ++ drows) with ⟨r3, t2⟩
        cases r3 <;> rfl
  have hc : ∀ t : ASIFObj K S P X, computeFilteredControl getStateDefault (asifFilter solver (explicitGenRows f g)) (withExtra v t)
      (.array x) dt u =
      ((computeFilteredControl getStateDefault (asifFilter solver (explicitGenRows f g)) t (.array x) dt u).1,
        withExtra v (computeFilteredControl getStateDefault (asifFilter solver (explicitGenRows f g)) t (.array x) dt u).2) := by
    intro t
    have h1 := hf (updateConstraintValuesAt (updateParams t) x true)
    unfold computeFilteredControl
    dsimp only [getStateDefault]
    have e : updateConstraintValuesAt (updateParams (withExtra v t)) x true =
      withExtra v (updateConstraintValuesAt (updateParams t) x true) := rfl
    rw [e, h1]
    rcases asifFilter solver (explicitGenRows f g) (updateConstraintValuesAt (updateParams t) x true) x dt u with ⟨r, t1⟩
    cases r <;> rfl
  unfold explicitASIF filterControlCB filterControl
  dsimp only
  have e0 : modifyBase (K := K) (fun b => { b with controlDesired := some u }) (withExtra v s) =
    withExtra v (modifyBase (K := K) (fun b => { b with controlDesired := some u }) s) := rfl
  rw [e0, hc]
  by_cases hen : s.enable = true
  · have e1 : (HasBase.get (modifyBase (K := K) (fun b => { b with controlDesired := some u }) s)).enable = true := hen
    have e2 : (HasBase.get (withExtra v (modifyBase (K := K) (fun b => { b with controlDesired := some u }) s)) : Base K).enable = true := hen
    rw [if_pos e1, if_pos e2]
    rcases computeFilteredControl getStateDefault (asifFilter solver (explicitGenRows f g))
      (modifyBase (K := K) (fun b => { b with controlDesired := some u }) s) (.array x) dt u with ⟨r, t⟩
    cases r with
    | error e => rfl
    | ok w =>
      dsimp only
      have e3 : (HasBase.get (withExtra v t) : Base K) = HasBase.get t := rfl
      rw [e3]
      cases (HasBase.get t : Base K).clipControl w <;> rfl
  · have e1 : ¬ (HasBase.get (modifyBase (K := K) (fun b => { b with controlDesired := some u }) s)).enable = true := hen
    have e2 : ¬ (HasBase.get (withExtra v (modifyBase (K := K) (fun b => { b with controlDesired := some u }) s)) : Base K).enable = true := hen
    rw [if_neg e1, if_neg e2]
    rfl

theorem answers_withExtra [Add K] [Mul K] [Neg K] [Sub K] [Zero K] [One K] [OfNat K 10] [Max K] [Min K]
    [HasSqrt K] [LT K] [DecidableLT K] (solver : Solver K) (f : S → List K) (g : S → List (List K)) (v : X)
    (l : List (S × K × List K)) (s : ASIFObj K S P X) :
    answers (explicitASIF solver f g) (withExtra v s) l = answers (explicitASIF solver f g) s l := by
  induction l generalizing s with
  | nil => rfl
  | cons c l ih =>
    obtain ⟨x, dt, u⟩ := c
    simp only [answers]
    rw [explicitASIF_withExtra]
    exact congrArg _ (ih _)

/-- A call of an enabled module without compilation. -/
theorem padASIF_eq [Add K] [Mul K] [Neg K] [Sub K] [Zero K] [One K] [OfNat K 10] [Max K] [Min K]
    [HasSqrt K] [LT K] [DecidableLT K] (solver : Solver K) (pad : S → S) (upd : X → S → X) (f : X → S → List K)
    (g : X → S → List (List K)) (s : ASIFObj K S P X) (x : S) (hs : s.enable = true ∨ upd s.ext.extra x = s.ext.extra) (dt : K)
    (u : List K) :
    padASIF solver pad upd f g s (.array x) dt u =
      explicitASIF solver (f (upd s.ext.extra x)) (g (upd s.ext.extra x)) (withExtra (upd s.ext.extra x) s) (.array (pad x)) dt u := by
  unfold padASIF explicitASIF filterControlCB filterControl
  dsimp only
  by_cases hen : s.enable = true
  · have e1 : (HasBase.get (modifyBase (K := K) (fun b => { b with controlDesired := some u }) s)).enable = true := hen
    have e2 : (HasBase.get (modifyBase (K := K) (fun b => { b with controlDesired := some u })
      (withExtra (upd s.ext.extra x) s))).enable = true := hen
    rw [if_pos e1, if_pos e2]
    rfl
  · have e1 : ¬ (HasBase.get (modifyBase (K := K) (fun b => { b with controlDesired := some u }) s)).enable = true := hen
    have e2 : ¬ (HasBase.get (modifyBase (K := K) (fun b => { b with controlDesired := some u })
      (withExtra (upd s.ext.extra x) s))).enable = true := hen
    rw [if_neg e1, if_neg e2, withExtra_self (hs.resolve_left hen).symm]

theorem explicitASIF_extra [Add K] [Mul K] [Neg K] [Sub K] [Zero K] [One K] [OfNat K 10] [Max K] [Min K]
    [HasSqrt K] [LT K] [DecidableLT K] (solver : Solver K) (f : S → List K) (g : S → List (List K))
    (s : ASIFObj K S P X) (x : S) (dt : K) (u : List K) :
    (explicitASIF solver f g s (.array x) dt u).2.ext.extra = s.ext.extra := by
  have h := explicitASIF_withExtra solver f g s.ext.extra s x dt u
  rw [withExtra_self rfl] at h
  rw [h]
  rfl

end

end RTA
