import Verif.Lemmas.Jit

/-!
Helper lemmas: once a method is traced, the attributes it reads are frozen.
-/
namespace RTA

section
variable {K S P A E X I C Sig : Type}

theorem updateParams_data {cs ds : Dict (Constraint K S P)} (h : SameData cs ds) (d : Dict P) (e : Dict Bool) :
    cs.foldl (fun d kc => dictSet d kc.1 kc.2.params) d = ds.foldl (fun d kc => dictSet d kc.1 kc.2.params) d ∧
      cs.foldl (fun d kc => dictSet d kc.1 kc.2.enabled) e = ds.foldl (fun d kc => dictSet d kc.1 kc.2.enabled) e := by
  unfold SameData at h
  induction h generalizing d e with
  | nil => exact ⟨rfl, rfl⟩
  | @cons a b l l' h1 _ ih =>
    simp only [List.foldl_cons]
    rw [h1.1, h1.2.1, h1.2.2]
    exact ih _ _

/-- A base object with other constraints, constraint values and attributes of the subclass. -/
def patchASIF (cs : Dict (Constraint K S P)) (vals : Dict K) (e : X) (o : ASIFObj K S P X) : ASIFObj K S P X :=
  { o with constraints := cs, constraintValues := vals, ext := { o.ext with extra := e } }

theorem optimize_patch [Zero K] (solver : Solver K) (cs : Dict (Constraint K S P)) (vals : Dict K) (e : X) (o : ASIFObj K S P X)
    (u : List K) (rows : List (Row K)) :
    optimize solver (patchASIF cs vals e o) u rows =
      ((optimize solver o u rows).1, patchASIF cs vals e (optimize solver o u rows).2) := by
  rcases o with ⟨b, c, p, en, v, st, ep, cd, se, ns, ow, cn, ac, di, dp, de, ca, ex⟩
  unfold optimize
  dsimp only [patchASIF]
  cases quadprogSolve solver ow (u ++ zeros ns) rows with
  | solved v iact =>
    dsimp only
    rcases causingLoop cn iact [] with ⟨r, l⟩
    cases r <;> rfl
  | valueError msg =>
    dsimp only
    by_cases h1 : msg = inconsistentMsg
    · simp only [if_pos h1]
      cases se <;> rfl
    · simp only [if_neg h1]

theorem jitCall_hit {Sig O R : Type} [DecidableEq Sig] {run : O → Except PyErr R} {cache : JitCache Sig O}
    {q : Sig} {self o : O} (h : jitLookup cache q = some o) : jitCall true run cache q self = (run o, cache) := by
  unfold jitCall
  rw [if_pos rfl, h]

theorem jitCall_congr {Sig O R : Type} [DecidableEq Sig] {on : Bool} {run : O → Except PyErr R} {cache : JitCache Sig O}
    {q : Sig} {self o : O} (h : run self = run o) : (jitCall on run cache q self).1 = (jitCall on run cache q o).1 := by
  unfold jitCall
  by_cases hon : on = true
  · rw [if_pos hon, if_pos hon]
    cases jitLookup cache q with
    | some _ => rfl
    | none => dsimp only; rw [h]; cases run o <;> rfl
  · rw [if_neg hon, if_neg hon]; exact h

theorem asifFilterJ_patch [DecidableEq Sig] [Add K] [Mul K] [Neg K] [Sub K] [Zero K] [One K] [OfNat K 10]
    [HasSqrt K] [LT K] [DecidableLT K] (solver : Solver K) (sig : S → K → Dict P → Dict Bool → Sig)
    (sigD : List (Row K) → S → Dict P → Dict Bool → Sig) (f : X → S → List K) (g : X → S → List (List K))
    (J : ASIFJit Sig (ASIFObj K S P X)) (hJ : J.barrierJit = true) (o : ASIFObj K S P X) {snap : ASIFObj K S P X} (x : S) (dt : K)
    (u : List K) (h : jitLookup J.barrier (sig x dt o.params o.constraintEnabled) = some snap) (cs : Dict (Constraint K S P))
    (vals : Dict K) (e : X) :
    (asifFilterJ solver sigD (explicitGenRowsJ sig f g) ⟨patchASIF cs vals e o, J⟩ x dt u).1 =
        (asifFilterJ solver sigD (explicitGenRowsJ sig f g) ⟨o, J⟩ x dt u).1 ∧
      (asifFilterJ solver sigD (explicitGenRowsJ sig f g) ⟨patchASIF cs vals e o, J⟩ x dt u).2.obj.toBase =
        (asifFilterJ solver sigD (explicitGenRowsJ sig f g) ⟨o, J⟩ x dt u).2.obj.toBase := by
  let run : ASIFObj K S P X → Except PyErr (List (Row K)) := fun t =>
    (explicitGenRows (f t.ext.extra) (g t.ext.extra)
        { t with params := o.params, constraintEnabled := o.constraintEnabled } x dt).1
  have hg : ∀ t : ASIFObj K S P X, t.params = o.params → t.constraintEnabled = o.constraintEnabled →
      explicitGenRowsJ sig f g ⟨t, J⟩ x dt = (run snap, ⟨t, J⟩) := by
    intro t h1 h2
    unfold explicitGenRowsJ
    dsimp only
    rw [h1, h2, hJ, jitCall_hit h]
    cases J; cases hJ; rfl
  unfold asifFilterJ
  dsimp only
  rw [hg (updateDirectParams (patchASIF cs vals e o)) rfl rfl, hg (updateDirectParams o) rfl rfl]
  cases run snap with
  | error er => exact ⟨rfl, rfl⟩
  | ok rows =>
    dsimp only
    have hd : (directRowsJ sigD ⟨updateDirectParams (patchASIF cs vals e o), J⟩ rows x).1 =
        (directRowsJ sigD ⟨updateDirectParams o, J⟩ rows x).1 :=
      jitCall_congr (run := fun t : ASIFObj K S P X => directRows (updateDirectParams o).ext.directParams
        (updateDirectParams o).ext.directEnabled t.ext.controlDim t.ext.numSlack x t.ext.direct) rfl
    have ho : (directRowsJ sigD ⟨updateDirectParams (patchASIF cs vals e o), J⟩ rows x).2.obj =
        patchASIF cs vals e (updateDirectParams o) := rfl
    have ho' : (directRowsJ sigD ⟨updateDirectParams o, J⟩ rows x).2.obj = updateDirectParams o := rfl
    rcases h1 : directRowsJ sigD ⟨updateDirectParams (patchASIF cs vals e o), J⟩ rows x with ⟨r1, j1⟩
    rcases h2 : directRowsJ sigD ⟨updateDirectParams o, J⟩ rows x with ⟨r2, j2⟩
    rw [h1, h2] at hd
    rw [h1] at ho
    rw [h2] at ho'
    obtain rfl : r1 = r2 := hd
    have ho : j1.obj = patchASIF cs vals e (updateDirectParams o) := ho
    have ho' : j2.obj = updateDirectParams o := ho'
    cases r1 with
    | error er => dsimp only; rw [ho, ho']; exact ⟨rfl, rfl⟩
    | ok drows =>
      dsimp only
      rw [ho, ho', optimize_patch]
      rcases optimize solver (updateDirectParams o) u (rows ++ drows) with ⟨r3, o3⟩
      cases r3 <;> exact ⟨rfl, rfl⟩

/-- The object as `_filter_control` finds it in a call of `filter_control`. -/
def preFilter (j : JObj (CBObj K S P E) C) (x : S) (u : List K) : JObj (CBObj K S P E) C :=
  { j with obj := updateConstraintValuesAt (updateParams { j.obj with controlDesired := some u }) x true }

/-- `filter_control` when the inner filter returns the same for two objects with equal base attributes. -/
theorem filterJ_congr [Max K] [Min K]
    {fJ : JObj (CBObj K S P E) C → S → K → List K → Except PyErr (List K) × JObj (CBObj K S P E) C}
    {j j' : JObj (CBObj K S P E) C} (hb : j.obj.toBase = j'.obj.toBase) {x : S} {dt : K} {u : List K}
    (h : (fJ (preFilter j x u) x dt u).1 =
        (fJ (preFilter j' x u) x dt u).1 ∧
      (fJ (preFilter j x u) x dt u).2.obj.toBase =
        (fJ (preFilter j' x u) x dt u).2.obj.toBase) :
    (filterControl (computeFilteredControlJ getStateDefault fJ) j (.array x) dt u).1 =
      (filterControl (computeFilteredControlJ getStateDefault fJ) j' (.array x) dt u).1 := by
  let m : JObj (CBObj K S P E) C → JObj (CBObj K S P E) C := modifyBase (K := K) (fun b => { b with controlDesired := some u })
  have hen : (HasBase.get (m j)).enable = (HasBase.get (m j')).enable := by
    show j.obj.toBase.enable = j'.obj.toBase.enable
    rw [hb]
  have hc : ∀ t : JObj (CBObj K S P E) C, computeFilteredControlJ getStateDefault fJ (m t) (.array x) dt u =
      match fJ (preFilter t x u) x dt u with
      | (.error e, self) => (.error e, self)
      | (.ok c, self) => (.ok c, { self with obj := { self.obj with controlActual := some c } }) := fun _ => rfl
  have hc1 := hc j
  have hc2 := hc j'
  unfold filterControl
  dsimp only [m] at hen hc1 hc2 ⊢
  rw [hc1, hc2]
  by_cases he : (HasBase.get (modifyBase (K := K) (fun b => { b with controlDesired := some u }) j)).enable = true
  · rw [if_pos he, if_pos (hen ▸ he)]
    rcases e1 : fJ (preFilter j x u) x dt u with ⟨r, j1⟩
    rcases e2 : fJ (preFilter j' x u) x dt u with ⟨r', j2⟩
    rw [e1, e2] at h
    obtain ⟨h1, h2⟩ := h
    obtain rfl : r = r' := h1
    have h2 : j1.obj.toBase = j2.obj.toBase := h2
    cases r with
    | error e => rfl
    | ok c =>
      dsimp only
      have hk : (HasBase.get ({ j1 with obj := { j1.obj with controlActual := some c } } : JObj (CBObj K S P E) C) : Base K) =
          HasBase.get ({ j2 with obj := { j2.obj with controlActual := some c } } : JObj (CBObj K S P E) C) := by
        show ({ j1.obj.toBase with controlActual := some c } : Base K) = { j2.obj.toBase with controlActual := some c }
        rw [h2]
      rw [hk]
      cases (HasBase.get ({ j2 with obj := { j2.obj with controlActual := some c } } : JObj (CBObj K S P E) C) : Base K).clipControl c <;> rfl
  · rw [if_neg he, if_neg (hen ▸ he)]

/-- A simplex object with other constraints and constraint values. -/
def patchSimplex (cs : Dict (Constraint K S P)) (vals : Dict K) (o : SimplexObj K S P A) : SimplexObj K S P A :=
  { o with constraints := cs, constraintValues := vals }

theorem backupControlJ_patch [DecidableEq Sig] [Max K] [Min K] (sig : SimplexSig Sig K S P) (cs : Dict (Constraint K S P))
    (vals : Dict K) (o : SimplexObj K S P A) (J : SimplexJit Sig (SimplexObj K S P A)) (x : S) (dt : K) :
    (backupControlJ sig ⟨patchSimplex cs vals o, J⟩ x dt).1 = (backupControlJ sig ⟨o, J⟩ x dt).1 ∧
      (backupControlJ sig ⟨patchSimplex cs vals o, J⟩ x dt).2.obj.toBase = (backupControlJ sig ⟨o, J⟩ x dt).2.obj.toBase := by
  have hb : ∀ on z, (jitCall on (fun t : SimplexObj K S P A => .ok (t.ext.ctrl.gen x dt z)) J.control (sig.control x dt)
        (patchSimplex cs vals o)).1 =
      (jitCall on (fun t : SimplexObj K S P A => .ok (t.ext.ctrl.gen x dt z)) J.control (sig.control x dt) o).1 := by
    intro on z
    unfold jitCall
    cases on with
    | false => rfl
    | true =>
      simp only [if_true]
      cases jitLookup J.control (sig.control x dt) <;> rfl
  have key : ∀ on z, (∃ r c c', jitCall on (fun t : SimplexObj K S P A => .ok (t.ext.ctrl.gen x dt z)) J.control (sig.control x dt)
        (patchSimplex cs vals o) = (r, c) ∧
      jitCall on (fun t : SimplexObj K S P A => .ok (t.ext.ctrl.gen x dt z)) J.control (sig.control x dt) o = (r, c')) := by
    intro on z
    have := hb on z
    rcases h1 : jitCall on (fun t : SimplexObj K S P A => .ok (t.ext.ctrl.gen x dt z)) J.control (sig.control x dt)
        (patchSimplex cs vals o) with ⟨r, c⟩
    rcases h2 : jitCall on (fun t : SimplexObj K S P A => .ok (t.ext.ctrl.gen x dt z)) J.control (sig.control x dt) o with ⟨r', c'⟩
    rw [h1, h2] at this
    obtain rfl : r = r' := this
    exact ⟨r, c, c', rfl, rfl⟩
  have hst : (patchSimplex cs vals o).ext.ctrl.state = o.ext.ctrl.state := rfl
  unfold backupControlJ
  dsimp only
  rw [hst]
  split
  · exact ⟨rfl, rfl⟩
  · exact ⟨rfl, rfl⟩
  · exact ⟨rfl, rfl⟩
  · obtain ⟨r, c, c', h1, h2⟩ := key J.ctrlJit o.ext.ctrl.state
    rw [h1, h2]
    rcases r with e | _ | ⟨u, z⟩ <;> exact ⟨rfl, rfl⟩

theorem simplexFilterJ_patch [DecidableEq Sig] [Max K] [Min K] [Add K] [Zero K] [LE K] [DecidableLE K] [LT K] [DecidableLT K]
    (sig : SimplexSig Sig K S P) (pred : S → K → List K → S) (J : SimplexJit Sig (SimplexObj K S P A))
    (hJ : J.violationJit = true) (o : SimplexObj K S P A) {snap : SimplexObj K S P A} (x : S) (dt : K) (u : List K)
    (h : jitLookup J.violation (sig.violation [pred x dt u] o.params o.constraintEnabled) = some snap) (cs : Dict (Constraint K S P))
    (vals : Dict K) :
    (simplexFilterJ sig (explicitMonitorJ sig pred) ⟨patchSimplex cs vals o, J⟩ x dt u).1 =
        (simplexFilterJ sig (explicitMonitorJ sig pred) ⟨o, J⟩ x dt u).1 ∧
      (simplexFilterJ sig (explicitMonitorJ sig pred) ⟨patchSimplex cs vals o, J⟩ x dt u).2.obj.toBase =
        (simplexFilterJ sig (explicitMonitorJ sig pred) ⟨o, J⟩ x dt u).2.obj.toBase := by
  let run : SimplexObj K S P A → Except PyErr Bool := fun t => constraintViolation
        { t with params := o.params, constraintEnabled := o.constraintEnabled } [pred x dt u]
  have hm : ∀ t : SimplexObj K S P A, t.params = o.params → t.constraintEnabled = o.constraintEnabled →
      explicitMonitorJ sig pred ⟨t, J⟩ x dt u = (run snap, ⟨t, J⟩) := by
    intro t h1 h2
    unfold explicitMonitorJ constraintViolationJ
    dsimp only
    rw [h1, h2, hJ, jitCall_hit h]
    cases J; cases hJ; rfl
  have tail : ∀ t : SimplexObj K S P A, t.params = o.params → t.constraintEnabled = o.constraintEnabled →
      ((match explicitMonitorJ sig pred ⟨patchSimplex cs vals t, J⟩ x dt u with
        | (.error e, self) => (Except.error e, self)
        | (.ok b, self) =>
          let self := { self with obj := { self.obj with intervening := b } }
          if b then backupControlJ sig self x dt else (.ok u, self)) : Except PyErr (List K) × SimplexJ Sig K S P A).1 =
      ((match explicitMonitorJ sig pred ⟨t, J⟩ x dt u with
        | (.error e, self) => (Except.error e, self)
        | (.ok b, self) =>
          let self := { self with obj := { self.obj with intervening := b } }
          if b then backupControlJ sig self x dt else (.ok u, self)) : Except PyErr (List K) × SimplexJ Sig K S P A).1 ∧
      ((match explicitMonitorJ sig pred ⟨patchSimplex cs vals t, J⟩ x dt u with
        | (.error e, self) => (Except.error e, self)
        | (.ok b, self) =>
          let self := { self with obj := { self.obj with intervening := b } }
          if b then backupControlJ sig self x dt else (.ok u, self)) : Except PyErr (List K) × SimplexJ Sig K S P A).2.obj.toBase =
      ((match explicitMonitorJ sig pred ⟨t, J⟩ x dt u with
        | (.error e, self) => (Except.error e, self)
        | (.ok b, self) =>
          let self := { self with obj := { self.obj with intervening := b } }
          if b then backupControlJ sig self x dt else (.ok u, self)) : Except PyErr (List K) × SimplexJ Sig K S P A).2.obj.toBase := by
    intro t h1 h2
    rw [hm (patchSimplex cs vals t) h1 h2, hm t h1 h2]
    cases run snap with
    | error e => exact ⟨rfl, rfl⟩
    | ok b =>
      cases b with
      | false => exact ⟨rfl, rfl⟩
      | true => exact backupControlJ_patch sig cs vals { t with intervening := true } J x dt
  unfold simplexFilterJ
  by_cases hi : o.intervening = true
  · have hi' : (patchSimplex cs vals o).intervening = true := hi
    by_cases hl : o.ext.latchedElapsed ≥ o.ext.latchTime
    · have hl' : (patchSimplex cs vals o).ext.latchedElapsed ≥ (patchSimplex cs vals o).ext.latchTime := hl
      simp only [if_pos hi, if_pos hl, if_pos hi', if_pos hl', Bool.false_eq_true, if_false]
      exact tail { o with ext := { o.ext with latchedElapsed := 0 } } rfl rfl
    · have hl' : ¬ (patchSimplex cs vals o).ext.latchedElapsed ≥ (patchSimplex cs vals o).ext.latchTime := hl
      simp only [if_pos hi, if_neg hl, if_pos hi', if_neg hl', if_true]
      exact backupControlJ_patch sig cs vals { o with ext := { o.ext with latchedElapsed := o.ext.latchedElapsed + dt } } J x dt
  · have hi' : ¬ (patchSimplex cs vals o).intervening = true := hi
    simp only [if_neg hi, if_neg hi', Bool.false_eq_true, if_false]
    exact tail o rfl rfl

/-- The first successful call of a simplex module that is not intervening leaves a trace. -/
theorem explicitSimplexJ_traced [DecidableEq Sig] [Max K] [Min K] [Add K] [Zero K] [LE K] [DecidableLE K] [LT K] [DecidableLT K]
    (sig : SimplexSig Sig K S P) (pred : S → K → List K → S) {j : SimplexJ Sig K S P A}
    (hj : j.jit.violationJit = true) (hen : j.obj.enable = true) (hin : j.obj.intervening = false) {x : S} {dt : K} {u v : List K}
    (h : (explicitSimplexJ sig pred j (.array x) dt u).1 = .ok v) :
    ∃ o, jitLookup (explicitSimplexJ sig pred j (.array x) dt u).2.jit.violation
      (sig.violation [pred x dt u] (updateParams j.obj).params (updateParams j.obj).constraintEnabled) = some o := by
  let o1 : SimplexObj K S P A := updateConstraintValuesAt (updateParams { j.obj with controlDesired := some u }) x true
  let j1 : SimplexJ Sig K S P A := { j with obj := o1 }
  have hmon : ∃ o, ∀ b, (explicitMonitorJ sig pred j1 x dt u).1 = .ok b →
      jitLookup (explicitMonitorJ sig pred j1 x dt u).2.jit.violation
        (sig.violation [pred x dt u] (updateParams j.obj).params (updateParams j.obj).constraintEnabled) = some o := by
    by_cases hr : ∃ b, (explicitMonitorJ sig pred j1 x dt u).1 = .ok b
    · obtain ⟨b, hr⟩ := hr
      unfold explicitMonitorJ constraintViolationJ at hr ⊢
      have hon : j1.jit.violationJit = true := hj
      rw [hon] at hr ⊢
      obtain ⟨o, ho⟩ := jitLookup_of_ok hr
      exact ⟨o, fun _ _ => ho⟩
    · exact ⟨j.obj, fun b h => absurd ⟨b, h⟩ hr⟩
  obtain ⟨o, ho⟩ := hmon
  refine ⟨o, ?_⟩
  have hfil : ∀ w, (simplexFilterJ sig (explicitMonitorJ sig pred) j1 x dt u).1 = .ok w →
      jitLookup (simplexFilterJ sig (explicitMonitorJ sig pred) j1 x dt u).2.jit.violation
        (sig.violation [pred x dt u] (updateParams j.obj).params (updateParams j.obj).constraintEnabled) = some o := by
    intro w hw
    have hi : ¬ j1.obj.intervening = true := by
      show ¬ j.obj.intervening = true
      rw [hin]; simp
    unfold simplexFilterJ at hw ⊢
    simp only [if_neg hi, Bool.false_eq_true, if_false] at hw ⊢
    rcases hg : explicitMonitorJ sig pred j1 x dt u with ⟨r, j2⟩
    rw [hg] at ho hw
    cases r with
    | error e => cases hw
    | ok b =>
      have h2 := ho b rfl
      dsimp only
      cases b with
      | false => exact h2
      | true =>
        exact backupControlJ_inv sig (Q := fun c => jitLookup c.violation
            (sig.violation [pred x dt u] (updateParams j.obj).params (updateParams j.obj).constraintEnabled) = some o)
          (fun _ _ h => h) { j2 with obj := { j2.obj with intervening := true } } x dt h2
  unfold explicitSimplexJ filterControl at h ⊢
  have e1 : (HasBase.get (modifyBase (K := K) (fun b => { b with controlDesired := some u }) j)).enable = true := hen
  dsimp only at h ⊢
  rw [if_pos e1] at h ⊢
  have hcomp : ∀ w, (computeFilteredControlJ getStateDefault (simplexFilterJ sig (explicitMonitorJ sig pred))
        (modifyBase (K := K) (fun b => { b with controlDesired := some u }) j) (.array x) dt u).1 = .ok w →
      jitLookup (computeFilteredControlJ getStateDefault (simplexFilterJ sig (explicitMonitorJ sig pred))
        (modifyBase (K := K) (fun b => { b with controlDesired := some u }) j) (.array x) dt u).2.jit.violation
        (sig.violation [pred x dt u] (updateParams j.obj).params (updateParams j.obj).constraintEnabled) = some o := by
    intro w hw
    rw [computeFilteredControlJ_array] at hw ⊢
    have ho1 : ({ modifyBase (K := K) (fun b => { b with controlDesired := some u }) j with
        obj := updateConstraintValuesAt (updateParams (modifyBase (K := K) (fun b => { b with controlDesired := some u }) j).obj) x true } :
        SimplexJ Sig K S P A) = j1 := rfl
    rw [ho1] at hw ⊢
    rcases hf : simplexFilterJ sig (explicitMonitorJ sig pred) j1 x dt u with ⟨r, j2⟩
    rw [hf] at hw hfil
    cases r with
    | error e => cases hw
    | ok c => exact hfil c rfl
  rcases hc : computeFilteredControlJ getStateDefault (simplexFilterJ sig (explicitMonitorJ sig pred))
        (modifyBase (K := K) (fun b => { b with controlDesired := some u }) j) (.array x) dt u with ⟨r, j2⟩
  rw [hc] at h hcomp
  cases r with
  | error e => cases h
  | ok w =>
    have := hcomp w rfl
    dsimp only
    cases (HasBase.get j2).clipControl w <;> exact this

theorem preFilter_patchASIF {j : ASIFJ Sig K S P X} {cs : Dict (Constraint K S P)} (h : SameData j.obj.constraints cs) (e : X)
    (x : S) (u : List K) :
    ∃ vals, preFilter { j with obj := { j.obj with constraints := cs, ext := { j.obj.ext with extra := e } } } x u =
      ⟨patchASIF cs vals e (preFilter j x u).obj, j.jit⟩ := by
  refine ⟨(preFilter { j with obj := { j.obj with constraints := cs, ext := { j.obj.ext with extra := e } } } x u).obj.constraintValues, ?_⟩
  have h1 := updateParams_data h j.obj.params j.obj.constraintEnabled
  unfold preFilter updateParams patchASIF updateConstraintValuesAt
  dsimp only
  rw [h1.1, h1.2]

theorem preFilter_patchSimplex {j : SimplexJ Sig K S P A} {cs : Dict (Constraint K S P)} (h : SameData j.obj.constraints cs)
    (x : S) (u : List K) :
    ∃ vals, preFilter { j with obj := { j.obj with constraints := cs } } x u =
      ⟨patchSimplex cs vals (preFilter j x u).obj, j.jit⟩ := by
  refine ⟨(preFilter { j with obj := { j.obj with constraints := cs } } x u).obj.constraintValues, ?_⟩
  have h1 := updateParams_data h j.obj.params j.obj.constraintEnabled
  unfold preFilter updateParams patchSimplex updateConstraintValuesAt
  dsimp only
  rw [h1.1, h1.2]

/-! ### Traces of the controller -/

/-- A simplex object whose controller has another law. -/
def patchGen (g : S → K → CState A → Option (List K × CState A)) (o : SimplexObj K S P A) : SimplexObj K S P A :=
  { o with ext := { o.ext with ctrl := { o.ext.ctrl with gen := g } } }

theorem backupControlJ_gen [DecidableEq Sig] [Max K] [Min K] (sig : SimplexSig Sig K S P)
    (g : S → K → CState A → Option (List K × CState A)) (o : SimplexObj K S P A) (J J' : SimplexJit Sig (SimplexObj K S P A))
    (hJ : J.ctrlJit = true) (hJ' : J'.ctrlJit = true) {x : S} {dt : K} {snap : SimplexObj K S P A}
    (h : jitLookup J.control (sig.control x dt) = some snap) (h' : jitLookup J'.control (sig.control x dt) = some snap) :
    (backupControlJ sig ⟨patchGen g o, J⟩ x dt).1 = (backupControlJ sig ⟨o, J'⟩ x dt).1 ∧
      (backupControlJ sig ⟨patchGen g o, J⟩ x dt).2.obj.toBase = (backupControlJ sig ⟨o, J'⟩ x dt).2.obj.toBase := by
  have hst : (patchGen g o).ext.ctrl.state = o.ext.ctrl.state := rfl
  unfold backupControlJ
  dsimp only
  rw [hst, hJ, hJ']
  split
  · exact ⟨rfl, rfl⟩
  · exact ⟨rfl, rfl⟩
  · exact ⟨rfl, rfl⟩
  · rw [jitCall_hit h, jitCall_hit h']
    rcases snap.ext.ctrl.gen x dt o.ext.ctrl.state with _ | ⟨u, z⟩ <;> exact ⟨rfl, rfl⟩

theorem backupControlJ_traced [DecidableEq Sig] [Max K] [Min K] (sig : SimplexSig Sig K S P) {j : SimplexJ Sig K S P A}
    (hj : j.jit.ctrlJit = true) {x : S} {dt : K} {v : List K} (h : (backupControlJ sig j x dt).1 = .ok v) :
    ∃ o, jitLookup (backupControlJ sig j x dt).2.jit.control (sig.control x dt) = some o := by
  have hz : j.obj.ext.ctrl.state = .none := by
    unfold backupControlJ at h
    rw [hj] at h
    cases hz : j.obj.ext.ctrl.state with
    | none => rfl
    | array _ => rw [hz] at h; cases h
    | dict _ => rw [hz] at h; cases h
    | unsupported _ => rw [hz] at h; cases h
  have hl : ∃ r c, jitCall true (fun o : SimplexObj K S P A => .ok (o.ext.ctrl.gen x dt .none)) j.jit.control (sig.control x dt) j.obj =
      (.ok r, c) ∧ ∃ o, jitLookup c (sig.control x dt) = some o := by
    unfold jitCall
    rw [if_pos rfl]
    cases hk : jitLookup j.jit.control (sig.control x dt) with
    | some o => exact ⟨_, _, rfl, o, hk⟩
    | none => exact ⟨_, _, rfl, j.obj, by unfold jitLookup; rw [if_pos rfl]⟩
  obtain ⟨r, c, h1, o, h2⟩ := hl
  refine ⟨o, ?_⟩
  unfold backupControlJ
  rw [hj, hz]
  dsimp only
  rw [h1]
  rcases r with _ | ⟨u, z⟩ <;> exact h2

theorem backupControlJ_trace [DecidableEq Sig] [Max K] [Min K] (sig : SimplexSig Sig K S P) {q : Sig} {o : SimplexObj K S P A}
    (j : SimplexJ Sig K S P A) (x : S) (dt : K) (h : jitLookup j.jit.control q = some o) :
    jitLookup (backupControlJ sig j x dt).2.jit.control q = some o := by
  unfold backupControlJ
  split
  · exact h
  · exact h
  · exact h
  · next on z hz =>
    have := jitLookup_jitCall (on := j.jit.ctrlJit) (run := fun o : SimplexObj K S P A => .ok (o.ext.ctrl.gen x dt j.obj.ext.ctrl.state))
      (q := sig.control x dt) (self := j.obj) h
    split <;> rename_i hq <;> rw [hq] at this <;> exact this

/-- The monitor of an explicit module does not read the law of the controller. -/
theorem explicitMonitorJ_gen [DecidableEq Sig] [Add K] [Zero K] [LT K] [DecidableLT K]
    (sig : SimplexSig Sig K S P) (pred : S → K → List K → S) (g : S → K → CState A → Option (List K × CState A))
    (o : SimplexObj K S P A) (J : SimplexJit Sig (SimplexObj K S P A)) (x : S) (dt : K) (u : List K) :
    ∃ r c c', explicitMonitorJ sig pred ⟨patchGen g o, J⟩ x dt u = (r, ⟨patchGen g o, { J with violation := c }⟩) ∧
      explicitMonitorJ sig pred ⟨o, J⟩ x dt u = (r, ⟨o, { J with violation := c' }⟩) := by
  have h : (explicitMonitorJ sig pred ⟨patchGen g o, J⟩ x dt u).1 = (explicitMonitorJ sig pred ⟨o, J⟩ x dt u).1 := by
    unfold explicitMonitorJ constraintViolationJ jitCall
    dsimp only
    have e1 : (patchGen g o).params = o.params := rfl
    have e2 : (patchGen g o).constraintEnabled = o.constraintEnabled := rfl
    rw [e1, e2]
    cases J.violationJit with
    | false => rfl
    | true =>
      simp only [if_true]
      cases jitLookup J.violation (sig.violation [pred x dt u] o.params o.constraintEnabled) with
      | some t => rfl
      | none =>
        dsimp only
        have e3 : constraintViolation { patchGen g o with params := o.params, constraintEnabled := o.constraintEnabled } [pred x dt u] =
          constraintViolation { o with params := o.params, constraintEnabled := o.constraintEnabled } [pred x dt u] := rfl
        rw [e3]
        cases constraintViolation { o with params := o.params, constraintEnabled := o.constraintEnabled } [pred x dt u] <;> rfl
  exact ⟨_, _, _, Prod.ext h rfl, rfl⟩

theorem simplexFilterJ_gen [DecidableEq Sig] [Max K] [Min K] [Add K] [Zero K] [LE K] [DecidableLE K] [LT K] [DecidableLT K]
    (sig : SimplexSig Sig K S P) (pred : S → K → List K → S) (J : SimplexJit Sig (SimplexObj K S P A)) (hJ : J.ctrlJit = true)
    (o : SimplexObj K S P A) {snap : SimplexObj K S P A} (x : S) (dt : K) (u : List K)
    (h : jitLookup J.control (sig.control x dt) = some snap) (g : S → K → CState A → Option (List K × CState A)) :
    (simplexFilterJ sig (explicitMonitorJ sig pred) ⟨patchGen g o, J⟩ x dt u).1 =
        (simplexFilterJ sig (explicitMonitorJ sig pred) ⟨o, J⟩ x dt u).1 ∧
      (simplexFilterJ sig (explicitMonitorJ sig pred) ⟨patchGen g o, J⟩ x dt u).2.obj.toBase =
        (simplexFilterJ sig (explicitMonitorJ sig pred) ⟨o, J⟩ x dt u).2.obj.toBase := by
  have bk : ∀ (t : SimplexObj K S P A) c c',
      (backupControlJ sig ⟨patchGen g t, { J with violation := c }⟩ x dt).1 = (backupControlJ sig ⟨t, { J with violation := c' }⟩ x dt).1 ∧
      (backupControlJ sig ⟨patchGen g t, { J with violation := c }⟩ x dt).2.obj.toBase =
        (backupControlJ sig ⟨t, { J with violation := c' }⟩ x dt).2.obj.toBase := by
    intro t c c'
    exact backupControlJ_gen sig g t { J with violation := c } { J with violation := c' } hJ hJ h h
  have tail : ∀ t : SimplexObj K S P A,
      ((match explicitMonitorJ sig pred ⟨patchGen g t, J⟩ x dt u with
        | (.error e, self) => (Except.error e, self)
        | (.ok b, self) =>
          let self := { self with obj := { self.obj with intervening := b } }
          if b then backupControlJ sig self x dt else (.ok u, self)) : Except PyErr (List K) × SimplexJ Sig K S P A).1 =
      ((match explicitMonitorJ sig pred ⟨t, J⟩ x dt u with
        | (.error e, self) => (Except.error e, self)
        | (.ok b, self) =>
          let self := { self with obj := { self.obj with intervening := b } }
          if b then backupControlJ sig self x dt else (.ok u, self)) : Except PyErr (List K) × SimplexJ Sig K S P A).1 ∧
      ((match explicitMonitorJ sig pred ⟨patchGen g t, J⟩ x dt u with
        | (.error e, self) => (Except.error e, self)
        | (.ok b, self) =>
          let self := { self with obj := { self.obj with intervening := b } }
          if b then backupControlJ sig self x dt else (.ok u, self)) : Except PyErr (List K) × SimplexJ Sig K S P A).2.obj.toBase =
      ((match explicitMonitorJ sig pred ⟨t, J⟩ x dt u with
        | (.error e, self) => (Except.error e, self)
        | (.ok b, self) =>
          let self := { self with obj := { self.obj with intervening := b } }
          if b then backupControlJ sig self x dt else (.ok u, self)) : Except PyErr (List K) × SimplexJ Sig K S P A).2.obj.toBase := by
    intro t
    obtain ⟨r, c, c', h1, h2⟩ := explicitMonitorJ_gen sig pred g t J x dt u
    rw [h1, h2]
    cases r with
    | error e => exact ⟨rfl, rfl⟩
    | ok b =>
      cases b with
      | false => exact ⟨rfl, rfl⟩
      | true => exact bk { t with intervening := true } c c'
  unfold simplexFilterJ
  by_cases hi : o.intervening = true
  · have hi' : (patchGen g o).intervening = true := hi
    by_cases hl : o.ext.latchedElapsed ≥ o.ext.latchTime
    · have hl' : (patchGen g o).ext.latchedElapsed ≥ (patchGen g o).ext.latchTime := hl
      simp only [if_pos hi, if_pos hl, if_pos hi', if_pos hl', Bool.false_eq_true, if_false]
      exact tail { o with ext := { o.ext with latchedElapsed := 0 } }
    · have hl' : ¬ (patchGen g o).ext.latchedElapsed ≥ (patchGen g o).ext.latchTime := hl
      simp only [if_pos hi, if_neg hl, if_pos hi', if_neg hl', if_true]
      exact bk { o with ext := { o.ext with latchedElapsed := o.ext.latchedElapsed + dt } } J.violation J.violation
  · have hi' : ¬ (patchGen g o).intervening = true := hi
    simp only [if_neg hi, if_neg hi', Bool.false_eq_true, if_false]
    exact tail o

theorem preFilter_patchGen (g : S → K → CState A → Option (List K × CState A)) (j : SimplexJ Sig K S P A) (x : S) (u : List K) :
    preFilter { j with obj := patchGen g j.obj } x u = ⟨patchGen g (preFilter j x u).obj, j.jit⟩ := rfl

/-- A call answered with the backup control leaves a trace of the controller. -/
theorem simplexFilterJ_ctrl_traced [DecidableEq Sig] [Max K] [Min K] [Add K] [Zero K] [LE K] [DecidableLE K] [LT K] [DecidableLT K]
    (sig : SimplexSig Sig K S P) (pred : S → K → List K → S) {j : SimplexJ Sig K S P A} (hj : j.jit.ctrlJit = true) {x : S} {dt : K}
    {u v : List K} (h : (simplexFilterJ sig (explicitMonitorJ sig pred) j x dt u).1 = .ok v)
    (hi : (simplexFilterJ sig (explicitMonitorJ sig pred) j x dt u).2.obj.intervening = true) :
    ∃ o, jitLookup (simplexFilterJ sig (explicitMonitorJ sig pred) j x dt u).2.jit.control (sig.control x dt) = some o := by
  have tail : ∀ (t : SimplexJ Sig K S P A), t.jit.ctrlJit = true →
      ∀ q, q = ((match explicitMonitorJ sig pred t x dt u with
        | (.error e, self) => (Except.error e, self)
        | (.ok b, self) =>
          let self := { self with obj := { self.obj with intervening := b } }
          if b then backupControlJ sig self x dt else (.ok u, self)) : Except PyErr (List K) × SimplexJ Sig K S P A) →
      q.1 = .ok v → q.2.obj.intervening = true → ∃ o, jitLookup q.2.jit.control (sig.control x dt) = some o := by
    intro t ht q hq h1 h2
    have hm : (explicitMonitorJ sig pred t x dt u).2.jit.ctrlJit = true := ht
    rcases hg : explicitMonitorJ sig pred t x dt u with ⟨r, t'⟩
    rw [hg] at hm hq
    cases r with
    | error e => rw [hq] at h1; cases h1
    | ok b =>
      cases b with
      | false => rw [hq] at h2; exact absurd h2 (by simp)
      | true =>
        obtain rfl : q = backupControlJ sig { t' with obj := { t'.obj with intervening := true } } x dt := hq
        exact backupControlJ_traced sig (j := { t' with obj := { t'.obj with intervening := true } }) hm h1
  unfold simplexFilterJ at h hi ⊢
  by_cases hin : j.obj.intervening = true
  · by_cases hl : j.obj.ext.latchedElapsed ≥ j.obj.ext.latchTime
    · simp only [if_pos hin, if_pos hl, Bool.false_eq_true, if_false] at h hi ⊢
      exact tail { j with obj := { j.obj with ext := { j.obj.ext with latchedElapsed := 0 } } } hj _ rfl h hi
    · simp only [if_pos hin, if_neg hl, if_true] at h hi ⊢
      exact backupControlJ_traced sig
        (j := { j with obj := { j.obj with ext := { j.obj.ext with latchedElapsed := j.obj.ext.latchedElapsed + dt } } }) hj h
  · simp only [if_neg hin, Bool.false_eq_true, if_false] at h hi ⊢
    exact tail j hj _ rfl h hi

/-! ### Stateful controllers -/

theorem backupControlJ_stateful [DecidableEq Sig] [Max K] [Min K] (sig : SimplexSig Sig K S P) {j : SimplexJ Sig K S P A} (hj : j.jit.ctrlJit = true)
    (hz : j.obj.ext.ctrl.state ≠ .none) (x : S) (dt : K) :
    backupControlJ sig j x dt = (.error (.valueError nonHashableMsg), j) := by
  unfold backupControlJ
  rw [hj]
  cases h : j.obj.ext.ctrl.state with
  | none => exact absurd h hz
  | array _ => rfl
  | dict _ => rfl
  | unsupported _ => rfl

theorem backupControl_intervening [Max K] [Min K] (o : SimplexObj K S P A) (x : S) (dt : K) :
    (backupControl o x dt).2.intervening = o.intervening := by
  unfold backupControl
  rcases o.ext.ctrl.generateControl x dt with ⟨r, c⟩
  cases r <;> rfl

/-- The compiled filter with a controller with internal state, against the uncompiled one. -/
theorem simplexFilterJ_stateful [DecidableEq Sig] [Max K] [Min K] [Add K] [Zero K] [LE K] [DecidableLE K] [LT K] [DecidableLT K]
    (sig : SimplexSig Sig K S P) (pred : S → K → List K → S) {j : SimplexJ Sig K S P A}
    (hj : j.jit.ctrlJit = true) (hz : j.obj.ext.ctrl.state ≠ .none) (hc : j.jit.violation = []) (x : S) (dt : K) {u v : List K}
    (h : (simplexFilter (explicitMonitor pred) j.obj x dt u).1 = .ok v) :
    if (simplexFilter (explicitMonitor pred) j.obj x dt u).2.intervening = true
      then (simplexFilterJ sig (explicitMonitorJ sig pred) j x dt u).1 = .error (.valueError nonHashableMsg)
      else (simplexFilterJ sig (explicitMonitorJ sig pred) j x dt u).1 = .ok v ∧
        (simplexFilterJ sig (explicitMonitorJ sig pred) j x dt u).2.obj = (simplexFilter (explicitMonitor pred) j.obj x dt u).2 := by
  have tail : ∀ (t : SimplexJ Sig K S P A), t.jit.ctrlJit = true → t.obj.ext.ctrl.state ≠ .none → t.jit.violation = [] →
      ∀ q q', q = ((match explicitMonitor pred t.obj x dt u with
        | (.error e, self) => (Except.error e, self)
        | (.ok b, self) =>
          let self := { self with intervening := b }
          if b then backupControl self x dt else (.ok u, self)) : Except PyErr (List K) × SimplexObj K S P A) →
      q' = ((match explicitMonitorJ sig pred t x dt u with
        | (.error e, self) => (Except.error e, self)
        | (.ok b, self) =>
          let self := { self with obj := { self.obj with intervening := b } }
          if b then backupControlJ sig self x dt else (.ok u, self)) : Except PyErr (List K) × SimplexJ Sig K S P A) →
      q.1 = .ok v → if q.2.intervening = true then q'.1 = .error (.valueError nonHashableMsg) else q'.1 = .ok v ∧ q'.2.obj = q.2 := by
    intro t ht hzt hct q q' hq hq' hv
    have hm : ∃ c, explicitMonitorJ sig pred t x dt u =
        (constraintViolation t.obj [pred x dt u], { t with jit := { t.jit with violation := c } }) := by
      unfold explicitMonitorJ constraintViolationJ jitCall
      rw [hct]
      by_cases hon : t.jit.violationJit = true
      · rw [if_pos hon]
        simp only [jitLookup]
        have e0 : ({ t.obj with params := t.obj.params, constraintEnabled := t.obj.constraintEnabled } : SimplexObj K S P A) = t.obj := rfl
        cases hr : constraintViolation t.obj [pred x dt u] <;> exact ⟨_, rfl⟩
      · rw [if_neg hon]; exact ⟨_, rfl⟩
    obtain ⟨c, hm⟩ := hm
    rw [hm] at hq'
    unfold explicitMonitor at hq
    cases hr : constraintViolation t.obj [pred x dt u] with
    | error e =>
      rw [hr] at hq
      rw [hq] at hv
      cases hv
    | ok b =>
      rw [hr] at hq hq'
      cases b with
      | false =>
        obtain rfl : q = (.ok u, { t.obj with intervening := false }) := hq
        subst hq'
        rw [if_neg (by simp)]
        exact ⟨hv, rfl⟩
      | true =>
        have hi : q.2.intervening = true := by
          rw [hq]; exact backupControl_intervening _ _ _
        rw [if_pos hi, hq']
        exact congrArg Prod.fst (backupControlJ_stateful sig
          (j := ({ t with jit := { t.jit with violation := c }, obj := { t.obj with intervening := true } } : SimplexJ Sig K S P A))
          ht hzt x dt)
  unfold simplexFilter simplexFilterJ at *
  by_cases hi : j.obj.intervening = true
  · by_cases hl : j.obj.ext.latchedElapsed ≥ j.obj.ext.latchTime
    · simp only [if_pos hi, if_pos hl, Bool.false_eq_true, if_false] at h ⊢
      exact tail { j with obj := { j.obj with ext := { j.obj.ext with latchedElapsed := 0 } } } hj hz hc _ _ rfl rfl h
    · simp only [if_pos hi, if_neg hl, if_true] at h ⊢
      rw [if_pos (by rw [backupControl_intervening]; exact hi)]
      exact congrArg Prod.fst (backupControlJ_stateful sig
        (j := { j with obj := { j.obj with ext := { j.obj.ext with latchedElapsed := j.obj.ext.latchedElapsed + dt } } }) hj hz x dt)
  · simp only [if_neg hi, Bool.false_eq_true, if_false] at h ⊢
    exact tail j hj hz hc _ _ rfl rfl h

/-- `filter_control` of an enabled module on an array, in one piece. -/
theorem filterJ_enabled [Max K] [Min K]
    (fJ : JObj (CBObj K S P E) C → S → K → List K → Except PyErr (List K) × JObj (CBObj K S P E) C)
    {j : JObj (CBObj K S P E) C} (hen : j.obj.enable = true) (x : S) (dt : K) (u : List K) :
    filterControl (computeFilteredControlJ getStateDefault fJ) j (.array x) dt u =
      match fJ (preFilter j x u) x dt u with
      | (.error e, s) => (.error e, s)
      | (.ok c, s) =>
        match s.obj.toBase.clipControl c with
        | .error e => (.error e, { s with obj := { s.obj with controlActual := some c } })
        | .ok a => (.ok a, { s with obj := { s.obj with controlActual := some a } }) := by
  have e1 : (HasBase.get (modifyBase (K := K) (fun b => { b with controlDesired := some u }) j)).enable = true := hen
  have hc : computeFilteredControlJ getStateDefault fJ (modifyBase (K := K) (fun b => { b with controlDesired := some u }) j)
      (.array x) dt u =
      match fJ (preFilter j x u) x dt u with
      | (.error e, self) => (.error e, self)
      | (.ok c, self) => (.ok c, { self with obj := { self.obj with controlActual := some c } }) := rfl
  unfold filterControl
  dsimp only
  rw [if_pos e1, hc]
  rcases fJ (preFilter j x u) x dt u with ⟨r, s⟩
  cases r with
  | error e => rfl
  | ok c =>
    dsimp only
    have hk : (HasBase.get ({ s with obj := { s.obj with controlActual := some c } } : JObj (CBObj K S P E) C) : Base K).clipControl c =
        s.obj.toBase.clipControl c := rfl
    rw [hk]
    cases s.obj.toBase.clipControl c <;> rfl

/-- The same for the uncompiled module. -/
theorem filterCB_enabled [Max K] [Min K] (f : CBObj K S P E → S → K → List K → Except PyErr (List K) × CBObj K S P E)
    {o : CBObj K S P E} (hen : o.enable = true) (x : S) (dt : K) (u : List K) :
    filterControlCB getStateDefault f o (.array x) dt u =
      match f (updateConstraintValuesAt (updateParams { o with controlDesired := some u }) x true) x dt u with
      | (.error e, s) => (.error e, s)
      | (.ok c, s) =>
        match s.toBase.clipControl c with
        | .error e => (.error e, { s with controlActual := some c })
        | .ok a => (.ok a, { s with controlActual := some a }) := by
  have e1 : (HasBase.get (modifyBase (K := K) (fun b => { b with controlDesired := some u }) o)).enable = true := hen
  have hc : computeFilteredControl getStateDefault f (modifyBase (K := K) (fun b => { b with controlDesired := some u }) o)
      (.array x) dt u =
      match f (updateConstraintValuesAt (updateParams { o with controlDesired := some u }) x true) x dt u with
      | (.error e, self) => (.error e, self)
      | (.ok c, self) => (.ok c, { self with controlActual := some c }) := rfl
  unfold filterControlCB filterControl
  dsimp only
  rw [if_pos e1, hc]
  rcases f (updateConstraintValuesAt (updateParams { o with controlDesired := some u }) x true) x dt u with ⟨r, s⟩
  cases r with
  | error e => rfl
  | ok c =>
    dsimp only
    have hk : (HasBase.get ({ s with controlActual := some c } : CBObj K S P E) : Base K).clipControl c =
        s.toBase.clipControl c := rfl
    rw [hk]
    cases s.toBase.clipControl c <;> rfl

theorem explicitSimplexJ_ctrl_traced [DecidableEq Sig] [Max K] [Min K] [Add K] [Zero K] [LE K] [DecidableLE K] [LT K] [DecidableLT K]
    (sig : SimplexSig Sig K S P) (pred : S → K → List K → S) {j : SimplexJ Sig K S P A} (hj : j.jit.ctrlJit = true)
    (hen : j.obj.enable = true) {x : S} {dt : K} {u v : List K} (h : (explicitSimplexJ sig pred j (.array x) dt u).1 = .ok v)
    (hi : (explicitSimplexJ sig pred j (.array x) dt u).2.obj.intervening = true) :
    ∃ o, jitLookup (explicitSimplexJ sig pred j (.array x) dt u).2.jit.control (sig.control x dt) = some o := by
  unfold explicitSimplexJ at h hi ⊢
  rw [filterJ_enabled _ hen] at h hi ⊢
  have key := @simplexFilterJ_ctrl_traced K S P A Sig _ _ _ _ _ _ _ _ _ sig pred (preFilter j x u) hj x dt u
  rcases hf : simplexFilterJ sig (explicitMonitorJ sig pred) (preFilter j x u) x dt u with ⟨r, j'⟩
  rw [hf] at h hi key
  cases r with
  | error e => cases h
  | ok c =>
    dsimp only at h hi ⊢
    cases hcl : j'.obj.toBase.clipControl c with
    | error e => rw [hcl] at h; cases h
    | ok a =>
      rw [hcl] at hi
      exact key rfl hi

theorem explicitSimplexJ_ctrl_trace [DecidableEq Sig] [Max K] [Min K] [Add K] [Zero K] [LE K] [DecidableLE K] [LT K] [DecidableLT K]
    (sig : SimplexSig Sig K S P) (pred : S → K → List K → S) {j : SimplexJ Sig K S P A} {q : Sig}
    {o : SimplexObj K S P A} (h : jitLookup j.jit.control q = some o) (inp : InputState S) (dt : K) (u : List K) :
    jitLookup (explicitSimplexJ sig pred j inp dt u).2.jit.control q = some o :=
  explicitSimplexJ_inv (Q := fun c => jitLookup c.control q = some o) sig pred
    (fun j x dt h => backupControlJ_trace sig j x dt h) (fun _ _ h => h) h inp dt u

/-- Nothing is compiled, and the objects are the same. -/
def UncompiledSim (j : SimplexJ Sig K S P A) (s : SimplexObj K S P A) : Prop :=
  j.obj = s ∧ j.jit.violationJit = false ∧ j.jit.ctrlJit = false ∧ j.jit.integrateJit = false

theorem UncompiledSim.sim {j : SimplexJ Sig K S P A} {s : SimplexObj K S P A} (h : UncompiledSim j s) : SimplexSim j s :=
  ⟨⟨h.1, fun hj => absurd (h.2.2.1.symm.trans hj) (by simp), fun hj => absurd (h.2.2.1.symm.trans hj) (by simp)⟩,
    fun hj => absurd (h.2.1.symm.trans hj) (by simp), fun hj => absurd (h.2.2.2.symm.trans hj) (by simp),
    fun hj => absurd (h.2.2.2.symm.trans hj) (by simp)⟩

end

end RTA
