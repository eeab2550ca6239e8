import Verif.Model.Jit
import Verif.Spec.Jit

/-!
Helper lemmas: a compiled module simulates the uncompiled one.
-/
namespace RTA

section
variable {K S P A E X I C Sig : Type}

theorem Constraint.SameCode.compute [Add K] {c d : Constraint K S P} (h : c.SameCode d) : c.compute = d.compute := by
  rw [← h]; rfl

theorem Constraint.SameCode.refl (c : Constraint K S P) : c.SameCode c := rfl

theorem Constraint.SameCode.trans {c d e : Constraint K S P} (h : c.SameCode d) (h' : d.SameCode e) : c.SameCode e := by
  unfold Constraint.SameCode at *; rw [← h', ← h]

theorem DirectConstraint.SameCode.refl (c : DirectConstraint K S P) : c.SameCode c := rfl

theorem DirectConstraint.SameCode.trans {c d e : DirectConstraint K S P} (h : c.SameCode d) (h' : d.SameCode e) :
    c.SameCode e := by
  unfold DirectConstraint.SameCode at *; rw [← h', ← h]

theorem SameConstraints.refl (cs : Dict (Constraint K S P)) : SameConstraints cs cs := by
  induction cs with
  | nil => exact .nil
  | cons a l ih => exact .cons ⟨rfl, .refl _⟩ ih

theorem SameConstraints.trans {a b c : Dict (Constraint K S P)} (h : SameConstraints a b) (h' : SameConstraints b c) :
    SameConstraints a c := by
  unfold SameConstraints at *
  induction h generalizing c with
  | nil => exact h'
  | cons h1 _ ih =>
    cases h' with
    | cons h2 h3 => exact .cons ⟨h1.1.trans h2.1, h1.2.trans h2.2⟩ (ih h3)

theorem SameDirect.refl (cs : Dict (DirectConstraint K S P)) : SameDirect cs cs := by
  induction cs with
  | nil => exact .nil
  | cons a l ih => exact .cons ⟨rfl, .refl _⟩ ih

theorem SameDirect.trans {a b c : Dict (DirectConstraint K S P)} (h : SameDirect a b) (h' : SameDirect b c) :
    SameDirect a c := by
  unfold SameDirect at *
  induction h generalizing c with
  | nil => exact h'
  | cons h1 _ ih =>
    cases h' with
    | cons h2 h3 => exact .cons ⟨h1.1.trans h2.1, h1.2.trans h2.2⟩ (ih h3)

theorem SameASIF.refl (s : ASIFObj K S P X) : SameASIF s s := ⟨.refl _, .refl _, rfl, rfl, rfl, rfl⟩

theorem SameASIF.trans {a b c : ASIFObj K S P X} (h : SameASIF a b) (h' : SameASIF b c) : SameASIF a c :=
  ⟨h.1.trans h'.1, h.2.trans h'.2, h.3.trans h'.3, h.4.trans h'.4, h.5.trans h'.5, h.6.trans h'.6⟩

theorem jitLookup_mem {Sig O : Type} [DecidableEq Sig] {cache : JitCache Sig O} {q : Sig} {o : O}
    (h : jitLookup cache q = some o) : ∃ s, (s, o) ∈ cache := by
  induction cache with
  | nil => exact absurd h (by simp [jitLookup])
  | cons a l ih =>
    unfold jitLookup at h
    by_cases ha : a.1 = q
    · rw [if_pos ha] at h
      obtain rfl := Option.some.inj h
      exact ⟨a.1, .head _⟩
    · rw [if_neg ha] at h
      obtain ⟨s, hs⟩ := ih h
      exact ⟨s, .tail _ hs⟩

/-- Compiling does not matter when every trace agrees with the current object. -/
theorem jitCall_eq {Sig O R : Type} [DecidableEq Sig] {on : Bool} {run : O → Except PyErr R} {cache : JitCache Sig O} {q : Sig}
    {self : O} {Rel : O → O → Prop} (hrefl : Rel self self) (hrun : ∀ o, Rel o self → run o = run self)
    (hc : on = true → ∀ p ∈ cache, Rel p.2 self) :
    (jitCall on run cache q self).1 = run self ∧ (on = true → ∀ p ∈ (jitCall on run cache q self).2, Rel p.2 self) := by
  have hl : on = true → ∀ o, jitLookup cache q = some o → Rel o self := by
    intro hon o
    have hc := hc hon
    induction cache with
    | nil => intro h; exact absurd h (by simp [jitLookup])
    | cons a l ih =>
      intro h
      unfold jitLookup at h
      by_cases ha : a.1 = q
      · rw [if_pos ha] at h
        obtain rfl := Option.some.inj h
        exact hc a (.head _)
      · rw [if_neg ha] at h
        exact ih (fun _ p hp => hc p (.tail _ hp)) (fun p hp => hc p (.tail _ hp)) h
  unfold jitCall
  by_cases hon : on = true
  · rw [if_pos hon]
    cases hk : jitLookup cache q with
    | some o => exact ⟨hrun o (hl hon o hk), hc⟩
    | none =>
      dsimp only
      cases hr : run self with
      | error e => exact ⟨rfl, hc⟩
      | ok r =>
        refine ⟨rfl, fun _ p hp => ?_⟩
        rcases List.mem_cons.1 hp with rfl | hp
        · exact hrefl
        · exact hc hon p hp
  · rw [if_neg hon]; exact ⟨rfl, hc⟩

section simplex
variable [Add K] [Zero K] [LT K] [DecidableLT K]

theorem constraintViolationLoop_same {params : Dict P} {en : Dict Bool} {states : List S} {cs ds : Dict (Constraint K S P)}
    (h : SameConstraints cs ds) :
    constraintViolationLoop params en states cs = constraintViolationLoop params en states ds := by
  unfold SameConstraints at h
  induction h with
  | nil => rfl
  | @cons a b l l' h1 _ ih =>
    obtain ⟨k, c⟩ := a
    obtain ⟨k', d⟩ := b
    obtain rfl : k = k' := h1.1
    have hv : ∀ p e, constraintViolated c p e states = constraintViolated d p e states := by
      intro p e
      unfold constraintViolated constraintVals
      rw [h1.2.compute]
    unfold constraintViolationLoop
    simp only [ih, hv]

end simplex

/-- The compiled backup controller of `j` is in step with that of the uncompiled module `s`. -/
structure CtrlSim (j : SimplexJ Sig K S P A) (s : SimplexObj K S P A) : Prop where
  obj : j.obj = s
  ctrl : j.jit.ctrlJit = true → NoCtrlState s.ext.ctrl
  control : j.jit.ctrlJit = true → ∀ p ∈ j.jit.control, p.2.ext.ctrl.gen = s.ext.ctrl.gen

/-- The controller has no state and none is saved. -/
def IdleCtrl (c : BackupController K S A) : Prop := NoCtrlState c ∧ c.stateSaved = .none

/-- Two modules with the same backup law, backup window and bounds, both without controller state. -/
structure JitSameBackup (o s : SimplexObj K S P A) : Prop where
  left : IdleCtrl o.ext.ctrl
  right : IdleCtrl s.ext.ctrl
  gen : o.ext.ctrl.gen = s.ext.ctrl.gen
  window : o.ext.backupWindow = s.ext.backupWindow
  bounds : SameBounds o s

/-- The compiled module `j` is in step with the uncompiled module `s`. -/
structure SimplexSim (j : SimplexJ Sig K S P A) (s : SimplexObj K S P A) : Prop extends CtrlSim j s where
  cache : j.jit.violationJit = true → ∀ p ∈ j.jit.violation, SameConstraints p.2.constraints s.constraints
  idle : j.jit.integrateJit = true → IdleCtrl s.ext.ctrl
  integrate : j.jit.integrateJit = true → ∀ p ∈ j.jit.integrate, JitSameBackup p.2.1 s ∧
    (j.jit.ctrlJit = true → ∀ q ∈ p.2.2, q.2.ext.ctrl.gen = s.ext.ctrl.gen)

theorem SameBounds.trans {E : Type} {s t r : CBObj K S P E} (h : SameBounds s t) (h' : SameBounds t r) : SameBounds s r :=
  ⟨h.1.trans h'.1, h.2.trans h'.2⟩

/-- A change of the module that keeps the step. -/
theorem SimplexSim.change {j : SimplexJ Sig K S P A} {s : SimplexObj K S P A} (h : SimplexSim j s) {o : SimplexObj K S P A}
    (hc : SameConstraints s.constraints o.constraints)
    (hs : j.jit.ctrlJit = true ∨ j.jit.integrateJit = true → o.ext.ctrl = s.ext.ctrl)
    (hw : j.jit.integrateJit = true → o.ext.backupWindow = s.ext.backupWindow ∧ SameBounds s o) :
    SimplexSim { j with obj := o } o where
  obj := rfl
  ctrl hj := hs (.inl hj) ▸ h.ctrl hj
  control hj p hp := by rw [hs (.inl hj)]; exact h.control hj p hp
  cache hv p hp := (h.cache hv p hp).trans hc
  idle hi := hs (.inr hi) ▸ h.idle hi
  integrate hi p hp := by
    obtain ⟨h1, h2⟩ := h.integrate hi p hp
    rw [hs (.inr hi)]
    exact ⟨⟨h1.left, hs (.inr hi) ▸ h1.right, by rw [h1.gen, hs (.inr hi)], h1.window.trans (hw hi).1.symm, h1.bounds.trans (hw hi).2⟩, h2⟩

theorem SimplexSim.update {j : SimplexJ Sig K S P A} {s : SimplexObj K S P A} (h : SimplexSim j s) {o : SimplexObj K S P A}
    (hc : o.constraints = s.constraints) (hs : o.ext.ctrl = s.ext.ctrl) (hw : o.ext.backupWindow = s.ext.backupWindow)
    (hb : SameBounds s o) : SimplexSim { j with obj := o } o :=
  h.change (hc ▸ .refl _) (fun _ => hs) (fun _ => ⟨hw, hb⟩)

theorem jitBackup_frame [Max K] [Min K] (s : SimplexObj K S P A) (x : S) (dt : K) :
    (backupControl s x dt).2.constraints = s.constraints ∧ (backupControl s x dt).2.ext.backupWindow = s.ext.backupWindow ∧
      SameBounds s (backupControl s x dt).2 ∧ (backupControl s x dt).2.ext.ctrl.gen = s.ext.ctrl.gen ∧
      (backupControl s x dt).2.ext.ctrl.stateSaved = s.ext.ctrl.stateSaved := by
  unfold backupControl BackupController.generateControl
  cases hg : s.ext.ctrl.gen x dt s.ext.ctrl.state with
  | none => exact ⟨rfl, rfl, ⟨rfl, rfl⟩, rfl, rfl⟩
  | some r => exact ⟨rfl, rfl, ⟨rfl, rfl⟩, rfl, rfl⟩

theorem NoCtrlState.generate {c : BackupController K S A} (h : NoCtrlState c) (x : S) (dt : K) :
    (c.generateControl x dt).2 = c := by
  unfold BackupController.generateControl
  cases hg : c.gen x dt c.state with
  | none => rfl
  | some r =>
    obtain ⟨u, z⟩ := r
    dsimp only
    rw [h.1] at hg
    rw [h.2 x dt u z hg, ← h.1]

theorem setCtrl_self (s : SimplexObj K S P A) : s.setCtrl s.ext.ctrl = s := rfl

theorem backupControl_idle [Max K] [Min K] {s : SimplexObj K S P A} (h : NoCtrlState s.ext.ctrl) (x : S) (dt : K) :
    (backupControl s x dt).2 = s := by
  have := h.generate x dt
  unfold backupControl
  cases hg : s.ext.ctrl.generateControl x dt with
  | mk r c =>
    rw [hg] at this
    obtain rfl : c = _ := this
    cases r <;> exact setCtrl_self s

/-- The compiled controller in step with the uncompiled one: same answer, and only its traces change. -/
theorem backupControlJ_sim [DecidableEq Sig] [Max K] [Min K] (sig : SimplexSig Sig K S P) {j : SimplexJ Sig K S P A}
    {s : SimplexObj K S P A} (h : CtrlSim j s) (x : S) (dt : K) :
    (backupControlJ sig j x dt).1 = (backupControl s x dt).1 ∧
      ∃ c, (backupControlJ sig j x dt).2 = { obj := (backupControl s x dt).2, jit := { j.jit with control := c } } ∧
        (j.jit.ctrlJit = true → ∀ p ∈ c, p.2.ext.ctrl.gen = s.ext.ctrl.gen) := by
  obtain rfl := h.obj
  have hz : j.jit.ctrlJit = true → j.obj.ext.ctrl.state = .none := fun hj => (h.ctrl hj).1
  obtain ⟨h1, h2⟩ := jitCall_eq (on := j.jit.ctrlJit) (q := sig.control x dt) (self := j.obj)
    (run := fun o => .ok (o.ext.ctrl.gen x dt j.obj.ext.ctrl.state))
    (cache := j.jit.control) (Rel := fun o t => o.ext.ctrl.gen = t.ext.ctrl.gen) rfl
    (fun o ho => by rw [ho]) h.control
  have key : backupControlJ sig j x dt =
      match jitCall j.jit.ctrlJit (fun o => .ok (o.ext.ctrl.gen x dt j.obj.ext.ctrl.state)) j.jit.control (sig.control x dt) j.obj with
      | (.error e, c) => (.error e, { j with jit := { j.jit with control := c } })
      | (.ok none, c) =>
        (.error (.valueError "_generate_control should return 2 values: the control vector and the updated controller state"),
          { j with jit := { j.jit with control := c } })
      | (.ok (some (u, z)), c) =>
        (j.obj.toBase.clipControl u,
          { obj := j.obj.setCtrl { j.obj.ext.ctrl with state := z }, jit := { j.jit with control := c } }) := by
    unfold backupControlJ
    cases hj : j.jit.ctrlJit with
    | false => rfl
    | true => rw [hz hj]; rfl
  rw [key]
  rcases hq : jitCall j.jit.ctrlJit (fun o => .ok (o.ext.ctrl.gen x dt j.obj.ext.ctrl.state)) j.jit.control (sig.control x dt) j.obj
    with ⟨r, c⟩
  rw [hq] at h1 h2 ⊢
  obtain rfl : r = _ := h1
  unfold backupControl BackupController.generateControl
  cases hg : j.obj.ext.ctrl.gen x dt j.obj.ext.ctrl.state with
  | none => exact ⟨rfl, c, rfl, h2⟩
  | some p => exact ⟨rfl, c, rfl, h2⟩

theorem SimplexSim.backup [DecidableEq Sig] [Max K] [Min K] (sig : SimplexSig Sig K S P) {j : SimplexJ Sig K S P A}
    {s : SimplexObj K S P A} (h : SimplexSim j s) (x : S) (dt : K) :
    (backupControlJ sig j x dt).1 = (backupControl s x dt).1 ∧
      SimplexSim (backupControlJ sig j x dt).2 (backupControl s x dt).2 := by
  obtain ⟨h1, c, h2, h3⟩ := backupControlJ_sim sig h.toCtrlSim x dt
  obtain ⟨f1, f2, f3, f4, -⟩ := jitBackup_frame s x dt
  have hc : SimplexSim { j with jit := { j.jit with control := c } } s := { h with control := h3 }
  refine ⟨h1, ?_⟩
  rw [h2]
  refine hc.change (f1 ▸ .refl _) (fun hj => ?_) (fun _ => ⟨f2, f3⟩)
  rw [backupControl_idle]
  rcases hj with hj | hj
  · exact h.ctrl hj
  · exact (h.idle hj).1

theorem constraintViolationJ_sim [DecidableEq Sig] [Add K] [Zero K] [LT K] [DecidableLT K]
    (sig : SimplexSig Sig K S P) {j : SimplexJ Sig K S P A} {s : SimplexObj K S P A} (h : SimplexSim j s)
    (states : List S) :
    (constraintViolationJ sig j states).1 = constraintViolation s states ∧
      SimplexSim (constraintViolationJ sig j states).2 s := by
  obtain rfl := h.obj
  have := jitCall_eq (on := j.jit.violationJit) (q := sig.violation states j.obj.params j.obj.constraintEnabled) (self := j.obj)
    (run := fun o => constraintViolation
        { o with params := j.obj.params, constraintEnabled := j.obj.constraintEnabled } states)
    (cache := j.jit.violation) (Rel := fun o t => SameConstraints o.constraints t.constraints) (.refl _)
    (fun o ho => by
      unfold constraintViolation
      dsimp only
      rw [constraintViolationLoop_same ho]) h.cache
  exact ⟨this.1, { h with cache := this.2 }⟩

theorem simplexFilterJ_sim [DecidableEq Sig] [Max K] [Min K] [Add K] [Zero K] [LE K] [DecidableLE K] (sig : SimplexSig Sig K S P)
    {monJ : SimplexJ Sig K S P A → S → K → List K → Except PyErr Bool × SimplexJ Sig K S P A}
    {mon : SimplexObj K S P A → S → K → List K → Except PyErr Bool × SimplexObj K S P A}
    (hm : ∀ j s x dt u, SimplexSim j s → (monJ j x dt u).1 = (mon s x dt u).1 ∧ SimplexSim (monJ j x dt u).2 (mon s x dt u).2)
    {j : SimplexJ Sig K S P A} {s : SimplexObj K S P A} (h : SimplexSim j s) (x : S) (dt : K) (u : List K) :
    (simplexFilterJ sig monJ j x dt u).1 = (simplexFilter mon s x dt u).1 ∧
      SimplexSim (simplexFilterJ sig monJ j x dt u).2 (simplexFilter mon s x dt u).2 := by
  have tail : ∀ (j : SimplexJ Sig K S P A) (s : SimplexObj K S P A), SimplexSim j s →
      ((match monJ j x dt u with
        | (.error e, self) => (Except.error e, self)
        | (.ok b, self) =>
          let self := { self with obj := { self.obj with intervening := b } }
          if b then backupControlJ sig self x dt else (.ok u, self)) : Except PyErr (List K) × SimplexJ Sig K S P A).1 =
      ((match mon s x dt u with
        | (.error e, self) => (Except.error e, self)
        | (.ok b, self) =>
          let self := { self with intervening := b }
          if b then backupControl self x dt else (.ok u, self)) : Except PyErr (List K) × SimplexObj K S P A).1 ∧
      SimplexSim ((match monJ j x dt u with
        | (.error e, self) => (Except.error e, self)
        | (.ok b, self) =>
          let self := { self with obj := { self.obj with intervening := b } }
          if b then backupControlJ sig self x dt else (.ok u, self)) : Except PyErr (List K) × SimplexJ Sig K S P A).2
      ((match mon s x dt u with
        | (.error e, self) => (Except.error e, self)
        | (.ok b, self) =>
          let self := { self with intervening := b }
          if b then backupControl self x dt else (.ok u, self)) : Except PyErr (List K) × SimplexObj K S P A).2 := by
    intro j s h
    obtain ⟨h1, h2⟩ := hm j s x dt u h
    rcases hj : monJ j x dt u with ⟨r, j'⟩
    rcases hs : mon s x dt u with ⟨r', s'⟩
    rw [hj, hs] at h1 h2
    obtain rfl : r = r' := h1
    have h2 : SimplexSim j' s' := h2
    cases r with
    | error e => exact ⟨rfl, h2⟩
    | ok b =>
      have h3 : SimplexSim { j' with obj := { j'.obj with intervening := b } } { s' with intervening := b } := by
        have := h2.obj; subst this
        exact h2.update rfl rfl rfl ⟨rfl, rfl⟩
      cases b with
      | false => exact ⟨rfl, h3⟩
      | true => exact h3.backup sig x dt
  obtain rfl := h.obj
  unfold simplexFilterJ simplexFilter
  by_cases hi : j.obj.intervening = true
  · by_cases hl : j.obj.ext.latchedElapsed ≥ j.obj.ext.latchTime
    · simp only [if_pos hi, if_pos hl, Bool.false_eq_true, if_false]
      exact tail _ _ (h.update rfl rfl rfl ⟨rfl, rfl⟩)
    · simp only [if_pos hi, if_neg hl, if_true]
      exact (h.update
        (o := { j.obj with ext := { j.obj.ext with latchedElapsed := j.obj.ext.latchedElapsed + dt } }) rfl rfl rfl ⟨rfl, rfl⟩).backup sig x dt
  · simp only [if_neg hi, Bool.false_eq_true, if_false]
    exact tail _ _ h

/-- `compute_filtered_control` of a compiled module, for any relation between compiled and uncompiled modules that survives
the bookkeeping. -/
theorem computeFilteredControlJ_sim {Sim : JObj (CBObj K S P E) C → CBObj K S P E → Prop}
    (hobj : ∀ j s, Sim j s → j.obj = s)
    (hup : ∀ j s, Sim j s → ∀ o : CBObj K S P E, o.constraints = s.constraints → o.ext = s.ext →
      SameBounds s o → Sim { j with obj := o } o)
    {getState : CBObj K S P E → I → Except PyErr S × CBObj K S P E}
    (hget : ∀ s inp, (getState s inp).2.constraints = s.constraints ∧ (getState s inp).2.ext = s.ext ∧ SameBounds s (getState s inp).2)
    {fJ : JObj (CBObj K S P E) C → S → K → List K → Except PyErr (List K) × JObj (CBObj K S P E) C}
    {f : CBObj K S P E → S → K → List K → Except PyErr (List K) × CBObj K S P E}
    (hf : ∀ j s x dt u, Sim j s → (fJ j x dt u).1 = (f s x dt u).1 ∧ Sim (fJ j x dt u).2 (f s x dt u).2)
    {j : JObj (CBObj K S P E) C} {s : CBObj K S P E} (h : Sim j s) (inp : I) (dt : K) (u : List K) :
    (computeFilteredControlJ getState fJ j inp dt u).1 = (computeFilteredControl getState f s inp dt u).1 ∧
      Sim (computeFilteredControlJ getState fJ j inp dt u).2 (computeFilteredControl getState f s inp dt u).2 := by
  obtain rfl := hobj _ _ h
  have hg := hget (updateParams j.obj) inp
  unfold computeFilteredControlJ computeFilteredControl
  dsimp only
  rcases hs : getState (updateParams j.obj) inp with ⟨r, o⟩
  rw [hs] at hg
  cases r with
  | error e => exact ⟨rfl, hup _ _ h _ hg.1 hg.2.1 hg.2.2⟩
  | ok x =>
    dsimp only
    have h1 : Sim { j with obj := updateConstraintValuesAt o x true } (updateConstraintValuesAt o x true) :=
      hup _ _ h _ hg.1 hg.2.1 hg.2.2
    obtain ⟨h2, h3⟩ := hf _ _ x dt u h1
    rcases hj : fJ { j with obj := updateConstraintValuesAt o x true } x dt u with ⟨r', j'⟩
    rcases hs' : f (updateConstraintValuesAt o x true) x dt u with ⟨r'', s'⟩
    rw [hj, hs'] at h2 h3
    obtain rfl : r' = r'' := h2
    have h3 : Sim j' s' := h3
    cases r' with
    | error e => exact ⟨rfl, h3⟩
    | ok c =>
      have := hobj _ _ h3; subst this
      exact ⟨rfl, hup _ _ h3 _ rfl rfl ⟨rfl, rfl⟩⟩

/-- `filter_control` of a compiled module. -/
theorem filterControlJ_sim [Max K] [Min K] {Sim : JObj (CBObj K S P E) C → CBObj K S P E → Prop}
    (hobj : ∀ j s, Sim j s → j.obj = s)
    (hup : ∀ j s, Sim j s → ∀ o : CBObj K S P E, o.constraints = s.constraints → o.ext = s.ext →
      SameBounds s o → Sim { j with obj := o } o)
    {cJ : JObj (CBObj K S P E) C → I → K → List K → Except PyErr (List K) × JObj (CBObj K S P E) C}
    {c : CBObj K S P E → I → K → List K → Except PyErr (List K) × CBObj K S P E}
    (hc : ∀ j s inp dt u, Sim j s → (cJ j inp dt u).1 = (c s inp dt u).1 ∧ Sim (cJ j inp dt u).2 (c s inp dt u).2)
    {j : JObj (CBObj K S P E) C} {s : CBObj K S P E} (h : Sim j s) (inp : I) (dt : K) (u : List K) :
    (filterControl cJ j inp dt u).1 = (filterControl c s inp dt u).1 ∧
      Sim (filterControl cJ j inp dt u).2 (filterControl c s inp dt u).2 := by
  obtain rfl := hobj _ _ h
  have h1 : Sim (modifyBase (K := K) (fun b => { b with controlDesired := some u }) j)
      (modifyBase (K := K) (fun b => { b with controlDesired := some u }) j.obj) := hup _ _ h _ rfl rfl ⟨rfl, rfl⟩
  obtain ⟨h2, h3⟩ := hc _ _ inp dt u h1
  unfold filterControl
  dsimp only
  by_cases he : j.obj.enable = true
  · have e1 : (HasBase.get (modifyBase (K := K) (fun b => { b with controlDesired := some u }) j)).enable = true := he
    have e2 : (HasBase.get (modifyBase (K := K) (fun b => { b with controlDesired := some u }) j.obj)).enable = true := he
    rw [if_pos e1, if_pos e2]
    rcases hj : cJ (modifyBase (K := K) (fun b => { b with controlDesired := some u }) j) inp dt u with ⟨r, j'⟩
    rcases hs : c (modifyBase (K := K) (fun b => { b with controlDesired := some u }) j.obj) inp dt u with ⟨r', s'⟩
    rw [hj, hs] at h2 h3
    obtain rfl : r = r' := h2
    have h3 : Sim j' s' := h3
    have := hobj _ _ h3; subst this
    cases r with
    | error e => exact ⟨rfl, h3⟩
    | ok v =>
      dsimp only
      have e3 : (HasBase.get j').clipControl v = (HasBase.get j'.obj).clipControl v := rfl
      rw [e3]
      cases (HasBase.get j'.obj : Base K).clipControl v with
      | error e => exact ⟨rfl, h3⟩
      | ok w => exact ⟨rfl, hup _ _ h3 _ rfl rfl ⟨rfl, rfl⟩⟩
  · have e1 : ¬ (HasBase.get (modifyBase (K := K) (fun b => { b with controlDesired := some u }) j)).enable = true := he
    have e2 : ¬ (HasBase.get (modifyBase (K := K) (fun b => { b with controlDesired := some u }) j.obj)).enable = true := he
    rw [if_neg e1, if_neg e2]
    exact ⟨rfl, hup _ _ h _ rfl rfl ⟨rfl, rfl⟩⟩

theorem getStateDefault_same (s : CBObj K S P E) (inp : InputState S) :
    (getStateDefault s inp).2.constraints = s.constraints ∧ (getStateDefault s inp).2.ext = s.ext ∧
      SameBounds s (getStateDefault s inp).2 := by
  cases inp <;> exact ⟨rfl, rfl, rfl, rfl⟩

theorem SimplexSim.up (j : SimplexJ Sig K S P A) (s : SimplexObj K S P A) (h : SimplexSim j s) (o : SimplexObj K S P A)
    (hc : o.constraints = s.constraints) (he : o.ext = s.ext) (hb : SameBounds s o) : SimplexSim { j with obj := o } o :=
  h.update hc (by rw [he]) (by rw [he]) hb

theorem explicitSimplexJ_sim [DecidableEq Sig] [Max K] [Min K] [Add K] [Zero K] [LE K] [DecidableLE K] [LT K] [DecidableLT K]
    (sig : SimplexSig Sig K S P) (pred : S → K → List K → S) {j : SimplexJ Sig K S P A}
    {s : SimplexObj K S P A} (h : SimplexSim j s) (inp : InputState S) (dt : K) (u : List K) :
    (explicitSimplexJ sig pred j inp dt u).1 = (explicitSimplex pred s inp dt u).1 ∧
      SimplexSim (explicitSimplexJ sig pred j inp dt u).2 (explicitSimplex pred s inp dt u).2 := by
  refine filterControlJ_sim (fun _ _ h => h.obj) SimplexSim.up (fun j s inp dt u h => ?_) h inp dt u
  refine computeFilteredControlJ_sim (fun _ _ h => h.obj) SimplexSim.up getStateDefault_same (fun j s x dt u h => ?_) h inp dt u
  exact simplexFilterJ_sim sig (fun j s x dt u h => constraintViolationJ_sim sig h _) h x dt u

theorem jitLoop_frame [Max K] [Min K] (pred : S → K → List K → S) (dt : K) (n : Nat) (s : SimplexObj K S P A) (x : S)
    (acc : List S) : (integrateLoop pred dt n s x acc).2.ext.ctrl.stateSaved = s.ext.ctrl.stateSaved ∧
      (integrateLoop pred dt n s x acc).2.ext.ctrl.gen = s.ext.ctrl.gen ∧
      (integrateLoop pred dt n s x acc).2.constraints = s.constraints ∧
      (integrateLoop pred dt n s x acc).2.ext.backupWindow = s.ext.backupWindow ∧
      SameBounds s (integrateLoop pred dt n s x acc).2 := by
  induction n generalizing s x acc with
  | zero => exact ⟨rfl, rfl, rfl, rfl, rfl, rfl⟩
  | succ n ih =>
    obtain ⟨b1, b2, b3, b4, b5⟩ := jitBackup_frame s x dt
    unfold integrateLoop
    rcases hs : backupControl s x dt with ⟨r', s'⟩
    rw [hs] at b1 b2 b3 b4 b5
    cases r' with
    | error e => exact ⟨b5, b4, b1, b2, b3⟩
    | ok v =>
      obtain ⟨i1, i2, i3, i4, i5⟩ := ih s' (pred x dt v) (acc ++ [pred x dt v])
      exact ⟨i1.trans b5, i2.trans b4, i3.trans b1, i4.trans b2, b3.trans i5⟩

theorem integrateLoop_idle [Max K] [Min K] (pred : S → K → List K → S) (dt : K) (n : Nat) {s : SimplexObj K S P A}
    (h : NoCtrlState s.ext.ctrl) (x : S) (acc : List S) : (integrateLoop pred dt n s x acc).2 = s := by
  induction n generalizing x acc with
  | zero => rfl
  | succ n ih =>
    have hb := backupControl_idle h x dt
    unfold integrateLoop
    rcases hs : backupControl s x dt with ⟨r', s'⟩
    rw [hs] at hb
    obtain rfl : s' = s := hb
    cases r' with
    | error e => rfl
    | ok v => exact ih _ _

theorem integrateLoopJ_sim [DecidableEq Sig] [Max K] [Min K] (sig : SimplexSig Sig K S P) (pred : S → K → List K → S) (dt : K)
    (n : Nat) {j : SimplexJ Sig K S P A} {s : SimplexObj K S P A} (h : CtrlSim j s) (x : S) (acc : List S) :
    (integrateLoopJ sig pred dt n j x acc).1 = (integrateLoop pred dt n s x acc).1 ∧
      ∃ c, (integrateLoopJ sig pred dt n j x acc).2 = { obj := (integrateLoop pred dt n s x acc).2, jit := { j.jit with control := c } } ∧
        (j.jit.ctrlJit = true → ∀ p ∈ c, p.2.ext.ctrl.gen = s.ext.ctrl.gen) := by
  induction n generalizing j s x acc with
  | zero => exact ⟨rfl, j.jit.control, by obtain rfl := h.obj; rfl, h.control⟩
  | succ n ih =>
    obtain ⟨h1, c, h2, h3⟩ := backupControlJ_sim sig h x dt
    obtain ⟨-, -, -, b4, -⟩ := jitBackup_frame s x dt
    have hid : j.jit.ctrlJit = true → (backupControl s x dt).2 = s := fun hj => backupControl_idle (h.ctrl hj) x dt
    unfold integrateLoopJ integrateLoop
    rcases hj : backupControlJ sig j x dt with ⟨r, j'⟩
    rcases hs : backupControl s x dt with ⟨r', s'⟩
    rw [hj, hs] at h1 h2
    rw [hs] at b4 hid
    obtain rfl : r = r' := h1
    obtain rfl : j' = _ := h2
    cases r with
    | error e => exact ⟨rfl, c, rfl, h3⟩
    | ok v =>
      have hc : CtrlSim ({ obj := s', jit := { j.jit with control := c } } : SimplexJ Sig K S P A) s' :=
        ⟨rfl, fun hj => by rw [show s' = s from hid hj]; exact h.ctrl hj,
          fun hj p hp => by rw [show s' = s from hid hj]; exact h3 hj p hp⟩
      obtain ⟨i1, c', i2, i3⟩ := ih hc (pred x dt v) (acc ++ [pred x dt v])
      exact ⟨i1, c', i2, fun hj p hp => (i3 hj p hp).trans b4⟩

theorem NoCtrlState.save {c : BackupController K S A} (h : NoCtrlState c) :
    c.save = (.ok (), { c with stateSaved := .none }) := by
  unfold BackupController.save
  rw [h.1]; rfl

theorem IdleCtrl.save {c : BackupController K S A} (h : IdleCtrl c) : c.save = (.ok (), c) := by
  rw [h.1.save, ← h.2]

theorem implicitIntegrateJ_sim [DecidableEq Sig] [Field K] [LinearOrder K] [FloorRing K] (sig : SimplexSig Sig K S P)
    (pred : S → K → List K → S) {j : SimplexJ Sig K S P A} {s : SimplexObj K S P A} (h : CtrlSim j s) (x : S) (dt : K)
    (u : List K) :
    (implicitIntegrateJ sig pred j x dt u).1 = (implicitIntegrate pred s x dt u).1 ∧
      ∃ c, (implicitIntegrateJ sig pred j x dt u).2 = { obj := (implicitIntegrate pred s x dt u).2, jit := { j.jit with control := c } } ∧
        (j.jit.ctrlJit = true → ∀ p ∈ c, p.2.ext.ctrl.gen = s.ext.ctrl.gen) := by
  obtain rfl := h.obj
  unfold implicitIntegrateJ implicitIntegrate
  cases hn : backupSteps j.obj.ext.backupWindow dt with
  | error e => exact ⟨rfl, _, rfl, h.control⟩
  | ok n =>
    dsimp only
    have hst : j.jit.ctrlJit = true → NoCtrlState (backupControllerSave j.obj).2.ext.ctrl := by
      intro hj
      have := h.ctrl hj
      unfold backupControllerSave
      rw [this.save]
      exact this
    have hgen : (backupControllerSave j.obj).2.ext.ctrl.gen = j.obj.ext.ctrl.gen := by
      unfold backupControllerSave BackupController.save
      cases j.obj.ext.ctrl.state.copy <;> rfl
    rcases hs : backupControllerSave j.obj with ⟨r, o⟩
    rw [hs] at hst hgen
    have hgen : o.ext.ctrl.gen = j.obj.ext.ctrl.gen := hgen
    cases r with
    | error e => exact ⟨rfl, _, rfl, h.control⟩
    | ok q =>
      dsimp only
      have h1 : CtrlSim { j with obj := o } o := ⟨rfl, hst, fun hj p hp => (h.control hj p hp).trans hgen.symm⟩
      obtain ⟨h2, c, h3, h4⟩ := integrateLoopJ_sim sig pred dt n.toNat h1 (pred x dt u) [pred x dt u]
      rcases hj : integrateLoopJ sig pred dt n.toNat { j with obj := o } (pred x dt u) [pred x dt u] with ⟨r', j'⟩
      rcases hs' : integrateLoop pred dt n.toNat o (pred x dt u) [pred x dt u] with ⟨r'', s'⟩
      rw [hj, hs'] at h2 h3
      obtain rfl : r' = r'' := h2
      obtain rfl : j' = _ := h3
      have h5 : j.jit.ctrlJit = true → ∀ p ∈ c, p.2.ext.ctrl.gen = j.obj.ext.ctrl.gen :=
        fun hj p hp => (h4 hj p hp).trans hgen
      cases r' with
      | error e => exact ⟨rfl, c, rfl, h5⟩
      | ok t => exact ⟨rfl, c, rfl, h5⟩

theorem jitIntegrate_frame [Field K] [LinearOrder K] [FloorRing K] (pred : S → K → List K → S) (s : SimplexObj K S P A)
    (x : S) (dt : K) (u : List K) : (implicitIntegrate pred s x dt u).2.constraints = s.constraints ∧
      (implicitIntegrate pred s x dt u).2.ext.ctrl.gen = s.ext.ctrl.gen ∧
      (implicitIntegrate pred s x dt u).2.ext.backupWindow = s.ext.backupWindow ∧
      SameBounds s (implicitIntegrate pred s x dt u).2 ∧
      (NoCtrlState s.ext.ctrl → NoCtrlState (implicitIntegrate pred s x dt u).2.ext.ctrl) := by
  unfold implicitIntegrate
  cases hn : backupSteps s.ext.backupWindow dt with
  | error e => exact ⟨rfl, rfl, rfl, ⟨rfl, rfl⟩, id⟩
  | ok n =>
    dsimp only
    have hsv : (backupControllerSave s).2.constraints = s.constraints ∧ (backupControllerSave s).2.ext.ctrl.gen = s.ext.ctrl.gen ∧
        (backupControllerSave s).2.ext.backupWindow = s.ext.backupWindow ∧ SameBounds s (backupControllerSave s).2 ∧
        (NoCtrlState s.ext.ctrl → NoCtrlState (backupControllerSave s).2.ext.ctrl ∧
          (backupControllerSave s).2.ext.ctrl.stateSaved = .none) := by
      refine ⟨rfl, ?_, rfl, ⟨rfl, rfl⟩, fun h => ?_⟩
      · unfold backupControllerSave BackupController.save
        cases s.ext.ctrl.state.copy <;> rfl
      · unfold backupControllerSave
        rw [h.save]
        exact ⟨h, rfl⟩
    rcases hs : backupControllerSave s with ⟨r, o⟩
    rw [hs] at hsv
    obtain ⟨v1, v2, v3, v4, v5⟩ := hsv
    cases r with
    | error e => exact ⟨v1, v2, v3, v4, fun h => (v5 h).1⟩
    | ok q =>
      dsimp only
      obtain ⟨f1, f2, f3, f4, f5⟩ := jitLoop_frame pred dt n.toNat o (pred x dt u) [pred x dt u]
      have hid : NoCtrlState s.ext.ctrl → (integrateLoop pred dt n.toNat o (pred x dt u) [pred x dt u]).2 = o :=
        fun h => integrateLoop_idle pred dt _ (v5 h).1 _ _
      rcases hs' : integrateLoop pred dt n.toNat o (pred x dt u) [pred x dt u] with ⟨r', s'⟩
      rw [hs'] at f1 f2 f3 f4 f5 hid
      cases r' with
      | error e => exact ⟨f3.trans v1, f2.trans v2, f4.trans v3, v4.trans f5, fun h => by
          rw [show s' = o from hid h]; exact (v5 h).1⟩
      | ok t => exact ⟨f3.trans v1, f2.trans v2, f4.trans v3, v4.trans f5, fun h => by
          rw [show s' = o from hid h]; exact ⟨(v5 h).2, (v5 h).1.2⟩⟩

theorem implicitIntegrate_idle [Field K] [LinearOrder K] [FloorRing K] (pred : S → K → List K → S) {s : SimplexObj K S P A}
    (h : IdleCtrl s.ext.ctrl) (x : S) (dt : K) (u : List K) : (implicitIntegrate pred s x dt u).2 = s := by
  unfold implicitIntegrate
  cases hn : backupSteps s.ext.backupWindow dt with
  | error e => rfl
  | ok n =>
    dsimp only
    have hsv : backupControllerSave s = (.ok (), s) := by
      unfold backupControllerSave
      rw [h.save]; rfl
    rw [hsv]
    dsimp only
    have hid := integrateLoop_idle pred dt n.toNat h.1 (pred x dt u) [pred x dt u]
    rcases hs' : integrateLoop pred dt n.toNat s (pred x dt u) [pred x dt u] with ⟨r', s'⟩
    rw [hs'] at hid
    obtain rfl : s' = s := hid
    cases r' with
    | error e => rfl
    | ok t =>
      unfold backupControllerRestore BackupController.restore
      have : ({ s'.ext.ctrl with state := s'.ext.ctrl.stateSaved } : BackupController K S A) = s'.ext.ctrl := by
        rw [h.2, ← h.1.1]
      show s'.setCtrl { s'.ext.ctrl with state := s'.ext.ctrl.stateSaved } = s'
      rw [this]; rfl

theorem clipControl_bounds [Max K] [Min K] {E : Type} {o s : CBObj K S P E} (h : SameBounds o s) (u : List K) :
    o.toBase.clipControl u = s.toBase.clipControl u := by
  unfold Base.clipControl
  rw [h.1, h.2]

theorem backupControl_same [Max K] [Min K] {o s : SimplexObj K S P A} (h : JitSameBackup o s) (x : S) (dt : K) :
    (backupControl o x dt).1 = (backupControl s x dt).1 := by
  unfold backupControl BackupController.generateControl
  rw [h.left.1.1, h.right.1.1, h.gen]
  cases s.ext.ctrl.gen x dt .none with
  | none => rfl
  | some r => exact clipControl_bounds h.bounds r.1

theorem integrateLoop_same [Max K] [Min K] (pred : S → K → List K → S) (dt : K) (n : Nat) {o s : SimplexObj K S P A}
    (h : JitSameBackup o s) (x : S) (acc : List S) :
    (integrateLoop pred dt n o x acc).1 = (integrateLoop pred dt n s x acc).1 := by
  induction n generalizing x acc with
  | zero => rfl
  | succ n ih =>
    have h1 := backupControl_same h x dt
    have h2 := backupControl_idle h.left.1 x dt
    have h3 := backupControl_idle h.right.1 x dt
    unfold integrateLoop
    rcases hs : backupControl o x dt with ⟨r, o'⟩
    rcases hs' : backupControl s x dt with ⟨r', s'⟩
    rw [hs, hs'] at h1
    rw [hs] at h2
    rw [hs'] at h3
    obtain rfl : r = r' := h1
    obtain rfl : o' = o := h2
    obtain rfl : s' = s := h3
    cases r with
    | error e => rfl
    | ok v => exact ih _ _

theorem implicitIntegrate_same [Field K] [LinearOrder K] [FloorRing K] (pred : S → K → List K → S) {o s : SimplexObj K S P A}
    (h : JitSameBackup o s) (x : S) (dt : K) (u : List K) :
    (implicitIntegrate pred o x dt u).1 = (implicitIntegrate pred s x dt u).1 := by
  unfold implicitIntegrate
  rw [h.window]
  cases hn : backupSteps s.ext.backupWindow dt with
  | error e => rfl
  | ok n =>
    dsimp only
    have hsv : ∀ {t : SimplexObj K S P A}, IdleCtrl t.ext.ctrl → backupControllerSave t = (.ok (), t) := by
      intro t ht
      unfold backupControllerSave
      rw [ht.save]; rfl
    rw [hsv h.left, hsv h.right]
    dsimp only
    have h1 := integrateLoop_same pred dt n.toNat h (pred x dt u) [pred x dt u]
    rcases hs : integrateLoop pred dt n.toNat o (pred x dt u) [pred x dt u] with ⟨r, o'⟩
    rcases hs' : integrateLoop pred dt n.toNat s (pred x dt u) [pred x dt u] with ⟨r', s'⟩
    rw [hs, hs'] at h1
    obtain rfl : r = r' := h1
    cases r <;> rfl

theorem integrateFnJ_sim [DecidableEq Sig] [Field K] [LinearOrder K] [FloorRing K] (sig : SimplexSig Sig K S P)
    (pred : S → K → List K → S) {j : SimplexJ Sig K S P A} {s : SimplexObj K S P A} (h : SimplexSim j s) (x : S) (dt : K)
    (u : List K) :
    (integrateFnJ sig pred j x dt u).1 = (implicitIntegrate pred s x dt u).1 ∧
      SimplexSim (integrateFnJ sig pred j x dt u).2 (implicitIntegrate pred s x dt u).2 := by
  obtain ⟨h1, c, h2, h3⟩ := implicitIntegrateJ_sim sig pred h.toCtrlSim x dt u
  obtain ⟨f1, f2, f3, f4, f5⟩ := jitIntegrate_frame pred s x dt u
  have hst : SimplexSim { obj := (implicitIntegrate pred s x dt u).2, jit := { j.jit with control := c } }
      (implicitIntegrate pred s x dt u).2 := by
    refine ⟨⟨rfl, fun hj => f5 (h.ctrl hj), fun hj p hp => (h3 hj p hp).trans f2.symm⟩, ?_, ?_, ?_⟩
    · rw [f1]; exact h.cache
    · intro hi
      rw [implicitIntegrate_idle pred (h.idle hi)]; exact h.idle hi
    · intro hi
      rw [implicitIntegrate_idle pred (h.idle hi)]; exact h.integrate hi
  unfold integrateFnJ
  by_cases hi : j.jit.integrateJit = true
  · rw [if_pos hi]
    have hid := implicitIntegrate_idle pred (h.idle hi) x dt u
    cases hl : jitLookup j.jit.integrate (sig.integrate x dt u) with
    | some snap =>
      have hmem : ∃ q, (q, snap) ∈ j.jit.integrate := jitLookup_mem hl
      obtain ⟨q, hq⟩ := hmem
      obtain ⟨g1, g2⟩ := h.integrate hi _ hq
      have hcs : CtrlSim ({ obj := snap.1, jit := { j.jit with control := snap.2 } } : SimplexJ Sig K S P A) snap.1 :=
        ⟨rfl, fun _ => g1.left.1, fun hj p hp => (g2 hj p hp).trans g1.gen.symm⟩
      refine ⟨(implicitIntegrateJ_sim sig pred hcs x dt u).1.trans (implicitIntegrate_same pred g1 x dt u), ?_⟩
      rw [hid]; exact h
    | none =>
      dsimp only
      rcases hj : implicitIntegrateJ sig pred j x dt u with ⟨r, j'⟩
      rw [hj] at h1 h2
      obtain rfl : r = _ := h1
      obtain rfl : j' = _ := h2
      cases hr : (implicitIntegrate pred s x dt u).1 with
      | error e => exact ⟨rfl, hst⟩
      | ok t =>
        refine ⟨rfl, { hst with integrate := ?_ }⟩
        intro hi' p hp
        rcases List.mem_cons.1 hp with rfl | hp
        · rw [hid]
          have := h.obj
          refine ⟨?_, ?_⟩
          · show JitSameBackup j.obj s
            rw [this]
            exact ⟨h.idle hi, h.idle hi, rfl, rfl, rfl, rfl⟩
          · exact h.control
        · exact hst.integrate hi' p hp
  · rw [if_neg hi]
    exact ⟨h1, h2 ▸ hst⟩

theorem implicitSimplexJ_sim [DecidableEq Sig] [Field K] [LinearOrder K] [FloorRing K]
    (sig : SimplexSig Sig K S P) (pred : S → K → List K → S) {j : SimplexJ Sig K S P A}
    {s : SimplexObj K S P A} (h : SimplexSim j s) (inp : InputState S) (dt : K) (u : List K) :
    (implicitSimplexJ sig pred j inp dt u).1 = (implicitSimplex pred s inp dt u).1 ∧
      SimplexSim (implicitSimplexJ sig pred j inp dt u).2 (implicitSimplex pred s inp dt u).2 := by
  refine filterControlJ_sim (fun _ _ h => h.obj) SimplexSim.up (fun j s inp dt u h => ?_) h inp dt u
  refine computeFilteredControlJ_sim (fun _ _ h => h.obj) SimplexSim.up getStateDefault_same (fun j s x dt u h => ?_) h inp dt u
  refine simplexFilterJ_sim sig (fun j s x dt u h => ?_) h x dt u
  obtain ⟨h1, h2⟩ := integrateFnJ_sim sig pred h x dt u
  unfold implicitMonitorJ implicitMonitor
  rcases hj : integrateFnJ sig pred j x dt u with ⟨r, j'⟩
  rcases hs : implicitIntegrate pred s x dt u with ⟨r', s'⟩
  rw [hj, hs] at h1 h2
  obtain rfl : r = r' := h1
  cases r with
  | error e => exact ⟨rfl, h2⟩
  | ok t => exact constraintViolationJ_sim sig h2 t

/-- A history of a compiled module. -/
theorem useAll_sim {O : Type} {Sim : JObj O C → O → Prop} (hobj : ∀ j s, Sim j s → j.obj = s)
    {cJ : JObj O C → InputState S → K → List K → Except PyErr (List K) × JObj O C}
    {c : O → InputState S → K → List K → Except PyErr (List K) × O}
    (hc : ∀ j s inp dt u, Sim j s → (cJ j inp dt u).1 = (c s inp dt u).1 ∧ Sim (cJ j inp dt u).2 (c s inp dt u).2)
    (l : List (Use O K S))
    (hm : ∀ m, Use.modify m ∈ l → ∀ j s, Sim j s → Sim { j with obj := m j.obj } (m s))
    {j : JObj O C} {s : O} (h : Sim j s) :
    (useAll cJ (fun m j => { j with obj := m j.obj }) l j).1 = (useAll c (fun m s => m s) l s).1 ∧
      (useAll cJ (fun m j => { j with obj := m j.obj }) l j).2.obj = (useAll c (fun m s => m s) l s).2 := by
  induction l generalizing j s with
  | nil => exact ⟨rfl, hobj _ _ h⟩
  | cons a l ih =>
    have hm' := fun m hmem => hm m (List.mem_cons_of_mem _ hmem)
    cases a with
    | call inp dt u =>
      obtain ⟨h1, h2⟩ := hc j s inp dt u h
      obtain ⟨h3, h4⟩ := ih hm' h2
      exact ⟨by simp only [useAll]; rw [h1, h3], h4⟩
    | modify m => exact ih hm' (hm m (.head _) j s h)

/-- ASIF: the compiled module `j` is in step with the uncompiled module `s`. -/
structure ASIFSim (e : X) (j : ASIFJ Sig K S P X) (s : ASIFObj K S P X) : Prop where
  obj : j.obj = s
  barrier : j.jit.barrierJit = true → ∀ p ∈ j.jit.barrier, SameASIF p.2 s
  direct : j.jit.directJit = true → ∀ p ∈ j.jit.direct, SameASIF p.2 s
  extra : s.ext.extra = e
  integrate : j.jit.integrateJit = true → ∀ p ∈ j.jit.integrate, SameASIF p.2 s ∧ SameBounds p.2 s

theorem ASIFSim.of_same {e : X} {j : ASIFJ Sig K S P X} {s : ASIFObj K S P X} (h : ASIFSim e j s) {o : ASIFObj K S P X}
    (hs : SameASIF s o) (hi : j.jit.integrateJit = true → SameBounds s o) : ASIFSim e { j with obj := o } o :=
  ⟨rfl, fun hb p hp => (h.barrier hb p hp).trans hs, fun hb p hp => (h.direct hb p hp).trans hs, hs.extra ▸ h.extra,
    fun hb p hp => ⟨(h.integrate hb p hp).1.trans hs, (h.integrate hb p hp).2.trans (hi hb)⟩⟩

theorem explicitRows_same [Add K] [Mul K] [Neg K] [Sub K] [Zero K] [One K] [OfNat K 10] [LT K] [DecidableLT K]
    {f : S → List K} {g : S → List (List K)} {params : Dict P} {en : Dict Bool} {m k : Nat} {x : S}
    {cs ds : Dict (Constraint K S P)} (h : SameConstraints cs ds) (sc : Nat) :
    explicitRows f g params en m k x sc cs = explicitRows f g params en m k x sc ds := by
  unfold SameConstraints at h
  induction h generalizing sc with
  | nil => rfl
  | @cons a b l l' h1 _ ih =>
    obtain ⟨k, c⟩ := a
    obtain ⟨k', d⟩ := b
    obtain rfl : k = k' := h1.1
    have h2 : c.SameCode d := h1.2
    have hg : c.gradFn = d.gradFn := by rw [← h2]
    have hs : c.slackPriorityScale = d.slackPriorityScale := by rw [← h2]
    have ha : ∀ y, alphaTerm c y = alphaTerm d y := by intro y; rw [← h2]; rfl
    unfold explicitRows
    simp only [ih, hg, hs, ha, h2.compute]

theorem directRows_same [Zero K] {params : Dict P} {en : Dict Bool} {m k : Nat} {x : S}
    {cs ds : Dict (DirectConstraint K S P)} (h : SameDirect cs ds) :
    directRows params en m k x cs = directRows params en m k x ds := by
  unfold SameDirect at h
  induction h with
  | nil => rfl
  | @cons a b l l' h1 _ ih =>
    obtain ⟨k, c⟩ := a
    obtain ⟨k', d⟩ := b
    obtain rfl : k = k' := h1.1
    have h2 : c.SameCode d := h1.2
    have hw : c.ineqWeight = d.ineqWeight := by rw [← h2]
    have hc : c.ineqConstant = d.ineqConstant := by rw [← h2]
    unfold directRows
    simp only [ih, hw, hc]

theorem explicitGenRows_same [Add K] [Mul K] [Neg K] [Sub K] [Zero K] [One K] [OfNat K 10] [LT K] [DecidableLT K]
    (f : X → S → List K) (g : X → S → List (List K)) {o s : ASIFObj K S P X} (h : SameASIF o s) (params : Dict P)
    (en : Dict Bool) (x : S) (dt : K) :
    (explicitGenRows (f o.ext.extra) (g o.ext.extra) { o with params := params, constraintEnabled := en } x dt).1 =
      (explicitGenRows (f s.ext.extra) (g s.ext.extra) { s with params := params, constraintEnabled := en } x dt).1 := by
  unfold explicitGenRows
  dsimp only
  rw [h.extra, h.controlDim, h.numSlack, explicitRows_same h.constraints, h.actuation]
  cases explicitRows (f s.ext.extra) (g s.ext.extra) params en s.ext.controlDim s.ext.numSlack x 0 s.constraints <;> rfl

theorem explicitGenRows_obj [Add K] [Mul K] [Neg K] [Sub K] [Zero K] [One K] [OfNat K 10] [LT K] [DecidableLT K]
    (f : S → List K) (g : S → List (List K)) (s : ASIFObj K S P X) (x : S) (dt : K) :
    (explicitGenRows f g s x dt).2 = s := by
  unfold explicitGenRows
  cases explicitRows f g s.params s.constraintEnabled s.ext.controlDim s.ext.numSlack x 0 s.constraints <;> rfl

theorem explicitGenRowsJ_sim [DecidableEq Sig] [Add K] [Mul K] [Neg K] [Sub K] [Zero K] [One K] [OfNat K 10] [LT K]
    [DecidableLT K] (sig : S → K → Dict P → Dict Bool → Sig) (f : X → S → List K) (g : X → S → List (List K))
    {e : X} {j : ASIFJ Sig K S P X} {s : ASIFObj K S P X} (h : ASIFSim e j s) (x : S) (dt : K) :
    (explicitGenRowsJ sig f g j x dt).1 = (explicitGenRows (f e) (g e) s x dt).1 ∧
      ASIFSim e (explicitGenRowsJ sig f g j x dt).2 s := by
  obtain rfl := h.obj
  have := jitCall_eq (on := j.jit.barrierJit) (q := sig x dt j.obj.params j.obj.constraintEnabled) (self := j.obj)
    (run := fun o => (explicitGenRows (f o.ext.extra) (g o.ext.extra)
        { o with params := j.obj.params, constraintEnabled := j.obj.constraintEnabled } x dt).1)
    (cache := j.jit.barrier) (Rel := SameASIF) (.refl _)
    (fun o ho => explicitGenRows_same f g ho _ _ x dt) h.barrier
  rw [← h.extra]
  exact ⟨this.1, rfl, this.2, h.direct, rfl, h.integrate⟩

theorem directRowsJ_sim [DecidableEq Sig] [Zero K] (sig : List (Row K) → S → Dict P → Dict Bool → Sig)
    {e : X} {j : ASIFJ Sig K S P X} {s : ASIFObj K S P X} (h : ASIFSim e j s) (rows : List (Row K)) (x : S) :
    (directRowsJ sig j rows x).1 =
        directRows s.ext.directParams s.ext.directEnabled s.ext.controlDim s.ext.numSlack x s.ext.direct ∧
      ASIFSim e (directRowsJ sig j rows x).2 s := by
  obtain rfl := h.obj
  have := jitCall_eq (on := j.jit.directJit) (q := sig rows x j.obj.ext.directParams j.obj.ext.directEnabled) (self := j.obj)
    (run := fun o => directRows j.obj.ext.directParams j.obj.ext.directEnabled o.ext.controlDim o.ext.numSlack x o.ext.direct)
    (cache := j.jit.direct) (Rel := SameASIF) (.refl _)
    (fun o ho => by rw [ho.controlDim, ho.numSlack, directRows_same ho.direct]) h.direct
  exact ⟨this.1, rfl, h.barrier, this.2, h.extra, h.integrate⟩

theorem optimize_same [Zero K] (solver : Solver K) (s : ASIFObj K S P X) (u : List K) (rows : List (Row K)) :
    SameASIF s (optimize solver s u rows).2 ∧ SameBounds s (optimize solver s u rows).2 := by
  unfold optimize
  dsimp only
  cases quadprogSolve solver s.ext.objWeight (u ++ zeros s.ext.numSlack) rows with
  | solved v iact =>
    dsimp only
    rcases causingLoop s.ext.constraintNames iact [] with ⟨r, l⟩
    cases r <;> exact ⟨⟨.refl _, .refl _, rfl, rfl, rfl, rfl⟩, rfl, rfl⟩
  | valueError msg =>
    dsimp only
    by_cases h1 : msg = inconsistentMsg
    · rw [if_pos h1]
      by_cases h2 : ¬ s.ext.solverException = true
      · rw [if_pos h2]; exact ⟨.refl _, rfl, rfl⟩
      · rw [if_neg h2]; exact ⟨.refl _, rfl, rfl⟩
    · rw [if_neg h1]; exact ⟨.refl _, rfl, rfl⟩

theorem asifFilterJ_sim [DecidableEq Sig] [Add K] [Mul K] [Sub K] [Zero K] [HasSqrt K] [LT K] [DecidableLT K]
    (solver : Solver K) (sigD : List (Row K) → S → Dict P → Dict Bool → Sig)
    {genJ : ASIFJ Sig K S P X → S → K → Except PyErr (List (Row K)) × ASIFJ Sig K S P X}
    {gen : ASIFObj K S P X → S → K → Except PyErr (List (Row K)) × ASIFObj K S P X}
    {e : X} (hg : ∀ j s x dt, ASIFSim e j s → (genJ j x dt).1 = (gen s x dt).1 ∧ ASIFSim e (genJ j x dt).2 (gen s x dt).2)
    {j : ASIFJ Sig K S P X} {s : ASIFObj K S P X} (h : ASIFSim e j s) (x : S) (dt : K) (u : List K) :
    (asifFilterJ solver sigD genJ j x dt u).1 = (asifFilter solver gen s x dt u).1 ∧
      ASIFSim e (asifFilterJ solver sigD genJ j x dt u).2 (asifFilter solver gen s x dt u).2 := by
  obtain rfl := h.obj
  have h1 : ASIFSim e { j with obj := updateDirectParams j.obj } (updateDirectParams j.obj) :=
    h.of_same ⟨.refl _, .refl _, rfl, rfl, rfl, rfl⟩ fun _ => ⟨rfl, rfl⟩
  obtain ⟨h2, h3⟩ := hg _ _ x dt h1
  unfold asifFilterJ asifFilter
  dsimp only
  rcases hj : genJ { j with obj := updateDirectParams j.obj } x dt with ⟨r, j'⟩
  rcases hs : gen (updateDirectParams j.obj) x dt with ⟨r', s'⟩
  rw [hj, hs] at h2 h3
  obtain rfl : r = r' := h2
  have h3 : ASIFSim e j' s' := h3
  cases r with
  | error e => exact ⟨rfl, h3⟩
  | ok rows =>
    dsimp only
    obtain ⟨h4, h5⟩ := directRowsJ_sim sigD h3 rows x
    rcases hd : directRowsJ sigD j' rows x with ⟨r2, j2⟩
    rw [hd] at h4 h5
    have h4 : r2 = directRows s'.ext.directParams s'.ext.directEnabled s'.ext.controlDim s'.ext.numSlack x s'.ext.direct := h4
    have h5 : ASIFSim e j2 s' := h5
    rw [← h4]
    cases r2 with
    | error e => exact ⟨rfl, h5⟩
    | ok drows =>
      dsimp only
      have h6 := optimize_same solver s' u (rows ++ drows)
      rw [h5.obj]
      rcases ho : optimize solver s' u (rows ++ drows) with ⟨r3, o⟩
      rw [ho] at h6
      have h6 : SameASIF s' o ∧ SameBounds s' o := h6
      cases r3 with
      | error e => exact ⟨rfl, h5.of_same h6.1 fun _ => h6.2⟩
      | ok v => exact ⟨rfl, h5.of_same (h6.1.trans ⟨.refl _, .refl _, rfl, rfl, rfl, rfl⟩) fun _ => h6.2.trans ⟨rfl, rfl⟩⟩

theorem ASIFSim.up {e : X} (j : ASIFJ Sig K S P X) (s : ASIFObj K S P X) (h : ASIFSim e j s) (o : ASIFObj K S P X)
    (hc : o.constraints = s.constraints) (he : o.ext = s.ext) (hb : SameBounds s o) : ASIFSim e { j with obj := o } o :=
  h.of_same ⟨hc ▸ .refl _, he ▸ .refl _, by rw [he], by rw [he], by rw [he], by rw [he]⟩ fun _ => hb

theorem explicitASIFJ_sim [DecidableEq Sig] [Add K] [Mul K] [Neg K] [Sub K] [Zero K] [One K] [OfNat K 10] [Max K] [Min K]
    [HasSqrt K] [LT K] [DecidableLT K] (solver : Solver K) (sig : S → K → Dict P → Dict Bool → Sig)
    (sigD : List (Row K) → S → Dict P → Dict Bool → Sig) (f : X → S → List K) (g : X → S → List (List K)) {e : X}
    {j : ASIFJ Sig K S P X} {s : ASIFObj K S P X} (h : ASIFSim e j s) (inp : InputState S) (dt : K) (u : List K) :
    (explicitASIFJ solver sig sigD f g j inp dt u).1 = (explicitASIF solver (f e) (g e) s inp dt u).1 ∧
      ASIFSim e (explicitASIFJ solver sig sigD f g j inp dt u).2 (explicitASIF solver (f e) (g e) s inp dt u).2 := by
  refine filterControlJ_sim (fun _ _ h => h.obj) ASIFSim.up (fun j t inp dt u h => ?_) h inp dt u
  refine computeFilteredControlJ_sim (fun _ _ h => h.obj) ASIFSim.up getStateDefault_same (fun j t x dt u h => ?_) h inp dt u
  refine asifFilterJ_sim solver sigD (fun j t x dt h => ?_) h x dt u
  rw [explicitGenRows_obj]
  exact explicitGenRowsJ_sim sig f g h x dt

/-! ### What a call does to the compilation options -/

theorem backupControlJ_jit [DecidableEq Sig] [Max K] [Min K] (sig : SimplexSig Sig K S P) (j : SimplexJ Sig K S P A) (x : S)
    (dt : K) : ∃ c, (backupControlJ sig j x dt).2.jit = { j.jit with control := c } := by
  unfold backupControlJ
  split
  · exact ⟨_, rfl⟩
  · exact ⟨_, rfl⟩
  · exact ⟨_, rfl⟩
  · split <;> exact ⟨_, rfl⟩

theorem backupControlJ_inv [DecidableEq Sig] [Max K] [Min K] (sig : SimplexSig Sig K S P)
    {Q : SimplexJit Sig (SimplexObj K S P A) → Prop} (hk : ∀ c k, Q c → Q { c with control := k }) (j : SimplexJ Sig K S P A) (x : S)
    (dt : K) (h : Q j.jit) : Q (backupControlJ sig j x dt).2.jit := by
  obtain ⟨c, hc⟩ := backupControlJ_jit sig j x dt
  rw [hc]; exact hk _ _ h

theorem simplexFilterJ_inv [DecidableEq Sig] [Max K] [Min K] [Add K] [Zero K] [LE K] [DecidableLE K] (sig : SimplexSig Sig K S P)
    {monJ : SimplexJ Sig K S P A → S → K → List K → Except PyErr Bool × SimplexJ Sig K S P A}
    {Q : SimplexJit Sig (SimplexObj K S P A) → Prop}
    (hk : ∀ (j : SimplexJ Sig K S P A) x dt, Q j.jit → Q (backupControlJ sig j x dt).2.jit)
    (hm : ∀ j x dt u, Q j.jit → Q (monJ j x dt u).2.jit)
    {j : SimplexJ Sig K S P A} (h : Q j.jit) (x : S) (dt : K) (u : List K) : Q (simplexFilterJ sig monJ j x dt u).2.jit := by
  have tail : ∀ (j : SimplexJ Sig K S P A), Q j.jit →
      Q ((match monJ j x dt u with
        | (.error e, self) => (Except.error e, self)
        | (.ok b, self) =>
          let self := { self with obj := { self.obj with intervening := b } }
          if b then backupControlJ sig self x dt else (.ok u, self)) : Except PyErr (List K) × SimplexJ Sig K S P A).2.jit := by
    intro j h
    have h1 := hm j x dt u h
    rcases hj : monJ j x dt u with ⟨r, j'⟩
    rw [hj] at h1
    cases r with
    | error e => exact h1
    | ok b =>
      cases b with
      | false => exact h1
      | true =>
        exact hk { j' with obj := { j'.obj with intervening := true } } x dt h1
  unfold simplexFilterJ
  by_cases hi : j.obj.intervening = true
  · by_cases hl : j.obj.ext.latchedElapsed ≥ j.obj.ext.latchTime
    · simp only [if_pos hi, if_pos hl, Bool.false_eq_true, if_false]
      exact tail _ h
    · simp only [if_pos hi, if_neg hl, if_true]
      exact hk { j with obj := { j.obj with ext := { j.obj.ext with latchedElapsed := j.obj.ext.latchedElapsed + dt } } } x dt h
  · simp only [if_neg hi, Bool.false_eq_true, if_false]
    exact tail _ h

theorem computeFilteredControlJ_inv {getState : CBObj K S P E → I → Except PyErr S × CBObj K S P E}
    {fJ : JObj (CBObj K S P E) C → S → K → List K → Except PyErr (List K) × JObj (CBObj K S P E) C} {Q : C → Prop}
    (hf : ∀ j x dt u, Q j.jit → Q (fJ j x dt u).2.jit) {j : JObj (CBObj K S P E) C} (h : Q j.jit) (inp : I) (dt : K)
    (u : List K) : Q (computeFilteredControlJ getState fJ j inp dt u).2.jit := by
  unfold computeFilteredControlJ
  rcases getState (updateParams j.obj) inp with ⟨r, o⟩
  cases r with
  | error e => exact h
  | ok x =>
    dsimp only
    have h1 := hf { j with obj := updateConstraintValuesAt o x true } x dt u h
    rcases hj : fJ { j with obj := updateConstraintValuesAt o x true } x dt u with ⟨r', j'⟩
    rw [hj] at h1
    cases r' <;> exact h1

theorem filterControlJ_inv [Max K] [Min K]
    {cJ : JObj (CBObj K S P E) C → I → K → List K → Except PyErr (List K) × JObj (CBObj K S P E) C} {Q : C → Prop}
    (hc : ∀ j inp dt u, Q j.jit → Q (cJ j inp dt u).2.jit) {j : JObj (CBObj K S P E) C} (h : Q j.jit) (inp : I) (dt : K)
    (u : List K) : Q (filterControl cJ j inp dt u).2.jit := by
  unfold filterControl
  dsimp only
  by_cases he : (HasBase.get (modifyBase (K := K) (fun b => { b with controlDesired := some u }) j)).enable = true
  · rw [if_pos he]
    have h1 := hc (modifyBase (K := K) (fun b => { b with controlDesired := some u }) j) inp dt u h
    rcases hj : cJ (modifyBase (K := K) (fun b => { b with controlDesired := some u }) j) inp dt u with ⟨r, j'⟩
    rw [hj] at h1
    cases r with
    | error e => exact h1
    | ok v =>
      dsimp only
      cases (HasBase.get j').clipControl v <;> exact h1
  · rw [if_neg he]; exact h

theorem explicitSimplexJ_inv [DecidableEq Sig] [Max K] [Min K] [Add K] [Zero K] [LE K] [DecidableLE K] [LT K] [DecidableLT K]
    {Q : SimplexJit Sig (SimplexObj K S P A) → Prop} (sig : SimplexSig Sig K S P) (pred : S → K → List K → S)
    (hk : ∀ (j : SimplexJ Sig K S P A) x dt, Q j.jit → Q (backupControlJ sig j x dt).2.jit)
    (hq : ∀ (j : SimplexJ Sig K S P A) st, Q j.jit → Q (constraintViolationJ sig j st).2.jit) {j : SimplexJ Sig K S P A}
    (h : Q j.jit) (inp : InputState S) (dt : K) (u : List K) : Q (explicitSimplexJ sig pred j inp dt u).2.jit := by
  refine filterControlJ_inv (fun j inp dt u h => ?_) h inp dt u
  refine computeFilteredControlJ_inv (fun j x dt u h => ?_) h inp dt u
  exact simplexFilterJ_inv sig hk (fun j _ _ _ h => hq j _ h) h x dt u

theorem explicitSimplexJ_flags [DecidableEq Sig] [Max K] [Min K] [Add K] [Zero K] [LE K] [DecidableLE K] [LT K] [DecidableLT K]
    (sig : SimplexSig Sig K S P) (pred : S → K → List K → S) (j : SimplexJ Sig K S P A)
    (inp : InputState S) (dt : K) (u : List K) :
    (explicitSimplexJ sig pred j inp dt u).2.jit.violationJit = j.jit.violationJit ∧
      (explicitSimplexJ sig pred j inp dt u).2.jit.ctrlJit = j.jit.ctrlJit ∧
      (explicitSimplexJ sig pred j inp dt u).2.jit.integrateJit = j.jit.integrateJit :=
  explicitSimplexJ_inv (Q := fun c => c.violationJit = j.jit.violationJit ∧ c.ctrlJit = j.jit.ctrlJit ∧
    c.integrateJit = j.jit.integrateJit) sig pred
    (backupControlJ_inv sig (Q := fun c => c.violationJit = j.jit.violationJit ∧ c.ctrlJit = j.jit.ctrlJit ∧
      c.integrateJit = j.jit.integrateJit) fun _ _ h => h) (fun _ _ h => h) ⟨rfl, rfl, rfl⟩ inp dt u

theorem integrateLoopJ_jit [DecidableEq Sig] [Max K] [Min K] (sig : SimplexSig Sig K S P) (pred : S → K → List K → S) (dt : K)
    (n : Nat) (j : SimplexJ Sig K S P A) (x : S) (acc : List S) :
    ∃ c, (integrateLoopJ sig pred dt n j x acc).2.jit = { j.jit with control := c } := by
  induction n generalizing j x acc with
  | zero => exact ⟨_, rfl⟩
  | succ n ih =>
    obtain ⟨c, hc⟩ := backupControlJ_jit sig j x dt
    unfold integrateLoopJ
    rcases hj : backupControlJ sig j x dt with ⟨r, j'⟩
    rw [hj] at hc
    have hc : j'.jit = { j.jit with control := c } := hc
    cases r with
    | error e => exact ⟨c, hc⟩
    | ok v =>
      obtain ⟨c', hc'⟩ := ih j' (pred x dt v) (acc ++ [pred x dt v])
      exact ⟨c', by rw [hc] at hc'; exact hc'⟩

theorem implicitIntegrateJ_jit [DecidableEq Sig] [Field K] [LinearOrder K] [FloorRing K] (sig : SimplexSig Sig K S P)
    (pred : S → K → List K → S) (j : SimplexJ Sig K S P A) (x : S) (dt : K) (u : List K) :
    ∃ c, (implicitIntegrateJ sig pred j x dt u).2.jit = { j.jit with control := c } := by
  unfold implicitIntegrateJ
  cases hn : backupSteps j.obj.ext.backupWindow dt with
  | error e => exact ⟨_, rfl⟩
  | ok n =>
    dsimp only
    rcases hs : backupControllerSave j.obj with ⟨r, o⟩
    cases r with
    | error e => exact ⟨_, rfl⟩
    | ok q =>
      dsimp only
      obtain ⟨c, hc⟩ := integrateLoopJ_jit sig pred dt n.toNat { j with obj := o } (pred x dt u) [pred x dt u]
      rcases hj : integrateLoopJ sig pred dt n.toNat { j with obj := o } (pred x dt u) [pred x dt u] with ⟨r', j'⟩
      rw [hj] at hc
      cases r' <;> exact ⟨c, hc⟩

theorem implicitSimplexJ_inv [DecidableEq Sig] [Field K] [LinearOrder K] [FloorRing K]
    {Q : SimplexJit Sig (SimplexObj K S P A) → Prop} (sig : SimplexSig Sig K S P) (pred : S → K → List K → S)
    (hk : ∀ c k, Q c → Q { c with control := k }) (hi : ∀ c k, Q c → Q { c with integrate := k })
    (hq : ∀ (j : SimplexJ Sig K S P A) st, Q j.jit → Q (constraintViolationJ sig j st).2.jit) {j : SimplexJ Sig K S P A}
    (h : Q j.jit) (inp : InputState S) (dt : K) (u : List K) : Q (implicitSimplexJ sig pred j inp dt u).2.jit := by
  refine filterControlJ_inv (fun j inp dt u h => ?_) h inp dt u
  refine computeFilteredControlJ_inv (fun j x dt u h => ?_) h inp dt u
  refine simplexFilterJ_inv sig (backupControlJ_inv sig hk) (fun j x dt u h => ?_) h x dt u
  have h1 : Q (integrateFnJ sig pred j x dt u).2.jit := by
    obtain ⟨c, hc⟩ := implicitIntegrateJ_jit sig pred j x dt u
    unfold integrateFnJ
    by_cases hj : j.jit.integrateJit = true
    · rw [if_pos hj]
      cases jitLookup j.jit.integrate (sig.integrate x dt u) with
      | some snap => exact h
      | none =>
        dsimp only
        rcases hq' : implicitIntegrateJ sig pred j x dt u with ⟨r, j'⟩
        rw [hq'] at hc
        have hc : j'.jit = { j.jit with control := c } := hc
        have h2 : Q j'.jit := by rw [hc]; exact hk _ _ h
        cases r with
        | error e => exact h2
        | ok t => exact hi _ _ h2
    · rw [if_neg hj, hc]; exact hk _ _ h
  unfold implicitMonitorJ
  rcases hq' : integrateFnJ sig pred j x dt u with ⟨r, j'⟩
  rw [hq'] at h1
  cases r with
  | error e => exact h1
  | ok t => exact hq j' t h1

theorem implicitSimplexJ_flags [DecidableEq Sig] [Field K] [LinearOrder K] [FloorRing K]
    (sig : SimplexSig Sig K S P) (pred : S → K → List K → S) (j : SimplexJ Sig K S P A)
    (inp : InputState S) (dt : K) (u : List K) :
    (implicitSimplexJ sig pred j inp dt u).2.jit.violationJit = j.jit.violationJit ∧
      (implicitSimplexJ sig pred j inp dt u).2.jit.ctrlJit = j.jit.ctrlJit ∧
      (implicitSimplexJ sig pred j inp dt u).2.jit.integrateJit = j.jit.integrateJit :=
  implicitSimplexJ_inv (Q := fun c => c.violationJit = j.jit.violationJit ∧ c.ctrlJit = j.jit.ctrlJit ∧
    c.integrateJit = j.jit.integrateJit) sig pred (fun _ _ h => h) (fun _ _ h => h) (fun _ _ h => h) ⟨rfl, rfl, rfl⟩ inp dt u

theorem directRowsJ_flags [DecidableEq Sig] [Zero K] (sig : List (Row K) → S → Dict P → Dict Bool → Sig)
    (j : ASIFJ Sig K S P X) (rows : List (Row K)) (x : S) :
    (directRowsJ sig j rows x).2.jit.barrierJit = j.jit.barrierJit ∧ (directRowsJ sig j rows x).2.jit.directJit = j.jit.directJit ∧
      (directRowsJ sig j rows x).2.jit.barrier = j.jit.barrier := ⟨rfl, rfl, rfl⟩

theorem asifFilterJ_inv [DecidableEq Sig] [Add K] [Mul K] [Sub K] [Zero K] [HasSqrt K] [LT K] [DecidableLT K]
    (solver : Solver K) (sigD : List (Row K) → S → Dict P → Dict Bool → Sig)
    {genJ : ASIFJ Sig K S P X → S → K → Except PyErr (List (Row K)) × ASIFJ Sig K S P X}
    {Q : ASIFJit Sig (ASIFObj K S P X) → Prop} (hg : ∀ j x dt, Q j.jit → Q (genJ j x dt).2.jit)
    (hd : ∀ c d, Q c → Q { c with direct := d })
    {j : ASIFJ Sig K S P X} (h : Q j.jit) (x : S) (dt : K) (u : List K) : Q (asifFilterJ solver sigD genJ j x dt u).2.jit := by
  unfold asifFilterJ
  have h1 := hg { j with obj := updateDirectParams j.obj } x dt h
  rcases hj : genJ { j with obj := updateDirectParams j.obj } x dt with ⟨r, j'⟩
  rw [hj] at h1
  cases r with
  | error e => exact h1
  | ok rows =>
    dsimp only
    have h2 : Q (directRowsJ sigD j' rows x).2.jit := hd _ _ h1
    rcases hj' : directRowsJ sigD j' rows x with ⟨r', j''⟩
    rw [hj'] at h2
    cases r' with
    | error e => exact h2
    | ok drows =>
      dsimp only
      rcases optimize solver j''.obj u (rows ++ drows) with ⟨r3, o⟩
      cases r3 <;> exact h2

theorem explicitASIFJ_inv [DecidableEq Sig] [Add K] [Mul K] [Neg K] [Sub K] [Zero K] [One K] [OfNat K 10] [Max K] [Min K]
    [HasSqrt K] [LT K] [DecidableLT K] {Q : ASIFJit Sig (ASIFObj K S P X) → Prop} (solver : Solver K)
    (sig : S → K → Dict P → Dict Bool → Sig) (sigD : List (Row K) → S → Dict P → Dict Bool → Sig) (f : X → S → List K)
    (g : X → S → List (List K))
    (hb : ∀ (j : ASIFJ Sig K S P X) x dt, Q j.jit → Q (explicitGenRowsJ sig f g j x dt).2.jit) (hd : ∀ c d, Q c → Q { c with direct := d })
    {j : ASIFJ Sig K S P X} (h : Q j.jit) (inp : InputState S) (dt : K) (u : List K) :
    Q (explicitASIFJ solver sig sigD f g j inp dt u).2.jit := by
  refine filterControlJ_inv (fun j inp dt u h => ?_) h inp dt u
  refine computeFilteredControlJ_inv (fun j x dt u h => ?_) h inp dt u
  exact asifFilterJ_inv solver sigD (fun j x dt h => hb j x dt h) hd h x dt u

theorem explicitASIFJ_flags [DecidableEq Sig] [Add K] [Mul K] [Neg K] [Sub K] [Zero K] [One K] [OfNat K 10] [Max K] [Min K]
    [HasSqrt K] [LT K] [DecidableLT K] (solver : Solver K) (sig : S → K → Dict P → Dict Bool → Sig)
    (sigD : List (Row K) → S → Dict P → Dict Bool → Sig) (f : X → S → List K) (g : X → S → List (List K))
    (j : ASIFJ Sig K S P X) (inp : InputState S) (dt : K) (u : List K) :
    (explicitASIFJ solver sig sigD f g j inp dt u).2.jit.barrierJit = j.jit.barrierJit ∧
      (explicitASIFJ solver sig sigD f g j inp dt u).2.jit.directJit = j.jit.directJit ∧
      (explicitASIFJ solver sig sigD f g j inp dt u).2.jit.integrateJit = j.jit.integrateJit :=
  explicitASIFJ_inv (Q := fun c => c.barrierJit = j.jit.barrierJit ∧ c.directJit = j.jit.directJit ∧
      c.integrateJit = j.jit.integrateJit) solver sig sigD f g
    (fun _ _ _ h => h) (fun _ _ h => h) ⟨rfl, rfl, rfl⟩ inp dt u

/-! ### Traces -/

theorem jitLookup_jitCall {Sig O R : Type} [DecidableEq Sig] {on : Bool} {run : O → Except PyErr R} {cache : JitCache Sig O}
    {q q' : Sig} {self o : O} (h : jitLookup cache q' = some o) : jitLookup (jitCall on run cache q self).2 q' = some o := by
  unfold jitCall
  by_cases hon : on = true
  · rw [if_pos hon]
    cases hk : jitLookup cache q with
    | some o => exact h
    | none =>
      dsimp only
      cases hr : run self with
      | error e => exact h
      | ok r =>
        have hne : q ≠ q' := by rintro rfl; rw [hk] at h; cases h
        show jitLookup ((q, self) :: cache) q' = some o
        unfold jitLookup
        rw [if_neg hne]; exact h
  · rw [if_neg hon]; exact h

/-- A jitted method that returned has a trace for the signature. -/
theorem jitLookup_of_ok {Sig O R : Type} [DecidableEq Sig] {run : O → Except PyErr R} {cache : JitCache Sig O}
    {q : Sig} {self : O} {r : R} (h : (jitCall true run cache q self).1 = .ok r) :
    ∃ o, jitLookup (jitCall true run cache q self).2 q = some o := by
  unfold jitCall at h ⊢
  rw [if_pos rfl] at h ⊢
  cases hk : jitLookup cache q with
  | some o => exact ⟨o, hk⟩
  | none =>
    rw [hk] at h
    dsimp only at h ⊢
    cases hr : run self with
    | error e => rw [hr] at h; cases h
    | ok r => exact ⟨self, by unfold jitLookup; rw [if_pos rfl]⟩

theorem explicitASIFJ_trace [DecidableEq Sig] [Add K] [Mul K] [Neg K] [Sub K] [Zero K] [One K] [OfNat K 10] [Max K] [Min K]
    [HasSqrt K] [LT K] [DecidableLT K] (solver : Solver K) (sig : S → K → Dict P → Dict Bool → Sig)
    (sigD : List (Row K) → S → Dict P → Dict Bool → Sig) (f : X → S → List K) (g : X → S → List (List K))
    {j : ASIFJ Sig K S P X} {q : Sig} {o : ASIFObj K S P X} (h : jitLookup j.jit.barrier q = some o) (inp : InputState S) (dt : K)
    (u : List K) : jitLookup (explicitASIFJ solver sig sigD f g j inp dt u).2.jit.barrier q = some o :=
  explicitASIFJ_inv (Q := fun c => jitLookup c.barrier q = some o) solver sig sigD f g
    (fun _ _ _ h => by unfold explicitGenRowsJ; exact jitLookup_jitCall h)
    (fun _ _ h => h) h inp dt u

theorem explicitSimplexJ_trace [DecidableEq Sig] [Max K] [Min K] [Add K] [Zero K] [LE K] [DecidableLE K] [LT K] [DecidableLT K]
    (sig : SimplexSig Sig K S P) (pred : S → K → List K → S) {j : SimplexJ Sig K S P A} {q : Sig}
    {o : SimplexObj K S P A} (h : jitLookup j.jit.violation q = some o) (inp : InputState S) (dt : K) (u : List K) :
    jitLookup (explicitSimplexJ sig pred j inp dt u).2.jit.violation q = some o :=
  explicitSimplexJ_inv (Q := fun c => jitLookup c.violation q = some o) sig pred
    (backupControlJ_inv sig (Q := fun c => jitLookup c.violation q = some o) fun _ _ h => h)
    (fun _ _ h => by unfold constraintViolationJ; exact jitLookup_jitCall h) h inp dt u

/-- Traces survive every history. -/
theorem useAll_inv {O : Type} {Q : C → Prop} {cJ : JObj O C → InputState S → K → List K → Except PyErr (List K) × JObj O C}
    (hc : ∀ j inp dt u, Q j.jit → Q (cJ j inp dt u).2.jit) (l : List (Use O K S)) {j : JObj O C} (h : Q j.jit) :
    Q (useAll cJ (fun m j => { j with obj := m j.obj }) l j).2.jit := by
  induction l generalizing j with
  | nil => exact h
  | cons a l ih =>
    cases a with
    | call inp dt u => exact ih (hc j inp dt u h)
    | modify m => exact ih h

theorem computeFilteredControlJ_array
    (fJ : JObj (CBObj K S P E) C → S → K → List K → Except PyErr (List K) × JObj (CBObj K S P E) C)
    (j : JObj (CBObj K S P E) C) (x : S) (dt : K) (u : List K) :
    computeFilteredControlJ getStateDefault fJ j (.array x) dt u =
      match fJ { j with obj := updateConstraintValuesAt (updateParams j.obj) x true } x dt u with
      | (.error e, self) => (.error e, self)
      | (.ok c, self) => (.ok c, { self with obj := { self.obj with controlActual := some c } }) := by
  rfl

/-- The first successful call of an ASIF module leaves a trace. -/
theorem explicitASIFJ_traced [DecidableEq Sig] [Add K] [Mul K] [Neg K] [Sub K] [Zero K] [One K] [OfNat K 10] [Max K] [Min K]
    [HasSqrt K] [LT K] [DecidableLT K] (solver : Solver K) (sig : S → K → Dict P → Dict Bool → Sig)
    (sigD : List (Row K) → S → Dict P → Dict Bool → Sig) (f : X → S → List K) (g : X → S → List (List K))
    {j : ASIFJ Sig K S P X} (hj : j.jit.barrierJit = true) (hen : j.obj.enable = true) {x : S} {dt : K} {u v : List K}
    (h : (explicitASIFJ solver sig sigD f g j (.array x) dt u).1 = .ok v) :
    ∃ o, jitLookup (explicitASIFJ solver sig sigD f g j (.array x) dt u).2.jit.barrier
      (sig x dt (updateParams j.obj).params (updateParams j.obj).constraintEnabled) = some o := by
  -- the object that reaches the filter
  let o1 : ASIFObj K S P X := updateConstraintValuesAt (updateParams { j.obj with controlDesired := some u }) x true
  let j1 : ASIFJ Sig K S P X := { j with obj := updateDirectParams o1 }
  have hgen : ∃ o, ∀ rows, (explicitGenRowsJ sig f g j1 x dt).1 = .ok rows →
      jitLookup (explicitGenRowsJ sig f g j1 x dt).2.jit.barrier
        (sig x dt (updateParams j.obj).params (updateParams j.obj).constraintEnabled) = some o := by
    by_cases hr : ∃ rows, (explicitGenRowsJ sig f g j1 x dt).1 = .ok rows
    · obtain ⟨rows, hr⟩ := hr
      unfold explicitGenRowsJ at hr ⊢
      have hon : j1.jit.barrierJit = true := hj
      rw [hon] at hr ⊢
      obtain ⟨o, ho⟩ := jitLookup_of_ok hr
      exact ⟨o, fun _ _ => ho⟩
    · exact ⟨j.obj, fun rows h => absurd ⟨rows, h⟩ hr⟩
  obtain ⟨o, ho⟩ := hgen
  refine ⟨o, ?_⟩
  have hfil : ∀ w, (asifFilterJ solver sigD (explicitGenRowsJ sig f g) { j with obj := o1 } x dt u).1 = .ok w →
      jitLookup (asifFilterJ solver sigD (explicitGenRowsJ sig f g) { j with obj := o1 } x dt u).2.jit.barrier
        (sig x dt (updateParams j.obj).params (updateParams j.obj).constraintEnabled) = some o := by
    intro w hw
    unfold asifFilterJ at hw ⊢
    change (match explicitGenRowsJ sig f g j1 x dt with
      | (.error e, self) => (Except.error e, self)
      | (.ok rows, self) => _).1 = _ at hw
    change jitLookup (match explicitGenRowsJ sig f g j1 x dt with
      | (.error e, self) => (Except.error e, self)
      | (.ok rows, self) => _).2.jit.barrier _ = _
    rcases hg : explicitGenRowsJ sig f g j1 x dt with ⟨r, j2⟩
    rw [hg] at ho hw
    cases r with
    | error e => cases hw
    | ok rows =>
      have h2 := ho rows rfl
      dsimp only
      rcases hd : directRowsJ sigD j2 rows x with ⟨r', j3⟩
      have h3 : j3.jit.barrier = j2.jit.barrier := by
        have := (directRowsJ_flags sigD j2 rows x).2.2
        rw [hd] at this; exact this
      cases r' with
      | error e => dsimp only; rw [h3]; exact h2
      | ok drows =>
        dsimp only
        rcases optimize solver j3.obj u (rows ++ drows) with ⟨r3, o3⟩
        cases r3 <;> (dsimp only; rw [h3]; exact h2)
  unfold explicitASIFJ filterControl at h ⊢
  have e1 : (HasBase.get (modifyBase (K := K) (fun b => { b with controlDesired := some u }) j)).enable = true := hen
  dsimp only at h ⊢
  rw [if_pos e1] at h ⊢
  have hcomp : ∀ w, (computeFilteredControlJ getStateDefault (asifFilterJ solver sigD (explicitGenRowsJ sig f g))
        (modifyBase (K := K) (fun b => { b with controlDesired := some u }) j) (.array x) dt u).1 = .ok w →
      jitLookup (computeFilteredControlJ getStateDefault (asifFilterJ solver sigD (explicitGenRowsJ sig f g))
        (modifyBase (K := K) (fun b => { b with controlDesired := some u }) j) (.array x) dt u).2.jit.barrier
        (sig x dt (updateParams j.obj).params (updateParams j.obj).constraintEnabled) = some o := by
    intro w hw
    rw [computeFilteredControlJ_array] at hw ⊢
    have ho1 : ({ modifyBase (K := K) (fun b => { b with controlDesired := some u }) j with
        obj := updateConstraintValuesAt (updateParams (modifyBase (K := K) (fun b => { b with controlDesired := some u }) j).obj) x true } :
        ASIFJ Sig K S P X) = { j with obj := o1 } := rfl
    rw [ho1] at hw ⊢
    rcases hf : asifFilterJ solver sigD (explicitGenRowsJ sig f g) { j with obj := o1 } x dt u with ⟨r, j2⟩
    rw [hf] at hw hfil
    cases r with
    | error e => cases hw
    | ok c => exact hfil c rfl
  rcases hc : computeFilteredControlJ getStateDefault (asifFilterJ solver sigD (explicitGenRowsJ sig f g))
        (modifyBase (K := K) (fun b => { b with controlDesired := some u }) j) (.array x) dt u with ⟨r, j2⟩
  rw [hc] at h hcomp
  cases r with
  | error e => cases h
  | ok w =>
    have := hcomp w rfl
    dsimp only
    cases (HasBase.get j2).clipControl w <;> exact this

/-! ### Implicit ASIF -/

/-- A controller without internal state, never saved into. -/
def Idle (e : ImplicitExt K A) : Prop := NoCtrlState e.ctrl ∧ e.ctrl.stateSaved = .none

theorem setBackup_self {s : ImplicitObj K P A} {c : BackupController K (List K) A} (h : c = s.ext.extra.ctrl) :
    setBackup s c = s := by
  subst h; rfl

theorem implicitBackupControl_idle [Max K] [Min K] {s : ImplicitObj K P A} (h : Idle s.ext.extra) (x : List K) (dt : K) :
    (implicitBackupControl s x dt).2 = s := by
  have hg := h.1.generate x dt
  unfold implicitBackupControl
  rcases hc : s.ext.extra.ctrl.generateControl x dt with ⟨r, c⟩
  rw [hc] at hg
  cases r <;> exact setBackup_self hg

theorem sensLoop_idle [Add K] [Mul K] [Zero K] [Max K] [Min K] (ad : (List K → List K) → List K → List (List K))
    (f : List K → List K) (g : List K → List (List K)) (pred : List K → K → List K → List K) (n : Nat) (dt : K) (k : Nat)
    {s : ImplicitObj K P A} (h : Idle s.ext.extra) (x : List K) (sens : List (List K)) (acc : List (List K × List (List K))) :
    (sensLoop ad f g pred n dt k s x sens acc).2 = s := by
  induction k generalizing x sens acc with
  | zero => rfl
  | succ k ih =>
    have hb := implicitBackupControl_idle h x dt
    unfold sensLoop
    rcases hc : implicitBackupControl s x dt with ⟨r, s'⟩
    rw [hc] at hb
    obtain rfl : s' = s := hb
    cases r with
    | error e => rfl
    | ok u =>
      dsimp only
      cases backupJacobian ad f g s'.ext.extra.ctrl.gen n dt s'.ext.extra.ctrl.state (pred x dt u) with
      | error e => rfl
      | ok J => exact ih _ _ _

theorem save_idle {s : ImplicitObj K P A} (h : Idle s.ext.extra) : s.ext.extra.ctrl.save = (.ok (), s.ext.extra.ctrl) := by
  rw [h.1.save, ← h.2]

theorem sensIntegrate_idle [Add K] [Mul K] [Zero K] [One K] [Max K] [Min K] (ad : (List K → List K) → List K → List (List K))
    (f : List K → List K) (g : List K → List (List K)) (pred : List K → K → List K → List K) {s : ImplicitObj K P A}
    (h : Idle s.ext.extra) (x : List K) (dt : K) (n : Nat) : (sensIntegrate ad f g pred s x dt n).2 = s := by
  unfold sensIntegrate
  rw [save_idle h]
  dsimp only
  rw [setBackup_self rfl]
  have hl := sensLoop_idle ad f g pred x.length dt (n - 1) h x (eyeMat x.length) [(x, eyeMat x.length)]
  rcases hc : sensLoop ad f g pred x.length dt (n - 1) s x (eyeMat x.length) [(x, eyeMat x.length)] with ⟨r, s'⟩
  rw [hc] at hl
  obtain rfl : s' = s := hl
  cases r with
  | error e => rfl
  | ok t =>
    refine setBackup_self ?_
    have h1 : s'.ext.extra.ctrl.stateSaved = s'.ext.extra.ctrl.state := h.2.trans h.1.1.symm
    show { s'.ext.extra.ctrl with state := s'.ext.extra.ctrl.stateSaved } = s'.ext.extra.ctrl
    rw [h1]

theorem sensIntegrate_same [Add K] [Mul K] [Zero K] [One K] [Max K] [Min K] (ad : (List K → List K) → List K → List (List K))
    (f : List K → List K) (g : List K → List (List K)) (pred : List K → K → List K → List K) {o s : ImplicitObj K P A}
    (h : Idle s.ext.extra) (he : o.ext.extra = s.ext.extra) (hb : SameBounds o s) (x : List K) (dt : K) (n : Nat) :
    (sensIntegrate ad f g pred o x dt n).1 = (sensIntegrate ad f g pred s x dt n).1 := by
  have ho : Idle o.ext.extra := he ▸ h
  have hctl : ∀ x, (implicitBackupControl o x dt).1 = (implicitBackupControl s x dt).1 := by
    intro x
    unfold implicitBackupControl
    rw [he]
    rcases s.ext.extra.ctrl.generateControl x dt with ⟨r, c⟩
    cases r with
    | error e => rfl
    | ok u =>
      show o.toBase.clipControl u = s.toBase.clipControl u
      unfold Base.clipControl
      rw [hb.1, hb.2]
  have loop : ∀ (k : Nat) x sens acc, (sensLoop ad f g pred x.length dt k o x sens acc).1 =
      (sensLoop ad f g pred x.length dt k s x sens acc).1 := by
    intro k x
    generalize x.length = m
    intro sens acc
    induction k generalizing x sens acc with
    | zero => rfl
    | succ k ih =>
      have h1 := implicitBackupControl_idle h x dt
      have h2 := implicitBackupControl_idle ho x dt
      have h3 := hctl x
      unfold sensLoop
      rcases hc : implicitBackupControl s x dt with ⟨r, s'⟩
      rcases hc' : implicitBackupControl o x dt with ⟨r', o'⟩
      rw [hc] at h1 h3
      rw [hc'] at h2 h3
      obtain rfl : s' = s := h1
      obtain rfl : o' = o := h2
      obtain rfl : r' = r := h3
      cases r' with
      | error e => rfl
      | ok u =>
        dsimp only
        rw [he]
        cases backupJacobian ad f g s'.ext.extra.ctrl.gen m dt s'.ext.extra.ctrl.state (pred x dt u) with
        | error e => rfl
        | ok J => exact ih _ _ _
  have hl := loop (n - 1) x (eyeMat x.length) [(x, eyeMat x.length)]
  unfold sensIntegrate
  rw [save_idle h, save_idle ho]
  dsimp only
  rw [setBackup_self rfl, setBackup_self rfl]
  rcases hc : sensLoop ad f g pred x.length dt (n - 1) s x (eyeMat x.length) [(x, eyeMat x.length)] with ⟨r, s'⟩
  rcases hc' : sensLoop ad f g pred x.length dt (n - 1) o x (eyeMat x.length) [(x, eyeMat x.length)] with ⟨r', o'⟩
  rw [hc, hc'] at hl
  obtain rfl : r' = r := hl
  cases r' <;> rfl

theorem pointRows_same [Add K] [Mul K] [Neg K] [Zero K] {f : List K → List K} {g : List K → List (List K)}
    {c d : Constraint K (List K) P} (h : c.SameCode d) (p : P) (m : Nat) (x0 : List K) (traj : List (List K × List (List K)))
    [LE K] [DecidableLE K] : pointRows f g c p m x0 traj = pointRows f g d p m x0 traj := by
  have hg : c.gradFn = d.gradFn := by rw [← h]
  have ha : ∀ y, c.alphaAt y = d.alphaAt y := by intro y; rw [← h]; rfl
  have hi : ∀ pt, invarianceRow f g c p m x0 pt = invarianceRow f g d p m x0 pt := by
    intro pt
    unfold invarianceRow
    rw [hg, h.compute]
    simp only [ha]
  induction traj with
  | nil => rfl
  | cons pt l ih =>
    unfold pointRows
    rw [hi, ih]

theorem implicitRows_same [Add K] [Mul K] [Neg K] [Zero K] [One K] [LE K] [DecidableLE K] {f : List K → List K}
    {g : List K → List (List K)} {params : Dict P} {en : Dict Bool} {m k : Nat} {x : List K} {traj : List (List K × List (List K))}
    {cs ds : Dict (Constraint K (List K) P)} (h : SameConstraints cs ds) (sc : Nat) :
    implicitRows f g params en m k x traj sc cs = implicitRows f g params en m k x traj sc ds := by
  unfold SameConstraints at h
  induction h generalizing sc with
  | nil => rfl
  | @cons a b l l' h1 _ ih =>
    obtain ⟨k, c⟩ := a
    obtain ⟨k', d⟩ := b
    obtain rfl : k = k' := h1.1
    have h2 : c.SameCode d := h1.2
    have hs : c.slackPriorityScale = d.slackPriorityScale := by rw [← h2]
    have hu : c.subsample = d.subsample := by rw [← h2]
    unfold implicitRows
    simp only [ih, hs, hu, pointRows_same h2]

theorem sensIntegrateJ_sim [DecidableEq Sig] [Add K] [Mul K] [Zero K] [One K] [Max K] [Min K] (sig : List K → K → Nat → Sig)
    (ad : (List K → List K) → List K → List (List K)) (f : List K → List K) (g : List K → List (List K))
    (pred : List K → K → List K → List K) {e : ImplicitExt K A} (hidle : Idle e)
    {j : ASIFJ Sig K (List K) P (ImplicitExt K A)} {s : ImplicitObj K P A} (h : ASIFSim e j s) (x : List K) (dt : K) (n : Nat) :
    (sensIntegrateJ sig ad f g pred j x dt n).1 = (sensIntegrate ad f g pred s x dt n).1 ∧
      ASIFSim e (sensIntegrateJ sig ad f g pred j x dt n).2 s := by
  obtain rfl := h.obj
  have hi : Idle j.obj.ext.extra := h.extra ▸ hidle
  have := jitCall_eq (on := j.jit.integrateJit) (q := sig x dt n) (self := j.obj)
    (run := fun o => (sensIntegrate ad f g pred o x dt n).1)
    (cache := j.jit.integrate) (Rel := fun o s : ImplicitObj K P A => SameASIF o s ∧ SameBounds o s) ⟨.refl _, rfl, rfl⟩
    (fun o ho => sensIntegrate_same ad f g pred hi ho.1.extra ho.2 x dt n) h.integrate
  refine ⟨this.1, ?_, h.barrier, h.direct, h.extra, this.2⟩
  unfold sensIntegrateJ
  dsimp only
  rw [sensIntegrate_idle ad f g pred hi]
  split <;> rfl

theorem implicitGenRowsJ_sim [DecidableEq Sig] [Field K] [LinearOrder K] [FloorRing K] (sigI : List K → K → Nat → Sig)
    (sig : List K → Nat → List (List K × List (List K)) → Dict P → Dict Bool → Sig)
    (ad : (List K → List K) → List K → List (List K)) (f : List K → List K) (g : List K → List (List K))
    (pred : List K → K → List K → List K) {e : ImplicitExt K A} (hidle : Idle e)
    {j : ASIFJ Sig K (List K) P (ImplicitExt K A)} {s : ImplicitObj K P A} (h : ASIFSim e j s) (x : List K) (dt : K) :
    (implicitGenRowsJ sigI sig ad f g pred j x dt).1 = (implicitGenRows ad f g pred s x dt).1 ∧
      ASIFSim e (implicitGenRowsJ sigI sig ad f g pred j x dt).2 (implicitGenRows ad f g pred s x dt).2 := by
  obtain rfl := h.obj
  unfold implicitGenRowsJ implicitGenRows
  cases backupSteps j.obj.ext.extra.backupWindow dt with
  | error er => exact ⟨rfl, h⟩
  | ok m =>
    dsimp only
    by_cases hm : m < 0
    · rw [if_pos hm, if_pos hm]; exact ⟨rfl, h⟩
    · rw [if_neg hm, if_neg hm]
      have hi : Idle j.obj.ext.extra := h.extra ▸ hidle
      obtain ⟨h1, h2⟩ := sensIntegrateJ_sim sigI ad f g pred hidle h x dt (m.toNat + 1)
      have h3 := sensIntegrate_idle ad f g pred hi x dt (m.toNat + 1)
      rcases hj : sensIntegrateJ sigI ad f g pred j x dt (m.toNat + 1) with ⟨r, j'⟩
      rcases hs : sensIntegrate ad f g pred j.obj x dt (m.toNat + 1) with ⟨r', s'⟩
      rw [hj, hs] at h1
      rw [hj] at h2
      rw [hs] at h3
      obtain rfl : r = r' := h1
      obtain rfl : s' = j.obj := h3
      have h2 : ASIFSim e j' j.obj := h2
      cases r with
      | error er => exact ⟨rfl, h2⟩
      | ok traj =>
        dsimp only
        have ho := h2.obj
        have key := jitCall_eq (on := j'.jit.barrierJit)
          (q := sig x (m.toNat + 1) traj j'.obj.params j'.obj.constraintEnabled) (self := j'.obj)
          (run := fun o : ImplicitObj K P A =>
            match implicitRows f g j'.obj.params j'.obj.constraintEnabled o.ext.controlDim o.ext.numSlack x traj 0
                o.constraints with
              | .error e => (Except.error e : Except PyErr (List (Row K)))
              | .ok rows => .ok (o.ext.actuation ++ rows))
          (cache := j'.jit.barrier) (Rel := SameASIF) (.refl _)
          (fun o hr => by rw [hr.controlDim, hr.numSlack, implicitRows_same hr.constraints, hr.actuation])
          (fun hb p hp => by rw [ho]; exact h2.barrier hb p hp)
        rcases hc : jitCall j'.jit.barrierJit
          (fun o : ImplicitObj K P A =>
            match implicitRows f g j'.obj.params j'.obj.constraintEnabled o.ext.controlDim o.ext.numSlack x traj 0
                o.constraints with
              | .error e => (Except.error e : Except PyErr (List (Row K)))
              | .ok rows => .ok (o.ext.actuation ++ rows))
          j'.jit.barrier (sig x (m.toNat + 1) traj j'.obj.params j'.obj.constraintEnabled) j'.obj with ⟨r2, c2⟩
        rw [hc] at key
        obtain ⟨k1, k2⟩ := key
        have k3 : j'.jit.barrierJit = true → ∀ p ∈ c2, SameASIF p.2 j.obj := fun hb p hp => ho ▸ k2 hb p hp
        clear k2
        have k1 : r2 = match implicitRows f g j'.obj.params j'.obj.constraintEnabled j'.obj.ext.controlDim j'.obj.ext.numSlack x traj 0
                j'.obj.constraints with
              | .error e => (Except.error e : Except PyErr (List (Row K)))
              | .ok rows => .ok (j'.obj.ext.actuation ++ rows) := k1
        rw [ho] at k1
        cases hr : implicitRows f g j.obj.params j.obj.constraintEnabled j.obj.ext.controlDim j.obj.ext.numSlack x traj 0
            j.obj.constraints with
        | error er =>
          rw [hr] at k1
          subst k1
          exact ⟨rfl, ho, k3, h2.direct, h2.extra, h2.integrate⟩
        | ok rows =>
          rw [hr] at k1
          subst k1
          dsimp only
          refine ⟨rfl, ?_⟩
          have h4 : ASIFSim e { j' with jit := { j'.jit with barrier := c2 } } j.obj :=
            ⟨ho, k3, h2.direct, h2.extra, h2.integrate⟩
          rw [ho]
          exact h4.of_same (o := j.obj.setExt { j.obj.ext with constraintNames := implicitNames j.obj (m.toNat + 1) })
            ⟨.refl _, .refl _, rfl, rfl, rfl, rfl⟩ fun _ => ⟨rfl, rfl⟩

theorem implicitASIFJ_sim [DecidableEq Sig] [Field K] [LinearOrder K] [FloorRing K] [HasSqrt K] (solver : Solver K)
    (sigI : List K → K → Nat → Sig) (sig : List K → Nat → List (List K × List (List K)) → Dict P → Dict Bool → Sig)
    (sigD : List (Row K) → List K → Dict P → Dict Bool → Sig) (ad : (List K → List K) → List K → List (List K))
    (f : List K → List K) (g : List K → List (List K)) (pred : List K → K → List K → List K) {e : ImplicitExt K A} (hidle : Idle e)
    {j : ASIFJ Sig K (List K) P (ImplicitExt K A)} {s : ImplicitObj K P A} (h : ASIFSim e j s) (inp : InputState (List K)) (dt : K)
    (u : List K) :
    (implicitASIFJ solver sigI sig sigD ad f g pred j inp dt u).1 = (implicitASIF solver ad f g pred s inp dt u).1 ∧
      ASIFSim e (implicitASIFJ solver sigI sig sigD ad f g pred j inp dt u).2 (implicitASIF solver ad f g pred s inp dt u).2 := by
  refine filterControlJ_sim (fun _ _ h => h.obj) ASIFSim.up (fun j t inp dt u h => ?_) h inp dt u
  refine computeFilteredControlJ_sim (fun _ _ h => h.obj) ASIFSim.up getStateDefault_same (fun j t x dt u h => ?_) h inp dt u
  exact asifFilterJ_sim solver sigD (fun j t x dt h => implicitGenRowsJ_sim sigI sig ad f g pred hidle h x dt) h x dt u

end

end RTA
