import Verif.Lemmas.Modules

/-!
Properties of `ConstraintBasedRTA`: C06, C07, C08.
-/
namespace RTA
variable {K S P E I : Type}

/-! ### C06 -/

/-- **C06**, `constraints_to_use = None`: everything is kept. -/
theorem C06_select_none (all : Dict (Constraint K S P)) : selectConstraints all none = .ok all := rfl

/-- **C06**. Construction with a list of names succeeds with exactly the defined constraints whose key is listed, in
definition order, when there is at least one; otherwise it raises `ValueError`. Unknown and repeated names in `use` do
not matter. -/
theorem C06_select (high low : Option (Bound K)) (all : Dict (Constraint K S P)) (hall : (dictKeys all).Nodup)
    (use : List String) (ext : E) :
    (∀ self, CBObj.init high low all (some use) ext = .ok self →
      self.constraints = all.filter (fun kc => kc.1 ∈ use)) ∧
    ((∃ kc ∈ all, kc.1 ∈ use) → ∃ self, CBObj.init high low all (some use) ext = .ok self) ∧
    ((∀ kc ∈ all, kc.1 ∉ use) → ∃ msg, CBObj.init high low all (some use) ext = .error (.valueError msg)) := by
  have e : all.foldl (fun acc kc => if kc.1 ∈ use then dictSet acc kc.1 kc.2 else acc) []
      = all.filter fun kc => decide (kc.1 ∈ use) := by
    have := foldl_dictSet_filter (fun k => decide (k ∈ use)) all [] hall (by simp [dictKeys])
    simpa using this
  have hsel : selectConstraints all (some use) =
      if (all.filter fun kc => decide (kc.1 ∈ use)).length ≠ 0 then .ok (all.filter fun kc => decide (kc.1 ∈ use))
      else .error (.valueError "No constraints are used, adjust \"constraints_to_use\"") := by
    simp only [selectConstraints, e]
  unfold CBObj.init
  rw [hsel]
  refine ⟨?_, ?_, ?_⟩
  · intro self h
    split at h
    · simp at h
    · rename_i cs hcs
      split at hcs
      · simp only [Except.ok.injEq] at hcs h
        rw [← h, ← hcs]; rfl
      · simp at hcs
  · rintro ⟨kc, hkc, hu⟩
    have : (all.filter fun kc => decide (kc.1 ∈ use)).length ≠ 0 := by
      have hm : kc ∈ all.filter fun kc => decide (kc.1 ∈ use) := List.mem_filter.2 ⟨hkc, by simpa using hu⟩
      intro h0
      rw [List.length_eq_zero_iff.1 h0] at hm
      cases hm
    rw [if_pos this]
    exact ⟨_, rfl⟩
  · intro h
    have : (all.filter fun kc => decide (kc.1 ∈ use)) = [] := by
      rw [List.filter_eq_nil_iff]
      intro kc hkc
      simpa using h kc hkc
    rw [this]
    exact ⟨_, rfl⟩

/-- Example: of `a, b, c`, asking for `["c", "zzz", "a"]` keeps `a, c` in that order; asking for `["zzz"]` raises. -/
example (c : Constraint Int Int Unit) :
    (selectConstraints [("a", c), ("b", c), ("c", c)] (some ["c", "zzz", "a"])).toOption.map dictKeys = some ["a", "c"] ∧
    (selectConstraints [("a", c), ("b", c), ("c", c)] (some ["zzz"])).toOption.map dictKeys = none := by
  constructor <;> rfl

/-! ### Histories of constraint based modules -/

/-- User visible operations on a constraint based module. -/
inductive CBOp (K P I : Type) where
  | call (inp : I) (dt : K) (u : List K)
  | edit (f : String → P × Bool → P × Bool)
  | update (inp : I)
  | reset
  | setEnable (b : Bool)

/-- Execute one operation, keeping the object (results are inspected separately). -/
def stepCB [Max K] [Min K] (getState : CBObj K S P E → I → Except PyErr S × CBObj K S P E)
    (filter : CBObj K S P E → S → K → List K → Except PyErr (List K) × CBObj K S P E) (s : CBObj K S P E) :
    CBOp K P I → CBObj K S P E
  | .call i dt u => (filterControlCB getState filter s i dt u).2
  | .edit f => editConstraints f s
  | .update i => (updateConstraintValues getState s i).2
  | .reset => Base.reset s
  | .setEnable b => modifyBase (fun x => { x with enable := b }) s

/-- Execute a history. -/
def runCB [Max K] [Min K] (getState : CBObj K S P E → I → Except PyErr S × CBObj K S P E)
    (filter : CBObj K S P E → S → K → List K → Except PyErr (List K) × CBObj K S P E) :
    CBObj K S P E → List (CBOp K P I) → CBObj K S P E
  | s, [] => s
  | s, op :: ops => runCB getState filter (stepCB getState filter s op) ops

/-- Every history keeps the object well formed. -/
theorem wf_runCB [Max K] [Min K] {getState : CBObj K S P E → I → Except PyErr S × CBObj K S P E}
    {filter : CBObj K S P E → S → K → List K → Except PyErr (List K) × CBObj K S P E}
    (hg : FrameGetState getState) (hf : FrameFilter filter) (ops : List (CBOp K P I)) (s : CBObj K S P E) (h : WF s) :
    WF (runCB getState filter s ops) := by
  induction ops generalizing s with
  | nil => exact h
  | cons op ops ih =>
    apply ih
    cases op with
    | call i dt u => exact (filterControlCB_frame hg hf s i dt u).2 h
    | edit f => exact wf_edit f h
    | update i =>
      simp only [stepCB, updateConstraintValues]
      have g1 := hg.constraints s i
      have g2 := hg.params s i
      have g3 := hg.enabled s i
      rcases hh : getState s i with ⟨_ | x, s1⟩ <;> rw [hh] at g1 g2 g3 <;>
        simp only at g1 g2 g3 <;>
        exact ⟨by simp only [updateConstraintValuesAt, g1]; exact h.nodup,
          by simp only [updateConstraintValuesAt, g1, g2]; exact h.params,
          by simp only [updateConstraintValuesAt, g1, g3]; exact h.enabled⟩
    | reset => exact ⟨h.nodup, h.params, h.enabled⟩
    | setEnable b => exact ⟨h.nodup, h.params, h.enabled⟩

/-! ### C07 -/

/-- **C07**. Take any constructed module and any history of calls, edits of constraint params and enabled flags, value
updates, resets and enable toggles, and finally edit params and flags once more (`f`). The next call behaves - result,
exceptions and object afterwards - exactly as for the same module holding the freshly built constraint caches that
`__init__` would build from the edited constraints. Nothing remains of params or flags used earlier. -/
theorem C07_edits_take_effect [Max K] [Min K] {getState : CBObj K S P E → I → Except PyErr S × CBObj K S P E}
    {filter : CBObj K S P E → S → K → List K → Except PyErr (List K) × CBObj K S P E}
    (hg : FrameGetState getState) (hf : FrameFilter filter)
    {high low : Option (Bound K)} {all : Dict (Constraint K S P)} {use : Option (List String)} {ext : E}
    {s0 : CBObj K S P E} (hall : (dictKeys all).Nodup) (hinit : CBObj.init high low all use ext = .ok s0)
    (ops : List (CBOp K P I)) (f : String → P × Bool → P × Bool) (i : I) (dt : K) (u : List K)
    (fresh : CBObj K S P E) :
    let s := editConstraints f (runCB getState filter s0 ops)
    s.enable = true →
    CBObj.init high low s.constraints none s.ext = .ok fresh →
    filterControlCB getState filter s i dt u =
      filterControlCB getState filter
        { s with params := fresh.params, constraintEnabled := fresh.constraintEnabled } i dt u := by
  intro s hen hfresh
  have hwf : WF s := wf_edit f (wf_runCB hg hf ops s0 (wf_init hall hinit))
  have hwf' : WF fresh := wf_init hwf.nodup hfresh
  have hc : fresh.constraints = s.constraints := by
    simp only [CBObj.init, selectConstraints, Except.ok.injEq] at hfresh
    rw [← hfresh]; rfl
  rw [filterControlCB_enabled hen, filterControlCB_enabled (by exact hen)]
  have hcomp : ∀ s1 s2 : CBObj K S P E, updateParams s1 = updateParams s2 →
      computeFilteredControl getState filter s1 i dt u = computeFilteredControl getState filter s2 i dt u := by
    intro s1 s2 h
    unfold computeFilteredControl
    rw [h]
  rw [hcomp (withDesired s u) _ ?_]
  rw [updateParams_eq (wf_withDesired hwf u)]
  refine ((updateParams_eq ?_).trans ?_).symm
  · exact wf_withDesired (s := { s with params := fresh.params, constraintEnabled := fresh.constraintEnabled }) ⟨hwf.nodup, hwf'.params.trans (by rw [hc]), hwf'.enabled.trans (by rw [hc])⟩ u
  · rfl

/-- What `_filter_control` finds in the module: the caches are those of the constraint objects at call time. -/
theorem C07_hook_sees_current (s : CBObj K S P E) (h : WF s) (k : String) (c : Constraint K S P)
    (hk : (k, c) ∈ s.constraints) :
    dictGet (updateParams s).params k = some c.params ∧ dictGet (updateParams s).constraintEnabled k = some c.enabled := by
  rw [updateParams_eq h]
  simp only [cacheParams, cacheEnabled]
  rw [dictGet_map (fun c : Constraint K S P => c.params), dictGet_map (fun c : Constraint K S P => c.enabled),
    dictGet_of_mem_nodup _ h.nodup hk]
  exact ⟨rfl, rfl⟩

/-- The hypotheses of C07 are met by a module with one constraint whose filter reads the cached params; changing the
param from 5 to 9 after two calls changes the result of the next call to 9. -/
example :
    let c : Constraint Int Int Int :=
      { computeFn := fun x p => p - x, phiFn := fun x p => p - x, gradFn := fun _ _ => [-1], alpha := none
        alphaNeg := none, bias := 0, biasNegative := 0, slackPriorityScale := none, params := 5, enabled := true
        subsample := {} }
    let filter : CBObj Int Int Int Unit → Int → Int → List Int → Except PyErr (List Int) × CBObj Int Int Int Unit :=
      fun s _ _ _ => (.ok (s.params.map Prod.snd), s)
    ∃ s0, CBObj.init none none [("c", c)] none () = .ok s0 ∧ FrameFilter filter ∧
      (filterControlCB getStateDefault filter
        (editConstraints (fun _ pe => (9, pe.2)) (runCB getStateDefault filter s0
          [.call (.array 1) 1 [3], .call (.array 2) 1 [4]])) (.array 0) 1 [0]).1 = .ok [9] := by
  refine ⟨_, rfl, ?_, rfl⟩
  constructor <;> intros <;> rfl

/-! ### C08 -/

/-- What the user passes in and the logged-value report it should lead to. -/
inductive LogEvent (K S P : Type) where
  /-- an enabled `filter_control` call reached the state `x` while the constraints were `cs` -/
  | filtered (x : S) (cs : Dict (Constraint K S P))
  /-- `update_constraint_values` reached the state `x` while the constraints were `cs` -/
  | updated (x : S) (cs : Dict (Constraint K S P))
  /-- anything else: disabled calls, rejected input states, edits, resets, toggles -/
  | other

/-- Specification: label and values to report after a list of events. -/
def reportLog (init : String × Dict K) : List (LogEvent K S P) → String × Dict K
  | [] => init
  | .filtered x cs :: es =>
    reportLog ("constraints_at_last_state", cs.map fun kc => (kc.1, kc.2.phiFn x kc.2.params)) es
  | .updated x cs :: es => reportLog ("constraints", cs.map fun kc => (kc.1, kc.2.phiFn x kc.2.params)) es
  | .other :: es => reportLog init es

/-- The event caused by an operation: which state was reached is decided by `_get_state` alone. -/
def logEvent (getState : CBObj K S P E → I → Except PyErr S × CBObj K S P E) (s : CBObj K S P E) :
    CBOp K P I → LogEvent K S P
  | .call i _ u =>
    if s.enable then
      match (getState (updateParams (withDesired s u)) i).1 with
      | .ok x => .filtered x s.constraints
      | .error _ => .other
    else .other
  | .update i =>
    match (getState s i).1 with
    | .ok x => .updated x s.constraints
    | .error _ => .other
  | _ => .other

/-- The events of a history. -/
def logEvents [Max K] [Min K] (getState : CBObj K S P E → I → Except PyErr S × CBObj K S P E)
    (filter : CBObj K S P E → S → K → List K → Except PyErr (List K) × CBObj K S P E) :
    CBObj K S P E → List (CBOp K P I) → List (LogEvent K S P)
  | _, [] => []
  | s, op :: ops => logEvent getState s op :: logEvents getState filter (stepCB getState filter s op) ops

/-- The report found in `generate_info`. -/
def logOf (s : CBObj K S P E) : String × Dict K := ((generateInfoCB s).constraintKey, (generateInfoCB s).constraintVals)

theorem logOf_call [Max K] [Min K] {getState : CBObj K S P E → I → Except PyErr S × CBObj K S P E}
    {filter : CBObj K S P E → S → K → List K → Except PyErr (List K) × CBObj K S P E}
    (hg : FrameGetState getState) (hf : FrameFilter filter) (s : CBObj K S P E) (i : I) (dt : K) (u : List K) :
    logOf (filterControlCB getState filter s i dt u).2 = reportLog (logOf s) [logEvent getState s (.call i dt u)] := by
  by_cases hen : s.enable = true
  · rw [filterControlCB_enabled hen]
    simp only [logEvent, hen, if_true]
    set s0 : CBObj K S P E := withDesired s u with hs0
    have key : logOf (computeFilteredControl getState filter s0 i dt u).2 =
        reportLog (logOf s) [match (getState (updateParams s0) i).1 with
          | .ok x => LogEvent.filtered x s.constraints
          | .error _ => LogEvent.other] := by
      unfold computeFilteredControl
      have g1 := hg.constraints (updateParams s0) i
      have g2 := hg.values (updateParams s0) i
      have g3 := hg.stale (updateParams s0) i
      rcases h : getState (updateParams s0) i with ⟨_ | x, s1⟩
      · rw [h] at g1 g2 g3
        simp only [h, reportLog, logOf, generateInfoCB]
        simp only [updateParams, withDesired, hs0] at g2 g3
        rw [g2, g3]
      · rw [h] at g1
        have f2 := hf.values (updateConstraintValuesAt s1 x true) x dt u
        have f3 := hf.stale (updateConstraintValuesAt s1 x true) x dt u
        simp only [h]
        simp only [updateParams, withDesired, hs0] at g1
        rcases h' : filter (updateConstraintValuesAt s1 x true) x dt u with ⟨_ | c, s2⟩ <;> rw [h'] at f2 f3 <;> simp only at f2 f3 <;>
          simp only [reportLog, logOf, generateInfoCB, f2, f3, updateConstraintValuesAt, g1, if_true]
    rw [← key]
    rcases h : computeFilteredControl getState filter s0 i dt u with ⟨_ | c, s1⟩
    · rfl
    · simp only
      rcases s1.toBase.clipControl c with _ | c' <;> rfl
  · have hen : s.enable = false := by simpa using hen
    rw [filterControlCB_disabled hen]
    simp only [logEvent, hen]
    rfl

theorem reportLog_cons (init : String × Dict K) (e : LogEvent K S P) (es : List (LogEvent K S P)) :
    reportLog init (e :: es) = reportLog (reportLog init [e]) es := by
  cases e <;> rfl

/-- **C08**. After any history of calls, `update_constraint_values`, edits, resets and toggles, `generate_info` has
exactly one constraint entry; its label and values are those of the last operation that reached a state: after an enabled
`filter_control` the label is `constraints_at_last_state`, after `update_constraint_values` it is `constraints`, with one
`phi` value (no bias) per constraint, disabled ones included, at the state and with the params of that moment - even if
the call raised later. -/
theorem C08_labels [Max K] [Min K] {getState : CBObj K S P E → I → Except PyErr S × CBObj K S P E}
    {filter : CBObj K S P E → S → K → List K → Except PyErr (List K) × CBObj K S P E}
    (hg : FrameGetState getState) (hf : FrameFilter filter) (ops : List (CBOp K P I)) (s : CBObj K S P E) :
    logOf (runCB getState filter s ops) = reportLog (logOf s) (logEvents getState filter s ops) := by
  induction ops generalizing s with
  | nil => rfl
  | cons op ops ih =>
    simp only [runCB, logEvents]
    rw [ih, reportLog_cons]
    congr 1
    cases op with
    | call i dt u => exact logOf_call hg hf s i dt u
    | update i =>
      simp only [stepCB, logEvent, updateConstraintValues]
      have g1 := hg.constraints s i
      have g2 := hg.values s i
      have g3 := hg.stale s i
      rcases hh : getState s i with ⟨_ | x, s1⟩ <;> rw [hh] at g1 g2 g3
      · simp only at g2 g3
        simp only [reportLog, logOf, generateInfoCB, g2, g3]
      · simp only at g1
        simp [reportLog, logOf, generateInfoCB, updateConstraintValuesAt, g1]
    | edit f => rfl
    | reset => rfl
    | setEnable b => rfl

/-- A history meeting the hypotheses: filter at 3, disable the constraint, filter at 4, then update at 7. -/
example :
    let c : Constraint Int Int Int :=
      { computeFn := fun x p => p - x, phiFn := fun x p => p - x, gradFn := fun _ _ => [-1], alpha := none
        alphaNeg := none, bias := 100, biasNegative := 0, slackPriorityScale := none, params := 5, enabled := true
        subsample := {} }
    let filter : CBObj Int Int Int Unit → Int → Int → List Int → Except PyErr (List Int) × CBObj Int Int Int Unit :=
      fun s _ _ u => (.ok u, s)
    ∃ s0, CBObj.init none none [("c", c)] none () = .ok s0 ∧
      logOf (runCB getStateDefault filter s0
        [.call (.array 3) 1 [3], .edit (fun _ pe => (pe.1, false)), .call (.array 4) 1 [4]])
          = ("constraints_at_last_state", [("c", 1)]) ∧
      logOf (runCB getStateDefault filter s0 [.call (.array 3) 1 [3], .update (.array 7)])
          = ("constraints", [("c", -2)]) :=
  ⟨_, rfl, rfl, rfl⟩

end RTA
