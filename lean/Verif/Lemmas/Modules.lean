import Verif.Spec.Modules
import Verif.Lemmas.Py

namespace RTA
variable {K S P E I : Type}

/-- The params cache after an update: the params of the constraint objects. -/
def cacheParams (cs : Dict (Constraint K S P)) : Dict P := cs.map fun kc => (kc.1, kc.2.params)
/-- The flag cache after an update. -/
def cacheEnabled (cs : Dict (Constraint K S P)) : Dict Bool := cs.map fun kc => (kc.1, kc.2.enabled)

theorem updateParams_eq {self : CBObj K S P E} (h : WF self) :
    updateParams self = { self with params := cacheParams self.constraints
                                    constraintEnabled := cacheEnabled self.constraints } := by
  simp only [updateParams, cacheParams, cacheEnabled]
  rw [foldl_dictSet_same (fun c : Constraint K S P => c.params) self.constraints self.params h.nodup h.params,
    foldl_dictSet_same (fun c : Constraint K S P => c.enabled) self.constraints self.constraintEnabled h.nodup h.enabled]

theorem dictKeys_map {V W : Type} (f : V → W) (d : Dict V) : dictKeys (d.map fun kc => (kc.1, f kc.2)) = dictKeys d := by
  simp [dictKeys, List.map_map, Function.comp_def]

theorem wf_updateParams {self : CBObj K S P E} (h : WF self) : WF (updateParams self) := by
  rw [updateParams_eq h]
  exact ⟨h.nodup, dictKeys_map _ _, dictKeys_map _ _⟩

theorem dictGet_map {V W : Type} (f : V → W) (d : Dict V) (k : String) :
    dictGet (d.map fun kc => (kc.1, f kc.2)) k = (dictGet d k).map f := by
  induction d with
  | nil => rfl
  | cons a d ih =>
    obtain ⟨q, v⟩ := a
    by_cases h : q = k <;> simp [dictGet, h, ih]

theorem selectConstraints_keys {all cs : Dict (Constraint K S P)} {use : Option (List String)}
    (hall : (dictKeys all).Nodup) (h : selectConstraints all use = .ok cs) : (dictKeys cs).Nodup := by
  cases use with
  | none => simp only [selectConstraints, Except.ok.injEq] at h; rw [← h]; exact hall
  | some l =>
    simp only [selectConstraints] at h
    have e : all.foldl (fun acc kc => if kc.1 ∈ l then dictSet acc kc.1 kc.2 else acc) []
        = all.filter fun kc => decide (kc.1 ∈ l) := by
      have := foldl_dictSet_filter (fun k => decide (k ∈ l)) all [] hall (by simp [dictKeys])
      simpa using this
    rw [e] at h
    split at h
    · simp only [Except.ok.injEq] at h
      rw [← h]
      exact hall.sublist (List.filter_sublist.map _)
    · simp at h

/-- Every constructed module is well formed. -/
theorem wf_init {high low : Option (Bound K)} {all : Dict (Constraint K S P)} {use : Option (List String)} {ext : E}
    {self : CBObj K S P E} (hall : (dictKeys all).Nodup) (h : CBObj.init high low all use ext = .ok self) : WF self := by
  unfold CBObj.init at h
  split at h
  · simp at h
  · rename_i cs hcs
    simp only [Except.ok.injEq] at h
    subst h
    have hn := selectConstraints_keys hall hcs
    refine ⟨hn, ?_, ?_⟩
    · simp only [updateParams]
      rw [foldl_dictSet_nil (fun c : Constraint K S P => c.params) cs hn]
      exact dictKeys_map _ _
    · simp only [updateParams]
      rw [foldl_dictSet_nil (fun c : Constraint K S P => c.enabled) cs hn]
      exact dictKeys_map _ _

/-- User edits keep the object well formed. -/
theorem wf_edit (f : String → P × Bool → P × Bool) {self : CBObj K S P E} (h : WF self) :
    WF (editConstraints f self) := by
  have e : dictKeys (editConstraints f self).constraints = dictKeys self.constraints := by
    simp [editConstraints, dictKeys, List.map_map, Function.comp_def]
  exact ⟨by rw [e]; exact h.nodup, by rw [e]; exact h.params, by rw [e]; exact h.enabled⟩

/-- `filter` does not touch the constraint dictionary, its caches and the logged values. -/
structure FrameFilter (filter : CBObj K S P E → S → K → List K → Except PyErr (List K) × CBObj K S P E) : Prop where
  constraints : ∀ s x dt u, (filter s x dt u).2.constraints = s.constraints
  params : ∀ s x dt u, (filter s x dt u).2.params = s.params
  enabled : ∀ s x dt u, (filter s x dt u).2.constraintEnabled = s.constraintEnabled
  values : ∀ s x dt u, (filter s x dt u).2.constraintValues = s.constraintValues
  stale : ∀ s x dt u, (filter s x dt u).2.isStaleConstraints = s.isStaleConstraints

/-- `getState` touches only the attributes added by the subclass. -/
structure FrameGetState (getState : CBObj K S P E → I → Except PyErr S × CBObj K S P E) : Prop where
  base : ∀ s i, (getState s i).2.toBase = s.toBase
  constraints : ∀ s i, (getState s i).2.constraints = s.constraints
  params : ∀ s i, (getState s i).2.params = s.params
  enabled : ∀ s i, (getState s i).2.constraintEnabled = s.constraintEnabled
  values : ∀ s i, (getState s i).2.constraintValues = s.constraintValues
  stale : ∀ s i, (getState s i).2.isStaleConstraints = s.isStaleConstraints

theorem frame_getStateDefault : FrameGetState (getStateDefault (K := K) (S := S) (P := P) (E := E)) := by
  constructor <;> intro s i <;> cases i <;> rfl

/-- The object with `control_desired` recorded. -/
def withDesired (s : CBObj K S P E) (u : List K) : CBObj K S P E := { s with controlDesired := some u }
/-- The object with `control_actual` recorded. -/
def withActual (s : CBObj K S P E) (u : List K) : CBObj K S P E := { s with controlActual := some u }

theorem wf_withDesired {s : CBObj K S P E} (h : WF s) (u : List K) : WF (withDesired s u) := ⟨h.nodup, h.params, h.enabled⟩
theorem wf_withActual {s : CBObj K S P E} (h : WF s) (u : List K) : WF (withActual s u) := ⟨h.nodup, h.params, h.enabled⟩

theorem filterControlCB_enabled [Max K] [Min K] {getState : CBObj K S P E → I → Except PyErr S × CBObj K S P E}
    {filter : CBObj K S P E → S → K → List K → Except PyErr (List K) × CBObj K S P E} {s : CBObj K S P E}
    (h : s.enable = true) (i : I) (dt : K) (u : List K) :
    filterControlCB getState filter s i dt u =
      match computeFilteredControl getState filter (withDesired s u) i dt u with
      | (.error e, s1) => (.error e, s1)
      | (.ok c, s1) =>
        match s1.toBase.clipControl c with
        | .error e => (.error e, s1)
        | .ok c' => (.ok c', withActual s1 c') := by
  unfold filterControlCB filterControl
  have e : modifyBase (fun b => { b with controlDesired := some u }) s = withDesired s u := rfl
  have e2 : (HasBase.get (withDesired s u)).enable = true := h
  simp only [e, e2, if_true]
  rcases computeFilteredControl getState filter _ i dt u with ⟨_ | c, s1⟩
  · rfl
  · simp only
    have e3 : HasBase.get s1 = s1.toBase := rfl
    rw [e3]
    rcases s1.toBase.clipControl c with _ | c' <;> rfl

theorem filterControlCB_disabled [Max K] [Min K] {getState : CBObj K S P E → I → Except PyErr S × CBObj K S P E}
    {filter : CBObj K S P E → S → K → List K → Except PyErr (List K) × CBObj K S P E} {s : CBObj K S P E}
    (h : s.enable = false) (i : I) (dt : K) (u : List K) :
    filterControlCB getState filter s i dt u =
      (.ok u, withActual (withDesired s u) u) := by
  unfold filterControlCB filterControl
  have e : modifyBase (fun b => { b with controlDesired := some u }) s = withDesired s u := rfl
  have e2 : (HasBase.get (withDesired s u)).enable = false := h
  simp only [e, e2, Bool.false_eq_true, if_false]
  rfl

/-- Everything a call of an enabled or disabled module leaves in the constraint part of the object. -/
theorem filterControlCB_frame [Max K] [Min K] {getState : CBObj K S P E → I → Except PyErr S × CBObj K S P E}
    {filter : CBObj K S P E → S → K → List K → Except PyErr (List K) × CBObj K S P E}
    (hg : FrameGetState getState) (hf : FrameFilter filter) (s : CBObj K S P E) (i : I) (dt : K) (u : List K) :
    (filterControlCB getState filter s i dt u).2.constraints = s.constraints ∧
    (WF s → WF (filterControlCB getState filter s i dt u).2) := by
  by_cases hen : s.enable = true
  · rw [filterControlCB_enabled hen]
    set s0 : CBObj K S P E := withDesired s u with hs0
    have wf0 : WF s → WF (updateParams s0) := fun h => wf_updateParams ⟨h.nodup, h.params, h.enabled⟩
    have key : (computeFilteredControl getState filter s0 i dt u).2.constraints = s.constraints ∧
        (computeFilteredControl getState filter s0 i dt u).2.params = (updateParams s0).params ∧
        (computeFilteredControl getState filter s0 i dt u).2.constraintEnabled = (updateParams s0).constraintEnabled := by
      unfold computeFilteredControl
      have g1 := hg.constraints (updateParams s0) i
      have g2 := hg.params (updateParams s0) i
      have g3 := hg.enabled (updateParams s0) i
      rcases h : getState (updateParams s0) i with ⟨_ | x, s1⟩
      · rw [h] at g1 g2 g3; simp only [h]; exact ⟨g1, g2, g3⟩
      · rw [h] at g1 g2 g3
        have f1 := hf.constraints (updateConstraintValuesAt s1 x true) x dt u
        have f2 := hf.params (updateConstraintValuesAt s1 x true) x dt u
        have f3 := hf.enabled (updateConstraintValuesAt s1 x true) x dt u
        simp only [h]
        rcases h' : filter (updateConstraintValuesAt s1 x true) x dt u with ⟨_ | c, s2⟩
        · rw [h'] at f1 f2 f3; simp only; exact ⟨f1.trans g1, f2.trans g2, f3.trans g3⟩
        · rw [h'] at f1 f2 f3; simp only; exact ⟨f1.trans g1, f2.trans g2, f3.trans g3⟩
    have wfk : WF s → WF (computeFilteredControl getState filter s0 i dt u).2 := by
      intro h
      have w := wf0 h
      exact ⟨by rw [key.1]; exact h.nodup, by rw [key.1, key.2.1]; exact w.params, by rw [key.1, key.2.2]; exact w.enabled⟩
    rcases h : computeFilteredControl getState filter s0 i dt u with ⟨_ | c, s1⟩
    · rw [h] at key wfk; exact ⟨key.1, wfk⟩
    · rw [h] at key wfk
      simp only
      rcases s1.toBase.clipControl c with _ | c'
      · exact ⟨key.1, wfk⟩
      · exact ⟨key.1, fun h => ⟨(wfk h).nodup, (wfk h).params, (wfk h).enabled⟩⟩
  · have hen : s.enable = false := by simpa using hen
    rw [filterControlCB_disabled hen]
    exact ⟨rfl, fun h => ⟨h.nodup, h.params, h.enabled⟩⟩

/-- `_filter_control` respects the recorded base attributes. -/
structure FrameFilterBase (filter : CBObj K S P E → S → K → List K → Except PyErr (List K) × CBObj K S P E) : Prop where
  desired : ∀ s x dt u, (filter s x dt u).2.controlDesired = s.controlDesired
  actual : ∀ s x dt u, (filter s x dt u).2.controlActual = s.controlActual
  enable : ∀ s x dt u, (filter s x dt u).2.enable = s.enable
  high : ∀ s x dt u, (filter s x dt u).2.controlBoundsHigh = s.controlBoundsHigh
  low : ∀ s x dt u, (filter s x dt u).2.controlBoundsLow = s.controlBoundsLow

end RTA
