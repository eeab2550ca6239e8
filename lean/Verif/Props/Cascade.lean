import Verif.Lemmas.Cascade
import Verif.Props.Base

/-!
C41: cascades feed the control through their stages. Also the cascade parts of C01, C10, C11 and C12.
-/
namespace RTA
variable {K M I : Type} [HasBase M K]

section
variable [LinearOrder K]

/-- **C41, success.** A successful call of an enabled cascade fed the desired control through the stages in order, each with
the same state and step size; it returns the last control, clipped; it reports intervening exactly when some stage does;
and it reports the desired control it was given. -/
theorem C41_success (filter : M → I → K → List K → Except PyErr (List K) × M) (s s' : CascadeObj K M) (inp : I) (dt : K)
    (u c : List K) (hen : s.enable = true) (h : cascadeFilter filter s inp dt u = (.ok c, s')) :
    ∃ cs out, Fed filter inp dt s.rtaList s'.rtaList cs ∧ cs[0]? = some u ∧ cs[s.rtaList.length]? = some out ∧
      s.toBase.clipControl out = .ok c ∧
      ((generateInfo s').intervening = true ↔ ∃ m ∈ s'.rtaList, (HasBase.get m).intervening = true) ∧
      (generateInfo s').controlDesired = some u ∧ (generateInfo s').controlActual = some c := by
  unfold cascadeFilter filterControl cascadeCompute at h
  simp only [modifyBase, HasBase.get, HasBase.set, hen, if_true] at h
  rcases hl : cascadeLoop filter inp dt s.rtaList false u with ⟨r, fl, ms⟩
  rw [hl] at h
  cases r with
  | error e => simp at h
  | ok out =>
    simp only at h
    obtain ⟨cs, hf, h0, hn, hfl⟩ := loop_ok hl
    split at h
    · simp at h
    · rename_i c' hc
      simp only [Prod.mk.injEq, Except.ok.injEq] at h
      obtain ⟨rfl, rfl⟩ := h
      refine ⟨cs, out, hf, h0, hn, hc, ?_, rfl, rfl⟩
      simp only [generateInfo, HasBase.get, hfl, Bool.false_or, anyIntervening, List.any_eq_true]

/-- **C41, every such feeding happens.** If feeding the desired control through the stages succeeds and the clip of the
last control succeeds, then the enabled cascade returns it, and its stages are those left by the feeding. -/
theorem C41_complete (filter : M → I → K → List K → Except PyErr (List K) × M) (s : CascadeObj K M) (inp : I) (dt : K)
    (u out c : List K) (cs : List (List K)) (stages' : List M) (hen : s.enable = true)
    (hf : Fed filter inp dt s.rtaList stages' cs) (h0 : cs[0]? = some u) (hn : cs[s.rtaList.length]? = some out)
    (hc : s.toBase.clipControl out = .ok c) :
    ∃ s', cascadeFilter filter s inp dt u = (.ok c, s') ∧ s'.rtaList = stages' := by
  unfold cascadeFilter filterControl cascadeCompute
  simp only [modifyBase, HasBase.get, HasBase.set, hen, if_true]
  rw [loop_of_fed hf h0 hn]
  simp only
  have e : Base.clipControl { s.toBase with controlDesired := some u, intervening := false || anyIntervening stages' } out
      = .ok c := hc
  have hen' : ({ s.toBase with controlDesired := some u, enable := true } : Base K) =
    { s.toBase with controlDesired := some u } := by rw [← hen]
  split
  · rename_i e' he
    exact absurd (he.symm.trans hc) (by simp)
  · rename_i c' he
    have : c' = c := by
      have := he.symm.trans hc
      simpa using this
    subst this
    exact ⟨_, rfl, rfl⟩

/-- **C41, errors abort.** If some stage raises, the call raises the same exception: the stages before it have seen their
control, the stages after it are untouched, and the record of the previous control stays. -/
theorem C41_error_aborts (filter : M → I → K → List K → Except PyErr (List K) × M) (s : CascadeObj K M) (inp : I) (dt : K)
    (u c : List K) (cs : List (List K)) (pre pre' post : List M) (m m' : M) (e : PyErr) (hen : s.enable = true)
    (hs : s.rtaList = pre ++ m :: post) (hf : Fed filter inp dt pre pre' cs) (h0 : cs[0]? = some u)
    (hn : cs[pre.length]? = some c) (hm : filter m inp dt c = (.error e, m')) :
    ∃ s', cascadeFilter filter s inp dt u = (.error e, s') ∧ s'.rtaList = pre' ++ m' :: post ∧
      (generateInfo s').controlActual = (generateInfo s).controlActual ∧ (generateInfo s').controlDesired = some u := by
  unfold cascadeFilter filterControl cascadeCompute
  simp only [modifyBase, HasBase.get, HasBase.set, hen, if_true]
  rw [hs, loop_of_error hf h0 hn hm]
  exact ⟨_, rfl, rfl, rfl, rfl⟩

/-- **C41, errors come from stages.** If an enabled cascade raises, then some stage raised that exception after all stages
before it succeeded, or all stages succeeded and the final clip raised it. -/
theorem C41_error_source (filter : M → I → K → List K → Except PyErr (List K) × M) (s s' : CascadeObj K M) (inp : I) (dt : K)
    (u : List K) (e : PyErr) (hen : s.enable = true) (h : cascadeFilter filter s inp dt u = (.error e, s')) :
    (∃ pre pre' m m' post cs c, s.rtaList = pre ++ m :: post ∧ s'.rtaList = pre' ++ m' :: post ∧
      Fed filter inp dt pre pre' cs ∧ cs[0]? = some u ∧ cs[pre.length]? = some c ∧ filter m inp dt c = (.error e, m')) ∨
    (∃ cs out, Fed filter inp dt s.rtaList s'.rtaList cs ∧ cs[0]? = some u ∧ cs[s.rtaList.length]? = some out ∧
      s.toBase.clipControl out = .error e) := by
  unfold cascadeFilter filterControl cascadeCompute at h
  simp only [modifyBase, HasBase.get, HasBase.set, hen, if_true] at h
  rcases hl : cascadeLoop filter inp dt s.rtaList false u with ⟨r, fl, ms⟩
  rw [hl] at h
  cases r with
  | error e' =>
    simp only [Prod.mk.injEq, Except.error.injEq] at h
    obtain ⟨rfl, rfl⟩ := h
    obtain ⟨pre, pre', m, m', post, cs, c, e1, e2, hf, h0, hn, hm, _⟩ := loop_error hl
    exact .inl ⟨pre, pre', m, m', post, cs, c, e1, e2, hf, h0, hn, hm⟩
  | ok out =>
    simp only at h
    obtain ⟨cs, hf, h0, hn, hfl⟩ := loop_ok hl
    split at h
    · rename_i e' hc
      simp only [Prod.mk.injEq, Except.error.injEq] at h
      obtain ⟨rfl, rfl⟩ := h
      exact .inr ⟨cs, out, hf, h0, hn, hc⟩
    · simp at h

/-- **C41, no stages.** Without stages an enabled cascade returns the desired control, clipped, and never intervenes. -/
theorem C41_empty (filter : M → I → K → List K → Except PyErr (List K) × M) (s : CascadeObj K M) (inp : I) (dt : K)
    (u : List K) (hen : s.enable = true) (h0 : s.rtaList = []) :
    (cascadeFilter filter s inp dt u).1 = s.toBase.clipControl u ∧
    (generateInfo (cascadeFilter filter s inp dt u).2).intervening = false := by
  unfold cascadeFilter filterControl cascadeCompute
  simp only [modifyBase, HasBase.get, HasBase.set, hen, if_true, h0, cascadeLoop]
  have : Base.clipControl { s.toBase with controlDesired := some u, enable := true, intervening := false } u
    = s.toBase.clipControl u := rfl
  split
  · rename_i e he; exact ⟨(he.symm.trans rfl : _), rfl⟩
  · rename_i c hc; exact ⟨(hc.symm.trans rfl : _), rfl⟩

/-- **C41, the last stage decides.** Whatever the last stage ensures about the controls it returns (for this state and step
size, whatever control it is given) is ensured by an enabled cascade without bounds of its own. -/
theorem C41_last_stage_guarantee (filter : M → I → K → List K → Except PyErr (List K) × M) (s s' : CascadeObj K M) (inp : I)
    (dt : K) (u c : List K) (pre : List M) (m : M) (P : List K → Prop) (hen : s.enable = true)
    (hlast : s.rtaList = pre ++ [m]) (hb : s.controlBoundsHigh = none ∧ s.controlBoundsLow = none)
    (hP : ∀ w d m', filter m inp dt w = (.ok d, m') → P d)
    (h : cascadeFilter filter s inp dt u = (.ok c, s')) : P c := by
  obtain ⟨cs, out, hf, h0, hn, hc, _⟩ := C41_success filter s s' inp dt u c hen h
  have e : out = c := by
    unfold Base.clipControl at hc
    simpa [hb.1, hb.2] using hc
  subst e
  rw [hlast] at hf hn
  have hl := hf.controls
  have hl' := hf.stagesLen
  simp only [List.length_append, List.length_cons, List.length_nil, Nat.zero_add] at hl hl' hn
  obtain ⟨w, hw⟩ : ∃ w, cs[pre.length]? = some w := ⟨_, List.getElem?_eq_getElem (by omega)⟩
  obtain ⟨m', hm'⟩ : ∃ w, s'.rtaList[pre.length]? = some w := ⟨_, List.getElem?_eq_getElem (by omega)⟩
  exact hP w out m' (hf.step pre.length m m' w out (by simp) hm' hw hn)

/-! ### History independence -/

/-- Corresponding stages are related. -/
def StagesRel (R : M → M → Prop) : List M → List M → Prop
  | [], [] => True
  | m :: ms, n :: ns => R m n ∧ StagesRel R ms ns
  | _, _ => False

omit [LinearOrder K] in
theorem loop_rel {filter : M → I → K → List K → Except PyErr (List K) × M} {R : M → M → Prop}
    (hR : ∀ m n, R m n → ∀ i dt u, (filter m i dt u).1 = (filter n i dt u).1 ∧ R (filter m i dt u).2 (filter n i dt u).2)
    (hI : ∀ m n i dt u c, R m n → (filter m i dt u).1 = .ok c →
      (HasBase.get (filter m i dt u).2).intervening = (HasBase.get (filter n i dt u).2).intervening)
    (inp : I) (dt : K) (ms ns : List M) (h : StagesRel R ms ns) (flag : Bool) (u : List K) :
    (cascadeLoop filter inp dt ms flag u).1 = (cascadeLoop filter inp dt ns flag u).1 ∧
    (cascadeLoop filter inp dt ms flag u).2.1 = (cascadeLoop filter inp dt ns flag u).2.1 ∧
    StagesRel R (cascadeLoop filter inp dt ms flag u).2.2 (cascadeLoop filter inp dt ns flag u).2.2 := by
  induction ms generalizing ns flag u with
  | nil =>
    cases ns with
    | nil => exact ⟨rfl, rfl, trivial⟩
    | cons n ns => exact h.elim
  | cons m ms ih =>
    cases ns with
    | nil => exact h.elim
    | cons n ns =>
      obtain ⟨hmn, hrest⟩ := h
      obtain ⟨h1, h2⟩ := hR m n hmn inp dt u
      have h3 := hI m n inp dt u
      rw [cascadeLoop, cascadeLoop]
      rcases hm : filter m inp dt u with ⟨r, m'⟩
      rcases hn : filter n inp dt u with ⟨r', n'⟩
      rw [hm, hn] at h1 h2
      rw [hm, hn] at h3
      simp only at h1
      subst h1
      cases r with
      | error e => exact ⟨rfl, rfl, h2, hrest⟩
      | ok c =>
        simp only
        have h3' := h3 c hmn rfl
        simp only at h3'
        rw [h3']
        obtain ⟨a, b, d⟩ := ih ns hrest (if (HasBase.get n').intervening then true else flag) c
        exact ⟨a, b, h2, d⟩

/-- **C12 for cascades.** Take any notion of "stages that answer alike": related stages return the same value or exception
for every call and stay related, and report the same intervening flag after a success. Then two cascades with the same
bounds whose stages are related answer every call sequence alike: in particular a cascade of history independent stages is
history independent, and resetting a cascade together with its stages gives the behaviour of a new one. -/
theorem C12_cascade_simulation (filter : M → I → K → List K → Except PyErr (List K) × M) (R : M → M → Prop)
    (hR : ∀ m n, R m n → ∀ i dt u, (filter m i dt u).1 = (filter n i dt u).1 ∧ R (filter m i dt u).2 (filter n i dt u).2)
    (hI : ∀ m n i dt u c, R m n → (filter m i dt u).1 = .ok c →
      (HasBase.get (filter m i dt u).2).intervening = (HasBase.get (filter n i dt u).2).intervening)
    (s t : CascadeObj K M) (hb : s.controlBoundsHigh = t.controlBoundsHigh ∧ s.controlBoundsLow = t.controlBoundsLow)
    (he : s.enable = t.enable) (hs : StagesRel R s.rtaList t.rtaList) (calls : List (I × K × List K)) :
    let run := fun (x : CascadeObj K M) (cl : I × K × List K) => (cascadeFilter filter x cl.1 cl.2.1 cl.2.2).2
    ∀ inp dt u, (cascadeFilter filter (calls.foldl run s) inp dt u).1 = (cascadeFilter filter (calls.foldl run t) inp dt u).1 := by
  have key : ∀ (s t : CascadeObj K M), s.controlBoundsHigh = t.controlBoundsHigh → s.controlBoundsLow = t.controlBoundsLow →
      s.enable = t.enable → StagesRel R s.rtaList t.rtaList → ∀ inp dt u,
      (cascadeFilter filter s inp dt u).1 = (cascadeFilter filter t inp dt u).1 ∧
      (let s' := (cascadeFilter filter s inp dt u).2
       let t' := (cascadeFilter filter t inp dt u).2
       s'.controlBoundsHigh = t'.controlBoundsHigh ∧ s'.controlBoundsLow = t'.controlBoundsLow ∧ s'.enable = t'.enable ∧
        StagesRel R s'.rtaList t'.rtaList) := by
    intro s t b1 b2 e1 r1 inp dt u
    obtain ⟨⟨hi, lo, en, iv, cd, ca⟩, ms⟩ := s
    obtain ⟨⟨hi', lo', en', iv', cd', ca'⟩, ns⟩ := t
    simp only at b1 b2 e1 r1
    subst b1 b2 e1
    unfold cascadeFilter filterControl cascadeCompute
    simp only [modifyBase, HasBase.get, HasBase.set]
    obtain ⟨q1, q2, q3⟩ := loop_rel hR hI inp dt ms ns r1 false u
    cases en with
    | false =>
      simp only [Bool.false_eq_true, if_false]
      exact ⟨trivial, trivial, trivial, trivial, r1⟩
    | true =>
      simp only [if_true]
      rcases hl : cascadeLoop filter inp dt ms false u with ⟨r, fl, ms⟩
      rcases hl' : cascadeLoop filter inp dt ns false u with ⟨r', fl', ms'⟩
      rw [hl, hl'] at q1 q2 q3
      simp only at q1 q2 q3
      subst q1 q2
      cases r with
      | error e => exact ⟨rfl, rfl, rfl, rfl, q3⟩
      | ok out =>
        simp only
        have hclip : Base.clipControl ⟨hi, lo, true, fl, some u, ca⟩ out = Base.clipControl ⟨hi, lo, true, fl, some u, ca'⟩ out := rfl
        rcases hc : Base.clipControl ⟨hi, lo, true, fl, some u, ca'⟩ out with e | c
        · rw [hc] at hclip
          simp only [hclip]
          exact ⟨trivial, trivial, trivial, trivial, q3⟩
        · rw [hc] at hclip
          simp only [hclip]
          exact ⟨trivial, trivial, trivial, trivial, q3⟩
  intro run
  induction calls generalizing s t with
  | nil =>
    intro inp dt u
    exact (key s t hb.1 hb.2 he hs inp dt u).1
  | cons cl calls ih =>
    obtain ⟨_, k1, k2, k3, k4⟩ := key s t hb.1 hb.2 he hs cl.1 cl.2.1 cl.2.2
    exact ih _ _ ⟨k1, k2⟩ k3 k4

/-- **C10 for cascades, what holds.** Whatever the history, `reset()` enables a cascade and clears its reports, keeps its bounds and leaves its
stages as they are; so if the stages answer like the stages `stages` (because they have no memory, or because
they were reset separately) it behaves from then on like a cascade newly constructed from `stages`.
Missing: `reset()` itself does not reset the stages (`C10_refuted_cascade_reset`). -/
theorem C10_cascade_reset_partial (filter : M → I → K → List K → Except PyErr (List K) × M) (R : M → M → Prop)
    (hR : ∀ m n, R m n → ∀ i dt u, (filter m i dt u).1 = (filter n i dt u).1 ∧ R (filter m i dt u).2 (filter n i dt u).2)
    (hI : ∀ m n i dt u c, R m n → (filter m i dt u).1 = .ok c →
      (HasBase.get (filter m i dt u).2).intervening = (HasBase.get (filter n i dt u).2).intervening)
    (s : CascadeObj K M) (stages : List M) :
    generateInfo (cascadeReset s) = generateInfo (cascadeInit s.controlBoundsHigh s.controlBoundsLow stages) ∧
    (cascadeReset s).controlBoundsHigh = s.controlBoundsHigh ∧ (cascadeReset s).controlBoundsLow = s.controlBoundsLow ∧
    (cascadeReset s).rtaList = s.rtaList ∧
    (StagesRel R s.rtaList stages → ∀ (calls : List (I × K × List K)) inp dt u,
      (cascadeFilter filter (calls.foldl (fun x cl => (cascadeFilter filter x cl.1 cl.2.1 cl.2.2).2) (cascadeReset s)) inp dt u).1 =
      (cascadeFilter filter (calls.foldl (fun x cl => (cascadeFilter filter x cl.1 cl.2.1 cl.2.2).2)
        (cascadeInit s.controlBoundsHigh s.controlBoundsLow stages)) inp dt u).1) :=
  ⟨rfl, rfl, rfl, rfl, fun h calls => C12_cascade_simulation filter R hR hI (cascadeReset s)
    (cascadeInit s.controlBoundsHigh s.controlBoundsLow stages) ⟨rfl, rfl⟩ rfl h calls⟩

end
end RTA
