import Verif.Props.ChangedSet
import Verif.Props.Discrete
import Verif.Lemmas.DiscreteDesired

/-!
Constraints added to, removed from or replaced in a discrete time module in use (C116).
-/
set_option linter.unusedSectionVars false
namespace RTA
variable {K S P : Type}

/-! ### Dictionaries -/

theorem dictGet_append_some {V : Type} {d e : Dict V} {k : String} {v : V} (h : dictGet d k = some v) : dictGet (d ++ e) k = some v := by
  induction d with
  | nil => cases h
  | cons a d ih =>
    obtain ⟨q, w⟩ := a
    rw [List.cons_append]
    unfold dictGet at h ⊢
    by_cases hq : q = k
    · rw [if_pos hq] at h ⊢; exact h
    · rw [if_neg hq] at h ⊢; exact ih h

theorem dictSet_append_none {V : Type} {d e : Dict V} {k : String} {v : V} (h : dictGet d k = none) :
    dictSet (d ++ e) k v = d ++ dictSet e k v := by
  induction d with
  | nil => rfl
  | cons a d ih =>
    obtain ⟨q, w⟩ := a
    rw [List.cons_append, List.cons_append]
    unfold dictGet at h
    rw [dictSet]
    by_cases hq : q = k
    · rw [if_pos hq] at h; cases h
    · rw [if_neg hq] at h ⊢; rw [ih h]

theorem dictGet_mapped {C V : Type} (f : C → V) (d : Dict C) (k : String) :
    dictGet (d.map fun kc => (kc.1, f kc.2)) k = (dictGet d k).map f := by
  induction d with
  | nil => rfl
  | cons a d ih =>
    obtain ⟨q, w⟩ := a
    rw [List.map_cons]
    unfold dictGet
    by_cases hq : q = k
    · simp only [if_pos hq, Option.map_some]
    · simp only [if_neg hq, ih]

/-- Entries that are already there are left as they are, others are appended. -/
theorem foldl_dictSet_append {C V : Type} (f : C → V) {d : Dict V} {cs : Dict C}
    (h : ∀ kc ∈ cs, ∀ v, dictGet d kc.1 = some v → v = f kc.2) (e : Dict V) :
    ∃ e', cs.foldl (fun d kc => dictSet d kc.1 (f kc.2)) (d ++ e) = d ++ e' := by
  induction cs generalizing e with
  | nil => exact ⟨e, rfl⟩
  | cons kc cs ih =>
    rw [List.foldl_cons]
    have ih := ih (fun q hq => h q (by simp [hq]))
    rcases hg : dictGet d kc.1 with _ | v
    · rw [dictSet_append_none hg]; exact ih _
    · have := h kc (by simp) v hg
      subst this
      rw [dictSet_same (dictGet_append_some hg)]
      exact ih _

/-! ### The stored list -/

section
variable [Field K] [LinearOrder K] [HasSqrt K]

theorem storedCbfs_eq (next : S → K → List K → S) (n : Nat) (x : S) (dt : K) (sc : Nat) (cs : List (Constraint K S P)) (ps : List P)
    (es : List Bool) : storedCbfs next n x dt (storeCbfs sc cs) ps es = enabledCbfs next n x dt sc cs ps es := by
  induction cs generalizing sc ps es with
  | nil => rfl
  | cons c cs ih =>
    rcases ps with _ | ⟨p, ps⟩
    · rfl
    rcases es with _ | ⟨e, es⟩
    · rfl
    rw [storeCbfs, storedCbfs, enabledCbfs, ih]
    rfl

/-- Values beyond the length of the stored list are not looked at. -/
theorem storedCbfs_append (next : S → K → List K → S) (n : Nat) (x : S) (dt : K) (st : List (Constraint K S P × Option Nat)) (ps ps' : List P)
    (es es' : List Bool) (hp : ps.length = st.length) (he : es.length = st.length) :
    storedCbfs next n x dt st (ps ++ ps') (es ++ es') = storedCbfs next n x dt st ps es := by
  induction st generalizing ps es with
  | nil => cases ps <;> cases es <;> rfl
  | cons c st ih =>
    rcases ps with _ | ⟨p, ps⟩
    · simp at hp
    rcases es with _ | ⟨e, es⟩
    · simp at he
    rw [List.cons_append, List.cons_append, storedCbfs, storedCbfs, ih ps es (by simpa using hp) (by simpa using he)]

theorem storeCbfs_length (sc : Nat) (cs : List (Constraint K S P)) : (storeCbfs sc cs).length = cs.length := by
  induction cs generalizing sc with
  | nil => rfl
  | cons c cs ih => rw [storeCbfs, List.length_cons, List.length_cons, ih]

/-- As long as the dictionary is the one of construction, recomputing the list at every call makes no difference. -/
theorem discStored_eq (solver : NLPSolver K) (next : S → K → List K → S) (s : DiscObj K S P) (i : InputState S) (dt : K) (u : List K) :
    discreteStored solver next (storeCbfs 0 (s.constraints.map (·.2))) s i dt u = discreteASIF solver next s i dt u := by
  have hf : ∀ t : DiscObj K S P, t.constraints = s.constraints → ∀ x,
      discFilterStored solver next (storeCbfs 0 (s.constraints.map (·.2))) t x dt u = discFilter solver next t x dt u := by
    intro t ht x
    unfold discFilterStored discFilter
    rw [← ht, storedCbfs_eq]
    rcases scalarBound t.ext.optLow with e | lo
    · rfl
    rcases scalarBound t.ext.optHigh with e | hi
    · rfl
    rfl
  unfold discreteStored discreteASIF
  by_cases hen : s.enable = true
  · cases i with
    | notArray => rw [filterControlCB_enabled hen, filterControlCB_enabled hen]; rfl
    | array x =>
      rw [call_eq _ hen, call_eq _ hen, hf (prep s x u) rfl]
  · have hen : s.enable = false := by simpa using hen
    rw [filterControlCB_disabled hen, filterControlCB_disabled hen]

/-- What changes of the dictionary leave as it was. -/
structure Kept (m s : DiscObj K S P) : Prop where
  ext : s.ext = m.ext
  low : s.controlBoundsLow = m.controlBoundsLow
  high : s.controlBoundsHigh = m.controlBoundsHigh
  same : SameSettings m.constraints s.constraints
  params : ∃ e, s.params = cacheParams m.constraints ++ e
  enabled : ∃ e, s.constraintEnabled = cacheEnabled m.constraints ++ e

theorem kept_update {m s : DiscObj K S P} (h : Kept m s) (u : List K) : Kept m (updateParams (withDesired s u)) := by
  refine ⟨h.ext, h.low, h.high, h.same, ?_, ?_⟩
  · obtain ⟨e, he⟩ := h.params
    have := foldl_dictSet_append (fun c : Constraint K S P => c.params) (d := cacheParams m.constraints) (cs := s.constraints)
      (by
        intro kc hkc v hv
        unfold cacheParams at hv
        rw [dictGet_mapped (fun c : Constraint K S P => c.params)] at hv
        rcases hg : dictGet m.constraints kc.1 with _ | c
        · rw [hg] at hv; cases hv
        · rw [hg] at hv
          simp only [Option.map_some, Option.some.injEq] at hv
          rw [← hv, (h.same kc hkc c hg).1]) e
    rw [← he] at this
    exact this
  · obtain ⟨e, he⟩ := h.enabled
    have := foldl_dictSet_append (fun c : Constraint K S P => c.enabled) (d := cacheEnabled m.constraints) (cs := s.constraints)
      (by
        intro kc hkc v hv
        unfold cacheEnabled at hv
        rw [dictGet_mapped (fun c : Constraint K S P => c.enabled)] at hv
        rcases hg : dictGet m.constraints kc.1 with _ | c
        · rw [hg] at hv; cases hv
        · rw [hg] at hv
          simp only [Option.map_some, Option.some.injEq] at hv
          rw [← hv, (h.same kc hkc c hg).2]) e
    rw [← he] at this
    exact this

theorem kept_prep {m s : DiscObj K S P} (h : Kept m s) (x : S) (u : List K) : Kept m (prep s x u) := by
  have := kept_update h u
  exact ⟨this.ext, this.low, this.high, this.same, this.params, this.enabled⟩

/-- The part of `_filter_control` that does not depend on the object otherwise. -/
theorem filter_kept {m s t : DiscObj K S P} (hs : Kept m s) (ht : Kept m t) (solver : NLPSolver K) (next : S → K → List K → S)
    (x : S) (dt : K) (u : List K) :
    (discFilterStored solver next (storeCbfs 0 (m.constraints.map (·.2))) s x dt u).1 =
        (discFilterStored solver next (storeCbfs 0 (m.constraints.map (·.2))) t x dt u).1 ∧
      Kept m (discFilterStored solver next (storeCbfs 0 (m.constraints.map (·.2))) s x dt u).2 ∧
      ((discFilterStored solver next (storeCbfs 0 (m.constraints.map (·.2))) s x dt u).1.isOk = true →
        (discFilterStored solver next (storeCbfs 0 (m.constraints.map (·.2))) s x dt u).2.intervening =
          (discFilterStored solver next (storeCbfs 0 (m.constraints.map (·.2))) t x dt u).2.intervening) := by
  have key : ∀ r : DiscObj K S P, Kept m r → storedCbfs next r.ext.controlDim x dt (storeCbfs 0 (m.constraints.map (·.2)))
      (r.params.map (·.2)) (r.constraintEnabled.map (·.2)) =
      storedCbfs next m.ext.controlDim x dt (storeCbfs 0 (m.constraints.map (·.2))) ((cacheParams m.constraints).map (·.2))
        ((cacheEnabled m.constraints).map (·.2)) := by
    intro r hr
    obtain ⟨e, he⟩ := hr.params
    obtain ⟨f, hf⟩ := hr.enabled
    rw [he, hf, List.map_append, List.map_append, hr.ext]
    exact storedCbfs_append _ _ _ _ _ _ _ _ _ (by simp [storeCbfs_length, cacheParams]) (by simp [storeCbfs_length, cacheEnabled])
  generalize storedCbfs next m.ext.controlDim x dt (storeCbfs 0 (m.constraints.map (·.2))) ((cacheParams m.constraints).map (·.2))
    ((cacheEnabled m.constraints).map (·.2)) = r at key
  unfold discFilterStored
  simp only [key s hs, key t ht]
  rw [hs.ext, ht.ext]
  rcases scalarBound m.ext.optLow with e | lo
  · exact ⟨rfl, hs, fun h => by cases h⟩
  rcases scalarBound m.ext.optHigh with e | hi
  · exact ⟨rfl, hs, fun h => by cases h⟩
  simp only
  by_cases hl : (u ++ zeros m.ext.numSlack).length ≠ m.ext.controlDim + m.ext.numSlack
  · rw [if_pos hl, if_pos hl]
    exact ⟨rfl, hs, fun h => by cases h⟩
  · rw [if_neg hl, if_neg hl]
    rcases r with e | fs
    · exact ⟨rfl, hs, fun h => by cases h⟩
    · simp only
      split
      · exact ⟨rfl, hs, fun h => by cases h⟩
      · exact ⟨rfl, ⟨rfl, hs.low, hs.high, hs.same, hs.params, hs.enabled⟩, fun _ => rfl⟩

theorem call_kept {m s t : DiscObj K S P} (hs : Kept m s) (ht : Kept m t) (hen : s.enable = true) (hent : t.enable = true)
    (solver : NLPSolver K) (next : S → K → List K → S) (x : S) (dt : K) (u : List K) :
    (discreteStored solver next (storeCbfs 0 (m.constraints.map (·.2))) s (.array x) dt u).1 =
        (discreteStored solver next (storeCbfs 0 (m.constraints.map (·.2))) t (.array x) dt u).1 ∧
      Kept m (discreteStored solver next (storeCbfs 0 (m.constraints.map (·.2))) s (.array x) dt u).2 ∧
      ((discreteStored solver next (storeCbfs 0 (m.constraints.map (·.2))) s (.array x) dt u).1.isOk = true →
        (discreteStored solver next (storeCbfs 0 (m.constraints.map (·.2))) s (.array x) dt u).2.intervening =
          (discreteStored solver next (storeCbfs 0 (m.constraints.map (·.2))) t (.array x) dt u).2.intervening) := by
  unfold discreteStored
  rw [call_eq _ hen, call_eq _ hent]
  obtain ⟨h1, h2, h3⟩ := filter_kept (kept_prep hs x u) (kept_prep ht x u) solver next x dt u
  have h4 := (filter_kept (kept_prep ht x u) (kept_prep hs x u) solver next x dt u).2.1
  generalize discFilterStored solver next (storeCbfs 0 (m.constraints.map (·.2))) (prep s x u) x dt u = r at h1 h2 h3 ⊢
  generalize discFilterStored solver next (storeCbfs 0 (m.constraints.map (·.2))) (prep t x u) x dt u = q at h1 h3 h4 ⊢
  rcases r with ⟨e | c, s1⟩
  · rcases q with ⟨e' | c', t1⟩
    · simp only at h1 h2 ⊢
      exact ⟨h1, h2, fun h => by cases h⟩
    · simp at h1
  · rcases q with ⟨e' | c', t1⟩
    · simp at h1
    · simp only [Except.ok.injEq] at h1
      subst h1
      simp only at h2 h3 h4 ⊢
      have hc : t1.toBase.clipControl c = s1.toBase.clipControl c := by
        unfold Base.clipControl; rw [h2.low, h2.high, h4.low, h4.high]
      rw [hc]
      rcases s1.toBase.clipControl c with e | c'
      · exact ⟨rfl, ⟨h2.ext, h2.low, h2.high, h2.same, h2.params, h2.enabled⟩, fun h => by cases h⟩
      · exact ⟨rfl, ⟨h2.ext, h2.low, h2.high, h2.same, h2.params, h2.enabled⟩, fun _ => h3 rfl⟩

theorem ChangedUseD.kept {solver : NLPSolver K} {next : S → K → List K → S} {m s : DiscObj K S P} (hm : Kept m m)
    (h : ChangedUseD solver next m s) : Kept m s := by
  induction h with
  | start => exact hm
  | @change s cs _ hs ih => exact ⟨ih.ext, ih.low, ih.high, hs, ih.params, ih.enabled⟩
  | @setEnable s b _ ih => exact ⟨ih.ext, ih.low, ih.high, ih.same, ih.params, ih.enabled⟩
  | @call s i dt u _ ih =>
    by_cases hen : s.enable = true
    · cases i with
      | array x => exact (call_kept ih ih hen hen solver next x dt u).2.1
      | notArray =>
        unfold discreteStored
        rw [filterControlCB_enabled hen]
        exact kept_update ih u
    · have hen : s.enable = false := by simpa using hen
      unfold discreteStored
      rw [filterControlCB_disabled hen]
      exact ⟨ih.ext, ih.low, ih.high, ih.same, ih.params, ih.enabled⟩

/-- A newly constructed module. -/
theorem kept_init {high low : Option (Bound K)} {all : Dict (Constraint K S P)} {use : Option (List String)} {eps : K} {n : Nat}
    {se : Bool} {m : DiscObj K S P} (hall : (dictKeys all).Nodup) (h : discInit high low all use eps n se = .ok m) : Kept m m := by
  have hinv := discInv_init hall h
  have hself : SameSettings m.constraints m.constraints := by
    intro kc hkc c hc
    have := dictGet_of_mem_nodup m.constraints hinv.wf.nodup (k := kc.1) (v := kc.2) hkc
    rw [this] at hc
    cases hc
    exact ⟨rfl, rfl⟩
  have hc : m.params = cacheParams m.constraints ∧ m.constraintEnabled = cacheEnabled m.constraints := by
    unfold discInit at h
    rcases hi : CBObj.init high low all use
        ({ epsilon := eps, controlDim := n, solverException := se, numSlack := 0, objWeight := [], optLow := low
           optHigh := high } : DiscExt K) with e | s0
    · simp [hi] at h
    · simp only [hi, Except.ok.injEq] at h
      have hs0 : s0.params = cacheParams s0.constraints ∧ s0.constraintEnabled = cacheEnabled s0.constraints := by
        unfold CBObj.init at hi
        split at hi
        · simp at hi
        · rename_i cs hcs
          simp only [Except.ok.injEq] at hi
          subst hi
          have hn := selectConstraints_keys hall hcs
          exact ⟨foldl_dictSet_nil (fun c : Constraint K S P => c.params) cs hn,
            foldl_dictSet_nil (fun c : Constraint K S P => c.enabled) cs hn⟩
      subst h
      exact hs0
  exact ⟨rfl, rfl, rfl, hself, ⟨[], by rw [List.append_nil]; exact hc.1⟩, ⟨[], by rw [List.append_nil]; exact hc.2⟩⟩

/-! ### C116 -/

/-- **C116 fails**, discrete time modules: whatever was added to, removed from or replaced in `module.constraints` (with the
params and flags of the constraints of construction left as they were), however often and between any calls, every call
answers as the module would with the constraints it was constructed with. -/
theorem C116_discrete_ignored {high low : Option (Bound K)} {all : Dict (Constraint K S P)} {use : Option (List String)} {eps : K}
    {n : Nat} {se : Bool} {m s : DiscObj K S P} (hall : (dictKeys all).Nodup) (hm : discInit high low all use eps n se = .ok m)
    {solver : NLPSolver K} {next : S → K → List K → S} (h : ChangedUseD solver next m s) (hen : s.enable = true) (x : S) (dt : K)
    (u : List K) :
    (discreteStored solver next (storeCbfs 0 (m.constraints.map (·.2))) s (.array x) dt u).1 =
        (discreteASIF solver next m (.array x) dt u).1 ∧
      ((discreteASIF solver next m (.array x) dt u).1.isOk = true →
        (discreteStored solver next (storeCbfs 0 (m.constraints.map (·.2))) s (.array x) dt u).2.intervening =
          (discreteASIF solver next m (.array x) dt u).2.intervening) := by
  have hk := kept_init hall hm
  have hme : m.enable = true := by
    unfold discInit CBObj.init at hm
    generalize selectConstraints all use = r at hm
    rcases r with e | cs
    · cases hm
    · simp only [Except.ok.injEq] at hm
      subst hm
      rfl
  obtain ⟨h1, -, h3⟩ := call_kept (h.kept hk) hk hen hme solver next x dt u
  rw [discStored_eq] at h1 h3
  exact ⟨h1, fun ho => h3 (by rw [h1]; exact ho)⟩

/-- What a newly constructed module answers before any change: the two models of its calls agree. -/
theorem C116_discrete_unchanged (solver : NLPSolver K) (next : S → K → List K → S) (m : DiscObj K S P) (i : InputState S) (dt : K)
    (u : List K) :
    discreteStored solver next (storeCbfs 0 (m.constraints.map (·.2))) m i dt u = discreteASIF solver next m i dt u :=
  discStored_eq solver next m i dt u

end

/-- The constraint `x ≤ 1/2`. -/
noncomputable def stepUpper : Constraint ℝ ℝ Unit :=
  { computeFn := fun x _ => 1 / 2 - x, phiFn := fun x _ => 1 / 2 - x, gradFn := fun _ _ => [-1], alpha := some id, alphaNeg := none
    bias := 0, biasNegative := 0, slackPriorityScale := none, params := (), enabled := true, subsample := {} }

/-- **C116 fails**, a removed constraint: all constraints were removed from the concrete module, which still corrects the
control `-2` to `-1`, the closest one that keeps the removed constraint. -/
theorem C116_refuted_discrete_removed :
    (discreteStored refNLP stepNext (storeCbfs 0 ((stepObj true).constraints.map (·.2))) (setConstraints [] (stepObj true))
      (.array 1) (1 / 2) [-2]).1 = .ok [-1] := by
  have h : ChangedUseD refNLP stepNext (stepObj true) (setConstraints [] (stepObj true)) :=
    .change _ .start (fun kc hkc => by simp at hkc)
  rw [(C116_discrete_ignored (by simp [dictKeys]) (step_init true) h rfl 1 (1 / 2) [-2]).1, step_call]

/-- **C116 fails**, an added constraint: with `x ≤ 1/2` added, the module at `x = 0` with step `1/2` returns the desired control
`2`, which leads to `x = 1` and is not admissible for the constraints it has now, although `1/2` would be. -/
theorem C116_refuted_discrete_added :
    (discreteStored refNLP stepNext (storeCbfs 0 ((stepObj true).constraints.map (·.2)))
      (setConstraints [("a", stepC true), ("b", stepC false), ("c", stepUpper)] (stepObj true)) (.array 0) (1 / 2) [2]).1 = .ok [2] ∧
    ¬ AdmissibleDS stepNext (setConstraints [("a", stepC true), ("b", stepC false), ("c", stepUpper)] (stepObj true)) 0 (1 / 2) [2] [] ∧
    AdmissibleDS stepNext (setConstraints [("a", stepC true), ("b", stepC false), ("c", stepUpper)] (stepObj true)) 0 (1 / 2) [1 / 2] [] := by
  have hwithin : ∀ a : ℝ, -2 ≤ a → a ≤ 2 → Within (stepObj true).controlBoundsLow (stepObj true).controlBoundsHigh [a] := by
    intro a h1 h2 i v hv
    rcases i with _ | i
    · simp at hv
      subst hv
      constructor <;> intro b hb <;> simp [stepObj, Base.init, boundAt] at hb <;> subst hb <;> assumption
    · simp at hv
  refine ⟨?_, ?_, ?_⟩
  · have h : ChangedUseD refNLP stepNext (stepObj true)
        (setConstraints [("a", stepC true), ("b", stepC false), ("c", stepUpper)] (stepObj true)) := by
      refine .change _ .start ?_
      intro kc hkc c hc
      simp only [List.mem_cons, List.not_mem_nil, or_false] at hkc
      rcases hkc with rfl | rfl | rfl <;> simp [stepObj, dictGet] at hc <;> subst hc <;> exact ⟨rfl, rfl⟩
    rw [(C116_discrete_ignored (by simp [dictKeys]) (step_init true) h rfl 0 (1 / 2) [2]).1]
    refine disc_desired refNLP_sound refNLP_global refNLP_complete (step_inv true) rfl rfl (lo := some (-2)) (hi := some 2) rfl rfl
      (by simp [stepObj, stepC]) (by norm_num) ⟨rfl, rfl, hwithin 2 (by norm_num) (by norm_num), ?_⟩
    intro cd hcd hcen
    have e : assignSlack (stepObj true).constraints [] = [(stepC true, 0), (stepC false, 0)] := rfl
    rw [e] at hcd
    simp only [List.mem_cons, List.not_mem_nil, or_false] at hcd
    rcases hcd with rfl | rfl
    · refine ⟨id, rfl, ?_⟩
      simp [hval, stepNext, stepC]
    · cases hcen
  · intro h
    obtain ⟨al, hal, hle⟩ := h.barrier (stepUpper, 0) (by simp [setConstraints, assignSlack, stepC, stepUpper]) rfl
    have : al = id := by simpa [stepUpper] using hal.symm
    subst this
    simp [hval, stepNext, stepUpper] at hle
    norm_num at hle
  · refine ⟨rfl, rfl, hwithin (1 / 2) (by norm_num) (by norm_num), ?_⟩
    intro cd hcd hcen
    have e : assignSlack (setConstraints [("a", stepC true), ("b", stepC false), ("c", stepUpper)] (stepObj true)).constraints [] =
      [(stepC true, 0), (stepC false, 0), (stepUpper, 0)] := rfl
    rw [e] at hcd
    simp only [List.mem_cons, List.not_mem_nil, or_false] at hcd
    rcases hcd with rfl | rfl | rfl
    · refine ⟨id, rfl, ?_⟩
      simp [hval, stepNext, stepC]
    · cases hcen
    · refine ⟨id, rfl, ?_⟩
      simp [hval, stepNext, stepUpper]

end RTA
