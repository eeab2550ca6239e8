import Verif.Spec.ChangedSet
import Verif.Lemmas.ASIFCall
import Verif.Lemmas.ASIFReach

/-! Calls of an explicit module whose dictionary of constraints was changed after construction. -/
set_option linter.unusedSectionVars false
namespace RTA
variable {K S P X : Type}

section
variable [Add K] [Mul K] [Neg K] [Sub K] [Zero K] [One K] [OfNat K 10] [HasSqrt K] [LinearOrder K]

theorem explicitRows_congr {f : S → List K} {g : S → List (List K)} {p p' : Dict P} {e e' : Dict Bool} {n k : Nat} {x : S}
    (cs : Dict (Constraint K S P)) (hp : ∀ kc ∈ cs, dictGet p kc.1 = dictGet p' kc.1)
    (he : ∀ kc ∈ cs, dictGet e kc.1 = dictGet e' kc.1) (sc : Nat) :
    explicitRows f g p e n k x sc cs = explicitRows f g p' e' n k x sc cs := by
  induction cs generalizing sc with
  | nil => rfl
  | cons kc cs ih =>
    obtain ⟨q, c⟩ := kc
    have h1 := hp (q, c) (by simp)
    have h2 := he (q, c) (by simp)
    simp only at h1 h2
    have ih := ih (fun kc h => hp kc (by simp [h])) (fun kc h => he kc (by simp [h]))
    unfold explicitRows
    simp only [h1, h2, ih]

theorem explicitRows_append {f : S → List K} {g : S → List (List K)} {p : Dict P} {e : Dict Bool} {n k : Nat} {x : S}
    (cs ds : Dict (Constraint K S P)) (sc : Nat) :
    explicitRows f g p e n k x sc (cs ++ ds) =
      match explicitRows f g p e n k x sc cs with
      | .error er => .error er
      | .ok r1 =>
        match explicitRows f g p e n k x (sc + (slackScales cs).length) ds with
        | .error er => .error er
        | .ok r2 => .ok (r1 ++ r2) := by
  induction cs generalizing sc with
  | nil =>
    simp only [List.nil_append, explicitRows, slackScales, List.filterMap_nil, List.length_nil, Nat.add_zero]
    cases explicitRows f g p e n k x sc ds <;> rfl
  | cons kc cs ih =>
    obtain ⟨q, c⟩ := kc
    have hsc : (if c.slackPriorityScale.isSome then sc + 1 else sc) + (slackScales cs).length =
        sc + (slackScales ((q, c) :: cs)).length := by
      unfold slackScales
      rcases h : c.slackPriorityScale with _ | w
      · simp [h]
      · simp [h]; omega
    simp only [List.cons_append]
    obtain ⟨R2, hR⟩ : ∃ R2, R2 = explicitRows f g p e n k x (sc + (slackScales ((q, c) :: cs)).length) ds := ⟨_, rfl⟩
    rw [← hR]
    have ih := ih (if c.slackPriorityScale.isSome then sc + 1 else sc)
    rw [hsc, ← hR] at ih
    unfold explicitRows
    cases dictGet p q with
    | none => rfl
    | some pp =>
      cases dictGet e q with
      | none => rfl
      | some ee =>
        simp only
        split
        · rfl
        · cases alphaTerm c (c.compute x pp) with
          | error er => rfl
          | ok al =>
            simp only [ih]
            rcases explicitRows f g p e n k x (if c.slackPriorityScale.isSome then sc + 1 else sc) cs with er | r1
            · rfl
            · cases R2 <;> rfl

/-- The params of the direct constraints. -/
def directP (ds : Dict (DirectConstraint K S P)) : Dict P := ds.map fun kc => (kc.1, kc.2.params)
/-- The flags of the direct constraints. -/
def directE (ds : Dict (DirectConstraint K S P)) : Dict Bool := ds.map fun kc => (kc.1, kc.2.enabled)

/-- The answer of an explicit module as a function of its constraints, without reference to its caches. -/
def answerOf (solver : Solver K) (f : S → List K) (g : S → List (List K)) (s : ASIFObj K S P X) (x : S) (u : List K) :
    Except PyErr (List K) :=
  match explicitRows f g (cacheParams s.constraints) (cacheEnabled s.constraints) s.ext.controlDim s.ext.numSlack x 0 s.constraints with
  | .error e => .error e
  | .ok bar =>
    match directRows (directP s.ext.direct) (directE s.ext.direct)
        s.ext.controlDim s.ext.numSlack x s.ext.direct with
    | .error e => .error e
    | .ok dr =>
      match quadprogSolve solver s.ext.objWeight (u ++ zeros s.ext.numSlack) (s.ext.actuation ++ bar ++ dr) with
      | .solved z iact =>
        match (causingLoop s.ext.constraintNames iact []).1 with
        | .error e => .error e
        | .ok () => s.toBase.clipControl (z.take s.ext.controlDim)
      | .valueError msg =>
        if msg = inconsistentMsg then
          if ¬ s.ext.solverException then s.toBase.clipControl ((u ++ zeros s.ext.numSlack).take s.ext.controlDim)
          else .error .solverError
        else .error (.valueError msg)

/-- What is needed of the caches: distinct keys, and direct caches in order. -/
structure Keys (s : ASIFObj K S P X) : Prop where
  nodup : (dictKeys s.constraints).Nodup
  dnodup : (dictKeys s.ext.direct).Nodup
  dparams : dictKeys s.ext.directParams = dictKeys s.ext.direct
  denabled : dictKeys s.ext.directEnabled = dictKeys s.ext.direct

omit [Add K] [Mul K] [Neg K] [Sub K] [Zero K] [One K] [OfNat K 10] [HasSqrt K] [LinearOrder K] in
theorem updated_params {E : Type} {s : CBObj K S P E} (h : (dictKeys s.constraints).Nodup) :
    (∀ kc ∈ s.constraints, dictGet (updateParams s).params kc.1 = some kc.2.params) ∧
    (∀ kc ∈ s.constraints, dictGet (updateParams s).constraintEnabled kc.1 = some kc.2.enabled) := by
  constructor
  · intro kc hkc
    simp only [updateParams]
    rw [dictGet_foldl_dictSet (fun c : Constraint K S P => c.params) _ _ h, dictGet_of_mem_nodup _ h (k := kc.1) (v := kc.2) hkc]
  · intro kc hkc
    simp only [updateParams]
    rw [dictGet_foldl_dictSet (fun c : Constraint K S P => c.enabled) _ _ h, dictGet_of_mem_nodup _ h (k := kc.1) (v := kc.2) hkc]

theorem cached {cs : Dict (Constraint K S P)} (h : (dictKeys cs).Nodup) :
    (∀ kc ∈ cs, dictGet (cacheParams cs) kc.1 = some kc.2.params) ∧
    (∀ kc ∈ cs, dictGet (cacheEnabled cs) kc.1 = some kc.2.enabled) := by
  constructor
  · intro kc hkc
    unfold cacheParams
    rw [dictGet_map (fun c : Constraint K S P => c.params), dictGet_of_mem_nodup _ h (k := kc.1) (v := kc.2) hkc]
    rfl
  · intro kc hkc
    unfold cacheEnabled
    rw [dictGet_map (fun c : Constraint K S P => c.enabled), dictGet_of_mem_nodup _ h (k := kc.1) (v := kc.2) hkc]
    rfl

theorem aprep_rows {f : S → List K} {g : S → List (List K)} {s : ASIFObj K S P X} (h : Keys s) (x : S) (u : List K) :
    explicitRows f g (aprep s x u).params (aprep s x u).constraintEnabled s.ext.controlDim s.ext.numSlack x 0 s.constraints =
      explicitRows f g (cacheParams s.constraints) (cacheEnabled s.constraints) s.ext.controlDim s.ext.numSlack x 0 s.constraints := by
  have hu := updated_params (s := withDesired s u) h.nodup
  have hc := cached h.nodup
  exact explicitRows_congr s.constraints (fun kc hk => (hu.1 kc hk).trans (hc.1 kc hk).symm)
    (fun kc hk => (hu.2 kc hk).trans (hc.2 kc hk).symm) 0

theorem aprep_direct {s : ASIFObj K S P X} (h : Keys s) (x : S) (u : List K) :
    (aprep s x u).ext.directParams = (directP s.ext.direct) ∧
    (aprep s x u).ext.directEnabled = (directE s.ext.direct) := by
  unfold aprep
  have e : (prep s x u).ext = s.ext := rfl
  rw [updateDirectParams_eq (by rw [e]; exact h.dnodup) (by rw [e]; exact h.dparams) (by rw [e]; exact h.denabled)]
  exact ⟨rfl, rfl⟩

/-- An enabled call, as a function of the constraints. -/
theorem explicit_answer (solver : Solver K) (f : S → List K) (g : S → List (List K)) {s : ASIFObj K S P X} (h : Keys s)
    (hen : s.enable = true) (x : S) (dt : K) (u : List K) :
    (explicitASIF solver f g s (.array x) dt u).1 = answerOf solver f g s x u := by
  unfold explicitASIF
  rw [call_eq _ hen, asifFilter_core]
  unfold asifCore answerOf explicitGenRows
  have w1 : (aprep s x u).ext.objWeight = s.ext.objWeight := rfl
  have w2 : (aprep s x u).ext.numSlack = s.ext.numSlack := rfl
  have w3 : (aprep s x u).ext.controlDim = s.ext.controlDim := rfl
  have w4 : (aprep s x u).ext.constraintNames = s.ext.constraintNames := rfl
  have w5 : (aprep s x u).ext.solverException = s.ext.solverException := rfl
  have w6 : (aprep s x u).constraints = s.constraints := rfl
  have w7 : (aprep s x u).ext.actuation = s.ext.actuation := rfl
  have w8 : (aprep s x u).ext.direct = s.ext.direct := rfl
  obtain ⟨d1, d2⟩ := aprep_direct h x u
  rw [w6, w3, w2, aprep_rows h x u, ← d1, ← d2]
  rcases explicitRows f g (cacheParams s.constraints) (cacheEnabled s.constraints) s.ext.controlDim s.ext.numSlack x 0
      s.constraints with er | bar
  · rfl
  · simp only [w2, w3, w8, w7]
    rcases directRows (aprep s x u).ext.directParams (aprep s x u).ext.directEnabled s.ext.controlDim s.ext.numSlack x
        s.ext.direct with er | dr
    · rfl
    · simp only
      unfold optimize
      simp only [w1, w2, w3, w4, w5]
      rcases quadprogSolve solver s.ext.objWeight (u ++ zeros s.ext.numSlack) (s.ext.actuation ++ bar ++ dr) with ⟨z, iact⟩ | msg
      · simp only
        rcases causingLoop s.ext.constraintNames iact [] with ⟨er | _, l⟩
        · rfl
        · simp only
          rw [clipControl_congr s.toBase]
          · rcases s.toBase.clipControl (z.take s.ext.controlDim) with er | v <;> rfl
          · rfl
          · rfl
      · by_cases hm : msg = inconsistentMsg
        · by_cases hx : s.ext.solverException = true
          · simp [hm, hx]
          · simp only [hm, hx, if_true, not_false_eq_true, Bool.false_eq_true]
            rw [clipControl_congr s.toBase]
            · generalize s.toBase.clipControl _ = r
              cases r <;> rfl
            · rfl
            · rfl
        · simp [hm]

theorem causingLoop_error {names : List String} {iact : List Int} {acc : List String} {e : PyErr}
    (h : (causingLoop names iact acc).1 = .error e) : e = .indexError := by
  induction iact generalizing acc with
  | nil => simp [causingLoop] at h
  | cons i is ih =>
    unfold causingLoop at h
    rcases hg : pyGet names (i - 1) with _ | key
    · rw [hg] at h
      simp only [Except.error.injEq] at h
      exact h.symm
    · rw [hg] at h
      exact ih h

theorem causingLoop_ok_iff {names : List String} {iact : List Int} {acc : List String} :
    (causingLoop names iact acc).1 = .ok () ↔ ∀ i ∈ iact, (pyGet names (i - 1)).isSome := by
  induction iact generalizing acc with
  | nil => simp [causingLoop]
  | cons i is ih =>
    unfold causingLoop
    rcases hg : pyGet names (i - 1) with _ | key
    · simp [hg]
    · simp only [ih, List.mem_cons, forall_eq_or_imp, hg, Option.isSome_some, true_and]

theorem pyGet_isSome {α : Type} {l : List α} {i : Int} (hi : 0 ≤ i) : (pyGet l i).isSome ↔ i.toNat < l.length := by
  unfold pyGet
  rw [if_pos hi]
  simp

theorem pyGet_mono {α : Type} {l m : List α} (hl : l.length ≤ m.length) {i : Int} (h : (pyGet l i).isSome) : (pyGet m i).isSome := by
  unfold pyGet at *
  by_cases h0 : 0 ≤ i
  · rw [if_pos h0] at *
    rw [Option.isSome_iff_ne_none, ne_eq, List.getElem?_eq_none_iff] at h ⊢
    omega
  · rw [if_neg h0] at *
    by_cases h1 : 0 ≤ i + l.length
    · rw [if_pos (by omega)]
      rw [Option.isSome_iff_ne_none, ne_eq, List.getElem?_eq_none_iff]
      omega
    · rw [if_neg h1] at h
      simp at h

/-- The object with caches and constraint names as a module constructed with the current constraints would have them. -/
def tidy (nm : List String) (s : ASIFObj K S P X) : ASIFObj K S P X :=
  { s with params := cacheParams s.constraints, constraintEnabled := cacheEnabled s.constraints
           ext := { s.ext with constraintNames := nm } }

/-- What any use of a module keeps, with its dictionary of constraints changed. -/
structure Loose (s : ASIFObj K S P X) : Prop extends Keys s where
  slack : s.ext.numSlack = (slackScales s.constraints).length
  weight : s.ext.objWeight = List.replicate s.ext.controlDim 1 ++ slackWeights s.constraints
  act : ∃ names, actuationMats s.controlBoundsLow s.controlBoundsHigh s.ext.controlDim s.ext.numSlack =
    .ok (s.ext.actuation, names)

theorem Loose.ofInv {s : ASIFObj K S P X} (h : ASIFInv s) : Loose s :=
  ⟨⟨h.wf.nodup, h.dnodup, h.dparams, h.denabled⟩, h.slack, h.weight, h.act⟩

theorem Loose.inv {s : ASIFObj K S P X} (h : Loose s) (nm : List String) : ASIFInv (tidy nm s) :=
  ⟨⟨h.nodup, dictKeys_map _ _, dictKeys_map _ _⟩, h.dnodup, h.dparams, h.denabled, h.slack, h.weight, h.act⟩

theorem Loose.tidyKeys {s : ASIFObj K S P X} (h : Loose s) (nm : List String) : Keys (tidy nm s) :=
  ⟨h.nodup, h.dnodup, h.dparams, h.denabled⟩

/-- The names a module constructed with the current constraints would have. -/
theorem Loose.names {s : ASIFObj K S P X} (h : Loose s) : ∃ nm, ExplicitNames (tidy nm s) := by
  obtain ⟨names, hn⟩ := h.act
  exact ⟨names ++ (dictKeys s.constraints ++ dictKeys s.ext.direct), names, hn, rfl⟩

end

section
variable [Field K] [LinearOrder K] [IsStrictOrderedRing K] [HasSqrt K] [LawfulSqrt K]

/-- The rows handed to the solver when the generation succeeds, in terms of the tidied object. -/
theorem loose_rows {f : S → List K} {g : S → List (List K)} {s : ASIFObj K S P X} (h : Loose s) {nm : List String}
    (hn : ExplicitNames (tidy nm s)) {x : S} (u : List K) (dt : K) {bar dr : List (Row K)}
    (hb : explicitRows f g (cacheParams s.constraints) (cacheEnabled s.constraints) s.ext.controlDim s.ext.numSlack x 0
      s.constraints = .ok bar)
    (hd : directRows (directP s.ext.direct) (directE s.ext.direct)
        s.ext.controlDim s.ext.numSlack x s.ext.direct = .ok dr) :
    nm.length = (s.ext.actuation ++ bar ++ dr).length ∧
    (∀ r ∈ s.ext.actuation ++ bar ++ dr, r.w.length = s.ext.controlDim + s.ext.numSlack) ∧
    ∀ w d : List K, w.length = s.ext.controlDim → d.length = s.ext.numSlack →
      (Feasible s.ext.objWeight.length (s.ext.actuation ++ bar ++ dr) (w ++ d) ↔ AdmissibleS f g s x w d) ∧
      List.Forall₂ (RepCond w d) (nm.zip (s.ext.actuation ++ bar ++ dr)) (explicitConds f g s x w d) := by
  have hgen : explicitGenRows f g (aprep (tidy nm s) x u) x dt = (.ok (s.ext.actuation ++ bar), aprep (tidy nm s) x u) := by
    unfold explicitGenRows
    have e : explicitRows f g (aprep (tidy nm s) x u).params (aprep (tidy nm s) x u).constraintEnabled
        (aprep (tidy nm s) x u).ext.controlDim (aprep (tidy nm s) x u).ext.numSlack x 0 (aprep (tidy nm s) x u).constraints =
        .ok bar := (aprep_rows (h.tidyKeys nm) x u).trans hb
    rw [e]
    rfl
  have hdir : directRows (aprep (tidy nm s) x u).ext.directParams (aprep (tidy nm s) x u).ext.directEnabled
      (tidy nm s).ext.controlDim (tidy nm s).ext.numSlack x (tidy nm s).ext.direct = .ok dr := by
    obtain ⟨d1, d2⟩ := aprep_direct (h.tidyKeys nm) x u
    rw [d1, d2]
    exact hd
  obtain ⟨h1, h2, h3⟩ := explicit_rep (h.inv nm) hn hgen hdir
  refine ⟨h1, h2, fun w d hw hd' => ⟨?_, h3 w d hw hd'⟩⟩
  have := explicit_feasible (h.inv nm) hn hgen hdir (u := w) (d := d) hw hd'
  exact ⟨fun hf => let a := this.1 hf; ⟨a.len, a.slen, a.bounds, a.barrier, a.direct⟩,
    fun a => this.2 ⟨a.len, a.slen, a.bounds, a.barrier, a.direct⟩⟩

/-- The call is the one of the tidied object, or the list of names is too short. -/
theorem loose_call {solver : Solver K} (hspec : SolverSpec solver) (f : S → List K) (g : S → List (List K))
    {s : ASIFObj K S P X} (h : Loose s) (hpos : ScalesPos s.constraints) (hen : s.enable = true) {nm : List String}
    (hn : ExplicitNames (tidy nm s)) (x : S) (dt : K) (u : List K) :
    (explicitASIF solver f g s (.array x) dt u).1 = (explicitASIF solver f g (tidy nm s) (.array x) dt u).1 ∨
    (s.ext.constraintNames.length < nm.length ∧ (explicitASIF solver f g s (.array x) dt u).1 = .error .indexError ∧
      ∃ w d, AdmissibleS f g s x w d) := by
  rw [explicit_answer solver f g h.toKeys hen, explicit_answer solver f g (h.tidyKeys nm) hen]
  unfold answerOf
  have e1 : (tidy nm s).constraints = s.constraints := rfl
  have e2 : (tidy nm s).ext.direct = s.ext.direct := rfl
  have e3 : (tidy nm s).ext.constraintNames = nm := rfl
  have e4 : (tidy nm s).ext.controlDim = s.ext.controlDim := rfl
  have e5 : (tidy nm s).ext.numSlack = s.ext.numSlack := rfl
  have e6 : (tidy nm s).ext.objWeight = s.ext.objWeight := rfl
  have e7 : (tidy nm s).ext.actuation = s.ext.actuation := rfl
  have e8 : (tidy nm s).ext.solverException = s.ext.solverException := rfl
  have e9 : (tidy nm s).toBase = s.toBase := rfl
  rw [e1, e2, e3, e4, e5, e6, e7, e8, e9]
  rcases hb : explicitRows f g (cacheParams s.constraints) (cacheEnabled s.constraints) s.ext.controlDim s.ext.numSlack x 0
      s.constraints with er | bar
  · exact .inl rfl
  · simp only
    rcases hd : directRows (directP s.ext.direct) (directE s.ext.direct)
        s.ext.controlDim s.ext.numSlack x s.ext.direct with er | dr
    · exact .inl rfl
    · simp only
      rcases hq : quadprogSolve solver s.ext.objWeight (u ++ zeros s.ext.numSlack) (s.ext.actuation ++ bar ++ dr) with ⟨z, iact⟩ | msg
      · simp only
        obtain ⟨hl, -, hfeas⟩ := loose_rows h hn u dt hb hd
        obtain ⟨hqs, hal, hrw⟩ := quadprogSolve_dims (Or.inl ⟨_, _, hq⟩)
        have hG := objWeight_pos (h.inv nm) hpos
        obtain ⟨hfz, -, -, htight, -⟩ := hspec.solved _ _ _ _ _ hG hal hrw (hqs.symm.trans hq)
        have hok : (causingLoop nm iact []).1 = .ok () := by
          refine causingLoop_ok_iff.2 fun i hi => ?_
          obtain ⟨r, hr, -⟩ := htight i hi
          obtain ⟨h1, h2, -⟩ := rowAt_some hr
          rw [pyGet_isSome (by omega), hl]
          exact h2
        rw [hok]
        rcases h1 : (causingLoop s.ext.constraintNames iact []).1 with er | _
        · have hzl := hfz.1.trans (objWeight_length (h.inv nm))
          have hvl : (z.take s.ext.controlDim).length = s.ext.controlDim := by
            rw [List.length_take, hzl]; exact Nat.min_eq_left (Nat.le_add_right _ _)
          have hdl : (z.drop s.ext.controlDim).length = s.ext.numSlack := by
            rw [List.length_drop, hzl]; exact Nat.add_sub_cancel_left _ _
          refine .inr ⟨?_, by rw [causingLoop_error h1], z.take s.ext.controlDim, z.drop s.ext.controlDim,
            (hfeas _ _ hvl hdl).1.1 (by rw [List.take_append_drop]; exact hfz)⟩
          by_contra hc
          have := (causingLoop_ok_iff (acc := [])).2 fun i hi => pyGet_mono (m := s.ext.constraintNames) (by omega) (causingLoop_ok_iff.1 hok i hi)
          rw [this] at h1
          cases h1
        · exact .inl rfl
      · exact .inl rfl

end

section
variable [Add K] [Mul K] [Neg K] [Sub K] [Zero K] [One K] [OfNat K 10] [HasSqrt K] [LinearOrder K]

theorem keys_foldl {V W : Type} (f : V → W) (cs : Dict V) (d : Dict W) (hn : (dictKeys cs).Nodup)
    (hd : dictKeys d = dictKeys cs) : dictKeys (cs.foldl (fun d kc => dictSet d kc.1 (f kc.2)) d) = dictKeys cs := by
  rw [foldl_dictSet_same f cs d hn hd]
  exact dictKeys_map _ _

/-- A call keeps what is needed, and the names. -/
theorem loose_after_call (solver : Solver K) (f : S → List K) (g : S → List (List K)) {s : ASIFObj K S P X} (h : Loose s)
    (i : InputState S) (dt : K) (u : List K) : Loose (explicitASIF solver f g s i dt u).2 ∧
      (explicitASIF solver f g s i dt u).2.ext.constraintNames = s.ext.constraintNames ∧
      (explicitASIF solver f g s i dt u).2.ext.direct = s.ext.direct ∧
      (explicitASIF solver f g s i dt u).2.ext.actuation = s.ext.actuation := by
  by_cases hen : s.enable = true
  · cases i with
    | notArray =>
      unfold explicitASIF
      rw [filterControlCB_enabled hen]
      simp only [computeFilteredControl, getStateDefault]
      exact ⟨⟨⟨h.nodup, h.dnodup, h.dparams, h.denabled⟩, h.slack, h.weight, h.act⟩, rfl, rfl, rfl⟩
    | array x =>
      obtain ⟨iv, ca, cz, hc⟩ := call_frame (genFrame_explicit f g) solver hen x dt u
      unfold explicitASIF
      rw [hc, explicitGen_same]
      obtain ⟨d1, d2⟩ := aprep_direct h.toKeys x u
      refine ⟨⟨⟨h.nodup, h.dnodup, ?_, ?_⟩, h.slack, h.weight, h.act⟩, rfl, rfl, rfl⟩
      · show dictKeys (aprep s x u).ext.directParams = _
        rw [d1]; exact dictKeys_map _ _
      · show dictKeys (aprep s x u).ext.directEnabled = _
        rw [d2]; exact dictKeys_map _ _
  · have hen : s.enable = false := by simpa using hen
    unfold explicitASIF
    rw [filterControlCB_disabled hen]
    exact ⟨⟨⟨h.nodup, h.dnodup, h.dparams, h.denabled⟩, h.slack, h.weight, h.act⟩, rfl, rfl, rfl⟩

theorem loose_step (solver : Solver K) (f : S → List K) (g : S → List (List K)) {s : ASIFObj K S P X} (h : Loose s)
    (op : AOp K S P) : Loose (stepE solver f g s op).2 ∧
      (stepE solver f g s op).2.ext.constraintNames = s.ext.constraintNames ∧
      (stepE solver f g s op).2.ext.direct.length = s.ext.direct.length ∧
      (stepE solver f g s op).2.ext.actuation = s.ext.actuation := by
  cases op with
  | call i dt u =>
    obtain ⟨h1, h2, h3, h4⟩ := loose_after_call solver f g h i dt u
    exact ⟨h1, h2, by rw [← h3]; rfl, h4⟩
  | edit hh =>
    have e : dictKeys (editConstraints hh s).constraints = dictKeys s.constraints := by
      simp [editConstraints, dictKeys, List.map_map, Function.comp_def]
    have e2 : slackScales (editConstraints hh s).constraints = slackScales s.constraints := slackScales_edit hh _
    refine ⟨⟨⟨?_, h.dnodup, h.dparams, h.denabled⟩, ?_, ?_, h.act⟩, rfl, rfl, rfl⟩
    · show (dictKeys (editConstraints hh s).constraints).Nodup
      rw [e]; exact h.nodup
    · show _ = (slackScales (editConstraints hh s).constraints).length
      rw [e2]; exact h.slack
    · show _ = _ ++ slackWeights (editConstraints hh s).constraints
      rw [slackWeights_eq, e2, ← slackWeights_eq]; exact h.weight
  | editDirect hh =>
    have e : dictKeys (editDirect hh s).ext.direct = dictKeys s.ext.direct := by
      simp [editDirect, CBObj.setExt, dictKeys, List.map_map, Function.comp_def]
    refine ⟨⟨⟨h.nodup, ?_, ?_, ?_⟩, h.slack, h.weight, h.act⟩, rfl, ?_, rfl⟩
    · show (dictKeys (editDirect hh s).ext.direct).Nodup
      rw [e]; exact h.dnodup
    · show dictKeys s.ext.directParams = dictKeys (editDirect hh s).ext.direct
      rw [e]; exact h.dparams
    · show dictKeys s.ext.directEnabled = dictKeys (editDirect hh s).ext.direct
      rw [e]; exact h.denabled
    · simp [stepE, editDirect, CBObj.setExt]
  | update i =>
    cases i with
    | notArray => exact ⟨h, rfl, rfl, rfl⟩
    | array x => exact ⟨⟨⟨h.nodup, h.dnodup, h.dparams, h.denabled⟩, h.slack, h.weight, h.act⟩, rfl, rfl, rfl⟩
  | setEnable b => exact ⟨⟨⟨h.nodup, h.dnodup, h.dparams, h.denabled⟩, h.slack, h.weight, h.act⟩, rfl, rfl, rfl⟩
  | reset => exact ⟨⟨⟨h.nodup, h.dnodup, h.dparams, h.denabled⟩, h.slack, h.weight, h.act⟩, rfl, rfl, rfl⟩

theorem ChangedUse.loose {solver : Solver K} {f : S → List K} {g : S → List (List K)} {m s : ASIFObj K S P X}
    (hm : ASIFInv m) (h : ChangedUse solver f g m s) : Loose s ∧ s.ext.constraintNames = m.ext.constraintNames ∧
      s.ext.direct.length = m.ext.direct.length ∧ s.ext.actuation = m.ext.actuation := by
  induction h with
  | start => exact ⟨.ofInv hm, rfl, rfl, rfl⟩
  | @change s cs _ hn hs ih =>
    obtain ⟨h, h2, h3, h4⟩ := ih
    refine ⟨⟨⟨hn, h.dnodup, h.dparams, h.denabled⟩, ?_, ?_, h.act⟩, h2, h3, h4⟩
    · show _ = (slackScales cs).length
      rw [hs]; exact h.slack
    · show _ = _ ++ slackWeights cs
      rw [slackWeights_eq, hs, ← slackWeights_eq]; exact h.weight
  | @use s op _ ih =>
    obtain ⟨h, h2, h3, h4⟩ := ih
    obtain ⟨k1, k2, k3, k4⟩ := loose_step solver f g h op
    exact ⟨k1, k2.trans h2, k3.trans h3, k4.trans h4⟩

end

end RTA

namespace RTA
variable {K S P X : Type} [Field K] [LinearOrder K] [IsStrictOrderedRing K] [HasSqrt K] [LawfulSqrt K]

/-- A call with fitting shapes and an admissible control, in terms of the solver. -/
theorem loose_solved {solver : Solver K} (hspec : SolverSpec solver) {f : S → List K} {g : S → List (List K)}
    {s : ASIFObj K S P X} (h : Loose s) (hpos : ScalesPos s.constraints) (hen : s.enable = true) {x : S} (hsh : ShapesOK f g s x)
    (dt : K) {u : List K} (hu : u.length = s.ext.controlDim) (hadm : ∃ w d, AdmissibleS f g s x w d) :
    ∃ (bar dr : List (Row K)) (z : List K) (iact : List Int),
      explicitRows f g (cacheParams s.constraints) (cacheEnabled s.constraints) s.ext.controlDim s.ext.numSlack x 0
        s.constraints = .ok bar ∧
      directRows (directP s.ext.direct) (directE s.ext.direct) s.ext.controlDim s.ext.numSlack x s.ext.direct = .ok dr ∧
      Feasible s.ext.objWeight.length (s.ext.actuation ++ bar ++ dr) z ∧
      (∀ y, Feasible s.ext.objWeight.length (s.ext.actuation ++ bar ++ dr) y →
        qpObj s.ext.objWeight (u ++ zeros s.ext.numSlack) z ≤ qpObj s.ext.objWeight (u ++ zeros s.ext.numSlack) y) ∧
      (∀ i ∈ iact, ∃ r, rowAt (s.ext.actuation ++ bar ++ dr) i = some r ∧ dot r.w z = r.b ∧ ∃ w ∈ r.w, w ≠ 0) ∧
      (∀ y, y.length = s.ext.objWeight.length →
        (∀ i ∈ iact, ∀ r, rowAt (s.ext.actuation ++ bar ++ dr) i = some r → RowHolds r y) →
        qpObj s.ext.objWeight (u ++ zeros s.ext.numSlack) z ≤ qpObj s.ext.objWeight (u ++ zeros s.ext.numSlack) y) ∧
      AdmissibleS f g s x (z.take s.ext.controlDim) (z.drop s.ext.controlDim) ∧
      ((∀ i ∈ iact, i ≤ s.ext.constraintNames.length) →
        (explicitASIF solver f g s (.array x) dt u).1 = .ok (z.take s.ext.controlDim)) ∧
      ((∃ i ∈ iact, s.ext.constraintNames.length < i) → (explicitASIF solver f g s (.array x) dt u).1 = .error .indexError) := by
  obtain ⟨hcp, hce⟩ := cached h.nodup
  obtain ⟨bar, hb⟩ := explicitRows_total (n := s.ext.controlDim) (k := s.ext.numSlack) s.constraints hcp hce hsh.alpha hsh.grad
    hsh.input hsh.cols 0
  have hdp : (∀ kc ∈ s.ext.direct, dictGet (directP s.ext.direct) kc.1 = some kc.2.params) ∧
      (∀ kc ∈ s.ext.direct, dictGet (directE s.ext.direct) kc.1 = some kc.2.enabled) := by
    constructor
    · intro kc hkc
      unfold directP
      rw [dictGet_map (fun c : DirectConstraint K S P => c.params), dictGet_of_mem_nodup _ h.dnodup (k := kc.1) (v := kc.2) hkc]
      rfl
    · intro kc hkc
      unfold directE
      rw [dictGet_map (fun c : DirectConstraint K S P => c.enabled), dictGet_of_mem_nodup _ h.dnodup (k := kc.1) (v := kc.2) hkc]
      rfl
  obtain ⟨dr, hd⟩ := directRows_total (n := s.ext.controlDim) (k := s.ext.numSlack) s.ext.direct hdp.1 hdp.2 hsh.direct
  obtain ⟨nm, hn⟩ := h.names
  obtain ⟨hl, hwid, hfeas⟩ := loose_rows h hn u dt hb hd
  have hG := objWeight_pos (h.inv nm) hpos
  have hGl : s.ext.objWeight.length = s.ext.controlDim + s.ext.numSlack := objWeight_length (s := tidy nm s) (h.inv nm)
  have hal : (u ++ zeros s.ext.numSlack).length = s.ext.objWeight.length := by
    rw [List.length_append, zeros_length, hGl, hu]
  have hrw : ∀ r ∈ s.ext.actuation ++ bar ++ dr, r.w.length = s.ext.objWeight.length := by rw [hGl]; exact hwid
  have hqs : quadprogSolve solver s.ext.objWeight (u ++ zeros s.ext.numSlack) (s.ext.actuation ++ bar ++ dr) =
      solver s.ext.objWeight (u ++ zeros s.ext.numSlack) (s.ext.actuation ++ bar ++ dr) := by
    unfold quadprogSolve
    rw [if_pos ⟨hal, hrw⟩]
  have hans := explicit_answer solver f g h.toKeys hen x dt u
  unfold answerOf at hans
  rw [hb] at hans
  simp only [hd] at hans
  rw [hqs] at hans
  rcases hq : solver s.ext.objWeight (u ++ zeros s.ext.numSlack) (s.ext.actuation ++ bar ++ dr) with ⟨z, iact⟩ | msg
  · rw [hq] at hans
    simp only at hans
    obtain ⟨hfz, hmin, -, htight, hsuff⟩ := hspec.solved _ _ _ _ _ hG hal hrw hq
    have hzl := hfz.1.trans hGl
    have hvl : (z.take s.ext.controlDim).length = s.ext.controlDim := by
      rw [List.length_take, hzl]; exact Nat.min_eq_left (Nat.le_add_right _ _)
    have hdl : (z.drop s.ext.controlDim).length = s.ext.numSlack := by
      rw [List.length_drop, hzl]; exact Nat.add_sub_cancel_left _ _
    have hav := (hfeas _ _ hvl hdl).1.1 (by rw [List.take_append_drop]; exact hfz)
    obtain ⟨names, hact⟩ := h.act
    obtain ⟨fl, fh⟩ := boundFits_of_act hact
    have hcl := C05_clip_identity s.toBase (z.take s.ext.controlDim) (by rw [hvl]; exact fl) (by rw [hvl]; exact fh) hav.bounds
    have hpos1 : ∀ i ∈ iact, 1 ≤ i := by
      intro i hi
      obtain ⟨r, hr, -⟩ := htight i hi
      exact (rowAt_some hr).1
    refine ⟨bar, dr, z, iact, hb, hd, hfz, hmin, htight, hsuff, hav, ?_, ?_⟩
    · intro hle
      have hok : (causingLoop s.ext.constraintNames iact []).1 = .ok () :=
        causingLoop_ok_iff.2 fun i hi => by
          have := hpos1 i hi
          have := hle i hi
          rw [pyGet_isSome (by omega)]
          omega
      rw [hans, hok]
      exact hcl
    · rintro ⟨i, hi, hlt⟩
      have hnok : ¬ (causingLoop s.ext.constraintNames iact []).1 = .ok () := by
        intro hok
        have h1 := hpos1 i hi
        have := causingLoop_ok_iff.1 hok i hi
        rw [pyGet_isSome (by omega)] at this
        omega
      rcases he : (causingLoop s.ext.constraintNames iact []).1 with er | _
      · rw [hans, he, causingLoop_error he]
      · exact absurd he hnok
  · obtain ⟨w, d, hw⟩ := hadm
    exact absurd ⟨_, (hfeas w d hw.len (hw.slen.trans h.slack.symm)).1.2 hw⟩ (hspec.failed _ _ _ _ hG hal hrw hq).2

/-- The rows with one more constraint at the end. -/
theorem explicitRows_snoc {f : S → List K} {g : S → List (List K)} {cs : Dict (Constraint K S P)} {k : String}
    {c : Constraint K S P} (hn : (dictKeys (cs ++ [(k, c)])).Nodup) {n m : Nat} {x : S} {bar bar' : List (Row K)}
    (hb : explicitRows f g (cacheParams cs) (cacheEnabled cs) n m x 0 cs = .ok bar)
    (hb' : explicitRows f g (cacheParams (cs ++ [(k, c)])) (cacheEnabled (cs ++ [(k, c)])) n m x 0 (cs ++ [(k, c)]) = .ok bar') :
    ∃ r, bar' = bar ++ [r] := by
  have hn' : (dictKeys cs).Nodup := by
    have : dictKeys (cs ++ [(k, c)]) = dictKeys cs ++ [k] := by simp [dictKeys]
    rw [this, List.nodup_append] at hn
    exact hn.1
  obtain ⟨p1, e1⟩ := cached hn
  obtain ⟨p2, e2⟩ := cached hn'
  rw [explicitRows_append, explicitRows_congr cs (fun kc hk => (p1 kc (by simp [hk])).trans (p2 kc hk).symm)
    (fun kc hk => (e1 kc (by simp [hk])).trans (e2 kc hk).symm), hb] at hb'
  simp only at hb'
  rcases h2 : explicitRows f g (cacheParams (cs ++ [(k, c)])) (cacheEnabled (cs ++ [(k, c)])) n m x (0 + (slackScales cs).length)
      [(k, c)] with er | r2
  · rw [h2] at hb'; cases hb'
  · rw [h2] at hb'
    simp only [Except.ok.injEq] at hb'
    have : r2.length = 1 := by
      unfold explicitRows at h2
      split at h2
      · simp only at h2
        split at h2
        · cases h2
        · split at h2
          · cases h2
          · simp only [explicitRows, Except.ok.injEq] at h2
            rw [← h2]; rfl
      · cases h2
    obtain ⟨r, rfl⟩ := List.length_eq_one_iff.1 this
    exact ⟨r, hb'.symm⟩

theorem rowAt_append_left {rows : List (Row K)} (more : List (Row K)) {i : Int} (h1 : 1 ≤ i) (hi : i ≤ rows.length) :
    rowAt (rows ++ more) i = rowAt rows i := by
  unfold rowAt
  rw [if_pos h1, if_pos h1, List.getElem?_append_left (by omega)]

theorem assignSlack_snoc (cs : Dict (Constraint K S P)) (k : String) (c : Constraint K S P) (hc : c.slackPriorityScale = none)
    (d : List K) : assignSlack (cs ++ [(k, c)]) d = assignSlack cs d ++ [(c, 0)] := by
  induction cs generalizing d with
  | nil => simp [assignSlack, hc]
  | cons kc cs ih =>
    obtain ⟨q, c'⟩ := kc
    simp only [List.cons_append, assignSlack, ih]
    split <;> rfl

theorem slackScales_snoc (cs : Dict (Constraint K S P)) (k : String) (c : Constraint K S P) (hc : c.slackPriorityScale = none) :
    slackScales (cs ++ [(k, c)]) = slackScales cs := by
  simp [slackScales, hc]

end RTA
