import Verif.Lemmas.ASIFRows
import Verif.Lemmas.Simplex

/-!
The optimisation module as an object: invariants and a complete description of successful calls.
-/
set_option linter.unusedSectionVars false
namespace RTA
variable {K S P X : Type}

/-- The object on which the inequality rows are generated in a call at state `x`. -/
def aprep (s : ASIFObj K S P X) (x : S) (u : List K) : ASIFObj K S P X := updateDirectParams (prep s x u)

/-- The object with new constraint names and subclass attributes. -/
def withNames (s : ASIFObj K S P X) (nm : List String) (ex : X) : ASIFObj K S P X :=
  s.setExt { s.ext with constraintNames := nm, extra := ex }

/-- Row generation only touches the list of constraint names and the attributes of further subclasses. -/
def GenFrame (gen : ASIFObj K S P X → S → K → Except PyErr (List (Row K)) × ASIFObj K S P X) : Prop :=
  ∀ s x dt, ∃ nm ex, (gen s x dt).2 = withNames s nm ex

/-- What every constructed optimisation module satisfies (`asifInv_init`) and every operation preserves. -/
structure ASIFInv [Zero K] [One K] [Neg K] [HasSqrt K] (s : ASIFObj K S P X) : Prop where
  wf : WF s
  dnodup : (dictKeys s.ext.direct).Nodup
  dparams : dictKeys s.ext.directParams = dictKeys s.ext.direct
  denabled : dictKeys s.ext.directEnabled = dictKeys s.ext.direct
  slack : s.ext.numSlack = (slackScales s.constraints).length
  weight : s.ext.objWeight = List.replicate s.ext.controlDim 1 ++ slackWeights s.constraints
  act : ∃ names, actuationMats s.controlBoundsLow s.controlBoundsHigh s.ext.controlDim s.ext.numSlack =
    .ok (s.ext.actuation, names)

/-- The names list of an explicit module: actuation names, constraint keys, direct constraint keys. -/
def ExplicitNames [Zero K] [One K] [Neg K] (s : ASIFObj K S P X) : Prop :=
  ∃ names, actuationMats s.controlBoundsLow s.controlBoundsHigh s.ext.controlDim s.ext.numSlack =
    .ok (s.ext.actuation, names) ∧
    s.ext.constraintNames = names ++ (dictKeys s.constraints ++ dictKeys s.ext.direct)

theorem slackWeights_length [HasSqrt K] (cs : Dict (Constraint K S P)) :
    (slackWeights cs).length = (slackScales cs).length := by
  unfold slackWeights slackScales
  induction cs with
  | nil => rfl
  | cons kc cs ih =>
    rcases h : kc.2.slackPriorityScale with _ | w <;> simp [h, ih]

theorem slackWeights_eq [HasSqrt K] (cs : Dict (Constraint K S P)) :
    slackWeights cs = (slackScales cs).map HasSqrt.sqrt := by
  unfold slackWeights slackScales
  rw [List.map_filterMap]

/-- Direct caches after an update. -/
theorem updateDirectParams_eq {s : ASIFObj K S P X} (hn : (dictKeys s.ext.direct).Nodup)
    (hp : dictKeys s.ext.directParams = dictKeys s.ext.direct) (he : dictKeys s.ext.directEnabled = dictKeys s.ext.direct) :
    updateDirectParams s = s.setExt { s.ext with
      directParams := s.ext.direct.map fun kc => (kc.1, kc.2.params)
      directEnabled := s.ext.direct.map fun kc => (kc.1, kc.2.enabled) } := by
  simp only [updateDirectParams]
  rw [foldl_dictSet_same (fun c : DirectConstraint K S P => c.params) s.ext.direct s.ext.directParams hn hp,
    foldl_dictSet_same (fun c : DirectConstraint K S P => c.enabled) s.ext.direct s.ext.directEnabled hn he]

section inv
variable [Zero K] [One K] [Neg K] [HasSqrt K]

theorem asifInv_updateDirect {s : ASIFObj K S P X} (h : ASIFInv s) : ASIFInv (updateDirectParams s) := by
  rw [updateDirectParams_eq h.dnodup h.dparams h.denabled]
  exact ⟨⟨h.wf.nodup, h.wf.params, h.wf.enabled⟩, h.dnodup, dictKeys_map _ _, dictKeys_map _ _, h.slack, h.weight, h.act⟩

theorem wf_prep {E : Type} {s : CBObj K S P E} (h : WF s) (x : S) (u : List K) : WF (prep s x u) := by
  have := wf_updateParams (wf_withDesired h u)
  exact ⟨this.nodup, this.params, this.enabled⟩

theorem asifInv_prep {s : ASIFObj K S P X} (h : ASIFInv s) (x : S) (u : List K) : ASIFInv (prep s x u) := by
  exact ⟨wf_prep h.wf x u, h.dnodup, h.dparams, h.denabled, h.slack, h.weight, h.act⟩

theorem asifInv_aprep {s : ASIFObj K S P X} (h : ASIFInv s) (x : S) (u : List K) : ASIFInv (aprep s x u) :=
  asifInv_updateDirect (asifInv_prep h x u)

theorem explicitNames_aprep {s : ASIFObj K S P X} (h : ExplicitNames s) (x : S) (u : List K) : ExplicitNames (aprep s x u) := h

/-- Every constructed optimisation module satisfies the invariant and, as constructed, has the explicit names list. -/
theorem asifInv_init {high low : Option (Bound K)} {all : Dict (Constraint K S P)} {use : Option (List String)} {eps : K}
    {n : Nat} {exc : Bool} {direct : Dict (DirectConstraint K S P)} {extra : X} {s : ASIFObj K S P X}
    (hall : (dictKeys all).Nodup) (hd : (dictKeys direct).Nodup)
    (h : asifInit high low all use eps n exc direct extra = .ok s) : ASIFInv s ∧ ExplicitNames s := by
  unfold asifInit at h
  rcases h0 : CBObj.init high low all use
      ({ epsilon := eps, controlDim := n, solverException := exc, numSlack := 0, objWeight := []
         constraintNames := [], actuation := [], direct := direct, directParams := [], directEnabled := []
         causing := none, extra := extra } : ASIFExt K S P X) with e | s0
  · rw [h0] at h; simp at h
  · rw [h0] at h
    simp only at h
    have wf0 := wf_init hall h0
    have hb : s0.ext = { epsilon := eps, controlDim := n, solverException := exc, numSlack := 0, objWeight := []
                         constraintNames := [], actuation := [], direct := direct, directParams := [], directEnabled := []
                         causing := none, extra := extra } := by
      unfold CBObj.init at h0
      split at h0
      · simp at h0
      · simp only [Except.ok.injEq] at h0
        rw [← h0]; rfl
    rcases h1 : actuationMats s0.controlBoundsLow s0.controlBoundsHigh n (slackWeights s0.constraints).length with e | ⟨rows, names⟩
    · rw [h1] at h; simp at h
    · rw [h1] at h
      simp only [Except.ok.injEq] at h
      subst h
      have hdir : s0.ext.direct = direct := by rw [hb]
      refine ⟨⟨⟨wf0.nodup, wf0.params, wf0.enabled⟩, ?_, ?_, ?_, ?_, ?_, ?_⟩, ?_⟩
      · simp only [updateDirectParams, CBObj.setExt, hdir]; exact hd
      · simp only [updateDirectParams, CBObj.setExt, hb]
        rw [foldl_dictSet_nil (fun c : DirectConstraint K S P => c.params) direct hd]
        exact dictKeys_map _ _
      · simp only [updateDirectParams, CBObj.setExt, hb]
        rw [foldl_dictSet_nil (fun c : DirectConstraint K S P => c.enabled) direct hd]
        exact dictKeys_map _ _
      · exact slackWeights_length _
      · simp only [updateDirectParams, CBObj.setExt, hb]
      · refine ⟨names, ?_⟩
        simp only [updateDirectParams, CBObj.setExt, hb]
        exact h1
      · refine ⟨names, ?_, ?_⟩
        · simp only [updateDirectParams, CBObj.setExt, hb]
          exact h1
        · simp only [updateDirectParams, CBObj.setExt, hb]

end inv

theorem directFresh_aprep [Zero K] [One K] [Neg K] [HasSqrt K] {s : ASIFObj K S P X} (h : ASIFInv s) (x : S) (u : List K) :
    (∀ kc ∈ s.ext.direct, dictGet (aprep s x u).ext.directParams kc.1 = some kc.2.params) ∧
    (∀ kc ∈ s.ext.direct, dictGet (aprep s x u).ext.directEnabled kc.1 = some kc.2.enabled) := by
  unfold aprep
  have h' := asifInv_prep h x u
  rw [updateDirectParams_eq h'.dnodup h'.dparams h'.denabled]
  constructor
  · intro kc hkc
    have e : (prep s x u).ext.direct = s.ext.direct := rfl
    simp only [CBObj.setExt, e]
    rw [dictGet_map (fun c : DirectConstraint K S P => c.params), dictGet_of_mem_nodup _ h.dnodup (k := kc.1) (v := kc.2) hkc]
    rfl
  · intro kc hkc
    have e : (prep s x u).ext.direct = s.ext.direct := rfl
    simp only [CBObj.setExt, e]
    rw [dictGet_map (fun c : DirectConstraint K S P => c.enabled), dictGet_of_mem_nodup _ h.dnodup (k := kc.1) (v := kc.2) hkc]
    rfl

theorem cachesFresh_aprep {s : ASIFObj K S P X} (h : WF s) (x : S) (u : List K) : CachesFresh (aprep s x u) :=
  ⟨(cachesFresh_prep h x u).params, (cachesFresh_prep h x u).enabled⟩

/-! ### Calls -/

section calls
variable [Add K] [Mul K] [Sub K] [Zero K] [HasSqrt K] [LinearOrder K]

theorem call_eq {E : Type} (filter : CBObj K S P E → S → K → List K → Except PyErr (List K) × CBObj K S P E)
    {s : CBObj K S P E} (hen : s.enable = true) (x : S) (dt : K) (u : List K) :
    filterControlCB getStateDefault filter s (.array x) dt u =
      match filter (prep s x u) x dt u with
      | (.error e, s1) => (.error e, s1)
      | (.ok c, s1) =>
        match s1.toBase.clipControl c with
        | .error e => (.error e, withActual s1 c)
        | .ok c' => (.ok c', withActual s1 c') := by
  rw [filterControlCB_enabled hen, computeFiltered_array]
  rcases filter (prep s x u) x dt u with ⟨_ | c, s1⟩
  · rfl
  · simp only
    have : (withActual s1 c).toBase.clipControl c = s1.toBase.clipControl c := rfl
    rw [this]
    rcases s1.toBase.clipControl c with _ | c' <;> rfl

theorem clipControl_congr (b : Base K) {b' : Base K} {w : List K} (h1 : b'.controlBoundsLow = b.controlBoundsLow)
    (h2 : b'.controlBoundsHigh = b.controlBoundsHigh) : b'.clipControl w = b.clipControl w := by
  unfold Base.clipControl; rw [h1, h2]

/-- The outcome of the optimisation step of a successful call. -/
inductive Outcome (solver : Solver K) (s : ASIFObj K S P X) (u : List K) (allRows : List (Row K)) (nm : List String) :
    List K → Option (List String) → Prop
  | solved {z : List K} {iact : List Int} {l : List String} :
      quadprogSolve solver s.ext.objWeight (u ++ zeros s.ext.numSlack) allRows = .solved z iact →
      causingLoop nm iact [] = (.ok (), l) → Outcome solver s u allRows nm (z.take s.ext.controlDim) (some l)
  | infeasible : quadprogSolve solver s.ext.objWeight (u ++ zeros s.ext.numSlack) allRows = .valueError inconsistentMsg →
      s.ext.solverException = false →
      Outcome solver s u allRows nm ((u ++ zeros s.ext.numSlack).take s.ext.controlDim) s.ext.causing

/-- A successful call of an enabled optimisation module, completely described. -/
theorem asif_ok {solver : Solver K} {gen : ASIFObj K S P X → S → K → Except PyErr (List (Row K)) × ASIFObj K S P X}
    (hgen : GenFrame gen) {s s' : ASIFObj K S P X} {x : S} {dt : K} {u v : List K} (hen : s.enable = true)
    (h : filterControlCB getStateDefault (asifFilter solver gen) s (.array x) dt u = (.ok v, s')) :
    ∃ nm ex rows drows w cz, gen (aprep s x u) x dt = (.ok rows, withNames (aprep s x u) nm ex) ∧
      directRows (aprep s x u).ext.directParams (aprep s x u).ext.directEnabled s.ext.controlDim s.ext.numSlack x
        s.ext.direct = .ok drows ∧
      Outcome solver s u (rows ++ drows) nm w cz ∧ s.toBase.clipControl w = .ok v ∧
      s' = ({ withNames (aprep s x u) nm ex with
              toBase := { s.toBase with controlDesired := some u, controlActual := some v
                                        intervening := asifMonitor s.ext.epsilon u w } } : ASIFObj K S P X).setExt
            { (withNames (aprep s x u) nm ex).ext with causing := cz } := by
  rw [call_eq _ hen] at h
  unfold asifFilter at h
  have eap : updateDirectParams (prep s x u) = aprep s x u := rfl
  simp only [eap] at h
  obtain ⟨nm, ex, hfr⟩ := hgen (aprep s x u) x dt
  rcases hg : gen (aprep s x u) x dt with ⟨_ | rows, s1⟩
  · simp [hg] at h
  · rw [hg] at hfr h
    simp only at hfr h
    subst hfr
    have ed : (withNames (aprep s x u) nm ex).ext.direct = s.ext.direct := rfl
    have ep : (withNames (aprep s x u) nm ex).ext.directParams = (aprep s x u).ext.directParams := rfl
    have ee : (withNames (aprep s x u) nm ex).ext.directEnabled = (aprep s x u).ext.directEnabled := rfl
    have en : (withNames (aprep s x u) nm ex).ext.controlDim = s.ext.controlDim := rfl
    have ek : (withNames (aprep s x u) nm ex).ext.numSlack = s.ext.numSlack := rfl
    rw [ed, ep, ee, en, ek] at h
    rcases hd : directRows (aprep s x u).ext.directParams (aprep s x u).ext.directEnabled s.ext.controlDim s.ext.numSlack x
        s.ext.direct with e | drows
    · simp [hd] at h
    · rw [hd] at h
      simp only at h
      unfold optimize at h
      have ew : (withNames (aprep s x u) nm ex).ext.objWeight = s.ext.objWeight := rfl
      have ex' : (withNames (aprep s x u) nm ex).ext.solverException = s.ext.solverException := rfl
      have enm : (withNames (aprep s x u) nm ex).ext.constraintNames = nm := rfl
      simp only [ek, ew, en, ex', enm] at h
      rcases hq : quadprogSolve solver s.ext.objWeight (u ++ zeros s.ext.numSlack) (rows ++ drows) with ⟨z, iact⟩ | msg
      · rw [hq] at h
        simp only at h
        rcases hc : causingLoop nm iact [] with ⟨_ | _, l⟩
        · rw [hc] at h
          simp at h
        · rw [hc] at h
          simp only at h
          rw [clipControl_congr s.toBase] at h
          rotate_left
          · rfl
          · rfl
          rcases hcl : s.toBase.clipControl (z.take s.ext.controlDim) with e | v'
          · rw [hcl] at h; simp at h
          · rw [hcl] at h
            simp only [Prod.mk.injEq, Except.ok.injEq] at h
            obtain ⟨rfl, rfl⟩ := h
            exact ⟨nm, ex, rows, drows, _, _, rfl, rfl, .solved hq hc, hcl, rfl⟩
      · rw [hq] at h
        simp only at h
        by_cases hm : msg = inconsistentMsg
        · subst hm
          by_cases hx : s.ext.solverException = true
          · simp [hx] at h
          · simp only [hx, if_true] at h
            simp only [Bool.false_eq_true, not_false_eq_true, if_true] at h
            rw [clipControl_congr s.toBase] at h
            rotate_left
            · rfl
            · rfl
            rcases hcl : s.toBase.clipControl ((u ++ zeros s.ext.numSlack).take s.ext.controlDim) with e | v'
            · rw [hcl] at h; simp at h
            · rw [hcl] at h
              simp only [Prod.mk.injEq, Except.ok.injEq] at h
              obtain ⟨rfl, rfl⟩ := h
              exact ⟨nm, ex, rows, drows, _, _, rfl, rfl, .infeasible hq (by simpa using hx), hcl, rfl⟩
        · simp [hm] at h

end calls

theorem quadprogSolve_dims {solver : Solver K} {G a : List K} {rows : List (Row K)}
    (h : (∃ z i, quadprogSolve solver G a rows = .solved z i) ∨ quadprogSolve solver G a rows = .valueError inconsistentMsg) :
    quadprogSolve solver G a rows = solver G a rows ∧ a.length = G.length ∧ ∀ r ∈ rows, r.w.length = G.length := by
  unfold quadprogSolve at h ⊢
  split at h
  · rename_i hd
    rw [if_pos hd]
    exact ⟨rfl, hd.1, hd.2⟩
  · rcases h with ⟨z, i, h⟩ | h
    · simp at h
    · simp [inconsistentMsg] at h

/-! ### Explicit modules -/

section explicitGen
variable [Add K] [Mul K] [Neg K] [Sub K] [Zero K] [One K] [OfNat K 10] [HasSqrt K] [LinearOrder K]

theorem genFrame_explicit (f : S → List K) (g : S → List (List K)) :
    GenFrame (explicitGenRows (K := K) (S := S) (P := P) (X := X) f g) := by
  intro s x dt
  refine ⟨s.ext.constraintNames, s.ext.extra, ?_⟩
  unfold explicitGenRows
  split <;> rfl

theorem explicitGenRows_ok {f : S → List K} {g : S → List (List K)} {s s1 : ASIFObj K S P X} {x : S} {dt : K}
    {rows : List (Row K)} (h : explicitGenRows f g s x dt = (.ok rows, s1)) :
    s1 = s ∧ ∃ bar, explicitRows f g s.params s.constraintEnabled s.ext.controlDim s.ext.numSlack x 0 s.constraints = .ok bar ∧
      rows = s.ext.actuation ++ bar := by
  unfold explicitGenRows at h
  split at h
  · simp at h
  · rename_i bar hb
    simp only [Prod.mk.injEq, Except.ok.injEq] at h
    exact ⟨h.2.symm, bar, hb, h.1.symm⟩

end explicitGen

section explicit
variable [Field K] [LinearOrder K] [IsStrictOrderedRing K] [HasSqrt K]

/-- The rows handed to the solver by an explicit module represent its conditions, under the names the module uses. -/
theorem explicit_rep {f : S → List K} {g : S → List (List K)} {s : ASIFObj K S P X} (hinv : ASIFInv s)
    (hnames : ExplicitNames s) {x : S} {dt : K} {u0 : List K} {s1 : ASIFObj K S P X} {rows drows : List (Row K)}
    (hr : explicitGenRows f g (aprep s x u0) x dt = (.ok rows, s1))
    (hd : directRows (aprep s x u0).ext.directParams (aprep s x u0).ext.directEnabled s.ext.controlDim s.ext.numSlack x
      s.ext.direct = .ok drows) :
    s.ext.constraintNames.length = (rows ++ drows).length ∧
    (∀ r ∈ rows ++ drows, r.w.length = s.ext.controlDim + s.ext.numSlack) ∧
    ∀ u d : List K, u.length = s.ext.controlDim → d.length = s.ext.numSlack →
      List.Forall₂ (RepCond u d) (s.ext.constraintNames.zip (rows ++ drows)) (explicitConds f g s x u d) := by
  obtain ⟨-, bar, hbar, rfl⟩ := explicitGenRows_ok hr
  obtain ⟨names, hact, hnm⟩ := hnames
  have hcf := cachesFresh_aprep hinv.wf x u0
  have hdf := directFresh_aprep hinv x u0
  have e1 : (aprep s x u0).ext.controlDim = s.ext.controlDim := rfl
  have e2 : (aprep s x u0).ext.numSlack = s.ext.numSlack := rfl
  have e3 : (aprep s x u0).constraints = s.constraints := rfl
  have e4 : (aprep s x u0).ext.actuation = s.ext.actuation := rfl
  rw [e1, e2, e3] at hbar
  rw [e4]
  have hcp := hcf.params
  have hce := hcf.enabled
  rw [e3] at hcp hce
  obtain ⟨bw, brep⟩ := explicitRows_spec s.constraints hcp hce 0 (by rw [hinv.slack]; omega) hbar
  obtain ⟨dw, drep⟩ := directRows_spec s.ext.direct hdf.1 hdf.2 hd
  obtain ⟨aw, alen⟩ := actuation_width hact
  have blen : bar.length = (dictKeys s.constraints).length := by
    have := (brep (zeros s.ext.controlDim) (zeros s.ext.numSlack) (by simp) (by simp)).length_eq
    rw [this, assignSlack_length]; simp [dictKeys]
  have dlen : drows.length = (dictKeys s.ext.direct).length := by
    have := (drep (zeros s.ext.controlDim) (zeros s.ext.numSlack) (by simp) (by simp)).length_eq
    rw [this]; simp [dictKeys]
  refine ⟨?_, ?_, ?_⟩
  · rw [hnm]; simp only [List.length_append]; omega
  · intro r hr
    rcases List.mem_append.1 hr with hr | hr
    · rcases List.mem_append.1 hr with hr | hr
      · exact aw r hr
      · exact bw r hr
    · exact dw r hr
  · intro u d hu hd'
    rw [hnm, List.append_assoc]
    unfold explicitConds
    refine forall₂_zip_append alen.symm (actuation_rep hact hu) (forall₂_zip_append blen.symm ?_ (direct_rep (drep u d hu hd')))
    refine barrier_rep _ ?_ ?_
    · rw [assignSlack_length]; simp [dictKeys]
    · have := brep u d hu hd'
      rwa [List.drop_zero] at this

/-- Feasible points of the quadratic program are the admissible controls. -/
theorem explicit_feasible {f : S → List K} {g : S → List (List K)} {s : ASIFObj K S P X} (hinv : ASIFInv s)
    (hnames : ExplicitNames s) {x : S} {dt : K} {u0 : List K} {s1 : ASIFObj K S P X} {rows drows : List (Row K)}
    (hr : explicitGenRows f g (aprep s x u0) x dt = (.ok rows, s1))
    (hd : directRows (aprep s x u0).ext.directParams (aprep s x u0).ext.directEnabled s.ext.controlDim s.ext.numSlack x
      s.ext.direct = .ok drows) {u d : List K} (hu : u.length = s.ext.controlDim) (hd' : d.length = s.ext.numSlack) :
    Feasible s.ext.objWeight.length (rows ++ drows) (u ++ d) ↔ AdmissibleS f g s x u d := by
  obtain ⟨hl, -, hrep⟩ := explicit_rep hinv hnames hr hd
  rw [← explicitConds_all hu (hd'.trans hinv.slack), ← forall₂_zip_holds hl (hrep u d hu hd')]
  unfold Feasible
  have : (u ++ d).length = s.ext.objWeight.length := by
    rw [hinv.weight, List.length_append, List.length_append, List.length_replicate, slackWeights_length, ← hinv.slack, hu, hd']
  simp [this]

theorem objWeight_length {s : ASIFObj K S P X} (hinv : ASIFInv s) :
    s.ext.objWeight.length = s.ext.controlDim + s.ext.numSlack := by
  rw [hinv.weight, List.length_append, List.length_replicate, slackWeights_length, ← hinv.slack]

theorem objWeight_pos [LawfulSqrt K] {s : ASIFObj K S P X} (hinv : ASIFInv s) (hpos : ScalesPos s.constraints) :
    ∀ w ∈ s.ext.objWeight, 0 < w := by
  intro w hw
  rw [hinv.weight, slackWeights_eq] at hw
  rcases List.mem_append.1 hw with hw | hw
  · rw [List.eq_of_mem_replicate hw]; exact zero_lt_one
  · obtain ⟨q, hq, rfl⟩ := List.mem_map.1 hw
    have h0 := hpos q hq
    rcases (LawfulSqrt.nonneg q h0.le).lt_or_eq with h | h
    · exact h
    · have := LawfulSqrt.mul_self q h0.le
      rw [← h, mul_zero] at this
      exact absurd this.symm h0.ne'

theorem boundFits_of_act {lo hi : Option (Bound K)} {n k : Nat} {rows : List (Row K)} {names : List String}
    (h : actuationMats lo hi n k = .ok (rows, names)) : BoundFits n lo ∧ BoundFits n hi := by
  have key : ∀ {b : Bound K} {l : List K}, lowerBoundVec b n = .ok l → BoundFits n (some b) := by
    intro b l hl
    unfold lowerBoundVec at hl
    unfold BoundFits
    rcases b with b | ⟨j, l'⟩
    · trivial
    · cases j with
      | true =>
        simp only at hl ⊢
        split at hl
        · right; assumption
        · simp at hl
      | false =>
        simp only at hl ⊢
        split at hl
        · right; assumption
        · split at hl
          · left; assumption
          · simp at hl
  unfold actuationMats at h
  cases lo with
  | none =>
    cases hi with
    | none => exact ⟨trivial, trivial⟩
    | some b =>
      simp only at h
      rcases hl : lowerBoundVec b n with e | l
      · simp [hl] at h
      · exact ⟨trivial, key hl⟩
  | some b =>
    rcases hl : lowerBoundVec b n with e | l
    · simp [hl] at h
    · cases hi with
      | none => exact ⟨key hl, trivial⟩
      | some b' =>
        rcases hl' : lowerBoundVec b' n with e | l'
        · simp [hl, hl'] at h
        · exact ⟨key hl, key hl'⟩

end explicit

end RTA
