import Verif.Lemmas.ChangedSet
import Verif.Lemmas.ImplicitHist

/-!
Only the entries for the current constraints matter among the copies of `params` and flags (for C116, implicit modules).
-/
set_option linter.unusedSectionVars false
namespace RTA
variable {K S P X A : Type}

/-- The object with other copies of `params` and flags. -/
def patchC {E : Type} (p : Dict P) (e : Dict Bool) (s : CBObj K S P E) : CBObj K S P E :=
  { s with params := p, constraintEnabled := e }

/-- The copies a module constructed with the current constraints would have. -/
def tidyC {E : Type} (s : CBObj K S P E) : CBObj K S P E := patchC (cacheParams s.constraints) (cacheEnabled s.constraints) s

/-- Row generation reads the copies at the keys of the constraints only. -/
def GenPatch (gen : ASIFObj K S P X → S → K → Except PyErr (List (Row K)) × ASIFObj K S P X) : Prop :=
  ∀ (s : ASIFObj K S P X) (p : Dict P) (e : Dict Bool) (x : S) (dt : K), (∀ kc ∈ s.constraints, dictGet p kc.1 = dictGet s.params kc.1) →
    (∀ kc ∈ s.constraints, dictGet e kc.1 = dictGet s.constraintEnabled kc.1) →
    gen (patchC p e s) x dt = ((gen s x dt).1, patchC p e (gen s x dt).2)

section
variable [Add K] [Mul K] [Neg K] [Sub K] [Zero K] [One K] [OfNat K 10] [HasSqrt K] [LinearOrder K]

theorem optimize_patchC (solver : Solver K) (p : Dict P) (e : Dict Bool) (o : ASIFObj K S P X) (u : List K) (rows : List (Row K)) :
    optimize solver (patchC p e o) u rows = ((optimize solver o u rows).1, patchC p e (optimize solver o u rows).2) := by
  rcases o with ⟨b, c, p, en, v, st, ep, cd, se, ns, ow, cn, ac, di, dp, de, ca, ex⟩
  unfold optimize
  dsimp only [patchC]
  cases quadprogSolve solver ow (u ++ zeros ns) rows with
  | solved v iact =>
    dsimp only
    rcases causingLoop cn iact [] with ⟨r, l⟩
    cases r <;> rfl
  | valueError msg =>
    dsimp only
    by_cases h1 : msg = inconsistentMsg
    · simp only [if_pos h1]
      cases se <;> rfl
    · simp only [if_neg h1]

theorem asifCore_patchC {gen : ASIFObj K S P X → S → K → Except PyErr (List (Row K)) × ASIFObj K S P X} (hg : GenPatch gen)
    (solver : Solver K) {s : ASIFObj K S P X} {p : Dict P} {e : Dict Bool} (hp : ∀ kc ∈ s.constraints, dictGet p kc.1 = dictGet s.params kc.1)
    (he : ∀ kc ∈ s.constraints, dictGet e kc.1 = dictGet s.constraintEnabled kc.1) (x : S) (dt : K) (u : List K) :
    asifCore solver gen (patchC p e s) x dt u = ((asifCore solver gen s x dt u).1, patchC p e (asifCore solver gen s x dt u).2) := by
  unfold asifCore
  rw [hg s p e x dt hp he]
  rcases gen s x dt with ⟨er | rows, s1⟩
  · rfl
  · have e1 : (patchC p e s1).ext = s1.ext := rfl
    simp only [e1]
    rcases directRows s1.ext.directParams s1.ext.directEnabled s1.ext.controlDim s1.ext.numSlack x s1.ext.direct with er | dr
    · rfl
    · simp only [optimize_patchC]
      rcases optimize solver s1 u (rows ++ dr) with ⟨er | a, s2⟩ <;> rfl

theorem call_tidyC {gen : ASIFObj K S P X → S → K → Except PyErr (List (Row K)) × ASIFObj K S P X} (hg : GenPatch gen)
    (solver : Solver K) {s : ASIFObj K S P X} (hn : (dictKeys s.constraints).Nodup) (hen : s.enable = true) (x : S) (dt : K) (u : List K) :
    filterControlCB getStateDefault (asifFilter solver gen) (tidyC s) (.array x) dt u =
      ((filterControlCB getStateDefault (asifFilter solver gen) s (.array x) dt u).1,
        patchC (cacheParams s.constraints) (cacheEnabled s.constraints)
          (filterControlCB getStateDefault (asifFilter solver gen) s (.array x) dt u).2) := by
  have hw : WF (withDesired (tidyC s) u) := ⟨hn, dictKeys_map _ _, dictKeys_map _ _⟩
  have hap : aprep (tidyC s) x u = patchC (cacheParams s.constraints) (cacheEnabled s.constraints) (aprep s x u) := by
    unfold aprep prep
    rw [updateParams_eq hw]
    rfl
  have hen' : (tidyC s).enable = true := hen
  rw [call_eq _ hen, call_eq _ hen', asifFilter_core, asifFilter_core, hap]
  obtain ⟨c1, c2⟩ := cached hn
  obtain ⟨u1, u2⟩ := updated_params (s := withDesired s u) hn
  rw [asifCore_patchC hg solver (s := aprep s x u) (fun kc hk => (c1 kc hk).trans (u1 kc hk).symm)
    (fun kc hk => (c2 kc hk).trans (u2 kc hk).symm)]
  rcases asifCore solver gen (aprep s x u) x dt u with ⟨er | c, s1⟩
  · rfl
  · have e1 : (patchC (cacheParams s.constraints) (cacheEnabled s.constraints) s1).toBase = s1.toBase := rfl
    simp only [e1]
    rcases s1.toBase.clipControl c with er | c' <;> rfl

end

section
variable [Field K] [LinearOrder K] [IsStrictOrderedRing K] [FloorRing K] [HasSqrt K]

theorem sensLoop_patchC (E : ImplicitEnv K) (n : Nat) (dt : K) (p : Dict P) (e : Dict Bool) (m : Nat) (s : ImplicitObj K P A)
    (x : List K) (M : List (List K)) (acc : List (List K × List (List K))) :
    sensLoop E.ad E.f E.g E.pred n dt m (patchC p e s) x M acc =
      ((sensLoop E.ad E.f E.g E.pred n dt m s x M acc).1, patchC p e (sensLoop E.ad E.f E.g E.pred n dt m s x M acc).2) := by
  induction m generalizing s x M acc with
  | zero => rfl
  | succ m ih =>
    have hb : implicitBackupControl (patchC p e s) x dt =
        ((implicitBackupControl s x dt).1, patchC p e (implicitBackupControl s x dt).2) := by
      unfold implicitBackupControl BackupController.generateControl
      have e : (patchC p e s).ext.extra.ctrl.gen x dt (patchC p e s).ext.extra.ctrl.state =
        s.ext.extra.ctrl.gen x dt s.ext.extra.ctrl.state := rfl
      rw [e]
      rcases s.ext.extra.ctrl.gen x dt s.ext.extra.ctrl.state with _ | ⟨ub, z⟩ <;> rfl
    simp only [sensLoop]
    rw [hb]
    rcases implicitBackupControl s x dt with ⟨er | u, s1⟩
    · rfl
    · simp only
      have e : backupJacobian E.ad E.f E.g (patchC p e s1).ext.extra.ctrl.gen n dt
        (patchC p e s1).ext.extra.ctrl.state (E.pred x dt u) =
        backupJacobian E.ad E.f E.g s1.ext.extra.ctrl.gen n dt s1.ext.extra.ctrl.state (E.pred x dt u) := rfl
      rw [e]
      rcases backupJacobian E.ad E.f E.g s1.ext.extra.ctrl.gen n dt s1.ext.extra.ctrl.state (E.pred x dt u) with er | J
      · rfl
      · exact ih s1 _ _ _

theorem sensIntegrate_patchC (E : ImplicitEnv K) (dt : K) (p : Dict P) (e : Dict Bool) (m : Nat) (s : ImplicitObj K P A) (x : List K) :
    sensIntegrate E.ad E.f E.g E.pred (patchC p e s) x dt m =
      ((sensIntegrate E.ad E.f E.g E.pred s x dt m).1, patchC p e (sensIntegrate E.ad E.f E.g E.pred s x dt m).2) := by
  unfold sensIntegrate BackupController.save
  have e1 : (patchC p e s).ext.extra.ctrl.state = s.ext.extra.ctrl.state := rfl
  rw [e1]
  rcases s.ext.extra.ctrl.state.copy with er | z
  · rfl
  · simp only
    have key : sensLoop E.ad E.f E.g E.pred x.length dt (m - 1)
        (setBackup (patchC p e s) ⟨(patchC p e s).ext.extra.ctrl.gen, (patchC p e s).ext.extra.ctrl.stateInitial, z, s.ext.extra.ctrl.state⟩)
        x (eyeMat x.length) [(x, eyeMat x.length)] = _ :=
      sensLoop_patchC E x.length dt p e (m - 1) (setBackup s { s.ext.extra.ctrl with stateSaved := z }) x (eyeMat x.length) _
    rw [key]
    rcases sensLoop E.ad E.f E.g E.pred x.length dt (m - 1) (setBackup s { s.ext.extra.ctrl with stateSaved := z }) x
      (eyeMat x.length) [(x, eyeMat x.length)] with ⟨er | tr, s1⟩ <;> rfl

theorem implicitRows_congr {f : List K → List K} {g : List K → List (List K)} {p p' : Dict P} {e e' : Dict Bool} {n k : Nat}
    {x : List K} {tr : List (List K × List (List K))} (cs : Dict (Constraint K (List K) P))
    (hp : ∀ kc ∈ cs, dictGet p kc.1 = dictGet p' kc.1) (he : ∀ kc ∈ cs, dictGet e kc.1 = dictGet e' kc.1) (sc : Nat) :
    implicitRows f g p e n k x tr sc cs = implicitRows f g p' e' n k x tr sc cs := by
  induction cs generalizing sc with
  | nil => rfl
  | cons kc cs ih =>
    obtain ⟨q, c⟩ := kc
    have h1 := hp (q, c) (by simp)
    have h2 := he (q, c) (by simp)
    simp only at h1 h2
    have ih := ih (fun kc h => hp kc (by simp [h])) (fun kc h => he kc (by simp [h]))
    unfold implicitRows
    simp only [h1, h2, ih]

theorem genPatch_implicit (E : ImplicitEnv K) : GenPatch (implicitGenRows (K := K) (P := P) (A := A) E.ad E.f E.g E.pred) := by
  intro s p e x dt hp he
  unfold implicitGenRows
  have e0 : (patchC p e s).ext.extra.backupWindow = s.ext.extra.backupWindow := rfl
  rw [e0]
  rcases backupSteps s.ext.extra.backupWindow dt with er | m
  · rfl
  · simp only
    by_cases hm : m < 0
    · rw [if_pos hm, if_pos hm]
    · rw [if_neg hm, if_neg hm, sensIntegrate_patchC]
      obtain ⟨z, sv, hfr⟩ := sensIntegrate_frame E s x dt (m.toNat + 1)
      generalize sensIntegrate E.ad E.f E.g E.pred s x dt (m.toNat + 1) = r at hfr ⊢
      rcases r with ⟨er | tr, s1⟩
      · rfl
      · simp only at hfr ⊢
        have q1 : s1.constraints = s.constraints := by rw [hfr]; rfl
        have q2 : s1.params = s.params := by rw [hfr]; rfl
        have q3 : s1.constraintEnabled = s.constraintEnabled := by rw [hfr]; rfl
        have hr := implicitRows_congr (f := E.f) (g := E.g) (p := p) (p' := s1.params) (e := e) (e' := s1.constraintEnabled)
          (n := s1.ext.controlDim) (k := s1.ext.numSlack) (x := x) (tr := tr) s1.constraints
          (fun kc hk => by rw [q2]; exact hp kc (q1 ▸ hk)) (fun kc hk => by rw [q3]; exact he kc (q1 ▸ hk)) 0
        have e1 : implicitRows E.f E.g (patchC p e s1).params (patchC p e s1).constraintEnabled (patchC p e s1).ext.controlDim
          (patchC p e s1).ext.numSlack x tr 0 (patchC p e s1).constraints =
          implicitRows E.f E.g s1.params s1.constraintEnabled s1.ext.controlDim s1.ext.numSlack x tr 0 s1.constraints := hr
        rw [e1]
        rcases implicitRows E.f E.g s1.params s1.constraintEnabled s1.ext.controlDim s1.ext.numSlack x tr 0 s1.constraints with er | rs <;> rfl

theorem invI_tidy {s : ImplicitObj K P A} (h : InvI s) : InvI (tidyC s) :=
  ⟨⟨⟨h.inv.wf.nodup, dictKeys_map _ _, dictKeys_map _ _⟩, h.inv.dnodup, h.inv.dparams, h.inv.denabled, h.inv.slack, h.inv.weight,
    h.inv.act⟩, h.names, h.initial⟩

theorem tidy_call {solver : Solver K} {E : ImplicitEnv K} {s : ImplicitObj K P A} (hn : (dictKeys s.constraints).Nodup)
    (i : InputState (List K)) (dt : K) (u : List K) :
    (E.call solver (tidyC s) i dt u).1 = (E.call solver s i dt u).1 ∧
      tidyC (E.call solver (tidyC s) i dt u).2 = tidyC (E.call solver s i dt u).2 ∧
      (E.call solver (tidyC s) i dt u).2.ext = (E.call solver s i dt u).2.ext ∧
      (E.call solver (tidyC s) i dt u).2.toBase = (E.call solver s i dt u).2.toBase := by
  unfold ImplicitEnv.call implicitASIF
  by_cases hen : s.enable = true
  · cases i with
    | notArray =>
      have hen' : (tidyC s).enable = true := hen
      rw [filterControlCB_enabled hen, filterControlCB_enabled hen']
      exact ⟨rfl, rfl, rfl, rfl⟩
    | array x =>
      rw [call_tidyC (genPatch_implicit E) solver hn hen]
      exact ⟨rfl, rfl, rfl, rfl⟩
  · have hen : s.enable = false := by simpa using hen
    have hen' : (tidyC s).enable = false := hen
    rw [filterControlCB_disabled hen, filterControlCB_disabled hen']
    exact ⟨rfl, rfl, rfl, rfl⟩

theorem tidy_step {solver : Solver K} {E : ImplicitEnv K} {s : ImplicitObj K P A} (hn : (dictKeys s.constraints).Nodup)
    (op : AOp K (List K) P) : tidyC (stepI solver E (tidyC s) op).2 = tidyC (stepI solver E s op).2 := by
  cases op with
  | call i dt u => exact (tidy_call hn i dt u).2.1
  | edit h => rfl
  | editDirect h => rfl
  | update i => cases i <;> rfl
  | setEnable b => rfl
  | reset =>
    simp only [stepI, implicitReset]
    rfl

theorem ChangedUseI.inv {solver : Solver K} {E : ImplicitEnv K} {m s : ImplicitObj K P A} (hm : InvI m)
    (h : ChangedUseI solver E m s) : InvI (tidyC s) := by
  induction h with
  | start => exact invI_tidy hm
  | @change s cs _ hn hs ih =>
    refine ⟨⟨⟨hn, dictKeys_map _ _, dictKeys_map _ _⟩, ih.inv.dnodup, ih.inv.dparams, ih.inv.denabled, ?_, ?_, ih.inv.act⟩, ih.names,
      ih.initial⟩
    · show _ = (slackScales cs).length
      rw [hs]; exact ih.inv.slack
    · show _ = _ ++ slackWeights cs
      rw [slackWeights_eq, hs, ← slackWeights_eq]; exact ih.inv.weight
  | @use s op _ ih =>
    have e : tidyC (stepI solver E (tidyC s) op).2 = tidyC (stepI solver E s op).2 :=
      tidy_step (s := s) ih.inv.wf.nodup op
    rw [← e]
    exact invI_tidy (invI_step solver E ih op)

end

end RTA
