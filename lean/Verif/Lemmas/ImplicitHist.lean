import Verif.Spec.ImplicitHistory
import Verif.Lemmas.ImplicitCall
import Verif.Lemmas.ASIFReach

/-!
What a call of an implicit module depends on and what it leaves behind.
-/
set_option linter.unusedSectionVars false
namespace RTA
variable {K P A : Type} [Field K] [LinearOrder K] [IsStrictOrderedRing K] [FloorRing K] [HasSqrt K]

/-- Number of actuation rows. -/
def actIdx (s : ImplicitObj K P A) : Nat :=
  (if s.controlBoundsLow.isSome then s.ext.controlDim else 0) + (if s.controlBoundsHigh.isSome then s.ext.controlDim else 0)

/-- Agreement on what matters among names and subclass attributes: the names of the actuation rows and everything about
the controller but the saved state. -/
def RelI (n : Nat) (a b : List String × ImplicitExt K A) : Prop :=
  b.1.take n = a.1.take n ∧ ∃ sv, b.2 = { a.2 with ctrl := { a.2.ctrl with stateSaved := sv } }

theorem relI_refl (n : Nat) (a : List String × ImplicitExt K A) : RelI n a a := ⟨rfl, a.2.ctrl.stateSaved, rfl⟩

/-- `blur` for implicit modules. -/
def blurI (s : ImplicitObj K P A) (iv : Bool) (ca : Option (List K)) (cz : Option (List String)) (nm : List String)
    (sv : CState A) : ImplicitObj K P A :=
  blur s iv ca cz nm { s.ext.extra with ctrl := { s.ext.extra.ctrl with stateSaved := sv } }

theorem sensLoop_blur (E : ImplicitEnv K) (n : Nat) (dt : K) (iv : Bool) (ca : Option (List K)) (cz : Option (List String))
    (nm : List String) (sv : CState A) (m : Nat) (s : ImplicitObj K P A) (x : List K) (S : List (List K))
    (acc : List (List K × List (List K))) :
    (sensLoop E.ad E.f E.g E.pred n dt m (blurI s iv ca cz nm sv) x S acc).1 =
      (sensLoop E.ad E.f E.g E.pred n dt m s x S acc).1 ∧
    (sensLoop E.ad E.f E.g E.pred n dt m (blurI s iv ca cz nm sv) x S acc).2 =
      blurI (sensLoop E.ad E.f E.g E.pred n dt m s x S acc).2 iv ca cz nm sv := by
  induction m generalizing s x S acc with
  | zero => exact ⟨rfl, rfl⟩
  | succ m ih =>
    have hb : implicitBackupControl (blurI s iv ca cz nm sv) x dt =
        ((implicitBackupControl s x dt).1, blurI (implicitBackupControl s x dt).2 iv ca cz nm sv) := by
      unfold implicitBackupControl BackupController.generateControl
      have e : (blurI s iv ca cz nm sv).ext.extra.ctrl.gen x dt (blurI s iv ca cz nm sv).ext.extra.ctrl.state =
        s.ext.extra.ctrl.gen x dt s.ext.extra.ctrl.state := rfl
      rw [e]
      rcases s.ext.extra.ctrl.gen x dt s.ext.extra.ctrl.state with _ | ⟨ub, z⟩ <;> rfl
    simp only [sensLoop]
    rw [hb]
    rcases implicitBackupControl s x dt with ⟨e | u, s1⟩
    · exact ⟨rfl, rfl⟩
    · simp only
      have e : backupJacobian E.ad E.f E.g (blurI s1 iv ca cz nm sv).ext.extra.ctrl.gen n dt
        (blurI s1 iv ca cz nm sv).ext.extra.ctrl.state (E.pred x dt u) =
        backupJacobian E.ad E.f E.g s1.ext.extra.ctrl.gen n dt s1.ext.extra.ctrl.state (E.pred x dt u) := rfl
      rw [e]
      rcases backupJacobian E.ad E.f E.g s1.ext.extra.ctrl.gen n dt s1.ext.extra.ctrl.state (E.pred x dt u) with er | J
      · exact ⟨rfl, rfl⟩
      · exact ih s1 _ _ _

theorem sensIntegrate_blur (E : ImplicitEnv K) (dt : K) (iv : Bool) (ca : Option (List K)) (cz : Option (List String))
    (nm : List String) (sv : CState A) (m : Nat) (s : ImplicitObj K P A) (x : List K) :
    (sensIntegrate E.ad E.f E.g E.pred (blurI s iv ca cz nm sv) x dt m).1 =
      (sensIntegrate E.ad E.f E.g E.pred s x dt m).1 ∧
    ∃ sv', (sensIntegrate E.ad E.f E.g E.pred (blurI s iv ca cz nm sv) x dt m).2 =
      blurI (sensIntegrate E.ad E.f E.g E.pred s x dt m).2 iv ca cz nm sv' := by
  unfold sensIntegrate BackupController.save
  have e : (blurI s iv ca cz nm sv).ext.extra.ctrl.state = s.ext.extra.ctrl.state := rfl
  rw [e]
  rcases s.ext.extra.ctrl.state.copy with er | z
  · exact ⟨rfl, sv, rfl⟩
  · simp only
    have e2 : setBackup (blurI s iv ca cz nm sv) ⟨(blurI s iv ca cz nm sv).ext.extra.ctrl.gen,
          (blurI s iv ca cz nm sv).ext.extra.ctrl.stateInitial, z, s.ext.extra.ctrl.state⟩ =
        blurI (setBackup s { s.ext.extra.ctrl with stateSaved := z }) iv ca cz nm z := rfl
    rw [e2]
    obtain ⟨h1, h2⟩ := sensLoop_blur E x.length dt iv ca cz nm z (m - 1) (setBackup s { s.ext.extra.ctrl with stateSaved := z }) x
      (eyeMat x.length) [(x, eyeMat x.length)]
    obtain ⟨z', hfr⟩ := sensLoop_frame E.ad E.f E.g E.pred x.length dt (m - 1) (setBackup s { s.ext.extra.ctrl with stateSaved := z }) x
      (eyeMat x.length) [(x, eyeMat x.length)]
    rcases hs : sensLoop E.ad E.f E.g E.pred x.length dt (m - 1) (setBackup s { s.ext.extra.ctrl with stateSaved := z }) x
      (eyeMat x.length) [(x, eyeMat x.length)] with ⟨er | tr, s1⟩
    · rcases ht : sensLoop E.ad E.f E.g E.pred x.length dt (m - 1)
        (blurI (setBackup s { s.ext.extra.ctrl with stateSaved := z }) iv ca cz nm z) x
        (eyeMat x.length) [(x, eyeMat x.length)] with ⟨er' | tr', t1⟩
      · rw [hs, ht] at h1 h2
        exact ⟨h1, z, h2⟩
      · rw [hs, ht] at h1; simp at h1
    · rcases ht : sensLoop E.ad E.f E.g E.pred x.length dt (m - 1)
        (blurI (setBackup s { s.ext.extra.ctrl with stateSaved := z }) iv ca cz nm z) x
        (eyeMat x.length) [(x, eyeMat x.length)] with ⟨er' | tr', t1⟩
      · rw [hs, ht] at h1; simp at h1
      · rw [hs, ht] at h1 h2
        rw [hs] at hfr
        simp only at h1 h2 hfr ⊢
        refine ⟨h1, z, ?_⟩
        rw [h2, hfr]
        rfl

theorem genCong_implicit (E : ImplicitEnv K) (n : Nat) :
    GenCongOn (fun s => actIdx s = n) (RelI n) (implicitGenRows (K := K) (P := P) (A := A) E.ad E.f E.g E.pred) := by
  rintro s iv ca cz nm ex x dt hn ⟨hnm, sv, hex⟩
  simp only at hnm hex
  have hbl : blur s iv ca cz nm ex = blurI s iv ca cz nm sv := by rw [hex]; rfl
  rw [hbl]
  unfold implicitGenRows
  have e : (blurI s iv ca cz nm sv).ext.extra.backupWindow = s.ext.extra.backupWindow := rfl
  rw [e]
  have self : RelI n (s.ext.constraintNames, s.ext.extra) (nm, ex) := ⟨hnm, sv, hex⟩
  rcases backupSteps s.ext.extra.backupWindow dt with er | m
  · exact ⟨rfl, nm, ex, self, by simp, by rw [← hbl]⟩
  · simp only
    by_cases hm : m < 0
    · rw [if_pos hm, if_pos hm]
      exact ⟨rfl, nm, ex, self, by simp, by rw [← hbl]⟩
    · rw [if_neg hm, if_neg hm]
      obtain ⟨h1, sv', h2⟩ := sensIntegrate_blur E dt iv ca cz nm sv (m.toNat + 1) s x
      obtain ⟨z, sw, hfr⟩ := sensIntegrate_frame E s x dt (m.toNat + 1)
      rcases hs : sensIntegrate E.ad E.f E.g E.pred s x dt (m.toNat + 1) with ⟨er | tr, s1⟩
      · rcases ht : sensIntegrate E.ad E.f E.g E.pred (blurI s iv ca cz nm sv) x dt (m.toNat + 1) with ⟨er' | tr', t1⟩
        · rw [hs, ht] at h1 h2
          rw [hs] at hfr
          simp only [Except.error.injEq] at h1 h2 hfr ⊢
          refine ⟨h1, nm, _, ⟨?_, sv', rfl⟩, by simp, h2⟩
          simp only
          rw [hfr]; exact hnm
        · rw [hs, ht] at h1; simp at h1
      · rcases ht : sensIntegrate E.ad E.f E.g E.pred (blurI s iv ca cz nm sv) x dt (m.toNat + 1) with ⟨er' | tr', t1⟩
        · rw [hs, ht] at h1; simp at h1
        · rw [hs, ht] at h1 h2
          rw [hs] at hfr
          simp only [Except.ok.injEq] at h1 h2 hfr ⊢
          subst h1 h2
          have er : implicitRows E.f E.g (blurI s1 iv ca cz nm sv').params (blurI s1 iv ca cz nm sv').constraintEnabled
              (blurI s1 iv ca cz nm sv').ext.controlDim (blurI s1 iv ca cz nm sv').ext.numSlack x tr' 0
              (blurI s1 iv ca cz nm sv').constraints =
              implicitRows E.f E.g s1.params s1.constraintEnabled s1.ext.controlDim s1.ext.numSlack x tr' 0 s1.constraints := rfl
          rw [er]
          have hn1 : s1.ext.constraintNames = s.ext.constraintNames := by rw [hfr]; rfl
          rcases implicitRows E.f E.g s1.params s1.constraintEnabled s1.ext.controlDim s1.ext.numSlack x tr' 0 s1.constraints
            with er | rows
          · refine ⟨rfl, nm, _, ⟨?_, sv', rfl⟩, by simp, rfl⟩
            simp only
            rw [hn1]; exact hnm
          · have hi : actIdx s1 = n := by rw [← hn, hfr]; rfl
            have hnames : implicitNames (blurI s1 iv ca cz nm sv') (m.toNat + 1) = implicitNames s1 (m.toNat + 1) := by
              unfold implicitNames
              have e3 : (if (blurI s1 iv ca cz nm sv').controlBoundsLow.isSome then (blurI s1 iv ca cz nm sv').ext.controlDim else 0) +
                (if (blurI s1 iv ca cz nm sv').controlBoundsHigh.isSome then (blurI s1 iv ca cz nm sv').ext.controlDim else 0) = n := hi
              have e4 : (if s1.controlBoundsLow.isSome then s1.ext.controlDim else 0) +
                (if s1.controlBoundsHigh.isSome then s1.ext.controlDim else 0) = n := hi
              have e5 : (blurI s1 iv ca cz nm sv').ext.constraintNames = nm := rfl
              simp only [e3, e4, e5, hnm, hn1]
              rfl
            refine ⟨rfl, implicitNames s1 (m.toNat + 1), { s1.ext.extra with ctrl := { s1.ext.extra.ctrl with stateSaved := sv' } },
              ⟨rfl, sv', rfl⟩, fun _ _ => rfl, ?_⟩
            simp only [hnames]
            rfl

/-- Names after row generation keep their actuation part. -/
theorem implicitGen_names (E : ImplicitEnv K) (s : ImplicitObj K P A) (x : List K) (dt : K) (h : actIdx s ≤ s.ext.constraintNames.length) :
    (implicitGenRows E.ad E.f E.g E.pred s x dt).2.ext.constraintNames.take (actIdx s) = s.ext.constraintNames.take (actIdx s) := by
  unfold implicitGenRows
  rcases backupSteps s.ext.extra.backupWindow dt with e | m
  · rfl
  · simp only
    by_cases hm : m < 0
    · rw [if_pos hm]
    · rw [if_neg hm]
      obtain ⟨z, sw, hfr⟩ := sensIntegrate_frame E s x dt (m.toNat + 1)
      rcases hs : sensIntegrate E.ad E.f E.g E.pred s x dt (m.toNat + 1) with ⟨er | tr, s1⟩
      · rw [hs] at hfr; simp only at hfr ⊢; rw [hfr]; rfl
      · rw [hs] at hfr
        simp only at hfr ⊢
        rcases implicitRows E.f E.g s1.params s1.constraintEnabled s1.ext.controlDim s1.ext.numSlack x tr 0 s1.constraints with er | rows
        · simp only; rw [hfr]; rfl
        · simp only
          have : (implicitNames s1 (m.toNat + 1)) = s.ext.constraintNames.take (actIdx s) ++
              (s.constraints.flatMap (fun kc => List.replicate (m.toNat + 1) kc.1) ++ dictKeys s.ext.direct) := by
            rw [hfr]; rfl
          show (implicitNames s1 (m.toNat + 1)).take (actIdx s) = _
          rw [this, List.take_append_of_le_length (by rw [List.length_take]; omega), List.take_take, Nat.min_self]

/-- Row generation restores the controller when it succeeds, and when the control law does not change it. -/
theorem implicitGen_ctrl (E : ImplicitEnv K) (s : ImplicitObj K P A) (x : List K) (dt : K)
    (h : (∃ rows, (implicitGenRows E.ad E.f E.g E.pred s x dt).1 = .ok rows) ∨ Stateless s.ext.extra.ctrl.gen) :
    ∃ sv, (implicitGenRows E.ad E.f E.g E.pred s x dt).2.ext.extra =
      { s.ext.extra with ctrl := { s.ext.extra.ctrl with stateSaved := sv } } := by
  have hloop : Stateless s.ext.extra.ctrl.gen → ∀ (n m : Nat) (t : ImplicitObj K P A) y S acc,
      t.ext.extra.ctrl.gen = s.ext.extra.ctrl.gen →
      (sensLoop E.ad E.f E.g E.pred n dt m t y S acc).2 = t := by
    intro hst n m
    induction m with
    | zero => intros; rfl
    | succ m ih =>
      intro t y S acc ht
      unfold sensLoop
      have hb : (implicitBackupControl t y dt).2 = t := by
        unfold implicitBackupControl BackupController.generateControl
        rcases hg : t.ext.extra.ctrl.gen y dt t.ext.extra.ctrl.state with _ | ⟨ub, z⟩
        · rfl
        · have := hst y dt t.ext.extra.ctrl.state ub z (by rw [← ht]; exact hg)
          subst this
          rfl
      rcases hc : implicitBackupControl t y dt with ⟨e | u, t1⟩
      · rw [hc] at hb; exact hb
      · rw [hc] at hb
        simp only at hb ⊢
        subst hb
        rcases backupJacobian E.ad E.f E.g t1.ext.extra.ctrl.gen n dt t1.ext.extra.ctrl.state (E.pred y dt u) with er | J
        · rfl
        · exact ih t1 _ _ _ ht
  have hint : ∀ m, ((∃ tr, (sensIntegrate E.ad E.f E.g E.pred s x dt (m + 1)).1 = .ok tr) ∨ Stateless s.ext.extra.ctrl.gen) →
      ∃ sv, (sensIntegrate E.ad E.f E.g E.pred s x dt (m + 1)).2 = setBackup s { s.ext.extra.ctrl with stateSaved := sv } := by
    rintro m (⟨tr, htr⟩ | hst)
    · rcases hs : sensIntegrate E.ad E.f E.g E.pred s x dt (m + 1) with ⟨er | tr', s1⟩
      · rw [hs] at htr; simp at htr
      · exact ⟨_, (sensIntegrate_ok hs).2.2⟩
    · unfold sensIntegrate BackupController.save
      rcases hc : s.ext.extra.ctrl.state.copy with er | z
      · exact ⟨s.ext.extra.ctrl.stateSaved, rfl⟩
      · simp only
        obtain rfl := copy_ok hc
        have hl := hloop hst x.length (m + 1 - 1) (setBackup s { s.ext.extra.ctrl with stateSaved := s.ext.extra.ctrl.state }) x
          (eyeMat x.length) [(x, eyeMat x.length)] rfl
        rcases hs : sensLoop E.ad E.f E.g E.pred x.length dt (m + 1 - 1)
          (setBackup s { s.ext.extra.ctrl with stateSaved := s.ext.extra.ctrl.state }) x (eyeMat x.length)
          [(x, eyeMat x.length)] with ⟨er | tr, s1⟩
        · rw [hs] at hl; exact ⟨_, hl⟩
        · rw [hs] at hl
          simp only at hl ⊢
          exact ⟨s.ext.extra.ctrl.state, by rw [hl]; rfl⟩
  have hsv0 : ∃ sv, s.ext.extra = { s.ext.extra with ctrl := { s.ext.extra.ctrl with stateSaved := sv } } :=
    ⟨s.ext.extra.ctrl.stateSaved, rfl⟩
  unfold implicitGenRows at h ⊢
  rcases hbs : backupSteps s.ext.extra.backupWindow dt with e | m
  · exact hsv0
  · rw [hbs] at h
    simp only at h ⊢
    by_cases hm : m < 0
    · rw [if_pos hm]; exact hsv0
    · rw [if_neg hm] at h ⊢
      rcases hs : sensIntegrate E.ad E.f E.g E.pred s x dt (m.toNat + 1) with ⟨er | tr, s1⟩
      · have hst : Stateless s.ext.extra.ctrl.gen := by
          rcases h with ⟨rows, hr⟩ | h
          · rw [hs] at hr; simp at hr
          · exact h
        obtain ⟨sv, hsv⟩ := hint m.toNat (Or.inr hst)
        rw [hs] at hsv
        simp only at hsv ⊢
        exact ⟨sv, by rw [hsv]; rfl⟩
      · obtain ⟨sv, hsv⟩ := hint m.toNat (Or.inl ⟨tr, by rw [hs]⟩)
        rw [hs] at hsv
        simp only at hsv ⊢
        rcases implicitRows E.f E.g s1.params s1.constraintEnabled s1.ext.controlDim s1.ext.numSlack x tr 0 s1.constraints with er | rows
        · exact ⟨sv, by simp only; rw [hsv]; rfl⟩
        · exact ⟨sv, by simp only; rw [hsv]; rfl⟩

theorem actIdx_le {s : ImplicitObj K P A} (hn : ImplicitNames s) : actIdx s ≤ s.ext.constraintNames.length := by
  obtain ⟨names, hact, ht⟩ := hn
  have h1 := actuation_names_length hact
  have : (s.ext.constraintNames.take names.length).length = names.length := by rw [ht]
  rw [List.length_take] at this
  unfold actIdx
  rw [← h1]
  omega

theorem implicitNames_same {n : Nat} {s t : ImplicitObj K P A} (h : SameAS (RelI n) s t) (hn : actIdx s = n) (hns : ImplicitNames s) :
    ImplicitNames t := by
  obtain ⟨names, hact, ht⟩ := hns
  have h1 := actuation_names_length hact
  refine ⟨names, ?_, ?_⟩
  · rw [h.low, h.high, h.controlDim, h.slack, h.act]; exact hact
  · have : names.length = n := by rw [h1, ← hn]; rfl
    have hr := h.rel.1
    simp only at hr
    rw [this, hr, ← this, ht]

/-- What a call leaves behind, unless row generation fails in the middle of a stateful controller's rollout. -/
theorem implicit_after_call {solver : Solver K} {E : ImplicitEnv K} {s : ImplicitObj K P A} (hi : ASIFInv s)
    (hn : ImplicitNames s) (i : InputState (List K)) (dt : K) (u : List K)
    (h : (∀ x, i = .array x → s.enable = true → ∃ rows, (implicitGenRows E.ad E.f E.g E.pred (aprep s x u) x dt).1 = .ok rows) ∨
      Stateless s.ext.extra.ctrl.gen) :
    SameAS (RelI (actIdx s)) s (E.call solver s i dt u).2 := by
  refine sameAS_after_call (fun a => relI_refl _ a) (genFrame_implicit E) solver (directWF_of_inv hi) i dt u ?_
  intro x hx hen
  refine ⟨?_, ?_⟩
  · have := implicitGen_names E (aprep s x u) x dt (actIdx_le hn)
    exact this
  · have := implicitGen_ctrl E (aprep s x u) x dt (h.imp (fun h => h x hx hen) id)
    exact this

theorem implicitNames_after {E : ImplicitEnv K} {s : ImplicitObj K P A} (hn : ImplicitNames s) (x : List K) (dt : K) (u : List K)
    (iv : Bool) (ca : Option (List K)) (cz : Option (List String)) :
    ImplicitNames (blur (aprep s x u) iv ca cz (implicitGenRows E.ad E.f E.g E.pred (aprep s x u) x dt).2.ext.constraintNames
      (implicitGenRows E.ad E.f E.g E.pred (aprep s x u) x dt).2.ext.extra) := by
  have hk := implicitGen_names E (aprep s x u) x dt (actIdx_le hn)
  obtain ⟨names, hact, ht⟩ := hn
  have h1 := actuation_names_length hact
  refine ⟨names, hact, ?_⟩
  have e : names.length = actIdx (aprep s x u) := by rw [h1]; rfl
  rw [e]
  refine hk.trans ?_
  rw [← e]; exact ht

/-- A call keeps the invariants, whatever happens in it. -/
theorem implicit_call_inv {solver : Solver K} {E : ImplicitEnv K} {s : ImplicitObj K P A} (hi : ASIFInv s)
    (hn : ImplicitNames s) (i : InputState (List K)) (dt : K) (u : List K) :
    ASIFInv (E.call solver s i dt u).2 ∧ ImplicitNames (E.call solver s i dt u).2 ∧
      (∃ z sv, (E.call solver s i dt u).2.ext.extra =
        { s.ext.extra with ctrl := { s.ext.extra.ctrl with state := z, stateSaved := sv } }) := by
  by_cases hen : s.enable = true
  · cases i with
    | notArray =>
      have e : (E.call solver s .notArray dt u).2 = (updateParams (withDesired s u)) := by
        unfold ImplicitEnv.call implicitASIF
        rw [filterControlCB_enabled hen]
        rfl
      rw [e]
      have w := wf_updateParams (wf_withDesired hi.wf u)
      exact ⟨⟨w, hi.dnodup, hi.dparams, hi.denabled, hi.slack, hi.weight, hi.act⟩, hn, s.ext.extra.ctrl.state,
        s.ext.extra.ctrl.stateSaved, rfl⟩
    | array x =>
      obtain ⟨iv, ca, cz, hc⟩ := call_frame (genFrame_implicit E) solver hen x dt u
      have hc : (E.call solver s (.array x) dt u).2 = _ := hc
      rw [hc]
      refine ⟨?_, implicitNames_after hn x dt u iv ca cz, ?_⟩
      · have hs : SameAS (fun _ _ => True) s (blur (aprep s x u) iv ca cz
            (implicitGenRows E.ad E.f E.g E.pred (aprep s x u) x dt).2.ext.constraintNames
            (implicitGenRows E.ad E.f E.g E.pred (aprep s x u) x dt).2.ext.extra) :=
          sameAS_blur_aprep (directWF_of_inv hi) x u iv ca cz _ _ trivial
        exact asifInv_same hs hi
      · show ∃ z sv, (implicitGenRows E.ad E.f E.g E.pred (aprep s x u) x dt).2.ext.extra = _
        unfold implicitGenRows
        rcases backupSteps (aprep s x u).ext.extra.backupWindow dt with e | m
        · exact ⟨s.ext.extra.ctrl.state, s.ext.extra.ctrl.stateSaved, rfl⟩
        · simp only
          by_cases hm : m < 0
          · rw [if_pos hm]; exact ⟨s.ext.extra.ctrl.state, s.ext.extra.ctrl.stateSaved, rfl⟩
          · rw [if_neg hm]
            obtain ⟨z, sv, hfr⟩ := sensIntegrate_frame E (aprep s x u) x dt (m.toNat + 1)
            rcases hs : sensIntegrate E.ad E.f E.g E.pred (aprep s x u) x dt (m.toNat + 1) with ⟨er | tr, s1⟩
            · rw [hs] at hfr; simp only at hfr ⊢; exact ⟨z, sv, by rw [hfr]; rfl⟩
            · rw [hs] at hfr
              simp only at hfr ⊢
              rcases implicitRows E.f E.g s1.params s1.constraintEnabled s1.ext.controlDim s1.ext.numSlack x tr 0 s1.constraints with er | rows
              · exact ⟨z, sv, by simp only; rw [hfr]; rfl⟩
              · exact ⟨z, sv, by simp only; rw [hfr]; rfl⟩
  · have hen : s.enable = false := by simpa using hen
    have e : (E.call solver s i dt u).2 = withActual (withDesired s u) u := by
      unfold ImplicitEnv.call implicitASIF
      rw [filterControlCB_disabled hen]
    rw [e]
    exact ⟨⟨⟨hi.wf.nodup, hi.wf.params, hi.wf.enabled⟩, hi.dnodup, hi.dparams, hi.denabled, hi.slack, hi.weight, hi.act⟩, hn,
      s.ext.extra.ctrl.state, s.ext.extra.ctrl.stateSaved, rfl⟩

/-- The invariants of implicit modules. -/
structure InvI (s : ImplicitObj K P A) : Prop where
  inv : ASIFInv s
  names : ImplicitNames s
  initial : s.ext.extra.ctrl.stateInitial.copy = .ok s.ext.extra.ctrl.stateInitial

theorem invI_step (solver : Solver K) (E : ImplicitEnv K) {s : ImplicitObj K P A} (h : InvI s) (op : AOp K (List K) P) :
    InvI (stepI solver E s op).2 := by
  obtain ⟨hi, hn, h0⟩ := h
  cases op with
  | call i dt u =>
    obtain ⟨a, b, z, sv, c⟩ := implicit_call_inv (solver := solver) (E := E) hi hn i dt u
    refine ⟨a, b, ?_⟩
    show ((E.call solver s i dt u).2).ext.extra.ctrl.stateInitial.copy = .ok ((E.call solver s i dt u).2).ext.extra.ctrl.stateInitial
    rw [c]; exact h0
  | edit h =>
    have e2 : slackScales (editConstraints h s).constraints = slackScales s.constraints := slackScales_edit h _
    refine ⟨⟨wf_edit h hi.wf, hi.dnodup, hi.dparams, hi.denabled, ?_, ?_, hi.act⟩, hn, h0⟩
    · show _ = (slackScales (editConstraints h s).constraints).length
      rw [e2]; exact hi.slack
    · show _ = _ ++ slackWeights (editConstraints h s).constraints
      rw [slackWeights_eq, e2, ← slackWeights_eq]; exact hi.weight
  | editDirect h =>
    have e : dictKeys (editDirect h s).ext.direct = dictKeys s.ext.direct := by
      simp [editDirect, CBObj.setExt, dictKeys, List.map_map, Function.comp_def]
    refine ⟨⟨⟨hi.wf.nodup, hi.wf.params, hi.wf.enabled⟩, ?_, ?_, ?_, hi.slack, hi.weight, hi.act⟩, hn, h0⟩
    · show (dictKeys (editDirect h s).ext.direct).Nodup
      rw [e]; exact hi.dnodup
    · show dictKeys s.ext.directParams = dictKeys (editDirect h s).ext.direct
      rw [e]; exact hi.dparams
    · show dictKeys s.ext.directEnabled = dictKeys (editDirect h s).ext.direct
      rw [e]; exact hi.denabled
  | update i =>
    cases i with
    | notArray => exact ⟨hi, hn, h0⟩
    | array x =>
      exact ⟨⟨⟨hi.wf.nodup, hi.wf.params, hi.wf.enabled⟩, hi.dnodup, hi.dparams, hi.denabled, hi.slack, hi.weight, hi.act⟩, hn, h0⟩
  | setEnable b =>
    exact ⟨⟨⟨hi.wf.nodup, hi.wf.params, hi.wf.enabled⟩, hi.dnodup, hi.dparams, hi.denabled, hi.slack, hi.weight, hi.act⟩, hn, h0⟩
  | reset =>
    have e : (stepI solver E s .reset).2 = setBackup (Base.reset s) { s.ext.extra.ctrl with state := s.ext.extra.ctrl.stateInitial } := by
      simp only [stepI, implicitReset, BackupController.reset]
      have : (Base.reset s).ext.extra.ctrl = s.ext.extra.ctrl := rfl
      rw [this, h0]
    rw [e]
    exact ⟨⟨⟨hi.wf.nodup, hi.wf.params, hi.wf.enabled⟩, hi.dnodup, hi.dparams, hi.denabled, hi.slack, hi.weight, hi.act⟩, hn, h0⟩

theorem invI_run (solver : Solver K) (E : ImplicitEnv K) (ops : List (AOp K (List K) P)) {s : ImplicitObj K P A} (h : InvI s) :
    InvI (runI solver E s ops) := by
  induction ops generalizing s with
  | nil => exact h
  | cons op ops ih => exact ih (invI_step solver E h op)

theorem invI_init {high low : Option (Bound K)} {all : Dict (Constraint K (List K) P)} {use : Option (List String)} {eps : K}
    {n : Nat} {exc : Bool} {direct : Dict (DirectConstraint K (List K) P)} {w : K}
    {gen : List K → K → CState A → Option (List K × CState A)} {z : CState A} {c : BackupController K (List K) A}
    {s : ImplicitObj K P A} (hall : (dictKeys all).Nodup) (hd : (dictKeys direct).Nodup)
    (hc : BackupController.init gen z = .ok c) (h : asifInit high low all use eps n exc direct ⟨w, c⟩ = .ok s) : InvI s := by
  obtain ⟨h1, names, hact, hnm⟩ := asifInv_init hall hd h
  refine ⟨h1, ⟨names, hact, by rw [hnm, List.take_left]⟩, ?_⟩
  have he : s.ext.extra = ⟨w, c⟩ := by
    unfold asifInit at h
    rcases h0 : CBObj.init high low all use
      ({ epsilon := eps, controlDim := n, solverException := exc, numSlack := 0, objWeight := []
         constraintNames := [], actuation := [], direct := direct, directParams := [], directEnabled := []
         causing := none, extra := ⟨w, c⟩ } : ASIFExt K (List K) P (ImplicitExt K A)) with e | s0
    · rw [h0] at h; simp at h
    · rw [h0] at h
      simp only at h
      have hx : s0.ext.extra = ⟨w, c⟩ := by
        unfold CBObj.init at h0
        rcases hsel : selectConstraints all use with e | cs
        · rw [hsel] at h0; simp at h0
        · rw [hsel] at h0
          obtain rfl := Except.ok.inj h0
          rfl
      rcases hm : actuationMats s0.controlBoundsLow s0.controlBoundsHigh n (slackWeights s0.constraints).length with e | ⟨r, nm⟩
      · rw [hm] at h; simp at h
      · rw [hm] at h
        obtain rfl := Except.ok.inj h
        exact hx
  rw [he]
  unfold BackupController.init at hc
  rcases h1 : z.copy with e | i
  · rw [h1] at hc; simp at hc
  · rw [h1] at hc
    simp only at hc
    rcases h2 : i.copy with e | j
    · rw [h2] at hc; simp at hc
    · rw [h2] at hc
      obtain rfl := copy_ok h2
      obtain rfl := Except.ok.inj hc
      exact h2

theorem ImplicitModule.inv {solver : Solver K} {E : ImplicitEnv K} {s : ImplicitObj K P A} (h : ImplicitModule solver E s) :
    InvI s := by
  obtain ⟨high, low, all, use, eps, n, exc, direct, w, gen, z, c, s0, ops, ha, hd, hc, hs0, rfl⟩ := h
  exact invI_run solver E ops (invI_init ha hd hc hs0)

/-- Operations keep agreement. -/
theorem sameI_step {solver : Solver K} {E : ImplicitEnv K} {n : Nat} {s t : ImplicitObj K P A} (hs : InvI s) (ht : InvI t)
    (hn : actIdx s = n) (h : SameAS (RelI n) s t) (op : AOp K (List K) P) :
    (stepI solver E t op).1 = (stepI solver E s op).1 ∧
    SameAS (RelI n) (stepI solver E s op).2 (stepI solver E t op).2 ∧ actIdx (stepI solver E s op).2 = n ∧
    (t.toBase = s.toBase → (stepI solver E t op).2.toBase = (stepI solver E s op).2.toBase) := by
  have ek : ∀ (hh : String → P × Bool → P × Bool) (r : ImplicitObj K P A),
      dictKeys (editDirect hh r).ext.direct = dictKeys r.ext.direct :=
    fun hh r => by simp [editDirect, CBObj.setExt, dictKeys, List.map_map, Function.comp_def]
  cases op with
  | call i dt u =>
    obtain ⟨h1, h2, -, h4⟩ := sameAS_call_on (genCong_implicit E n) (genFrame_implicit E) solver h i dt u (fun _ => hn)
    refine ⟨by simp only [stepI]; exact congrArg some h1, h2, ?_, h4⟩
    -- the call keeps bounds and dimension
    have hb : SameAS (fun _ _ => True) s (E.call solver s i dt u).2 :=
      sameAS_after_call (fun _ => trivial) (genFrame_implicit E) solver (directWF_of_inv hs.inv) i dt u (fun _ _ _ => trivial)
    unfold actIdx at hn ⊢
    show (if (E.call solver s i dt u).2.controlBoundsLow.isSome then (E.call solver s i dt u).2.ext.controlDim else 0) +
      (if (E.call solver s i dt u).2.controlBoundsHigh.isSome then (E.call solver s i dt u).2.ext.controlDim else 0) = n
    rw [hb.low, hb.high, hb.controlDim]
    exact hn
  | edit hh =>
    refine ⟨rfl, ⟨h.low, h.high, h.enable, ?_, wf_edit hh h.wfs, wf_edit hh h.wft, h.epsilon, h.controlDim, h.exc, h.slack, h.weight,
      h.act, h.direct, h.dn, h.dps, h.des, h.dpt, h.det, h.rel⟩, hn, fun hb => hb⟩
    simp only [stepI, editConstraints, h.constraints]
  | editDirect hh =>
    refine ⟨rfl, ⟨h.low, h.high, h.enable, h.constraints, ⟨h.wfs.nodup, h.wfs.params, h.wfs.enabled⟩,
      ⟨h.wft.nodup, h.wft.params, h.wft.enabled⟩, h.epsilon, h.controlDim, h.exc, h.slack, h.weight,
      h.act, ?_, ?_, ?_, ?_, ?_, ?_, h.rel⟩, hn, fun hb => hb⟩
    · simp only [stepI, editDirect, CBObj.setExt, h.direct]
    · simp only [stepI]; rw [ek]; exact h.dn
    · simp only [stepI]; rw [ek]; exact h.dps
    · simp only [stepI]; rw [ek]; exact h.des
    · simp only [stepI]; rw [ek]; exact h.dpt
    · simp only [stepI]; rw [ek]; exact h.det
  | update i =>
    cases i with
    | notArray => exact ⟨rfl, h, hn, fun hb => hb⟩
    | array x =>
      exact ⟨rfl, ⟨h.low, h.high, h.enable, h.constraints, ⟨h.wfs.nodup, h.wfs.params, h.wfs.enabled⟩,
        ⟨h.wft.nodup, h.wft.params, h.wft.enabled⟩, h.epsilon, h.controlDim, h.exc, h.slack, h.weight,
        h.act, h.direct, h.dn, h.dps, h.des, h.dpt, h.det, h.rel⟩, hn, fun hb => hb⟩
  | setEnable b =>
    refine ⟨rfl, ⟨h.low, h.high, rfl, h.constraints, ⟨h.wfs.nodup, h.wfs.params, h.wfs.enabled⟩,
        ⟨h.wft.nodup, h.wft.params, h.wft.enabled⟩, h.epsilon, h.controlDim, h.exc, h.slack, h.weight,
        h.act, h.direct, h.dn, h.dps, h.des, h.dpt, h.det, h.rel⟩, hn, fun hb => ?_⟩
    simp only [stepI, modifyBase, HasBase.get, HasBase.set, hb]
  | reset =>
    have er : ∀ {r : ImplicitObj K P A}, InvI r → (stepI solver E r .reset).2 =
        setBackup (Base.reset r) { r.ext.extra.ctrl with state := r.ext.extra.ctrl.stateInitial } := by
      intro r hr
      simp only [stepI, implicitReset, BackupController.reset]
      have : (Base.reset r).ext.extra.ctrl = r.ext.extra.ctrl := rfl
      rw [this, hr.initial]
    rw [er hs, er ht]
    obtain ⟨hr1, sv, hr2⟩ := h.rel
    refine ⟨rfl, ⟨h.low, h.high, rfl, h.constraints, ⟨h.wfs.nodup, h.wfs.params, h.wfs.enabled⟩,
        ⟨h.wft.nodup, h.wft.params, h.wft.enabled⟩, h.epsilon, h.controlDim, h.exc, h.slack, h.weight,
        h.act, h.direct, h.dn, h.dps, h.des, h.dpt, h.det, ⟨hr1, sv, ?_⟩⟩, hn, fun hb => ?_⟩
    · simp only at hr2
      show ({ t.ext.extra with ctrl := { t.ext.extra.ctrl with state := t.ext.extra.ctrl.stateInitial } } : ImplicitExt K A) = _
      rw [hr2]
      rfl
    · show (Base.reset t).toBase = (Base.reset s).toBase
      simp only [Base.reset, modifyBase, HasBase.get, HasBase.set, hb]

theorem observe_sameI {solver : Solver K} {E : ImplicitEnv K} {n : Nat} (ops : List (AOp K (List K) P)) {s t : ImplicitObj K P A}
    (hs : InvI s) (ht : InvI t) (hn : actIdx s = n) (h : SameAS (RelI n) s t) :
    (observeI solver E t ops).map Prod.fst = (observeI solver E s ops).map Prod.fst ∧
    (t.toBase = s.toBase → observeI solver E t ops = observeI solver E s ops) := by
  induction ops generalizing s t with
  | nil => exact ⟨rfl, fun _ => rfl⟩
  | cons op ops ih =>
    obtain ⟨h1, h2, h3, h4⟩ := sameI_step (solver := solver) (E := E) hs ht hn h op
    obtain ⟨ih1, ih2⟩ := ih (invI_step solver E hs op) (invI_step solver E ht op) h3 h2
    simp only [observeI, List.map_cons]
    refine ⟨by rw [h1, ih1], fun hb => ?_⟩
    have hb' := h4 hb
    have hinfo : generateInfo (stepI solver E t op).2 = generateInfo (stepI solver E s op).2 := by
      simp only [generateInfo, HasBase.get, hb']
    rw [h1, ih2 hb', hinfo]

/-- What no operation of the user changes. -/
structure SameStaticI (s t : ImplicitObj K P A) : Prop where
  low : t.controlBoundsLow = s.controlBoundsLow
  high : t.controlBoundsHigh = s.controlBoundsHigh
  epsilon : t.ext.epsilon = s.ext.epsilon
  controlDim : t.ext.controlDim = s.ext.controlDim
  exc : t.ext.solverException = s.ext.solverException
  slack : t.ext.numSlack = s.ext.numSlack
  weight : t.ext.objWeight = s.ext.objWeight
  act : t.ext.actuation = s.ext.actuation
  extra : ∃ z sv, t.ext.extra = { s.ext.extra with ctrl := { s.ext.extra.ctrl with state := z, stateSaved := sv } }

theorem staticI_run (solver : Solver K) (E : ImplicitEnv K) (ops : List (AOp K (List K) P)) {s : ImplicitObj K P A} (hs : InvI s) :
    SameStaticI s (runI solver E s ops) := by
  have base : ∃ z sv, s.ext.extra = { s.ext.extra with ctrl := { s.ext.extra.ctrl with state := z, stateSaved := sv } } :=
    ⟨s.ext.extra.ctrl.state, s.ext.extra.ctrl.stateSaved, rfl⟩
  induction ops generalizing s with
  | nil => exact ⟨rfl, rfl, rfl, rfl, rfl, rfl, rfl, rfl, base⟩
  | cons op ops ih =>
    have h1 := invI_step solver E hs op
    have key : SameStaticI s (stepI solver E s op).2 := by
      cases op with
      | call i dt u =>
        have h : SameAS (fun _ _ => True) s (E.call solver s i dt u).2 :=
          sameAS_after_call (fun _ => trivial) (genFrame_implicit E) solver (directWF_of_inv hs.inv) i dt u (fun _ _ _ => trivial)
        exact ⟨h.low, h.high, h.epsilon, h.controlDim, h.exc, h.slack, h.weight, h.act,
          (implicit_call_inv (solver := solver) (E := E) hs.inv hs.names i dt u).2.2⟩
      | update i => cases i <;> exact ⟨rfl, rfl, rfl, rfl, rfl, rfl, rfl, rfl, base⟩
      | edit h => exact ⟨rfl, rfl, rfl, rfl, rfl, rfl, rfl, rfl, base⟩
      | editDirect h => exact ⟨rfl, rfl, rfl, rfl, rfl, rfl, rfl, rfl, base⟩
      | setEnable h => exact ⟨rfl, rfl, rfl, rfl, rfl, rfl, rfl, rfl, base⟩
      | reset =>
        have e : (stepI solver E s .reset).2 =
            setBackup (Base.reset s) { s.ext.extra.ctrl with state := s.ext.extra.ctrl.stateInitial } := by
          simp only [stepI, implicitReset, BackupController.reset]
          have : (Base.reset s).ext.extra.ctrl = s.ext.extra.ctrl := rfl
          rw [this, hs.initial]
        rw [e]
        exact ⟨rfl, rfl, rfl, rfl, rfl, rfl, rfl, rfl, s.ext.extra.ctrl.stateInitial, s.ext.extra.ctrl.stateSaved, rfl⟩
    have := ih h1 ⟨_, _, rfl⟩
    simp only [runI]
    refine ⟨this.low.trans key.low, this.high.trans key.high, this.epsilon.trans key.epsilon, this.controlDim.trans key.controlDim,
      this.exc.trans key.exc, this.slack.trans key.slack, this.weight.trans key.weight, this.act.trans key.act, ?_⟩
    obtain ⟨z1, v1, e1⟩ := key.extra
    obtain ⟨z2, v2, e2⟩ := this.extra
    exact ⟨z2, v2, by rw [e2, e1]⟩

theorem static_names {s t : ImplicitObj K P A} (hs : ImplicitNames s) (ht : ImplicitNames t) (h : SameStaticI s t) :
    t.ext.constraintNames.take (actIdx s) = s.ext.constraintNames.take (actIdx s) := by
  obtain ⟨n1, a1, t1⟩ := hs
  obtain ⟨n2, a2, t2⟩ := ht
  have l1 := actuation_names_length a1
  rw [h.low, h.high, h.controlDim, h.slack, h.act, a1] at a2
  obtain rfl : n1 = n2 := by simpa using a2
  have e : actIdx s = n1.length := by rw [l1]; rfl
  rw [e, t1, t2]

/-! ### Errors of row generation -/

theorem clipControl_error {b : Base K} {u : List K} {e : PyErr} (h : b.clipControl u = .error e) : e ≠ .solverError := by
  unfold Base.clipControl npClip at h
  split_ifs at h
  rcases hb : (Bound.bcast b.controlBoundsLow u.length).bind (Bound.bcast b.controlBoundsHigh) with _ | n
  · rw [hb] at h
    obtain rfl := Except.error.inj h
    simp
  · rw [hb] at h
    simp at h

theorem copy_error {z : CState A} {e : PyErr} (h : z.copy = .error e) : e ≠ .solverError := by
  cases z <;> simp only [CState.copy, Except.error.injEq, reduceCtorEq] at h
  subst h
  simp

theorem sensLoop_error (E : ImplicitEnv K) (n : Nat) (dt : K) (m : Nat) {s : ImplicitObj K P A} {x : List K} {S : List (List K)}
    {acc : List (List K × List (List K))} {e : PyErr}
    (h : (sensLoop E.ad E.f E.g E.pred n dt m s x S acc).1 = .error e) : e ≠ .solverError := by
  induction m generalizing s x S acc with
  | zero => simp [sensLoop] at h
  | succ m ih =>
    unfold sensLoop at h
    rcases hb : implicitBackupControl s x dt with ⟨er | ub, s1⟩
    · rw [hb] at h
      obtain rfl := Except.error.inj h
      unfold implicitBackupControl BackupController.generateControl at hb
      rcases hg : s.ext.extra.ctrl.gen x dt s.ext.extra.ctrl.state with _ | ⟨v, z⟩
      · rw [hg] at hb
        simp only [Prod.mk.injEq, Except.error.injEq] at hb
        rw [← hb.1]; simp
      · rw [hg] at hb
        simp only [Prod.mk.injEq] at hb
        exact clipControl_error hb.1
    · rw [hb] at h
      simp only at h
      rcases hj : backupJacobian E.ad E.f E.g s1.ext.extra.ctrl.gen n dt s1.ext.extra.ctrl.state (E.pred x dt ub) with er | J
      · rw [hj] at h
        obtain rfl := Except.error.inj h
        unfold backupJacobian at hj
        rcases hg : s1.ext.extra.ctrl.gen (E.pred x dt ub) dt s1.ext.extra.ctrl.state with _ | ⟨v, z⟩
        · rw [hg] at hj
          obtain rfl := Except.error.inj hj
          simp
        · rw [hg] at hj
          simp only at hj
          split_ifs at hj
          obtain rfl := Except.error.inj hj
          simp
      · rw [hj] at h
        exact ih h

theorem sensIntegrate_error (E : ImplicitEnv K) {s : ImplicitObj K P A} {x : List K} {dt : K} {m : Nat} {e : PyErr}
    (h : (sensIntegrate E.ad E.f E.g E.pred s x dt m).1 = .error e) : e ≠ .solverError := by
  unfold sensIntegrate BackupController.save at h
  rcases hc : s.ext.extra.ctrl.state.copy with er | z
  · rw [hc] at h
    obtain rfl := Except.error.inj h
    exact copy_error hc
  · rw [hc] at h
    simp only at h
    rcases hl : sensLoop E.ad E.f E.g E.pred x.length dt (m - 1) (setBackup s { s.ext.extra.ctrl with stateSaved := z }) x
      (eyeMat x.length) [(x, eyeMat x.length)] with ⟨er | tr, s1⟩
    · rw [hl] at h
      obtain rfl := Except.error.inj h
      exact sensLoop_error E _ dt _ (congrArg Prod.fst hl)
    · rw [hl] at h
      simp at h

theorem pointRows_error {f : List K → List K} {g : List K → List (List K)} {c : Constraint K (List K) P} {p : P} {n : Nat}
    {x0 : List K} (pts : List (List K × List (List K))) {e : PyErr} (h : pointRows f g c p n x0 pts = .error e) :
    e ≠ .solverError := by
  induction pts generalizing e with
  | nil => simp [pointRows] at h
  | cons pt pts ih =>
    unfold pointRows at h
    rcases hr : invarianceRow f g c p n x0 pt with er | r
    · rw [hr] at h
      obtain rfl := Except.error.inj h
      unfold invarianceRow at hr
      simp only at hr
      split_ifs at hr
      · obtain rfl := Except.error.inj hr; simp
      · unfold Constraint.alphaAt at hr
        cases hal : c.alpha with
        | none => rw [hal] at hr; obtain rfl := Except.error.inj hr; simp
        | some a => rw [hal] at hr; simp at hr
    · rw [hr] at h
      simp only at h
      rcases hp : pointRows f g c p n x0 pts with er | rs
      · rw [hp] at h
        obtain rfl := Except.error.inj h
        exact ih hp
      · rw [hp] at h; simp at h

theorem subsampleOne_error {cfg : SubsampleConfig} {pts : List (Point K)} {e : PyErr} (h : subsampleOne cfg pts = .error e) :
    e ≠ .solverError := by
  unfold subsampleOne at h
  rcases hc : checkPoints cfg pts.length with er | idx
  · rw [hc] at h
    obtain rfl := Except.error.inj h
    unfold checkPoints at hc
    by_cases h0 : cfg.skipLength = 0
    · rw [if_pos h0] at hc
      obtain rfl := Except.error.inj hc
      simp
    · rw [if_neg h0] at hc; simp at hc
  · rw [hc] at h; simp at h

theorem implicitRows_error {f : List K → List K} {g : List K → List (List K)} {params : Dict P} {en : Dict Bool} {n k : Nat}
    {x0 : List K} {tr : List (List K × List (List K))} (sc : Nat) (cs : Dict (Constraint K (List K) P)) {e : PyErr}
    (h : implicitRows f g params en n k x0 tr sc cs = .error e) : e ≠ .solverError := by
  induction cs generalizing sc e with
  | nil => simp [implicitRows] at h
  | cons kc cs ih =>
    obtain ⟨key, c⟩ := kc
    unfold implicitRows at h
    rcases hp : dictGet params key with _ | p
    · rw [hp] at h
      simp only at h
      obtain rfl := Except.error.inj h
      simp
    · rcases he : dictGet en key with _ | b
      · rw [hp, he] at h
        simp only at h
        obtain rfl := Except.error.inj h
        simp
      · rw [hp, he] at h
        simp only at h
        rcases hr : pointRows f g c p n x0 tr with er | pts
        · rw [hr] at h
          obtain rfl := Except.error.inj h
          exact pointRows_error _ hr
        · rw [hr] at h
          simp only at h
          split at h
          · rename_i er hs
            obtain rfl := Except.error.inj h
            exact subsampleOne_error hs
          · by_cases hk : k ≠ 0
            · rw [if_pos hk] at h
              obtain rfl := Except.error.inj h; simp
            · rw [if_neg hk] at h
              split at h
              · rename_i er hs
                obtain rfl := Except.error.inj h
                exact ih _ hs
              · simp at h

theorem implicitGen_error {E : ImplicitEnv K} {s : ImplicitObj K P A} {x : List K} {dt : K} {e : PyErr}
    (h : (implicitGenRows E.ad E.f E.g E.pred s x dt).1 = .error e) : e ≠ .solverError := by
  unfold implicitGenRows at h
  rcases hb : backupSteps s.ext.extra.backupWindow dt with er | m
  · rw [hb] at h
    obtain rfl := Except.error.inj h
    unfold backupSteps at hb
    split_ifs at hb
    obtain rfl := Except.error.inj hb
    simp
  · rw [hb] at h
    simp only at h
    by_cases hm : m < 0
    · rw [if_pos hm] at h
      obtain rfl := Except.error.inj h
      simp
    · rw [if_neg hm] at h
      rcases hs : sensIntegrate E.ad E.f E.g E.pred s x dt (m.toNat + 1) with ⟨er | tr, s1⟩
      · rw [hs] at h
        obtain rfl := Except.error.inj h
        exact sensIntegrate_error E (congrArg Prod.fst hs)
      · rw [hs] at h
        simp only at h
        rcases hr : implicitRows E.f E.g s1.params s1.constraintEnabled s1.ext.controlDim s1.ext.numSlack x tr 0 s1.constraints with er | rows
        · rw [hr] at h
          obtain rfl := Except.error.inj h
          exact implicitRows_error _ _ hr
        · rw [hr] at h
          simp at h

end RTA
