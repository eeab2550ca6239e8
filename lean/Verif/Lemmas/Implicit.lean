import Verif.Lemmas.ASIFCall
import Verif.Spec.Implicit
import Mathlib.Data.List.Sort

/-!
Row generation of implicit modules in terms of the specification.
-/
set_option linter.unusedSectionVars false
namespace RTA
variable {K P A : Type}

/-! ### Matrices -/

section mat
variable [CommRing K]

/-- An `n` by `n` matrix. -/
def Sq (n : Nat) (M : List (List K)) : Prop := M.length = n ∧ ∀ r ∈ M, r.length = n

theorem sq_eye (n : Nat) : Sq n (eyeMat n : List (List K)) := by
  refine ⟨by simp [eyeMat], ?_⟩
  intro r hr
  simp only [eyeMat, List.mem_map] at hr
  obtain ⟨i, -, rfl⟩ := hr
  simp

theorem matVec_eye {n : Nat} {v : List K} (hv : v.length = n) : matVec (eyeMat n) v = v := by
  apply List.ext_getElem
  · simp [eyeMat, hv]
  · intro i h1 h2
    simp only [matVec_length, eyeMat, List.length_map, List.length_range] at h1
    simp only [matVec, eyeMat, List.map_map, List.getElem_map, List.getElem_range, Function.comp]
    rw [dot_eyeRow n i v h1 hv, List.getD_eq_getElem?_getD, List.getElem?_eq_getElem h2]
    rfl

theorem matVec_matMul {M B : List (List K)} {n : Nat} {v : List K} (hM : ∀ r ∈ M, r.length = B.length)
    (hB : ∀ r ∈ B, r.length = n) (hv : v.length = n) : matVec (matMul M B n) v = matVec M (matVec B v) := by
  unfold matMul matVec
  rw [List.map_map]
  apply List.map_congr_left
  intro r hr
  exact dot_vecMat r B n v hB (hM r hr) hv

theorem matVec_matAdd {n : Nat} {v : List K} : ∀ {M B : List (List K)}, M.length = B.length → (∀ r ∈ M, r.length = n) →
    (∀ r ∈ B, r.length = n) → matVec (matAdd M B) v = vadd (matVec M v) (matVec B v)
  | [], [], _, _, _ => rfl
  | [], _ :: _, h, _, _ => by simp at h
  | _ :: _, [], h, _, _ => by simp at h
  | a :: M, b :: B, h, h1, h2 => by
    have ih := matVec_matAdd (v := v) (M := M) (B := B) (by simpa using h) (fun r hr => h1 r (by simp [hr]))
      (fun r hr => h2 r (by simp [hr]))
    simp only [matVec, matAdd, vadd, List.zipWith_cons_cons, List.map_cons] at ih ⊢
    rw [ih]
    congr 1
    exact dot_vadd_left ((h1 a (by simp)).trans (h2 b (by simp)).symm)

theorem matVec_vadd {a b : List K} (M : List (List K)) (h : a.length = b.length) :
    matVec M (vadd a b) = vadd (matVec M a) (matVec M b) := by
  induction M with
  | nil => rfl
  | cons r M ih =>
    have e := dot_vadd_right (v := r) h
    simp only [matVec, vadd, List.map_cons, List.zipWith_cons_cons] at ih e ⊢
    rw [ih, e]

theorem dot_scaleRow (c : K) (r v : List K) : dot (r.map (· * c)) v = c * dot r v := by
  have : r.map (· * c) = vscale c r := by
    unfold vscale; apply List.map_congr_left; intro a _; exact mul_comm a c
  rw [this, dot_vscale_left]

theorem matVec_matScale (c : K) (M : List (List K)) (v : List K) : matVec (matScale M c) v = vscale c (matVec M v) := by
  unfold matVec matScale vscale
  rw [List.map_map, List.map_map]
  apply List.map_congr_left
  intro r _
  exact dot_scaleRow c r v

theorem sq_step {n : Nat} {J S : List (List K)} (hJ : Sq n J) (hS : Sq n S) (dt : K) :
    Sq n (matAdd S (matScale (matMul J S n) dt)) ∧
    ∀ v : List K, v.length = n → matVec (matAdd S (matScale (matMul J S n) dt)) v =
      vadd (matVec S v) (vscale dt (matVec J (matVec S v))) := by
  have hl : (matScale (matMul J S n) dt).length = n := by simp [matScale, matMul, hJ.1]
  have hr : ∀ r ∈ matScale (matMul J S n) dt, r.length = n := by
    intro r hr
    simp only [matScale, matMul, List.map_map, List.mem_map, Function.comp] at hr
    obtain ⟨q, -, rfl⟩ := hr
    simp
  refine ⟨⟨by simp [matAdd, hS.1, hl], ?_⟩, ?_⟩
  · intro r hrm
    unfold matAdd at hrm
    obtain ⟨i, hi, rfl⟩ := List.getElem_of_mem hrm
    simp only [List.length_zipWith, hS.1, hl, min_self] at hi
    rw [List.getElem_zipWith, vadd_length]
    · exact hr _ (List.getElem_mem _)
    · rw [hr _ (List.getElem_mem _), hS.2 _ (List.getElem_mem _)]
  · intro v hv
    rw [matVec_matAdd (hS.1.trans hl.symm) hS.2 hr, matVec_matScale,
      matVec_matMul (fun r h => (hJ.2 r h).trans hS.1.symm) hS.2 hv]

end mat

/-! ### The backup trajectory -/

section field
variable [Field K] [LinearOrder K]

/-- The two objects have the same backup trajectories. -/
structure SamePath (s t : ImplicitObj K P A) : Prop where
  low : t.controlBoundsLow = s.controlBoundsLow
  high : t.controlBoundsHigh = s.controlBoundsHigh
  gen : t.ext.extra.ctrl.gen = s.ext.extra.ctrl.gen
  state : t.ext.extra.ctrl.state = s.ext.extra.ctrl.state

theorem backupPath_same {s t : ImplicitObj K P A} (h : SamePath s t) (E : ImplicitEnv K) (x : List K) (dt : K) (k : Nat) :
    backupPath E t x dt k = backupPath E s x dt k := by
  induction k with
  | zero => simp only [backupPath, h.state]
  | succ k ih =>
    have hc : ∀ w, t.toBase.clipControl w = s.toBase.clipControl w := by
      intro w; unfold Base.clipControl; rw [h.low, h.high]
    simp only [backupPath, ih, h.gen, hc]

theorem closedLoopField_same {s t : ImplicitObj K P A} (h : SamePath s t) (E : ImplicitEnv K) (dt : K) (z : CState A) :
    closedLoopField E t dt z = closedLoopField E s dt z := by
  funext y
  simp only [closedLoopField, h.gen]

theorem variation_same {s t : ImplicitObj K P A} (h : SamePath s t) (E : ImplicitEnv K) (x : List K) (dt : K) (v : List K)
    (k : Nat) : variation E t x dt v k = variation E s x dt v k := by
  induction k with
  | zero => rfl
  | succ k ih =>
    rw [variation, variation, backupPath_same h]
    rcases backupPath E s x dt (k + 1) with _ | ⟨y, z⟩
    · rfl
    · simp only [ih, closedLoopField_same h]

theorem pathValue_same {s t : ImplicitObj K P A} (h : SamePath s t) (E : ImplicitEnv K) (x : List K) (dt : K)
    (c : Constraint K (List K) P) : pathValue E t x dt c = pathValue E s x dt c := by
  funext k
  simp only [pathValue, backupPath_same h]

theorem pointValue_same {s t : ImplicitObj K P A} (h : SamePath s t) (E : ImplicitEnv K) (x : List K) (dt : K)
    (c : Constraint K (List K) P) (u : List K) (k : Nat) : pointValue E t x dt c u k = pointValue E s x dt c u k := by
  simp only [pointValue, backupPath_same h, variation_same h]

/-- `pt` is point `k` of the backup trajectory with its sensitivity matrix. -/
def PtOK (E : ImplicitEnv K) (s : ImplicitObj K P A) (x : List K) (dt : K) (k : Nat) (pt : List K × List (List K)) : Prop :=
  (∃ z, backupPath E s x dt k = some (pt.1, z)) ∧ Sq x.length pt.2 ∧
    ∀ v : List K, v.length = x.length → matVec pt.2 v = variation E s x dt v k

/-- A prefix of the backup trajectory. -/
def TrajOK (E : ImplicitEnv K) (s : ImplicitObj K P A) (x : List K) (dt : K) (tr : List (List K × List (List K))) : Prop :=
  ∀ k pt, tr[k]? = some pt → PtOK E s x dt k pt

/-- The object with another controller state. -/
def withCS (s : ImplicitObj K P A) (z : CState A) : ImplicitObj K P A := setBackup s { s.ext.extra.ctrl with state := z }

theorem implicitBackup_ok {s s' : ImplicitObj K P A} {x : List K} {dt : K} {c : List K}
    (h : implicitBackupControl s x dt = (.ok c, s')) :
    ∃ ub z, s.ext.extra.ctrl.gen x dt s.ext.extra.ctrl.state = some (ub, z) ∧ s.toBase.clipControl ub = .ok c ∧
      s' = withCS s z := by
  unfold implicitBackupControl BackupController.generateControl at h
  cases hg : s.ext.extra.ctrl.gen x dt s.ext.extra.ctrl.state with
  | none => rw [hg] at h; simp at h
  | some uz =>
    rw [hg] at h
    simp only [Prod.mk.injEq] at h
    exact ⟨uz.1, uz.2, rfl, h.1, h.2.symm⟩

theorem backupTransition_eq (E : ImplicitEnv K) (s : ImplicitObj K P A) (dt : K) (z : CState A) :
    backupTransition E.f E.g s.ext.extra.ctrl.gen dt z = closedLoopField E s dt z := by
  funext y
  unfold backupTransition closedLoopField
  rcases s.ext.extra.ctrl.gen y dt z with _ | ⟨ub, z'⟩ <;> rfl

theorem backupJacobian_ok {E : ImplicitEnv K} {s : ImplicitObj K P A} {n : Nat} {dt : K} {z : CState A} {x : List K}
    {J : List (List K)} (h : backupJacobian E.ad E.f E.g s.ext.extra.ctrl.gen n dt z x = .ok J) :
    J = E.ad (closedLoopField E s dt z) x ∧ Sq n J := by
  unfold backupJacobian at h
  split at h
  · simp at h
  · simp only at h
    split at h
    · simp at h
    · rename_i hn
      simp only [Except.ok.injEq] at h
      simp only [not_or, not_exists, not_and, ne_eq, not_not] at hn
      rw [backupTransition_eq] at h hn
      subst h
      exact ⟨rfl, hn.2.2⟩

theorem sensLoop_frame (ad : (List K → List K) → List K → List (List K)) (f : List K → List K) (g : List K → List (List K))
    (pred : List K → K → List K → List K) (n : Nat) (dt : K) (m : Nat) (s : ImplicitObj K P A) (x : List K)
    (S : List (List K)) (acc : List (List K × List (List K))) :
    ∃ z, (sensLoop ad f g pred n dt m s x S acc).2 = withCS s z := by
  induction m generalizing s x S acc with
  | zero => exact ⟨s.ext.extra.ctrl.state, rfl⟩
  | succ m ih =>
    unfold sensLoop
    rcases h : implicitBackupControl s x dt with ⟨e | u, s1⟩
    · unfold implicitBackupControl BackupController.generateControl at h
      rcases hg : s.ext.extra.ctrl.gen x dt s.ext.extra.ctrl.state with _ | uz
      · rw [hg] at h
        simp only [Prod.mk.injEq] at h
        exact ⟨s.ext.extra.ctrl.state, h.2.symm⟩
      · rw [hg] at h
        simp only [Prod.mk.injEq] at h
        exact ⟨uz.2, h.2.symm⟩
    · obtain ⟨ub, z, -, -, rfl⟩ := implicitBackup_ok h
      simp only
      rcases backupJacobian ad f g (withCS s z).ext.extra.ctrl.gen n dt (withCS s z).ext.extra.ctrl.state (pred x dt u) with e | J
      · exact ⟨z, rfl⟩
      · obtain ⟨z', hz'⟩ := ih (withCS s z) (pred x dt u) (matAdd S (matScale (matMul J S n) dt))
          (acc ++ [(pred x dt u, matAdd S (matScale (matMul J S n) dt))])
        exact ⟨z', hz'.trans rfl⟩

/-- The loop produces the backup trajectory. -/
theorem sensLoop_ok {E : ImplicitEnv K} {s0 : ImplicitObj K P A} {x0 : List K} {dt : K} (m : Nat) :
    ∀ {s s' : ImplicitObj K P A} {x : List K} {S : List (List K)} {acc tr : List (List K × List (List K))} {k : Nat}
      {z : CState A}, s = withCS s0 z → backupPath E s0 x0 dt k = some (x, z) → acc.length = k + 1 →
      TrajOK E s0 x0 dt acc → PtOK E s0 x0 dt k (x, S) →
      sensLoop E.ad E.f E.g E.pred x0.length dt m s x S acc = (.ok tr, s') →
      tr.length = k + 1 + m ∧ TrajOK E s0 x0 dt tr := by
  induction m with
  | zero =>
    intro s s' x S acc tr k z _ _ hlen hacc _ h
    unfold sensLoop at h
    simp only [Prod.mk.injEq, Except.ok.injEq] at h
    obtain ⟨rfl, -⟩ := h
    exact ⟨by omega, hacc⟩
  | succ m ih =>
    intro s s' x S acc tr k z hs hpath hlen hacc hpt h
    unfold sensLoop at h
    rcases hb : implicitBackupControl s x dt with ⟨e | u, s1⟩
    · rw [hb] at h; simp at h
    · obtain ⟨ub, z1, hg, hc, hs1⟩ := implicitBackup_ok hb
      rw [hb] at h
      simp only at h
      subst hs
      have hs1' : s1 = withCS s0 z1 := hs1
      have hg' : s0.ext.extra.ctrl.gen x dt z = some (ub, z1) := hg
      have hc' : s0.toBase.clipControl ub = .ok u := hc
      have hp1 : backupPath E s0 x0 dt (k + 1) = some (E.pred x dt u, z1) := by
        simp only [backupPath, hpath, hg', hc', bind, Option.bind, Except.toOption, pure]
      subst hs1'
      have eg : (withCS s0 z1).ext.extra.ctrl.gen = s0.ext.extra.ctrl.gen := rfl
      have ez : (withCS s0 z1).ext.extra.ctrl.state = z1 := rfl
      rw [eg, ez] at h
      rcases hJ : backupJacobian E.ad E.f E.g s0.ext.extra.ctrl.gen x0.length dt z1 (E.pred x dt u) with e | J
      · rw [hJ] at h; simp at h
      · rw [hJ] at h
        simp only at h
        obtain ⟨rfl, hsq⟩ := backupJacobian_ok hJ
        obtain ⟨hsq', hmul⟩ := sq_step hsq hpt.2.1 dt
        have hpt' : PtOK E s0 x0 dt (k + 1) (E.pred x dt u,
            matAdd S (matScale (matMul (E.ad (closedLoopField E s0 dt z1) (E.pred x dt u)) S x0.length) dt)) := by
          refine ⟨⟨z1, hp1⟩, hsq', fun v hv => ?_⟩
          rw [hmul v hv, variation, hp1]
          simp only
          rw [hpt.2.2 v hv]
        have hacc' : TrajOK E s0 x0 dt (acc ++ [(E.pred x dt u,
            matAdd S (matScale (matMul (E.ad (closedLoopField E s0 dt z1) (E.pred x dt u)) S x0.length) dt))]) := by
          intro j pt hj
          rcases Nat.lt_trichotomy j acc.length with hlt | heq | hgt
          · rw [List.getElem?_append_left hlt] at hj
            exact hacc j pt hj
          · subst heq
            rw [List.getElem?_append_right (le_refl _)] at hj
            simp only [Nat.sub_self, List.getElem?_cons_zero, Option.some.injEq] at hj
            subst hj
            rw [hlen]; exact hpt'
          · rw [List.getElem?_eq_none (by simp; omega)] at hj
            simp at hj
        obtain ⟨h1, h2⟩ := ih (k := k + 1) (z := z1) rfl hp1 (by simp [hlen]) hacc' hpt' h
        exact ⟨by omega, h2⟩

/-- Integration gives the whole trajectory and puts the controller state back. -/
theorem sensIntegrate_ok {E : ImplicitEnv K} {s s' : ImplicitObj K P A} {x : List K} {dt : K} {m : Nat}
    {tr : List (List K × List (List K))} (h : sensIntegrate E.ad E.f E.g E.pred s x dt (m + 1) = (.ok tr, s')) :
    tr.length = m + 1 ∧ TrajOK E s x dt tr ∧
      s' = setBackup s { s.ext.extra.ctrl with stateSaved := s.ext.extra.ctrl.state } := by
  unfold sensIntegrate BackupController.save at h
  rcases hc : s.ext.extra.ctrl.state.copy with e | z
  · rw [hc] at h; simp at h
  · rw [hc] at h
    obtain rfl := copy_ok hc
    simp only [Nat.add_sub_cancel] at h
    obtain ⟨s1, hs1⟩ : ∃ s1, s1 = setBackup s { s.ext.extra.ctrl with stateSaved := s.ext.extra.ctrl.state } := ⟨_, rfl⟩
    rw [← hs1] at h
    rcases hl : sensLoop E.ad E.f E.g E.pred x.length dt m s1 x (eyeMat x.length) [(x, eyeMat x.length)] with ⟨e | tr', s2⟩
    · rw [hl] at h; simp at h
    · rw [hl] at h
      simp only [Prod.mk.injEq, Except.ok.injEq] at h
      obtain ⟨rfl, rfl⟩ := h
      have hsame : SamePath s s1 := by rw [hs1]; exact ⟨rfl, rfl, rfl, rfl⟩
      have hpe : ∀ k, backupPath E s1 x dt k = backupPath E s x dt k := by
        exact fun k => backupPath_same hsame E x dt k
      have hve : ∀ v k, variation E s1 x dt v k = variation E s x dt v k := by
        exact fun v k => variation_same hsame E x dt v k
      have hst : s1.ext.extra.ctrl.state = s.ext.extra.ctrl.state := by rw [hs1]; rfl
      have hp0 : PtOK E s1 x dt 0 (x, eyeMat x.length) :=
        ⟨⟨_, rfl⟩, sq_eye _, fun v hv => matVec_eye hv⟩
      obtain ⟨h1, h2⟩ := sensLoop_ok (E := E) (s0 := s1) (x0 := x) (dt := dt) m (k := 0) (z := s1.ext.extra.ctrl.state)
        rfl rfl rfl (by
          intro k pt hk
          cases k with
          | zero => simp only [List.getElem?_cons_zero, Option.some.injEq] at hk; subst hk; exact hp0
          | succ k => simp at hk) hp0 hl
      refine ⟨by omega, ?_, ?_⟩
      · intro k pt hk
        obtain ⟨⟨z, a⟩, b, c⟩ := h2 k pt hk
        exact ⟨⟨z, by rw [← hpe]; exact a⟩, b, fun v hv => by rw [← hve]; exact c v hv⟩
      · obtain ⟨z, hz⟩ := sensLoop_frame E.ad E.f E.g E.pred x.length dt m s1 x (eyeMat x.length) [(x, eyeMat x.length)]
        rw [hl] at hz
        simp only at hz
        rw [hz, hs1]; rfl

theorem sensIntegrate_frame (E : ImplicitEnv K) (s : ImplicitObj K P A) (x : List K) (dt : K) (m : Nat) :
    ∃ z sv, (sensIntegrate E.ad E.f E.g E.pred s x dt m).2 =
      setBackup s { s.ext.extra.ctrl with state := z, stateSaved := sv } := by
  unfold sensIntegrate BackupController.save
  rcases hc : s.ext.extra.ctrl.state.copy with e | z
  · exact ⟨s.ext.extra.ctrl.state, s.ext.extra.ctrl.stateSaved, rfl⟩
  · simp only
    obtain ⟨z', hz'⟩ := sensLoop_frame E.ad E.f E.g E.pred x.length dt (m - 1)
      (setBackup s { s.ext.extra.ctrl with stateSaved := z }) x (eyeMat x.length) [(x, eyeMat x.length)]
    rcases hl : sensLoop E.ad E.f E.g E.pred x.length dt (m - 1) (setBackup s { s.ext.extra.ctrl with stateSaved := z }) x
      (eyeMat x.length) [(x, eyeMat x.length)] with ⟨e | tr', s2⟩
    · rw [hl] at hz'; exact ⟨z', z, hz'⟩
    · rw [hl] at hz'
      simp only at hz' ⊢
      exact ⟨z, z, by rw [hz']; rfl⟩

end field

/-! ### Rows -/

section rows
variable [Field K] [LinearOrder K] [IsStrictOrderedRing K]

theorem pointRows_ok {f : List K → List K} {g : List K → List (List K)} {c : Constraint K (List K) P} {p : P} {m : Nat}
    {x0 : List K} : ∀ {tr : List (List K × List (List K))} {pts : List (Point K)}, pointRows f g c p m x0 tr = .ok pts →
      List.Forall₂ (fun pt q => invarianceRow f g c p m x0 pt = .ok q) tr pts
  | [], pts, h => by
    simp only [pointRows, Except.ok.injEq] at h
    subst h
    exact .nil
  | pt :: tr, pts, h => by
    unfold pointRows at h
    rcases hr : invarianceRow f g c p m x0 pt with e | r
    · rw [hr] at h; simp at h
    · rw [hr] at h
      simp only at h
      rcases hrs : pointRows f g c p m x0 tr with e | rs
      · rw [hrs] at h; simp at h
      · rw [hrs] at h
        simp only [Except.ok.injEq] at h
        subst h
        exact .cons hr (pointRows_ok hrs)

theorem pointRows_total {f : List K → List K} {g : List K → List (List K)} {c : Constraint K (List K) P} {p : P} {m : Nat}
    {x0 : List K} : ∀ {tr : List (List K × List (List K))}, (∀ pt ∈ tr, ∃ q, invarianceRow f g c p m x0 pt = .ok q) →
      ∃ pts, pointRows f g c p m x0 tr = .ok pts
  | [], _ => ⟨[], rfl⟩
  | pt :: tr, h => by
    obtain ⟨q, hq⟩ := h pt (by simp)
    obtain ⟨qs, hqs⟩ := pointRows_total (tr := tr) fun pt' h' => h pt' (by simp [h'])
    exact ⟨q :: qs, by simp only [pointRows, hq, hqs]⟩

/-- The row at a trajectory point expresses the condition at this point. -/
theorem invarianceRow_ok {E : ImplicitEnv K} {s : ImplicitObj K P A} {x : List K} {dt : K} {k m : Nat}
    {pt : List K × List (List K)} (hpt : PtOK E s x dt k pt) {c : Constraint K (List K) P} {q : Point K}
    (h : invarianceRow E.f E.g c c.params m x pt = .ok q) :
    q.row.w.length = m ∧ q.val = pathValue E s x dt c k ∧
      ∀ u : List K, u.length = m → pointValue E s x dt c u k = some (margin q.row u) := by
  unfold invarianceRow at h
  simp only at h
  split at h
  · simp at h
  · rename_i hn
    simp only [not_or, not_exists, not_and, ne_eq, not_not] at hn
    obtain ⟨hgl, hfl, hgr, hcol⟩ := hn
    obtain ⟨⟨z, hz⟩, hsq, hvar⟩ := hpt
    unfold Constraint.alphaAt at h
    rcases ha : c.alpha with _ | al
    · rw [ha] at h; simp at h
    · rw [ha] at h
      simp only [Except.ok.injEq] at h
      subst h
      refine ⟨by simp, ?_, ?_⟩
      · simp only [pathValue, hz, Constraint.compute]
      · intro u hu
        simp only [pointValue, hz, ha, margin, Constraint.compute, Option.some.injEq]
        have hgu : (matVec (E.g x) u).length = x.length := by simp [hgr]
        have hadd : (vadd (E.f x) (matVec (E.g x) u)).length = x.length := by rw [vadd_length _ _ (by rw [hgu, hfl]), hgu]
        rw [← hvar _ hadd]
        have hmr : ∀ r ∈ matMul pt.2 (E.g x) m, r.length = m := by
          intro r hr
          simp only [matMul, List.mem_map] at hr
          obtain ⟨r', -, rfl⟩ := hr
          simp
        have hml : (matMul pt.2 (E.g x) m).length = x.length := by simp [matMul, hsq.1]
        rw [dot_vecMat _ _ m u hmr (hgl.trans hml.symm) hu,
          matVec_matMul (fun r hr => (hsq.2 r hr).trans hgr.symm) hcol hu]
        rw [matVec_vadd pt.2 (hfl.trans hgu.symm), dot_vadd_right (by simp)]
        ring

theorem jaxIndex_lt {n : Nat} (hn : 0 < n) (i : Int) : jaxIndex n i < n := by
  unfold jaxIndex
  simp only
  split <;> split <;> (try split) <;> omega

theorem takeInt_map {α β : Type} (f : α → β) (l : List α) (N : Int) : (takeInt l N).map f = takeInt (l.map f) N := by
  unfold takeInt
  split <;> simp [List.map_take]

theorem mem_takeInt {α : Type} {l : List α} {N : Int} {a : α} (h : a ∈ takeInt l N) : a ∈ l := by
  unfold takeInt at h
  split at h <;> exact List.mem_of_mem_take h

/-- Every point looked at is on the trajectory. -/
theorem checkedPoints_lt {cfg : SubsampleConfig} {n : Nat} (hn : 0 < n) {h : Nat → K} {k : Nat}
    (hk : k ∈ checkedPoints cfg n h) : k < n := by
  unfold checkedPoints at hk
  simp only [List.mem_append] at hk
  have hc : ∀ j ∈ (pyRange 0 cfg.numCheckAll 1 ++ pyRange (cfg.numCheckAll + 1) n cfg.skipLength).map (jaxIndex n), j < n := by
    intro j hj
    obtain ⟨i, -, rfl⟩ := List.mem_map.1 hj
    exact jaxIndex_lt hn i
  rcases hk with hk | hk | hk
  · rcases hN : cfg.numLeast with _ | N <;> rw [hN] at hk
    · exact hc k hk
    · exact hc k ((List.mergeSort_perm _ _).mem_iff.1 (mem_takeInt hk))
  · split at hk
    · simp at hk; omega
    · simp at hk
  · split at hk
    · simp at hk; omega
    · simp at hk

/-- Sampling picks the rows of the points looked at. -/
theorem subsampleOne_ok {cfg : SubsampleConfig} {pts : List (Point K)} (hp : pts ≠ []) {rows : List (Row K)}
    (h : subsampleOne cfg pts = .ok rows) {v : Nat → K} (hv : ∀ k q, pts[k]? = some q → q.val = v k) :
    cfg.skipLength ≠ 0 ∧ List.Forall₂ (fun r k => ∃ q, pts[k]? = some q ∧ q.row = r) rows (checkedPoints cfg pts.length v) := by
  unfold subsampleOne checkPoints at h
  by_cases hs : cfg.skipLength = 0
  · rw [if_pos hs] at h; simp at h
  · rw [if_neg hs] at h
    refine ⟨hs, ?_⟩
    have hn : 0 < pts.length := List.length_pos_iff.2 hp
    obtain ⟨d, hd⟩ : ∃ d, d = pts[0] := ⟨_, rfl⟩
    have hget : ∀ k, k < pts.length → pts[k]? = some (pts.getD k d) := by
      intro k hk
      rw [List.getD_eq_getElem?_getD, List.getElem?_eq_getElem hk]; rfl
    obtain ⟨idx, hidx⟩ : ∃ idx : List Int, idx = pyRange 0 cfg.numCheckAll 1 ++
      pyRange (cfg.numCheckAll + 1) pts.length cfg.skipLength := ⟨_, rfl⟩
    rw [← hidx] at h
    simp only [Except.ok.injEq] at h
    have hsel : (idx.filterMap fun i => pts[jaxIndex pts.length i]?) = (idx.map (jaxIndex pts.length)).map fun k => pts.getD k d := by
      clear h hidx
      induction idx with
      | nil => rfl
      | cons i is ih =>
        rw [List.filterMap_cons, hget _ (jaxIndex_lt hn i)]
        simp only [List.map_cons, ih]
    have hrows : rows = (checkedPoints cfg pts.length v).map fun k => (pts.getD k d).row := by
      rw [← h, hsel]
      unfold checkedPoints
      rw [← hidx]
      simp only [List.map_append]
      rw [List.append_assoc]
      congr 1
      · rcases cfg.numLeast with _ | N
        · simp [List.map_map, Function.comp_def]
        · simp only
          have hms : ((idx.map (jaxIndex pts.length)).map fun k => pts.getD k d).mergeSort (fun a b => decide (a.val ≤ b.val)) =
              ((idx.map (jaxIndex pts.length)).mergeSort fun i j => decide (v i ≤ v j)).map fun k => pts.getD k d := by
            symm
            apply List.map_mergeSort
            intro a ha b hb
            obtain ⟨i, -, rfl⟩ := List.mem_map.1 ha
            obtain ⟨j, -, rfl⟩ := List.mem_map.1 hb
            rw [hv _ _ (hget _ (jaxIndex_lt hn i)), hv _ _ (hget _ (jaxIndex_lt hn j))]
          rw [hms, takeInt_map, takeInt_map, List.map_map]
          rfl
      · congr 1
        · split
          · rw [List.head?_eq_getElem?, hget 0 hn]; rfl
          · rfl
        · split
          · rw [List.getLast?_eq_getElem?, hget _ (by omega)]; rfl
          · rfl
    rw [hrows, List.forall₂_map_left_iff, List.forall₂_same]
    intro k hk
    exact ⟨_, hget k (checkedPoints_lt hn hk), rfl⟩

theorem subsampleOne_total {cfg : SubsampleConfig} (hs : cfg.skipLength ≠ 0) (pts : List (Point K)) :
    ∃ rows, subsampleOne cfg pts = .ok rows := by
  unfold subsampleOne checkPoints
  rw [if_neg hs]
  exact ⟨_, rfl⟩

/-- The rows of one constraint represent its conditions at the points looked at. -/
def RepPoints (E : ImplicitEnv K) (s : ImplicitObj K P A) (x : List K) (dt : K) (n m : Nat) (rs : List (Row K))
    (kc : String × Constraint K (List K) P) : Prop :=
  List.Forall₂ (fun r k => r.w.length = m ∧ (kc.2.enabled = false → ZeroRow r) ∧
    (kc.2.enabled = true → ∀ u : List K, u.length = m → pointValue E s x dt kc.2 u k = some (margin r u))) rs
    (checkedPoints kc.2.subsample n (pathValue E s x dt kc.2))

theorem implicitRows_ok {E : ImplicitEnv K} {s : ImplicitObj K P A} {params : Dict P} {en : Dict Bool} {m : Nat}
    {x : List K} {dt : K} {tr : List (List K × List (List K))} (htr : tr ≠ []) (hok : TrajOK E s x dt tr) {ns : Nat} :
    ∀ {cs : Dict (Constraint K (List K) P)} {sc : Nat} {rows : List (Row K)},
      (∀ kc ∈ cs, dictGet params kc.1 = some kc.2.params) → (∀ kc ∈ cs, dictGet en kc.1 = some kc.2.enabled) →
      implicitRows E.f E.g params en m ns x tr sc cs = .ok rows →
      (cs ≠ [] → ns = 0) ∧ ∃ rss, rows = rss.flatten ∧ List.Forall₂ (RepPoints E s x dt tr.length m) rss cs
  | [], sc, rows, _, _, h => by
    simp only [implicitRows, Except.ok.injEq] at h
    subst h
    exact ⟨by simp, [], rfl, .nil⟩
  | (q, c) :: cs, sc, rows, hp, he, h => by
    have hpq := hp (q, c) (by simp)
    have heq := he (q, c) (by simp)
    simp only at hpq heq
    unfold implicitRows at h
    rw [hpq, heq] at h
    simp only at h
    rcases hpr : pointRows E.f E.g c c.params m x tr with e | pts
    · rw [hpr] at h; simp at h
    · rw [hpr] at h
      simp only at h
      obtain ⟨pts', hpts'⟩ : ∃ pts' : List (Point K), pts' = pts.map fun pt =>
          (⟨⟨(if c.enabled then pt.row.w else zeros m) ++
              (if c.slackPriorityScale.isSome then (zeros ns).set sc (-1) else zeros ns),
            if c.enabled then pt.row.b else 0⟩, pt.val⟩ : Point K) := ⟨_, rfl⟩
      rw [← hpts'] at h
      rcases hsub : subsampleOne c.subsample pts' with e | rs
      · rw [hsub] at h; simp at h
      · rw [hsub] at h
        simp only at h
        by_cases hns : ns = 0
        · subst hns
          rw [if_neg (by simp)] at h
          rcases hrest : implicitRows E.f E.g params en m 0 x tr (if c.slackPriorityScale.isSome then sc + 1 else sc) cs with e | rest
          · rw [hrest] at h; simp at h
          · rw [hrest] at h
            simp only [Except.ok.injEq] at h
            obtain ⟨-, rss, hrss, hrep⟩ := implicitRows_ok htr hok (fun kc h => hp kc (by simp [h])) (fun kc h => he kc (by simp [h])) hrest
            refine ⟨fun _ => rfl, rs :: rss, by rw [← h, hrss]; rfl, .cons ?_ hrep⟩
            have hF := pointRows_ok hpr
            have hlen : pts'.length = tr.length := by rw [hpts', List.length_map, hF.length_eq]
            have hne : pts' ≠ [] := by
              intro h0; rw [h0] at hlen; exact htr (List.length_eq_zero_iff.1 hlen.symm)
            -- points of the extended list
            have hpt : ∀ k q', pts'[k]? = some q' → q'.val = pathValue E s x dt c k ∧ q'.row.w.length = m ∧
                (c.enabled = false → ZeroRow q'.row) ∧
                (c.enabled = true → ∀ u : List K, u.length = m → pointValue E s x dt c u k = some (margin q'.row u)) := by
              intro k q' hq'
              rw [hpts', List.getElem?_map, Option.map_eq_some_iff] at hq'
              obtain ⟨q0, hq0, rfl⟩ := hq'
              obtain ⟨pt, hpt, hinv⟩ := forall₂_getElem? hF.flip hq0
              obtain ⟨a1, a2, a3⟩ := invarianceRow_ok (hok k pt hpt) hinv
              have hz : (if c.slackPriorityScale.isSome then (zeros 0 : List K).set sc (-1) else zeros 0) = [] := by
                split <;> simp [zeros]
              simp only [hz, List.append_nil]
              refine ⟨a2, ?_, ?_, ?_⟩
              · split
                · exact a1
                · simp
              · intro hen
                simp only [hen]
                exact zeroRow_zeros m
              · intro hen
                simp only [hen, if_true]
                exact a3
            obtain ⟨-, hsel⟩ := subsampleOne_ok hne hsub (v := pathValue E s x dt c) (fun k q' h => (hpt k q' h).1)
            rw [hlen] at hsel
            unfold RepPoints
            refine hsel.imp ?_
            rintro r k ⟨q', hq', rfl⟩
            exact (hpt k q' hq').2
        · rw [if_pos hns] at h; simp at h

end rows

end RTA
