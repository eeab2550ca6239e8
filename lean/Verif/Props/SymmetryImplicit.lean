import Verif.Props.Symmetry
import Verif.Props.Implicit
import Mathlib.Analysis.Calculus.Deriv.Add

/-!
C107 for implicit ASIF modules: in the mirror image of a situation the backup trajectory is mirrored, the same of its points are looked at, and the answer
is the mirror image.
-/
set_option linter.unusedSectionVars false
namespace RTA

section
variable {K P A : Type} [Field K] [LinearOrder K] [IsStrictOrderedRing K] [FloorRing K] [HasSqrt K] [LawfulSqrt K]

theorem flip_vscale (sg : List K) (c : K) (v : List K) : flip sg (vscale c v) = vscale c (flip sg v) := by
  unfold flip vscale
  induction sg generalizing v with
  | nil => simp
  | cons a sg ih =>
    rcases v with _ | ⟨b, v⟩
    · simp
    simp only [List.map_cons, List.zipWith_cons_cons, ih]
    congr 1
    ring

variable {E : ImplicitEnv K} {s : ImplicitObj K P A} {dt : K} {ta sg : List K}

/-- The backup trajectory from the mirrored state is the mirrored backup trajectory. -/
theorem backupPath_mirror (h : SymmetricI E s dt ta sg) (hsg : ∀ a ∈ sg, a = 1 ∨ a = -1)
    (hb : SymmetricBounds sg s.controlBoundsLow s.controlBoundsHigh) (hcons : BoundsConsistent s.controlBoundsLow s.controlBoundsHigh)
    (hl : BoundFits sg.length s.controlBoundsLow) (hh : BoundFits sg.length s.controlBoundsHigh) {x : List K} (hx : x.length = ta.length) (k : Nat) :
    backupPath E s (flip ta x) dt k = (backupPath E s x dt k).map (fun r => (flip ta r.1, r.2)) ∧
      ∀ r, backupPath E s x dt k = some r → r.1.length = ta.length := by
  induction k with
  | zero => exact ⟨rfl, fun r hr => by simp only [backupPath, Option.some.injEq] at hr; rw [← hr]; exact hx⟩
  | succ k ih =>
    obtain ⟨e, hlen⟩ := ih
    simp only [backupPath, e]
    rcases hp : backupPath E s x dt k with _ | ⟨y, z⟩
    · exact ⟨rfl, fun r hr => by simp at hr⟩
    · have hy : y.length = ta.length := hlen _ hp
      simp only [Option.map_some, bind, Option.bind]
      rw [h.gen y z hy]
      rcases hg : s.ext.extra.ctrl.gen y dt z with _ | ⟨ub, z'⟩
      · exact ⟨rfl, fun r hr => by simp at hr⟩
      · have hub : ub.length = sg.length := h.genLen y z _ hy hg
        simp only [Option.map_some]
        rw [clip_flip s.toBase hsg hb hcons hub (by rw [hub]; exact hl) (by rw [hub]; exact hh)]
        obtain ⟨c, hc, hcl⟩ := C05_clip_total s.toBase ub (by rw [hub]; exact hl) (by rw [hub]; exact hh)
        rw [hc]
        simp only [Except.map, Except.toOption, pure]
        have hcs : c.length = sg.length := by omega
        refine ⟨?_, fun r hr => ?_⟩
        · rw [h.pred y c hy hcs]; rfl
        · simp only [Option.some.injEq] at hr
          rw [← hr]
          exact h.predLen y c hy hcs

theorem variation_mirror (h : SymmetricI E s dt ta sg) (hsg : ∀ a ∈ sg, a = 1 ∨ a = -1)
    (hb : SymmetricBounds sg s.controlBoundsLow s.controlBoundsHigh) (hcons : BoundsConsistent s.controlBoundsLow s.controlBoundsHigh)
    (hl : BoundFits sg.length s.controlBoundsLow) (hh : BoundFits sg.length s.controlBoundsHigh) {x : List K} (hx : x.length = ta.length)
    (v : List K) (k : Nat) : variation E s (flip ta x) dt (flip ta v) k = flip ta (variation E s x dt v k) := by
  induction k with
  | zero => rfl
  | succ k ih =>
    obtain ⟨e, hlen⟩ := backupPath_mirror h hsg hb hcons hl hh hx (k + 1)
    unfold variation
    rw [e]
    rcases hp : backupPath E s x dt (k + 1) with _ | ⟨y, z⟩
    · simp [flip]
    · simp only [Option.map_some]
      rw [ih, h.jac y z _ (hlen _ hp), flip_add, flip_vscale]

/-- The same points are looked at, and the conditions imposed there are mirrored. -/
theorem points_mirror (h : SymmetricI E s dt ta sg) (hsg : ∀ a ∈ sg, a = 1 ∨ a = -1)
    (hb : SymmetricBounds sg s.controlBoundsLow s.controlBoundsHigh) (hcons : BoundsConsistent s.controlBoundsLow s.controlBoundsHigh)
    (hl : BoundFits sg.length s.controlBoundsLow) (hh : BoundFits sg.length s.controlBoundsHigh) {x : List K} (hx : x.length = ta.length)
    {kc : String × Constraint K (List K) P} (hkc : kc ∈ s.constraints) :
    pointsOf E s (flip ta x) dt kc.2 = pointsOf E s x dt kc.2 ∧
      ∀ w k, w.length = sg.length → pointValue E s (flip ta x) dt kc.2 (flip sg w) k = pointValue E s x dt kc.2 w k := by
  constructor
  · have : pathValue E s (flip ta x) dt kc.2 = pathValue E s x dt kc.2 := by
      funext k
      obtain ⟨e, hlen⟩ := backupPath_mirror h hsg hb hcons hl hh hx k
      unfold pathValue
      rw [e]
      rcases hp : backupPath E s x dt k with _ | ⟨y, z⟩
      · rfl
      · simp only [Option.map_some]
        rw [h.value kc hkc y (hlen _ hp)]
    unfold pointsOf
    rw [this]
  · intro w k hw
    obtain ⟨e, hlen⟩ := backupPath_mirror h hsg hb hcons hl hh hx k
    unfold pointValue
    rw [e]
    rcases hp : backupPath E s x dt k with _ | ⟨y, z⟩
    · rfl
    · simp only [Option.map_some]
      rw [h.drift x hx, h.input x w hx hw, ← flip_add, variation_mirror h hsg hb hcons hl hh hx]
      rcases kc.2.alpha with _ | al
      · rfl
      · dsimp only
        rw [h.value kc hkc y (hlen _ hp), h.grad kc hkc y _ (hlen _ hp)]

/-- The mirror image of an admissible control is admissible in the mirrored state, and conversely. -/
theorem admissibleI_mirror (h : SymmetricI E s dt ta sg) (hsg : ∀ a ∈ sg, a = 1 ∨ a = -1) (hsl : sg.length = s.ext.controlDim)
    (hb : SymmetricBounds sg s.controlBoundsLow s.controlBoundsHigh) (hcons : BoundsConsistent s.controlBoundsLow s.controlBoundsHigh)
    (hl : BoundFits sg.length s.controlBoundsLow) (hh : BoundFits sg.length s.controlBoundsHigh) {x : List K} (hx : x.length = ta.length)
    {w : List K} (hw : w.length = s.ext.controlDim) : AdmissibleI E s (flip ta x) dt (flip sg w) ↔ AdmissibleI E s x dt w := by
  have hws : w.length = sg.length := hw.trans hsl.symm
  have hff : flip sg (flip sg w) = w := flip_flip hsg (by omega)
  have hP := fun kc hkc => points_mirror (kc := kc) h hsg hb hcons hl hh hx hkc
  constructor
  · intro ha
    refine ⟨hw, ?_, fun kc hkc he k hk => ?_, fun kc hkc he => (h.direct kc hkc x w hx hws).1 (ha.direct kc hkc he)⟩
    · have := flip_within hsg hb (by simp [hws]) ha.bounds
      rwa [hff] at this
    · have := ha.barrier kc hkc he k (by rw [(hP kc hkc).1]; exact hk)
      unfold PointOK at this ⊢
      rwa [(hP kc hkc).2 w k hws] at this
  · intro ha
    refine ⟨by simp [hw, hsl], flip_within hsg hb hws ha.bounds, fun kc hkc he k hk => ?_,
      fun kc hkc he => (h.direct kc hkc x w hx hws).2 (ha.direct kc hkc he)⟩
    rw [(hP kc hkc).1] at hk
    have := ha.barrier kc hkc he k hk
    unfold PointOK at this ⊢
    rwa [(hP kc hkc).2 w k hws]

/-- **C107, mirror images, implicit modules.** Let what an implicit ASIF module is built from be symmetric under a change of the signs `ta` of some state
components and `sg` of some control components, and the bounds as well. Then in mirror image situations it gives mirror image answers, whatever its
history: a control or, if no control is admissible, the configured policy. -/
theorem C107_implicit {solver : Solver K} (hspec : SolverSpec solver) (hs : ImplicitModule solver E s) (hen : s.enable = true)
    (h : SymmetricI E s dt ta sg) (hsg : ∀ a ∈ sg, a = 1 ∨ a = -1) (hsl : sg.length = s.ext.controlDim)
    (hb : SymmetricBounds sg s.controlBoundsLow s.controlBoundsHigh) (hcons : BoundsConsistent s.controlBoundsLow s.controlBoundsHigh)
    {x : List K} (hx : x.length = ta.length) (hsh : ShapesI E s x dt) (hsh' : ShapesI E s (flip ta x) dt)
    (hfit : ∀ kc ∈ s.constraints, (pointsOf E s x dt kc.2).length ≤ numPoints s dt) {u : List K} (hu : u.length = s.ext.controlDim) :
    (E.call solver s (.array (flip ta x)) dt (flip sg u)).1 = ((E.call solver s (.array x) dt u).1).map (flip sg) := by
  obtain ⟨names, hact⟩ := hs.inv.inv.act
  obtain ⟨fl, fh⟩ := boundFits_of_act hact
  have gl : BoundFits sg.length s.controlBoundsLow := by rw [hsl]; exact fl
  have gh : BoundFits sg.length s.controlBoundsHigh := by rw [hsl]; exact fh
  have hlen : ∀ w : List K, w.length = s.ext.controlDim → (flip sg w).length = s.ext.controlDim := fun w hw => by simp [hw, hsl]
  have hff : ∀ w : List K, w.length = s.ext.controlDim → flip sg (flip sg w) = w := fun w hw => flip_flip hsg (by omega)
  have hA : ∀ w : List K, w.length = s.ext.controlDim → (AdmissibleI E s (flip ta x) dt (flip sg w) ↔ AdmissibleI E s x dt w) :=
    fun w hw => admissibleI_mirror h hsg hsl hb hcons gl gh hx hw
  have hfit' : ∀ kc ∈ s.constraints, (pointsOf E s (flip ta x) dt kc.2).length ≤ numPoints s dt := fun kc hkc => by
    rw [(points_mirror h hsg hb hcons gl gh hx hkc).1]; exact hfit kc hkc
  have T := C36_returns hspec hs hen x dt hsh hfit u hu
  have T' := C36_returns hspec hs hen (flip ta x) dt hsh' hfit' (flip sg u) (hlen u hu)
  by_cases ha : ∃ w, AdmissibleI E s x dt w
  · have ha' : ∃ w, AdmissibleI E s (flip ta x) dt w := by
      obtain ⟨w, hw⟩ := ha
      exact ⟨_, (hA w hw.len).2 hw⟩
    obtain ⟨v, hv⟩ := T.1 ha
    obtain ⟨v', hv'⟩ := T'.1 ha'
    obtain ⟨h1, h2, -⟩ := C36_closest_admissible hspec hs hen x dt u v (Prod.ext hv rfl) ha
    obtain ⟨h1', h2', -⟩ := C36_closest_admissible hspec hs hen (flip ta x) dt (flip sg u) v' (Prod.ext hv' rfl) ha'
    rw [hv, hv']
    show Except.ok v' = Except.ok (flip sg v)
    by_contra hne
    have hne' : v' ≠ flip sg v := fun e => hne (by rw [e])
    have hq : AdmissibleI E s x dt (flip sg v') := (hA _ (hlen v' h1'.len)).1 (by rw [hff v' h1'.len]; exact h1')
    have l1 := h2 (flip sg v') hq (fun e => hne' (by rw [← e, hff v' h1'.len]))
    have l2 := h2' (flip sg v) ((hA v h1.len).2 h1) hne'.symm
    rw [sqDist_flip hsg (by rw [h1.len, hsl])] at l2
    have l3 := sqDist_flip hsg (v := flip sg v') (w := u) (by rw [hlen v' h1'.len, hsl])
    rw [hff v' h1'.len] at l3
    rw [l3] at l2
    exact absurd l1 (not_lt.2 l2.le)
  · have ha' : ¬ ∃ w, AdmissibleI E s (flip ta x) dt w := by
      rintro ⟨w, hw⟩
      exact ha ⟨flip sg w, (hA _ (hlen w hw.len)).1 (by rw [hff w hw.len]; exact hw)⟩
    rw [T.2 ha, T'.2 ha', clip_flip s.toBase hsg hb hcons (hu.trans hsl.symm) (by rw [hu]; exact fl) (by rw [hu]; exact fh)]
    split <;> rfl

end

/-! ### A concrete module: `x' = u`, the backup law returns to the origin, the constraint is `1 - x^2 ≥ 0` -/

/-- The constraint `1 - x^2 ≥ 0`. -/
noncomputable def mirC : Constraint ℝ (List ℝ) Unit :=
  { iC 0 {} true none with
    computeFn := fun y _ => 1 - y.headD 0 ^ 2
    phiFn := fun y _ => 1 - y.headD 0 ^ 2
    gradFn := fun y _ => [-2 * y.headD 0] }

/-- The environment, with the actual derivative as Jacobian. -/
noncomputable def mirE : ImplicitEnv ℝ :=
  { iE with ad := fun F y => [[deriv (fun r => (F [r]).headD 0) (y.headD 0)]] }

/-- The backup controller `u = -x`. -/
noncomputable def mirCtrl : BackupController ℝ (List ℝ) Unit :=
  { gen := fun y _ z => some ([-(y.headD 0)], z), stateInitial := .none, stateSaved := .none, state := .none }

noncomputable def mirObj (exc : Bool) : ImplicitObj ℝ Unit Unit :=
  { iObj [("c", mirC)] 2 exc with ext := { (iObj [("c", mirC)] 2 exc).ext with extra := ⟨2, mirCtrl⟩ } }

theorem mir_module (solver : Solver ℝ) (exc : Bool) : ImplicitModule solver mirE (mirObj exc) :=
  ⟨some (.scalar 2), some (.scalar (-2)), [("c", mirC)], none, 1 / 10000, 1, exc, [], 2, mirCtrl.gen, .none, mirCtrl, _, [], by simp [dictKeys],
    by simp [dictKeys], rfl, rfl, rfl⟩

theorem mir_symmetric (exc : Bool) : SymmetricI mirE (mirObj exc) 1 [-1] [-1] := by
  have one : ∀ y : List ℝ, y.length = [(-1 : ℝ)].length → ∃ a, y = [a] := fun y hy => List.length_eq_one_iff.1 hy
  have hd : ∀ (z : CState Unit) (r : ℝ), deriv (fun r => (closedLoopField mirE (mirObj exc) 1 z [r]).headD 0) r = -1 := by
    intro z r
    have : (fun r : ℝ => (closedLoopField mirE (mirObj exc) 1 z [r]).headD 0) = fun r => -r := by
      funext r
      simp [closedLoopField, mirE, iE, mirObj, mirCtrl, matVec, vadd]
    rw [this]
    simp
  refine ⟨?_, ?_, ?_, ?_, ?_, ?_, ?_, ?_, ?_, by simp [mirObj, iObj]⟩
  · intro y _; simp [mirE, iE, flip]
  · intro y w hy hw
    obtain ⟨a, rfl⟩ := one w hw
    simp [mirE, iE, flip, matVec]
  · intro y w hy hw
    obtain ⟨a, rfl⟩ := one w hw
    obtain ⟨b, rfl⟩ := one y hy
    simp [mirE, iE, flip, vadd, vscale]; ring
  · intro y w hy hw
    obtain ⟨a, rfl⟩ := one w hw
    obtain ⟨b, rfl⟩ := one y hy
    simp [mirE, iE, vadd, vscale]
  · intro y z hy
    obtain ⟨b, rfl⟩ := one y hy
    simp [mirObj, mirCtrl, flip]
  · intro y z r hy hr
    simp only [mirObj, mirCtrl, Option.some.injEq] at hr
    rw [← hr]; rfl
  · intro y z v hy
    obtain ⟨b, rfl⟩ := one y hy
    have e : ∀ c : ℝ, mirE.ad (closedLoopField mirE (mirObj exc) 1 z) [c] = [[-1]] := fun c => by
      show [[deriv _ _]] = _
      rw [hd]
    have ef : flip [-1] [b] = [-b] := by simp [flip]
    rw [ef, e, e]
    rcases v with _ | ⟨a, v⟩ <;> simp [flip, matVec]
  · intro kc hkc y hy
    obtain ⟨b, rfl⟩ := one y hy
    obtain rfl : kc = ("c", mirC) := by simpa [mirObj, iObj] using hkc
    simp [mirC, flip]
  · intro kc hkc y v hy
    obtain ⟨b, rfl⟩ := one y hy
    obtain rfl : kc = ("c", mirC) := by simpa [mirObj, iObj] using hkc
    rcases v with _ | ⟨a, v⟩ <;> simp [mirC, flip]

theorem mir_path (exc : Bool) (x : ℝ) (k : Nat) : ∃ a, backupPath mirE (mirObj exc) [x] 1 k = some ([a], .none) := by
  induction k with
  | zero => exact ⟨x, rfl⟩
  | succ k ih =>
    obtain ⟨a, ha⟩ := ih
    obtain ⟨c, hc, hcl⟩ := C05_clip_total (mirObj exc).toBase [-a] trivial trivial
    have hl : c.length = 1 := by simpa using hcl
    obtain ⟨b, rfl⟩ := List.length_eq_one_iff.1 hl
    refine ⟨a + b, ?_⟩
    simp only [backupPath, ha, bind, Option.bind]
    have hg : (mirObj exc).ext.extra.ctrl.gen [a] 1 .none = some ([-a], .none) := rfl
    simp [hg, hc, Except.toOption, mirE, iE, vadd, vscale]

theorem mir_shapes (exc : Bool) (x : ℝ) : ShapesI mirE (mirObj exc) [x] 1 := by
  refine ⟨by norm_num, ?_, by simp [mirObj, iObj, mirC, iC], by simp [mirObj, iObj, mirC, iC], by simp [mirObj, iObj, mirC, iC], rfl, rfl, by simp [mirE, iE, mirObj, iObj],
    by simp [mirObj, mirCtrl], ?_, by simp [mirObj, iObj]⟩
  · have : (mirObj exc).ext.extra.backupWindow / 1 = ((2 : ℤ) : ℝ) := by simp [mirObj]
    rw [this]
    simp [pyInt]
  · intro k _
    obtain ⟨a, ha⟩ := mir_path exc x k
    exact ⟨_, _, ha, by simp [mirObj, iObj, mirC], fun _ => ⟨⟨[-a], .none, rfl, by simp [mirE, iE]⟩, rfl, rfl, by simp [mirE]⟩⟩

theorem mir_fit (exc : Bool) (x : ℝ) : ∀ kc ∈ (mirObj exc).constraints, (pointsOf mirE (mirObj exc) [x] 1 kc.2).length ≤ numPoints (mirObj exc) 1 := by
  intro kc hkc
  obtain rfl : kc = ("c", mirC) := by simpa [mirObj, iObj] using hkc
  have hn : numPoints (mirObj exc) 1 = 3 := by
    have : (mirObj exc).ext.extra.backupWindow / 1 = ((2 : ℤ) : ℝ) := by simp [mirObj]
    unfold numPoints
    rw [this]
    simp [pyInt]
  unfold pointsOf
  rw [hn]
  simp [mirC, iC, checkedPoints]
  decide

/-- Its answer to `-u` in `-x` is the opposite of its answer to `u` in `x`. -/
example {solver : Solver ℝ} (hspec : SolverSpec solver) (exc : Bool) (x u : ℝ) :
    (mirE.call solver (mirObj exc) (.array [-x]) 1 [-u]).1 = ((mirE.call solver (mirObj exc) (.array [x]) 1 [u]).1).map (flip [-1]) := by
  have := C107_implicit hspec (mir_module solver exc) rfl (mir_symmetric exc) (by simp) rfl
    (fun i _ => by simp [mirObj, iObj, Base.init, boundAt]) (fun i a b h1 h2 => by
      simp [mirObj, iObj, Base.init, boundAt] at h1 h2; rw [← h1, ← h2]; norm_num) (x := [x]) rfl (mir_shapes exc x)
    (by simpa [flip] using mir_shapes exc (-x)) (mir_fit exc x) (u := [u]) rfl
  simpa [flip] using this

end RTA
