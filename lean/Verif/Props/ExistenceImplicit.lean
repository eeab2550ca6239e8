import Verif.Props.ExistenceSampled
import Verif.Props.Zoo.Integrator

/-!
C121 for implicit switching filters that are called at fixed intervals.
-/
namespace RTA
open Set
variable {P A : Type}

/-- **C121 for sampled implicit switching filters**: if the backup law produces a control in every state and of every controller state, which the
bounds accept, the bounds accept the desired control, and the controller keeps to states it can save, the sampled closed loop has a motion from every
state. What the filter predicts, how long its window is, how it is latched and whether the motion is safe do not matter. (It is the only one by
`C121_sampled_unique`.) -/
theorem C121_sampled_implicit (pred : List ℝ → ℝ → List ℝ → List ℝ) {s0 : SimplexObj ℝ (List ℝ) P A} (hwf : WF s0) (hen : s0.enable = true)
    {n : Nat} {f : List ℝ → List ℝ} {g : List ℝ → List (List ℝ)} (des : List ℝ → List ℝ) {Δ : ℝ} (hΔ : 0 < Δ) (U : List ℝ → Prop)
    (hdes : ∀ x, x.length = n → ∃ v, s0.toBase.clipControl (des x) = .ok v ∧ U v)
    (claw : List ℝ → CState A → List ℝ) (next : List ℝ → CState A → CState A)
    (hlaw : ∀ x z, ∃ ub, s0.ext.ctrl.gen x Δ z = some (ub, next x z) ∧ s0.toBase.clipControl ub = .ok (claw x z))
    (hU : ∀ x z, x.length = n → U (claw x z)) (hz0 : ∀ a, s0.ext.ctrl.state ≠ .unsupported a)
    (hnext : ∀ x z, (∀ a, z ≠ .unsupported a) → ∀ a, next x z ≠ .unsupported a)
    (hlen : ∀ v, U v → ∀ x, x.length = n → (vadd (f x) (matVec (g x) v)).length = n)
    (hlip : ∀ v, U v → ∀ i < n, LipOn n fun x => (vadd (f x) (matVec (g x) v)).getD i 0) {x0 : List ℝ} (hx0 : x0.length = n) :
    ∃ x u st, SampledLoop (fun s x => implicitSimplex pred s (.array x) Δ (des x)) Δ n f g x u st ∧ x 0 = x0 ∧ st 0 = s0 := by
  refine C121_sampled_exists hΔ (fun s : SimplexObj ℝ (List ℝ) P A => WF s ∧ s.enable = true ∧ s.controlBoundsHigh = s0.controlBoundsHigh ∧
    s.controlBoundsLow = s0.controlBoundsLow ∧ s.ext.ctrl.gen = s0.ext.ctrl.gen ∧ ∀ a, s.ext.ctrl.state ≠ .unsupported a) U ?_ hlen hlip
    ⟨hwf, hen, rfl, rfl, rfl, hz0⟩ hx0
  rintro s x ⟨hw, he, hhi, hlo, hgen, hz⟩ hx
  have hclip : ∀ u, s.toBase.clipControl u = s0.toBase.clipControl u := by
    intro u; unfold Base.clipControl; rw [hhi, hlo]
  have hlaws : ∀ x z, ∃ ub, s.ext.ctrl.gen x Δ z = some (ub, next x z) ∧ s.toBase.clipControl ub = .ok (claw x z) := by
    intro x z
    obtain ⟨ub, h1, h2⟩ := hlaw x z
    exact ⟨ub, by rw [hgen]; exact h1, (hclip ub).trans h2⟩
  obtain ⟨cu, hcu, hUu⟩ := hdes x hx
  obtain ⟨c, s', hcall⟩ := C14_implicit_returns pred s hw he x Δ hΔ.ne' (des x) cu claw next hlaws hz ((hclip _).trans hcu)
  have hw' : WF s' := by
    have := (filterControlCB_frame frame_getStateDefault (frameFilter_simplex (monFrame_implicit pred)) s (.array x) Δ (des x)).2 hw
    have hc := hcall
    unfold implicitSimplex at hc
    rwa [hc] at this
  obtain ⟨⟨he', hcs', hhi', hlo'⟩, hd⟩ := simplex_ok (monFrame_implicit pred) he hcall
  have hgen' : s'.ext.ctrl.gen = s.ext.ctrl.gen := by
    rcases hd with ⟨_, _, z, _, hext⟩ | ⟨_, b, sm, sv, _, _, ⟨_, z, _, hext⟩ | ⟨_, _, hext⟩⟩ <;> rw [hext]
  have hb : ∀ z, IsBackup s x Δ c z → U c ∧ ∀ a, z ≠ .unsupported a := by
    rintro z ⟨ub, hg, hc⟩
    obtain ⟨ub', hg', hc'⟩ := hlaws x s.ext.ctrl.state
    rw [hg'] at hg
    simp only [Option.some.injEq, Prod.mk.injEq] at hg
    obtain ⟨rfl, rfl⟩ := hg
    rw [hc'] at hc
    obtain rfl : claw x s.ext.ctrl.state = c := by simpa using hc
    exact ⟨hU _ _ hx, hnext _ _ hz⟩
  suffices h : U c ∧ ∀ a, s'.ext.ctrl.state ≠ .unsupported a from
    ⟨c, s', hcall, h.1, hw', he', hhi'.trans hhi, hlo'.trans hlo, hgen'.trans hgen, h.2⟩
  rcases hd with ⟨_, _, z, h, hext⟩ | ⟨_, b, sm, sv, _, _, ⟨_, z, h, hext⟩ | ⟨_, h2, hext⟩⟩
  · rw [hext]; exact hb z h
  · rw [hext]; exact hb z h
  · rw [hext]
    rw [hclip, hcu] at h2
    simp only [Except.ok.injEq] at h2
    rw [← h2]
    exact ⟨hUu, hz⟩

/-- The velocity of the point mass under a constant control. -/
theorem point_velocity (w : ℝ) (x : List ℝ) (hx : x.length = 2) : vadd (pointF x) (matVec (pointG 1 x) [w]) = [x.getD 1 0, w] := by
  obtain ⟨a, b, rfl⟩ := List.length_eq_two.1 hx
  simp [vadd, pointF, pointG, pointA, pointB, matVec, dot]

theorem point_velocity_lip (w : ℝ) (i : Nat) (hi : i < 2) : LipOn 2 fun x => (vadd (pointF x) (matVec (pointG 1 x) [w])).getD i 0 := by
  interval_cases i
  · have hid : LipOn 2 fun x => x.getD 1 0 := ⟨1, zero_le_one, fun x y _ _ r _ h => by rw [one_mul]; exact h 1 (by norm_num)⟩
    exact hid.congr fun x hx => by rw [point_velocity w x hx]; rfl
  · exact (LipOn.const 2 w).congr fun x hx => by rw [point_velocity w x hx]; rfl

/-- The implicit switching filter of the 1-D docking example, called every second, with a window of five seconds. -/
example (pred : List ℝ → ℝ → List ℝ → List ℝ) (des : List ℝ → ℝ) :
    ∃ x u st, SampledLoop (fun s x => implicitSimplex pred s (.array x) 1 [des x]) 1 2 pointF (pointG 1) x u st ∧ x 0 = [-1, 1] ∧
      st 0 = (dockISObj 0 5 : SimplexObj ℝ (List ℝ) Unit Unit) := by
  refine C121_sampled_implicit pred ⟨by simp [dictKeys, dockISObj], by simp [dictKeys, dockISObj], by simp [dictKeys, dockISObj]⟩ rfl
    (fun x => [des x]) one_pos (fun v => v.length = 1) (fun x _ => ⟨_, rfl, rfl⟩) (fun _ _ => [-1]) (fun _ _ => .none)
    (fun x z => ⟨[-1], rfl, dock_clip _ rfl rfl _ le_rfl (by norm_num)⟩) (fun _ _ _ => rfl) (by intro a h; simp [dockISObj, dockCtrl] at h)
    (by intro _ _ _ a h; simp at h)
    (fun v _ x _ => by simp [vadd, pointF, pointG, pointA, pointB, matVec]) (fun v hv i hi => ?_) rfl
  obtain ⟨w, rfl⟩ := List.length_eq_one_iff.1 hv
  exact point_velocity_lip w i hi

end RTA
