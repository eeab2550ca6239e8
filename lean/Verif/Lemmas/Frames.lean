import Verif.Lemmas.Implicit
import Verif.Lemmas.Simplex
import Verif.Model.Discrete
import Verif.Model.Zoo.InspectionJit

/-!
What the filters of the modules leave alone: the constraint dictionary, its caches, the reported values and the recorded controls.
-/
namespace RTA

section
variable {K S P X A E : Type}

/-- Only the intervening flag and the attributes of the subclass may have changed. -/
def Untouched (s t : CBObj K S P E) : Prop := ∃ iv e, t = { s with intervening := iv, ext := e }

theorem Untouched.refl (s : CBObj K S P E) : Untouched s s := ⟨s.intervening, s.ext, rfl⟩

theorem Untouched.trans {a b c : CBObj K S P E} (h : Untouched a b) (h' : Untouched b c) : Untouched a c := by
  obtain ⟨i1, e1, rfl⟩ := h
  obtain ⟨i2, e2, rfl⟩ := h'
  exact ⟨i2, e2, rfl⟩

theorem untouched_setExt (s : CBObj K S P E) (e : E) : Untouched s (s.setExt e) := ⟨s.intervening, e, rfl⟩

theorem frameFilter_of {filter : CBObj K S P E → S → K → List K → Except PyErr (List K) × CBObj K S P E}
    (h : ∀ s x dt u, Untouched s (filter s x dt u).2) : FrameFilter filter := by
  constructor <;> intro s x dt u <;> obtain ⟨iv, e, he⟩ := h s x dt u <;> rw [he]

theorem frameFilterBase_of {filter : CBObj K S P E → S → K → List K → Except PyErr (List K) × CBObj K S P E}
    (h : ∀ s x dt u, Untouched s (filter s x dt u).2) : FrameFilterBase filter := by
  constructor <;> intro s x dt u <;> obtain ⟨iv, e, he⟩ := h s x dt u <;> rw [he]

theorem optimize_untouched [Zero K] (solver : Solver K) (s : ASIFObj K S P X) (u : List K) (rows : List (Row K)) :
    Untouched s (optimize solver s u rows).2 := by
  unfold optimize
  simp only
  rcases quadprogSolve solver s.ext.objWeight (u ++ zeros s.ext.numSlack) rows with ⟨w, iact⟩ | msg
  · simp only
    rcases causingLoop s.ext.constraintNames iact [] with ⟨_ | _, l⟩ <;> exact untouched_setExt _ _
  · simp only
    split_ifs <;> exact Untouched.refl s

theorem asif_untouched [Add K] [Mul K] [Sub K] [Zero K] [HasSqrt K] [LT K] [DecidableLT K] (solver : Solver K)
    {gen : ASIFObj K S P X → S → K → Except PyErr (List (Row K)) × ASIFObj K S P X}
    (hg : ∀ s x dt, Untouched s (gen s x dt).2) (s : ASIFObj K S P X) (x : S) (dt : K) (u : List K) :
    Untouched s (asifFilter solver gen s x dt u).2 := by
  unfold asifFilter
  have h0 : Untouched s (updateDirectParams s) := untouched_setExt _ _
  have h1 := h0.trans (hg (updateDirectParams s) x dt)
  rcases hq : gen (updateDirectParams s) x dt with ⟨_ | rows, s1⟩
  · rw [hq] at h1; simpa only [hq] using h1
  · rw [hq] at h1
    simp only [hq]
    rcases directRows s1.ext.directParams s1.ext.directEnabled s1.ext.controlDim s1.ext.numSlack x s1.ext.direct with _ | dr
    · exact h1
    · simp only
      have h2 := h1.trans (optimize_untouched solver s1 u (rows ++ dr))
      rcases ho : optimize solver s1 u (rows ++ dr) with ⟨_ | a, s2⟩
      · rw [ho] at h2; exact h2
      · rw [ho] at h2
        exact h2.trans ⟨_, s2.ext, rfl⟩

theorem explicitGen_untouched [Add K] [Mul K] [Neg K] [Sub K] [Zero K] [One K] [OfNat K 10] [LT K] [DecidableLT K]
    (f : S → List K) (g : S → List (List K)) (s : ASIFObj K S P X) (x : S) (dt : K) :
    Untouched s (explicitGenRows f g s x dt).2 := by
  unfold explicitGenRows
  split <;> exact Untouched.refl s

theorem implicitGen_untouched [Field K] [LinearOrder K] [FloorRing K] (E : ImplicitEnv K) (s : ImplicitObj K P A) (x : List K) (dt : K) :
    Untouched s (implicitGenRows E.ad E.f E.g E.pred s x dt).2 := by
  unfold implicitGenRows
  rcases backupSteps s.ext.extra.backupWindow dt with _ | m
  · exact Untouched.refl s
  · simp only
    split_ifs
    · exact Untouched.refl s
    · obtain ⟨z, sv, hfr⟩ := sensIntegrate_frame E s x dt (m.toNat + 1)
      have h1 : Untouched s (sensIntegrate E.ad E.f E.g E.pred s x dt (m.toNat + 1)).2 := by
        rw [hfr]; exact untouched_setExt _ _
      rcases hi : sensIntegrate E.ad E.f E.g E.pred s x dt (m.toNat + 1) with ⟨_ | tr, s1⟩
      · rw [hi] at h1; exact h1
      · rw [hi] at h1
        simp only
        rcases implicitRows E.f E.g s1.params s1.constraintEnabled s1.ext.controlDim s1.ext.numSlack x tr 0 s1.constraints with _ | rows
        · exact h1
        · exact h1.trans (untouched_setExt _ _)

theorem disc_untouched [Field K] [HasSqrt K] [LT K] [DecidableLT K] (solver : NLPSolver K) (next : S → K → List K → S)
    (s : DiscObj K S P) (x : S) (dt : K) (u : List K) : Untouched s (discFilter solver next s x dt u).2 := by
  unfold discFilter
  simp only
  split
  · split_ifs
    · exact Untouched.refl s
    · split
      · exact Untouched.refl s
      · split_ifs
        · exact Untouched.refl s
        · exact ⟨_, s.ext, rfl⟩
  · exact Untouched.refl s
  · exact Untouched.refl s

/-- `_get_state` of the inspection modules changes no attribute of the base classes. -/
theorem frame_getStateSet (pad : S → S) (upd : X → S → X) : FrameGetState (getStateSet (K := K) (P := P) pad upd) := by
  constructor <;> intro s i <;> cases i <;> rfl

end

end RTA
