import Verif.Model.ConstraintRTA

/-!
Specification vocabulary for constraint based modules.
-/
namespace RTA

/-- A well-formed module object: dictionary keys are distinct (Python dictionaries cannot repeat a key) and the two
caches have exactly the constraint keys, in order. Every constructed module is well formed, and every operation keeps it
so (`wf_init`, ...). -/
structure WF {K S P E : Type} (s : CBObj K S P E) : Prop where
  nodup : (dictKeys s.constraints).Nodup
  params : dictKeys s.params = dictKeys s.constraints
  enabled : dictKeys s.constraintEnabled = dictKeys s.constraints

/-- Every enabled constraint, including its bias, is non-negative at `x`, for the params and flags the constraint objects
hold. -/
def SafeAt {K S P : Type} [Add K] [Zero K] [LE K] (cs : Dict (Constraint K S P)) (x : S) : Prop :=
  ∀ kc ∈ cs, kc.2.enabled = true → 0 ≤ kc.2.computeFn x kc.2.params + kc.2.bias

/-- The user edits `module.constraints[k].params` and `.enabled`: `f` gives the new values per key. -/
def editConstraints {K S P E : Type} (f : String → P × Bool → P × Bool) (self : CBObj K S P E) : CBObj K S P E :=
  { self with constraints := self.constraints.map fun kc =>
      (kc.1, { kc.2 with params := (f kc.1 (kc.2.params, kc.2.enabled)).1
                         enabled := (f kc.1 (kc.2.params, kc.2.enabled)).2 }) }

end RTA
