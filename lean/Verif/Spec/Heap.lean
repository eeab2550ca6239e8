import Verif.Model.Heap

/-!
The world of C04 without any sharing: the module keeps values, and so does the caller.
-/
namespace RTA
variable {K ρ : Type}

/-- A module object with its control records as values. -/
structure VObj (K ρ : Type) where
  core : Core K ρ
  desired : Option (List K)
  actual : Option (List K)

instance : HasBase (VObj K ρ) K where
  get s := ⟨s.core.controlBoundsHigh, s.core.controlBoundsLow, s.core.enable, s.core.intervening, s.desired, s.actual⟩
  set b s := ⟨⟨b.controlBoundsHigh, b.controlBoundsLow, b.enable, b.intervening, s.core.extra⟩, b.controlDesired, b.controlActual⟩
  get_set _ _ := rfl
  set_get _ := rfl
  set_set _ _ _ := rfl

/-- The method `compute_filtered_control` on values. -/
def valCompute (compute : ComputeFn K ρ) (s : VObj K ρ) (x : List K) (dt : K) (u : List K) :
    Except PyErr (List K) × VObj K ρ :=
  let r := compute s.core x dt u
  let s' : VObj K ρ := ⟨r.2.2, s.desired, match r.2.1 with | none => s.actual | some v => some v⟩
  match r.1 with
  | .error e => (.error e, s')
  | .ok .sameArray => (.ok u, s')
  | .ok (.newArray v) => (.ok v, s')

/-- Module and caller in separate memories: `mine` are the caller's arrays. -/
structure VWorld (K ρ : Type) where
  obj : VObj K ρ
  mine : List (List K)

/-- The contents a name stands for. -/
def VWorld.resolve (w : VWorld K ρ) : Arg → Option (List K)
  | .mine i => w.mine[i]?
  | .infoDesired => w.obj.desired
  | .infoActual => w.obj.actual

/-- The same operations when nothing is shared: a call only hands over the present contents of its arguments and returns
contents; writes to the caller's arrays stay with the caller; writes to the arrays in the info dictionary go to the module's
records. -/
def VWorld.step [Max K] [Min K] (compute : ComputeFn K ρ) (w : VWorld K ρ) : HOp K → VWorld K ρ
  | .newArray v => { w with mine := w.mine ++ [v] }
  | .write (.mine j) i x => { w with mine := w.mine.modify j fun a => a.set i x }
  | .write .infoDesired i x => { w with obj := { w.obj with desired := w.obj.desired.map fun a => a.set i x } }
  | .write .infoActual i x => { w with obj := { w.obj with actual := w.obj.actual.map fun a => a.set i x } }
  | .call s u dt =>
    match w.resolve s, w.resolve u with
    | some vs, some vu =>
      match filterControl (valCompute compute) w.obj vs dt vu with
      | (.error _, o) => { w with obj := o }
      | (.ok c, o) => { obj := o, mine := w.mine ++ [c] }
    | _, _ => w
  | .setEnable b => { w with obj := modifyBase (fun x => { x with enable := b }) w.obj }
  | .reset => { w with obj := Base.reset w.obj }

/-- Execute operations in order. -/
def VWorld.run [Max K] [Min K] (compute : ComputeFn K ρ) (w : VWorld K ρ) (ops : List (HOp K)) : VWorld K ρ :=
  ops.foldl (VWorld.step compute) w

/-- What can be seen of a shared memory: contents of the caller's arrays and of the module's records. -/
def World.view (w : World K ρ) : VWorld K ρ :=
  { obj := ⟨w.obj.core, w.obj.desired.map (deref w.heap), w.obj.actual.map (deref w.heap)⟩
    mine := w.env.map (deref w.heap) }

/-- A memory that contains the arrays it mentions and in which module and caller share none. -/
structure Separate (w : World K ρ) : Prop where
  envIn : ∀ r ∈ w.env, r < w.heap.length
  desIn : ∀ r, w.obj.desired = some r → r < w.heap.length
  actIn : ∀ r, w.obj.actual = some r → r < w.heap.length
  nodup : w.env.Nodup
  des : ∀ r, w.obj.desired = some r → r ∉ w.env
  act : ∀ r, w.obj.actual = some r → r ∉ w.env
  two : ∀ r, w.obj.desired = some r → w.obj.actual ≠ some r

end RTA
