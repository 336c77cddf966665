import Verif.Model.CorrViewer
import Verif.Model.Sim

/-!
# The viewers of arrays of curves (cddm/viewer.py:274-576)

`DataArrayViewer`, `CorrArrayViewer` and `MultitauArrayViewer`: which pixels they average.  Drawing is not modelled,
`data_repr` is in Verif/Model/ViewerAvg.lean, the check boxes in Verif/Model/Viewer.lean.
-/

namespace Cddm

/-- An item of `self.indices`: `slice(None)` or an integer (cddm/viewer.py:317-319). -/
inductive AxisIdx
  | all
  | pick (v : Int)
  deriving DecidableEq

/-- `indices[ax] = vals[i]` (cddm/viewer.py:319): IndexError for a missing value and for an axis outside the list. -/
def setItem (indices : List AxisIdx) (ax : Int) (v : Option Int) : Py (List AxisIdx) :=
  match v with
  | none => .error .indexError
  | some v =>
    match resolveIdx indices.length ax with
    | none => .error .indexError
    | some k => .ok (indices.set k (.pick v))

/-- The loop of `set_indices` (cddm/viewer.py:318-319). -/
def setItems (vals : List Int) : List (Int × Nat) → List AxisIdx → Py (List AxisIdx)
  | [], indices => .ok indices
  | (ax, i) :: rest, indices => do
    let indices ← setItem indices ax vals[i]?
    setItems vals rest indices

/-- `set_indices` (cddm/viewer.py:316-320): the tuple `self.indices`. -/
def indexTuple (axes : List Int) (vals : List Int) : Py (List AxisIdx) :=
  setItems vals axes.zipIdx (List.replicate axes.length .all)

/-- An array of any number of axes before the last one (cddm/viewer.py:322, 468): shape of the other axes, length of the
last one, and what the array holds for each position on the others. -/
structure PixArr (α : Type) where
  lead : List Nat
  len : Nat
  get : List Nat → α

/-- The positions on an axis of `n` that an item selects: IndexError for an integer outside (cddm/viewer.py:347, 438). -/
def axisPositions (n : Nat) : AxisIdx → Py (List Nat)
  | .all => .ok (List.range n)
  | .pick v =>
    match resolveIdx n v with
    | none => .error .indexError
    | some k => .ok [k]

/-- All the positions with coordinates from the given lists, in C order (cddm/viewer.py:347, 438). -/
def cartesian : List (List Nat) → List (List Nat)
  | [] => [[]]
  | l :: ls => l.flatMap fun x => (cartesian ls).map (x :: ·)

/-- The positions that `self.indices` selects (cddm/viewer.py:347, 438): IndexError for too many items or for an integer
out of range; missing items select everything. -/
def indexPositions (shape : List Nat) (indices : List AxisIdx) : Py (List (List Nat)) :=
  if indices.length > shape.length then .error .indexError
  else do
    let l ← (shape.zip (indices ++ List.replicate (shape.length - indices.length) .all)).mapM fun p => axisPositions p.1 p.2
    .ok (cartesian l)

section
variable {C : Type} [AddCommGroup C] [Module ℝ C]

/-- `mean` (cddm/viewer.py:348, 513, 575): not a number if a value is not, or if there is none. -/
noncomputable def plainMean (x : List (Option C)) : Option C :=
  match x.mapM id with
  | none => none
  | some [] => none
  | some y => some ((1 / (y.length : ℝ)) • y.sum)

/-- Attributes of an array viewer (cddm/viewer.py:276-283, 424-431).  `t` are the times of a `DataArrayViewer`. -/
structure ArrView (α : Type) where
  axes : List Int
  indices : List AxisIdx
  data : Option (PixArr α)
  t : List ℝ

/-- The constructors (cddm/viewer.py:279-283, 424-427). -/
def ArrView.new {α : Type} (axes : List Int) : Py (ArrView α) := do
  let indices ← indexTuple axes (List.replicate axes.length 0)
  .ok ⟨axes, indices, none, []⟩

/-- `set_indices` of a viewer (cddm/viewer.py:316-320): the state after the call and whether it raised an exception. -/
def ArrView.setIndices {α : Type} (v : ArrView α) (vals : List Int) : ArrView α × Py Unit :=
  match indexTuple v.axes vals with
  | .error e => (v, .error e)
  | .ok i => ({ v with indices := i }, .ok ())

/-- `DataArrayViewer.set_data` (cddm/viewer.py:322-344): the axes are tried on `range(data.ndim)`; data and shape are set
before the length of the times is checked.  Data have at least one axis. -/
noncomputable def ArrView.setDataT {α : Type} (v : ArrView α) (data : PixArr α) (t : Option (List ℝ)) : ArrView α × Py Unit :=
  if v.axes.all fun ax => (resolveIdx (data.lead.length + 1) ax).isSome then
    let t := t.getD ((List.range data.len).map fun (k : Nat) => (k : ℝ))
    if t.length = data.len then ({ v with data := some data, t := t }, .ok ())
    else ({ v with data := some data }, .error .valueError)
  else (v, .error .valueError)

/-- `CorrArrayViewer.set_data` and `MultitauArrayViewer.set_data` (cddm/viewer.py:479-497, 542-560). -/
def ArrView.setData {α : Type} (v : ArrView α) (data : PixArr α) : ArrView α × Py Unit :=
  ({ v with data := some data }, .ok ())

/-- `DataArrayViewer.get_data` (cddm/viewer.py:346-364) up to `data_repr`; a pixel holds its values at the times.  An
integer for the last axis is not modelled. -/
noncomputable def ArrView.getData (v : ArrView (Nat → Option C)) : Py (List ℝ × List (Option C)) :=
  match v.data with
  | none => .error .valueError
  | some d =>
    if v.indices.length = d.lead.length + 1 then .error .notModelled
    else do
      let ps ← indexPositions d.lead v.indices
      .ok (v.t, (List.range d.len).map fun n => plainMean (ps.map fun p => d.get p n))

/-- `CorrArrayViewer.get_data` and `MultitauArrayViewer.get_data` (cddm/viewer.py:352-364, 435-439, 499-513, 562-575) up
to `data_repr`: `curve` is `corrCurve` or `multiCurve`.  The shape of the result is that of the first curve; no pixel
at all is not modelled. -/
noncomputable def ArrView.getCurve {D : Type} (curve : ViewCell D → Py (List Nat × List (Option C)))
    (v : ArrView (ViewCell D)) : Py (List Nat × List (Option C)) :=
  match v.data with
  | none => .error .valueError
  | some d => do
    let ps ← indexPositions d.lead v.indices
    let curves ← ps.mapM fun p => curve (d.get p)
    match curves with
    | [] => .error .notModelled
    | c :: _ => .ok (c.1, (List.range c.2.length).map fun n => plainMean (curves.map fun c => c.2.getD n none))

end

/-- A call of a method (cddm/viewer.py:316, 322, 479). -/
inductive ArrOp (α : Type)
  | indices (vals : List Int)
  | data (a : PixArr α) (t : Option (List ℝ))

/-- A call of a method of a `DataArrayViewer` (cddm/viewer.py:316-344); an exception is caught by the caller. -/
noncomputable def ArrView.step {α : Type} (v : ArrView α) : ArrOp α → ArrView α
  | .indices vals => (v.setIndices vals).1
  | .data a t => (v.setDataT a t).1

/-- The same for the two other viewers, whose `set_data` has no times (cddm/viewer.py:479-497, 542-560). -/
def ArrView.stepC {α : Type} (v : ArrView α) : ArrOp α → ArrView α
  | .indices vals => (v.setIndices vals).1
  | .data a _ => (v.setData a).1

/-- What moving a slider does (cddm/viewer.py:299-308): the values are real numbers between `-size` and `size`, where
`size` is the length of the axis minus one, and `int` is applied to them. -/
noncomputable def ArrView.slide {α : Type} (v : ArrView α) (x : List ℝ) : ArrView α × Py Unit :=
  v.setIndices (x.map truncInt)

end Cddm
