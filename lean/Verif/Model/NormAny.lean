import Verif.Model.AnyAxisCcorr
import Verif.Model.Norm

/-!
# `normalize` on arrays of many wave vectors

`normalize` (`cddm/norm.py`) for data of any number of axes: the last axis is that of the delays, the axes of the frame are
before it, and the levels of multiple-tau data, if any, come first.  Background and variance have the axes of the frame; they
are masked like the data and stretched over them by numpy's broadcasting rules.
Simplified: the formulas are those of one wave vector in `Verif.Model.Norm`; arrays that would stretch the data, data without
any wave vector, a variance that does not fit, and a weight of another shape than the data are not modelled; which exception
comes first in a call with two mistakes is not modelled either.
-/

namespace Cddm

/-- The argument `background` or `variance`: an array or a tuple of two arrays (cddm/norm.py:155-159, 448-451). -/
inductive FrameArg (α : Type)
  | arr (x : Tensor α)
  | pair (x y : Tensor α)

/-- `x[i]` of an array (cddm/norm.py:156, 449), of which `shape` is the shape without the first axis. -/
def subArray {α : Type} (x : Tensor α) (shape : List Nat) (i : Nat) : Tensor α := ⟨shape, fun p => x.get (i :: p)⟩

/-- `bg1, bg2 = background`, and `bg1, bg2 = background, background` if that fails (cddm/norm.py:448-451; 155-159 for the
variance).  Python also unpacks an array whose first axis has length two. -/
def unpackTwo {α : Type} (x : FrameArg α) : FrameArg α :=
  match x with
  | .pair x y => .pair x y
  | .arr x =>
    match x.shape with
    | 2 :: s => .pair (subArray x s 0) (subArray x s 1)
    | _ => .arr x

/-- The positions a boolean array selects, in C order: the index `mask` in cddm/norm.py:163, 456-457, 759. -/
def selectedBy (mask : Tensor Bool) : List (List Nat) := (positionsOf mask.shape).filter fun p => mask.get p

/-- `x[mask]` (cddm/norm.py:163, 456-457): IndexError if the mask does not have the shape of the first axes. -/
def maskedFrame {α : Type} (mask : Option (Tensor Bool)) (x : Tensor α) : Py (Tensor α) :=
  match mask with
  | none => .ok x
  | some m =>
    if x.shape.take m.shape.length = m.shape then
      .ok ⟨(selectedBy m).length :: x.shape.drop m.shape.length, fun p => x.get ((selectedBy m).getD (p.headD 0) [] ++ p.tail)⟩
    else .error .indexError

/-- `data[..., mask, :]` (cddm/norm.py:759). -/
def maskData {α : Type} (mask : Option (Tensor Bool)) (x : Tensor α) : Py (Tensor α) :=
  match mask with
  | none => .ok x
  | some m =>
    let d := x.shape.length - 1 - m.shape.length
    if m.shape.length + 1 ≤ x.shape.length ∧ (x.shape.drop d).dropLast = m.shape then
      .ok ⟨x.shape.take d ++ [(selectedBy m).length, x.shape.getLastD 0],
        fun p => x.get (p.take d ++ (selectedBy m).getD (p.getD d 0) [] ++ p.drop (d + 1))⟩
    else .error .indexError

/-- An entry that may be `None` (cddm/norm.py:757-760). -/
def maskDataOpt {α : Type} (mask : Option (Tensor Bool)) (x : Option (Tensor α)) : Py (Option (Tensor α)) :=
  match x with
  | none => .ok none
  | some x => (maskData mask x).map some

/-- `_inspect_background` and `scale_factor` (cddm/norm.py:446-463, 153-163): unpacked, then masked. -/
def inspectFrames {α : Type} (mask : Option (Tensor Bool)) (x : FrameArg α) : Py (FrameArg α) :=
  match unpackTwo x with
  | .arr x => do
    let x ← maskedFrame mask x
    .ok (.arr x)
  | .pair x y => do
    let x ← maskedFrame mask x
    let y ← maskedFrame mask y
    .ok (.pair x y)

/-- A coordinate along an axis of length `b` that is stretched if `b` is one (broadcasting in cddm/norm.py:642-716). -/
def stretchIndex (b i : Nat) : Nat := if b = 1 then 0 else i

/-- A frame `x[..., None]` is stretched over data whose axes before the last are `outer` (cddm/norm.py:629-630, 443, 721): axes
are compared from the last one. -/
def stretchFrame {α : Type} (x : Tensor α) (outer : List Nat) : Py (List Nat → α) :=
  let d := outer.length - x.shape.length
  if outer.length < x.shape.length then .error .notModelled
  else if (List.zip x.shape (outer.drop d)).all fun p => p.1 == p.2 || p.1 == 1 then
    .ok fun o => x.get (List.zipWith stretchIndex x.shape (o.drop d))
  else if (List.zip x.shape (outer.drop d)).all fun p => p.1 == p.2 || p.1 == 1 || p.2 == 1 then .error .notModelled
  else .error .valueError

/-- What a wave vector sees of the background (cddm/norm.py:629-630). -/
def stretchBackground (x : FrameArg (Cx ℝ)) (outer : List Nat) : Py (List Nat → Background) :=
  match x with
  | .arr x => do
    let f ← stretchFrame x outer
    .ok fun o => .one (f o)
  | .pair x y => do
    let f ← stretchFrame x outer
    let g ← stretchFrame y outer
    .ok fun o => .two (f o) (g o)

/-- What a wave vector sees of the variance (cddm/norm.py:153-159, 441-443).  Two arrays of different shapes are not modelled. -/
def stretchVariance (x : FrameArg ℝ) (outer : List Nat) : Py (List Nat → Variance) :=
  match x with
  | .arr x => do
    let f ← stretchFrame x outer
    .ok fun o => .one (f o)
  | .pair x y =>
    if x.shape = y.shape then do
      let f ← stretchFrame x outer
      let g ← stretchFrame y outer
      .ok fun o => .two (f o) (g o)
    else .error .notModelled

/-- An argument that may be `None` (cddm/norm.py:447, 153). -/
def stretchOpt {α β : Type} (f : α → Py (List Nat → β)) (x : Option α) : Py (List Nat → Option β) :=
  match x with
  | none => .ok fun _ => none
  | some x => (f x).map fun g o => some (g o)

/-- The same for masking (cddm/norm.py:455-457, 160-163). -/
def inspectOpt {α : Type} (mask : Option (Tensor Bool)) (x : Option (FrameArg α)) : Py (Option (FrameArg α)) :=
  match x with
  | none => .ok none
  | some x => (inspectFrames mask x).map some

/-- A failure of the variance: whether and where it is raised depends on whether the variance is used (cddm/norm.py:137-163);
not modelled. -/
def ifUsed {α : Type} (x : Py α) : Py α := x.mapError fun _ => .notModelled

/-- The argument `data` (cddm/norm.py:466-475): a 5-tuple, a 4-tuple or something else. -/
inductive DataAny (C : Type)
  | corr (cor : Tensor C) (count : Tensor Nat) (sq : Option (Tensor ℝ)) (s1 s2 : Option (Tensor (Cx ℝ)))
  | diff (dif : Tensor C) (count : Tensor Nat) (s1 s2 : Option (Tensor (Cx ℝ)))
  | other

section
variable {C : Type}

/-- The array of counts `data[1]` (cddm/norm.py:626). -/
def countArray (count : List Nat) : Tensor Nat := ⟨[count.length], fun p => count.getD (p.headD 0) 0⟩

/-- The tuple returned by `ccorr` and `acorr`, as seen by `normalize`: a 4-tuple for method 'diff', else a 5-tuple
(cddm/core.py:1132-1135, 1293-1296). -/
def CorrTupleAny.toData (method : String) (r : CorrTupleAny C) : DataAny C :=
  if method = "diff" then .diff r.cor (countArray r.count) r.ds1 r.ds2
  else .corr r.cor (countArray r.count) r.sq r.ds1 r.ds2

/-- `take_data` if there is a mask (cddm/norm.py:632-633, 741-762). -/
def takeDataAny (mask : Option (Tensor Bool)) (data : DataAny C) : Py (DataAny C) :=
  match data with
  | .corr cor count sq s1 s2 => do
    let cor ← maskData mask cor
    let sq ← maskDataOpt mask sq
    let s1 ← maskDataOpt mask s1
    let s2 ← maskDataOpt mask s2
    .ok (.corr cor count sq s1 s2)
  | .diff dif count s1 s2 => do
    let dif ← maskData mask dif
    let s1 ← maskDataOpt mask s1
    let s2 ← maskDataOpt mask s2
    .ok (.diff dif count s1 s2)
  | .other => .error .valueError

/-- `np.expand_dims(count, -2)` until it has as many axes as the data (cddm/norm.py:638-642): the count of a position of the data
is that of its first coordinates. -/
def rowOfCount (count : Tensor Nat) (n : Nat) (o : List Nat) : List Nat :=
  rowAt count n (List.zipWith stretchIndex count.shape.dropLast o)

/-- The count can be stretched over data of shape `shape` (cddm/norm.py:638-642). -/
def countFits (count : Tensor Nat) (shape : List Nat) : Bool :=
  count.shape.length ≤ shape.length && count.shape ≠ [] && count.shape.getLastD 0 == shape.getLastD 0 &&
    (List.zip count.shape.dropLast shape.dropLast).all fun p => p.1 == p.2 || p.1 == 1

/-- The shape of the data, if all entries have it and the count fits (cddm/norm.py:636-642). -/
def dataShape (data : DataAny C) : Py (List Nat) :=
  let same {α : Type} (s : List Nat) (x : Option (Tensor α)) : Bool := (x.map fun x => decide (x.shape = s)).getD true
  match data with
  | .corr cor count sq s1 s2 =>
    if same cor.shape sq && same cor.shape s1 && same cor.shape s2 && countFits count cor.shape then .ok cor.shape
    else .error .notModelled
  | .diff dif count s1 s2 =>
    if same dif.shape s1 && same dif.shape s2 && countFits count dif.shape then .ok dif.shape
    else .error .notModelled
  | .other => .error .valueError

/-- The curves at a position of the data (cddm/norm.py:644-718). -/
def dataRow (data : DataAny C) (n : Nat) (o : List Nat) : NormData C :=
  match data with
  | .corr cor count sq s1 s2 => .corr (rowAt cor n o) (rowOfCount count n o) (sq.map fun x => rowAt x n o)
      (s1.map fun x => rowAt x n o) (s2.map fun x => rowAt x n o)
  | .diff dif count s1 s2 => .diff (rowAt dif n o) (rowOfCount count n o) (s1.map fun x => rowAt x n o)
      (s2.map fun x => rowAt x n o)
  | .other => .other

/-- Arrays of the results of all positions (cddm/norm.py:642-726), or what is raised. -/
def overWaves [Zero C] (outer : List Nat) (n : Nat) (F : List Nat → Py (List (Option C) × Option (List C))) :
    Py (Tensor (Option C) × Option (Tensor C)) := do
  (positionsOf outer).forM fun o => do
    let _ ← F o
    pure ()
  match positionsOf outer with
  | [] => .error .notModelled
  | o :: _ => do
    let (_, w) ← F o
    .ok (⟨outer ++ [n], fun p => match F p.dropLast with
        | .ok (r, _) => r.getD (p.getLastD 0) none
        | .error _ => none⟩,
      w.map fun _ => ⟨outer ++ [n], fun p => match F p.dropLast with
        | .ok (_, some w) => w.getD (p.getLastD 0) 0
        | _ => 0⟩)

/-- The weight given, of the shape of the data (cddm/norm.py:586, 620-624). -/
def weightRows (w : Tensor C) (shape : List Nat) : Py (List Nat → List C) :=
  if w.shape = shape then .ok fun o => rowAt w (shape.getLastD 0) o else .error .notModelled

variable [AddCommGroup C] [Module ℝ C]

/-- `normalize` (cddm/norm.py:489-726) on arrays, once background, variance and data are masked. -/
noncomputable def normalizeTaken (ops : NormOps C) (data : DataAny C) (background : Option (FrameArg (Cx ℝ)))
    (variance : Option (FrameArg ℝ)) (norm : Option Int) (mode : String) (scale : Bool) (weight : Option (Tensor C)) :
    Py (Tensor (Option C) × Option (Tensor C)) := do
  let shape ← dataShape data
  let outer := shape.dropLast
  let n := shape.getLastD 0
  let bg ← stretchOpt (fun b => stretchBackground b outer) background
  let var ← ifUsed (stretchOpt (fun v => stretchVariance v outer) variance)
  let weight ← stretchOpt (fun w => weightRows w shape) weight
  overWaves outer n fun o => normalize ops (dataRow data n o) (bg o) (var o) norm mode scale (weight o)

/-- `normalize` (cddm/norm.py:489-726) on arrays.  The mask is applied where the code applies it: to the background, to the
variance wherever it is used, and to the data. -/
noncomputable def normalizeAny (ops : NormOps C) (data : DataAny C) (background : Option (FrameArg (Cx ℝ)))
    (variance : Option (FrameArg ℝ)) (norm : Option Int) (mode : String) (scale : Bool) (mask : Option (Tensor Bool))
    (weight : Option (Tensor C)) : Py (Tensor (Option C) × Option (Tensor C)) := do
  let mode ← inspectMode mode
  let _ ← normOf (dataRow data 0 []) norm
  let bg ← inspectOpt mask background
  let var ← ifUsed (inspectOpt mask variance)
  let data ← takeDataAny mask data
  normalizeTaken ops data bg var norm mode scale weight

end
end Cddm
