import Verif.Model.Vec
import Verif.Model.Reshape

/-!
# Data of any number of axes and any computation axis

The correlation, difference and sum functions of `cddm/core.py` for arrays with any number of axes.  The computation
axis is moved to the last or to the last but one place, numpy applies the kernels to every row or to every plane, and
the axis of the result is moved to the end.
Simplified: an array is its shape and a function of the position, of which the values inside the shape matter;
whether the data are contiguous in memory is a Boolean argument; `AxisError`, a subclass of IndexError, is
IndexError; the rest as in `Verif.Model.Core`.
-/

namespace Cddm
variable {R : Type} [CommRing R]

/-- A numpy array, `f1` in cddm/core.py:390: its shape and what it holds at each position. -/
structure Tensor (α : Type) where
  shape : List Nat
  get : List Nat → α

/-- `np.moveaxis(x, src, dst)` for axes counted from the front (cddm/core.py:70, 172). -/
def moveAxis {α : Type} (x : Tensor α) (src dst : Nat) : Tensor α where
  shape := pyInsert (x.shape.eraseIdx src) dst (x.shape.getD src 0)
  get p := x.get (pyInsert (p.eraseIdx dst) src (p.getD dst 0))

/-- `_is_aligned` (cddm/core.py:247-252) of an array of `ndim` axes. -/
def isAligned (ndim : Nat) (axis : Int) (contiguous align : Bool) : Bool :=
  ((axis == -1 || axis == (ndim : Int) - 1) && contiguous) || align

/-- All positions of an array, in C order: numpy applies a kernel to each (cddm/_core_nb.py:285, 339). -/
def positionsOf : List Nat → List (List Nat)
  | [] => [[]]
  | n :: s => (List.range n).flatMap fun i => (positionsOf s).map (i :: ·)

/-- The row `x[o, :]` (cddm/_core_nb.py:300, 339). -/
def rowAt {α : Type} (x : Tensor α) (N : Nat) (o : List Nat) : List α := (List.range N).map fun i => x.get (o ++ [i])

/-- The plane `x[o, :, :]` (cddm/_core_nb.py:285). -/
def planeAt {α : Type} (x : Tensor α) (N K : Nat) (o : List Nat) : List (List α) :=
  (List.range N).map fun i => (List.range K).map fun j => x.get (o ++ [i, j])

/-- numpy applies a generalized ufunc with one core axis to all rows (cddm/_core_nb.py:300, 339): `none` if any of the
applications is undefined. -/
def overRows {M : Type} [Zero M] (outer : List Nat) (L : Nat) (F : List Nat → Option (List M)) : Option (Tensor M) :=
  if (positionsOf outer).all fun o => (F o).isSome then
    some ⟨outer ++ [L], fun p => ((F p.dropLast).getD []).getD (p.getLastD 0) 0⟩
  else none

/-- The same with two core axes (cddm/_core_nb.py:285, 293, 369). -/
def overPlanes {M : Type} [Zero M] (outer : List Nat) (L K : Nat) (F : List Nat → Option (List (List M))) :
    Option (Tensor M) :=
  if (positionsOf outer).all fun o => (F o).isSome then
    some ⟨outer ++ [L, K], fun p =>
      (((F p.dropLast.dropLast).getD []).getD (p.dropLast.getLastD 0) []).getD (p.getLastD 0) 0⟩
  else none

/-- `_default_out` (cddm/core.py:174-190) for data of the given shape and the computation axis at place `pos`, counted from the end
in the code. -/
def defaultOutAny {M : Type} [Zero M] (aout : Option (Tensor M)) (shape : List Nat) (n pos : Nat) (complex : Bool) :
    Py (Tensor M) :=
  match aout with
  | none =>
    if complex ∧ n = 0 then .error .valueError
    else .ok ⟨shape.set pos (if complex then 2 * n - 1 else n), fun _ => 0⟩
  | some o =>
    let d := shape.length - pos
    if o.shape.length < d then .error .indexError
    else
      let o' := moveAxis o (o.shape.length - d) (o.shape.length - 1)
      if o'.shape ≠ shape.set pos (o.shape.getLastD 0) then .error .valueError else .ok o'

/-- `aout.shape[-1]` where `n` is not given (cddm/core.py:98-105, 157-161): IndexError for an array without axes. -/
def lastLength {M : Type} (n : Option Nat) (aout : Option (Tensor M)) : Py (Option Nat) :=
  match n, aout with
  | none, some o => if o.shape = [] then .error .indexError else .ok (some (o.shape.getLastD 0))
  | _, _ => .ok none

/-- The computation axis counted from the front.  An axis out of range raises IndexError where it is used: in
`shape[axis]` (cddm/core.py:120, 131, 450) or in `np.moveaxis` (cddm/core.py:69-70), but not for data of one axis with times or
`align`, where it is not used (`used` tells whether it is). -/
def findAxis (ndim : Nat) (axis : Int) (used : Bool) : Py Nat :=
  match resolveIdx ndim axis with
  | some k => .ok k
  | none => if ndim = 1 ∧ used = false then .ok 0 else .error .indexError

/-- The second half of the functions of cddm/core.py (cddm/core.py:453-466, 803-826): the output array, the kernels for the rows
(`fReg`), for the only row (`fOne`) or for the planes (`fVec`), and the final `_transpose_data`.  `shape` is that of the data
with the axis moved to place `pos`; `dims` is the test of the lengths of the times. -/
def applyKernels {M : Type} [Zero M] (shape : List Nat) (regular : Bool) (pos n : Nat) (complex : Bool)
    (aout : Option (Tensor M)) (dims : Bool) (fReg fOne : List Nat → List M → Option (List M))
    (fVec : List Nat → List (List M) → Option (List (List M))) : Py (Tensor M) := do
  let out ← defaultOutAny aout shape n pos complex
  let L := out.shape.getD pos 0
  let res ← (if regular then orUB (overRows shape.dropLast L fun o => fReg o (rowAt out L o))
    else do
      checkDims dims
      if shape.length = 1 then orUB (overRows [] L fun o => fOne o (rowAt out L o))
      else
        let K := shape.getLastD 0
        orUB (overPlanes shape.dropLast.dropLast L K fun o => fVec o (planeAt out L K o)))
  .ok (moveAxis res pos (shape.length - 1))

/-- Place of the computation axis, `new_axis` (cddm/core.py:441-451, 796-801). -/
def newAxis (ndim : Nat) (regular : Bool) : Nat := if regular = true ∨ ndim = 1 then ndim - 1 else ndim - 2

/-- `_move_axis_and_align` (cddm/core.py:66-73). -/
def moveAxisAndAlign {α : Type} (f : Tensor α) (ax pos : Nat) : Tensor α :=
  if 1 < f.shape.length then moveAxis f ax pos else f

/-- The common body of `cross_correlate` (cddm/core.py:436-466) and `cross_difference` (cddm/core.py:505-535): `kReg` is the
kernel of regular data, `k` that of one signal with times, `kVec` the vectorised one. -/
def crossAny {M : Type} [Zero M] (kReg : List (Cx R) → List (Cx R) → List M → Option (List M))
    (k : List (Cx R) → List (Cx R) → List Int → List Int → List M → Option (List M))
    (kVec : List (List (Cx R)) → List (List (Cx R)) → List Int → List Int → List (List M) → Option (List (List M)))
    (f1 f2 : Tensor (Cx R)) (t1 t2 : Option (List Int)) (axis : Int) (n : Option Nat)
    (align contiguous complex : Bool) (aout : Option (Tensor M)) : Py (Tensor M) :=
  if t1.isNone ≠ t2.isNone then .error .valueError
  else if f1.shape = [] ∨ f1.shape ≠ f2.shape then .error .valueError
  else do
    let ndim := f1.shape.length
    let N := f1.shape.getD ((resolveIdx ndim axis).getD 0) 0
    let last ← lastLength n aout
    let (t, m) ← inspectCross N N t1 t2 n last complex
    let ax ← findAxis ndim axis (t1.isNone && ((n.isNone && aout.isNone) || !align))
    let regular := t.isNone && isAligned ndim axis contiguous align
    let (a, b) := t.getD (arange N, arange N)
    let pos := newAxis ndim regular
    let g1 := moveAxisAndAlign f1 ax pos
    let g2 := moveAxisAndAlign f2 ax pos
    let K := g1.shape.getLastD 0
    applyKernels g1.shape regular pos m complex aout (a.length = N ∧ b.length = N)
      (fun o out => kReg (rowAt g1 N o) (rowAt g2 N o) out)
      (fun o out => k (rowAt g1 N o) (rowAt g2 N o) a b out)
      (fun o out => kVec (planeAt g1 N K o) (planeAt g2 N K o) a b out)

/-- `cross_correlate` (cddm/core.py:390-466). -/
def crossCorrelateAny (f1 f2 : Tensor (Cx R)) (t1 t2 : Option (List Int)) (axis : Int) (n : Option Nat)
    (align contiguous : Bool) (aout : Option (Tensor R)) : Py (Tensor R) :=
  crossAny crossCorrRegular crossCorr crossCorrVec f1 f2 t1 t2 axis n align contiguous false aout

/-- `cross_correlate(complex = True)` (cddm/core.py:390-466). -/
def crossCorrelateComplexAny (f1 f2 : Tensor (Cx R)) (t1 t2 : Option (List Int)) (axis : Int) (n : Option Nat)
    (align contiguous : Bool) (aout : Option (Tensor (Cx R))) : Py (Tensor (Cx R)) :=
  crossAny crossCorrComplexRegular crossCorrComplex crossCorrComplexVec f1 f2 t1 t2 axis n align contiguous true aout

/-- `cross_difference` (cddm/core.py:468-535). -/
def crossDifferenceAny (f1 f2 : Tensor (Cx R)) (t1 t2 : Option (List Int)) (axis : Int) (n : Option Nat)
    (align contiguous : Bool) (aout : Option (Tensor R)) : Py (Tensor R) :=
  crossAny crossDiffRegular crossDiff crossDiffVec f1 f2 t1 t2 axis n align contiguous false aout

/-- The common body of `auto_correlate` (cddm/core.py:578-607) and `auto_difference` (cddm/core.py:644-667). -/
def autoAny {M : Type} [Zero M] (kReg : List (Cx R) → List M → Option (List M))
    (k : List (Cx R) → List Int → List M → Option (List M))
    (kVec : List (List (Cx R)) → List Int → List (List M) → Option (List (List M)))
    (f : Tensor (Cx R)) (t : Option (List Int)) (axis : Int) (n : Option Nat)
    (align contiguous : Bool) (aout : Option (Tensor M)) : Py (Tensor M) :=
  if f.shape = [] then .error .valueError
  else do
    let ndim := f.shape.length
    let N := f.shape.getD ((resolveIdx ndim axis).getD 0) 0
    let last ← lastLength n aout
    let (t', m) ← inspectAuto N t n last
    let ax ← findAxis ndim axis (t.isNone && ((n.isNone && aout.isNone) || !align))
    let regular := t'.isNone && isAligned ndim axis contiguous align
    let a := t'.getD (arange N)
    let pos := newAxis ndim regular
    let g := moveAxisAndAlign f ax pos
    let K := g.shape.getLastD 0
    applyKernels g.shape regular pos m false aout (a.length = N)
      (fun o out => kReg (rowAt g N o) out)
      (fun o out => k (rowAt g N o) a out)
      (fun o out => kVec (planeAt g N K o) a out)

/-- `auto_correlate` (cddm/core.py:537-607). -/
def autoCorrelateAny (f : Tensor (Cx R)) (t : Option (List Int)) (axis : Int) (n : Option Nat)
    (align contiguous : Bool) (aout : Option (Tensor R)) : Py (Tensor R) :=
  autoAny autoCorrRegular autoCorr autoCorrVec f t axis n align contiguous aout

/-- `auto_correlate(complex = True)` (cddm/core.py:537-607). -/
def autoCorrelateComplexAny (f : Tensor (Cx R)) (t : Option (List Int)) (axis : Int) (n : Option Nat)
    (align contiguous : Bool) (aout : Option (Tensor (Cx R))) : Py (Tensor (Cx R)) :=
  autoAny autoCorrComplexRegular autoCorrComplex autoCorrComplexVec f t axis n align contiguous aout

/-- `auto_difference` (cddm/core.py:609-667). -/
def autoDifferenceAny (f : Tensor (Cx R)) (t : Option (List Int)) (axis : Int) (n : Option Nat)
    (align contiguous : Bool) (aout : Option (Tensor R)) : Py (Tensor R) :=
  autoAny autoDiffRegular autoDiff autoDiffVec f t axis n align contiguous aout

section sums
variable {M : Type} [AddCommGroup M]

/-- `cross_sum` (cddm/core.py:759-826); regular data always take the kernel of regular data. -/
def crossSumAny (f : Tensor M) (t tOther : Option (List Int)) (axis : Int) (n : Option Nat)
    (complex timeInversion : Bool) (aout : Option (Tensor M)) : Py (Tensor M) :=
  if t.isNone ≠ tOther.isNone then .error .valueError
  else if f.shape = [] then .error .valueError
  else do
    let ndim := f.shape.length
    let N := f.shape.getD ((resolveIdx ndim axis).getD 0) 0
    let last ← lastLength n aout
    let (t', m) ← inspectCross N N t tOther n last complex
    let ax ← findAxis ndim axis (t.isNone && n.isNone && aout.isNone)
    let (a, b) := t'.getD ([], [])
    let a := if timeInversion then a.map (- ·) else a
    let b := if timeInversion then b.map (- ·) else b
    let pos := newAxis ndim t'.isNone
    let g := moveAxisAndAlign f ax pos
    let K := g.shape.getLastD 0
    applyKernels g.shape t'.isNone pos m complex aout (a.length = N)
      (fun o out => if complex then
          (if timeInversion then crossSumComplexRegularInverted (rowAt g N o) out
           else crossSumComplexRegular (rowAt g N o) out)
        else crossSumRegular (rowAt g N o) out)
      (fun o out => if complex then crossSumComplex (rowAt g N o) a b out else crossSum (rowAt g N o) a b out)
      (fun o out => if complex then crossSumComplexVec (planeAt g N K o) a b out
        else crossSumVec (planeAt g N K o) a b out)

/-- `auto_sum` (cddm/core.py:862-924): the sums of the array with itself, computed in an array of zeros, all but the first along the
last axis halved, added to `out`.  Simplified: `out`, moved to its place and back, is `aout` itself. -/
def autoSumAny (K : Type) [Field K] [Module K M] (f : Tensor M) (t : Option (List Int)) (axis : Int) (n : Option Nat)
    (aout : Option (Tensor M)) : Py (Tensor M) :=
  if f.shape = [] then .error .valueError
  else do
    let ndim := f.shape.length
    let N := f.shape.getD ((resolveIdx ndim axis).getD 0) 0
    let last ← lastLength n aout
    let (t', m) ← inspectAuto N t n last
    let ax ← findAxis ndim axis (t.isNone && n.isNone && aout.isNone)
    let a := t'.getD []
    let pos := newAxis ndim t'.isNone
    let g := moveAxisAndAlign f ax pos
    let zeros : Option (Tensor M) := aout.map fun o => ⟨o.shape, fun _ => 0⟩
    let out0 ← applyKernels g.shape t'.isNone pos m false zeros (a.length = N)
      (fun o out => crossSumRegular (rowAt g N o) out)
      (fun o out => crossSum (rowAt g N o) a a out)
      (fun o out => crossSumVec (planeAt g N (g.shape.getLastD 0) o) a a out)
    let out : List Nat → M := fun p => match aout with
      | none => 0
      | some o => o.get p
    .ok ⟨out0.shape, fun p => out p + (if p.getLastD 0 = 0 then out0.get p else (1 / 2 : K) • out0.get p)⟩

end sums

end Cddm
