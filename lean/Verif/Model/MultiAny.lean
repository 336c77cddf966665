import Verif.Model.AnyAxisCcorr
import Verif.Model.LogAny
import Verif.Model.Multitau

/-!
# `ccorr_multi` and `acorr_multi` on arrays of any number of axes (`cddm/multitau.py`)

`_compute_multi` for data of any number of axes, with the reshaping of the frames for `thread_divisor`.
Simplified: as in `Verif.Model.Multitau`; `mask` is absent (see `Verif.Model.MaskAny`); the level axis of the slow data is a list of arrays; whether data are
contiguous in memory are arguments: `contiguous` for the data as given (after reshaping), `flags i` for those of the call number `i`
of `ccorr`/`acorr` (0 is the linear part), before and after it moves the axis.
-/

namespace Cddm

/-- An elementwise function of two arrays of the same shape (cddm/multitau.py:71, 83). -/
def Tensor.zipWith {α β γ : Type} (g : α → β → γ) (x : Tensor α) (y : Tensor β) : Tensor γ :=
  ⟨x.shape, fun p => g (x.get p) (y.get p)⟩

/-- `np.moveaxis(f[..., idx], -1, ax)` of `f = np.moveaxis(data, ax, -1)` (cddm/multitau.py:66-69, 93-95, 108-109). -/
def pickAxis {α : Type} (x : Tensor α) (ax : Nat) (idx : List Nat) : Tensor α :=
  moveAxis (pickLast (moveAxis x ax (x.shape.length - 1)) idx) (x.shape.length - 1) ax

/-- `_bin(f, axis, axis)` for the binning functions `mean_data_parallel`, `slice_data` and `choose_data`
(cddm/multitau.py:61-109, 133-144); `r` is the random number, one for the whole array. -/
noncomputable def binAny {V : Type} [AddCommGroup V] [Module ℝ V] (binning : Int) (r : ℚ) (ax : Nat) (x : Tensor V) :
    Tensor V :=
  let n := x.shape.getD ax 0
  let f1 := pickAxis x ax (sliceBy n 0 (n - 1) 2)
  let f2 := pickAxis x ax (sliceBy n 1 n 2)
  if binning = 1 then f1.zipWith (fun a b => (1 / 2 : ℝ) • (a + b)) f2
  else if binning = 0 then pickAxis x ax (sliceBy n 0 n 2)
  else if r < 1 / 2 then f2 else f1

/-- The type of `ccorr` on arrays (cddm/core.py:1137); the number is that of the call. -/
abbrev CrossFnAny (C : Type) := Nat → Tensor (Cx ℝ) → Tensor (Cx ℝ) → Option (List Int) → Option (List Int) →
  Option Nat → Option Int → Option String → Int → Option (Tensor ℝ) → Option (Tensor ℝ) →
  CorrAoutAny C → Py (CorrTupleAny C)

/-- The type of `acorr` on arrays (cddm/core.py:1022). -/
abbrev AutoFnAny (C : Type) := Nat → Tensor (Cx ℝ) → Option (List Int) → Option Nat → Option Int →
  Option String → Int → Option (Tensor ℝ) → CorrAoutAny C → Py (CorrTupleAny C)

/-- The arrays of a returned tuple (cddm/multitau.py:288, 290). -/
def CorrTupleAny.arrays {C : Type} (r : CorrTupleAny C) : CorrAoutAny C :=
  ⟨some r.cor, some r.count, r.sq, r.ds1, r.ds2⟩

/-- The arrays given to a call, after it (cddm/multitau.py:288, 290), see `CorrTuple.into`. -/
def CorrTupleAny.into {C : Type} (r : CorrTupleAny C) (aout : CorrAoutAny C) : CorrAoutAny C :=
  ⟨aout.cor.map fun _ => r.cor, aout.count.map fun _ => r.count,
    if aout.sq.isSome then r.sq else none, if aout.ds1.isSome then r.ds1 else none,
    if aout.ds2.isSome then r.ds2 else none⟩

/-- One level of the arrays of zeros (cddm/multitau.py:233-260), after `_transpose_data`: `kShape` and the axis of the delays. -/
def zeroArraysAny {C : Type} [Zero C] (norm : Nat) (cross correlate : Bool) (kShape : List Nat) (len clen : Nat) :
    CorrAoutAny C :=
  ⟨some ⟨kShape ++ [len], fun _ => 0⟩, some (List.replicate clen 0),
    if needsSquares norm && correlate then some ⟨kShape ++ [len], fun _ => 0⟩ else none,
    if needsSums norm then some ⟨kShape ++ [len], fun _ => 0⟩ else none,
    if needsSums norm && cross then some ⟨kShape ++ [len], fun _ => 0⟩ else none⟩

/-- The loop over levels, cross-correlation (cddm/multitau.py:276-296), see `multiLevels`; the computation axis is number `ax`, or
`axis` counted from the end. -/
noncomputable def multiLevelsAny {C : Type} (cc : CrossFnAny C) (binning : Int) (method : String)
    (norm nSlow : Nat) (squares : Bool) (row : CorrAoutAny C) (ax : Nat) (axis : Int) (r : Nat → ℚ) :
    Nat → Nat → Tensor (Cx ℝ) → Tensor (Cx ℝ) → Option (Tensor ℝ) → Option (Tensor ℝ) →
      Py (List (CorrAoutAny C))
  | 0, _, _, _, _, _ => .ok []
  | k + 1, i, f1, f2, f1s, f2s => do
    let f1 := binAny binning (r (4 * i)) ax f1
    let f2 := binAny binning (r (4 * i + 1)) ax f2
    let f1s := if squares then f1s.map (binAny binning (r (4 * i + 2)) ax) else f1s
    let f2s := if squares then f2s.map (binAny binning (r (4 * i + 3)) ax) else f2s
    let d ← cc (i + 1) f1 f2 none none (some nSlow) (some norm) (some method) axis f1s f2s row
    let rest ← multiLevelsAny cc binning method norm nSlow squares row ax axis r k (i + 1) f1 f2 f1s f2s
    .ok (d.into row :: rest)

/-- `reshape_input` without a mask (cddm/core.py:286-322); the frame shape is returned as well.  Negative sizes as in
`npReshape`. -/
def reshapeInAny {α : Type} (f : Tensor α) (axis : Int) (divisor : Option Int) : Py (Tensor α × List Nat) :=
  match resolveIdx f.shape.length axis with
  | none => .error .indexError
  | some ax => do
    let new ← threadFrameShape (f.shape.eraseIdx ax) divisor true
    if new.any (· < 0) then .error .valueError
    else do
      let y ← reshapeAny f (pyInsert (new.map Int.toNat) ax (f.shape.getD ax 0))
      .ok (y, f.shape.eraseIdx ax)

/-- An array reshaped if there is one (cddm/core.py:362-366): all axes but the last get the shape `full`.  The length of the last is its own
here, in the code that of the first array: they are the same. -/
def reshapeOpt {α : Type} (full : List Nat) : Option (Tensor α) → Py (Option (Tensor α))
  | none => .ok none
  | some x => do
    let y ← reshapeAny x (full ++ [x.shape.getLastD 0])
    .ok (some y)

/-- All arrays but the count reshaped (cddm/core.py:384-388). -/
def reshapeArrays {C : Type} (full : List Nat) (a : CorrAoutAny C) : Py (CorrAoutAny C) := do
  let cor ← reshapeOpt full a.cor
  let sq ← reshapeOpt full a.sq
  let ds1 ← reshapeOpt full a.ds1
  let ds2 ← reshapeOpt full a.ds2
  .ok ⟨cor, a.count, sq, ds1, ds2⟩

/-- `reshape_output` without a mask (cddm/core.py:334-388) of the linear data, whose arrays have the given shape. -/
def reshapeFast {C : Type} (kshape shape : List Nat) (a : CorrAoutAny C) : Py (CorrAoutAny C) :=
  reshapeArrays (shapeHead shape (kshape.length + 1) ++ kshape) a

/-- `reshape_output` without a mask (cddm/core.py:334-388) of the slow data, whose arrays have the levels as their first axis and then
the given shape, with a last axis that is not empty.  Results without the level axis are not modelled. -/
def reshapeSlow {C : Type} (kshape shape : List Nat) (levels : List (CorrAoutAny C)) : Py (List (CorrAoutAny C)) :=
  let full := shapeHead (levels.length :: shape) (kshape.length + 1) ++ kshape
  if full.prod ≠ levels.length * shape.dropLast.prod then .error .valueError
  else if full.headD 0 = levels.length ∧ full.tail.prod = shape.dropLast.prod then levels.mapM (reshapeArrays full.tail)
  else .error .notModelled

/-- The tuple of linear data and levels reshaped (cddm/multitau.py:301). -/
def reshapeMulti {C : Type} (kshape fastShape slowShape : List Nat) (out : CorrAoutAny C × List (CorrAoutAny C)) :
    Py (CorrAoutAny C × List (CorrAoutAny C)) := do
  let fast ← reshapeFast kshape fastShape out.1
  let slow ← reshapeSlow kshape slowShape out.2
  .ok (fast, slow)

/-- The part of `_compute_multi` between the reshaping of the input and that of the output, cross-correlation
(cddm/multitau.py:185-296).  Returned are the shape of the linear data, that of the slow data of one level, and the data. -/
noncomputable def crossMultiCore {C : Type} [Zero C] (complex : Bool) (cc : CrossFnAny C) (method : String) (binning : Int)
    (norm levelSize period : Nat) (nlevel : Option Int) (t : Option (List Int × List Int)) (axis : Int)
    (align contiguous : Bool) (r : Nat → ℚ) (f1 f2 : Tensor (Cx ℝ)) :
    Py ((List Nat × List Nat) × CorrAoutAny C × List (CorrAoutAny C)) := do
  let correlate : Bool := method = "corr" ∨ method = "fft"
  let ndim := f1.shape.length
  let ax ← findAxis ndim axis true
  let pos := newAxis ndim (t.isNone && isAligned ndim axis contiguous align)
  let newAx : Int := (pos : Int) - ndim
  let f1 := moveAxisAndAlign f1 ax pos
  let f2 := moveAxisAndAlign f2 ax pos
  let (nFast, nSlow, nlevel) ← determineLengths (f1.shape.getD pos 0) levelSize period nlevel
  let squares := needsSquares norm && correlate
  let f1s := if squares then some (f1.map Cx.abs2) else none
  let f2s := if squares then some (f2.map Cx.abs2) else none
  let fast ← cc 0 f1 f2 (t.map Prod.fst) (t.map Prod.snd) (some nFast) (some norm) (some method) newAx f1s f2s {}
  let kShape := fast.cor.shape.dropLast
  let len := if complex then nSlow * 2 + 1 else nSlow
  let row := zeroArraysAny norm true correlate kShape len nSlow
  let slow ← multiLevelsAny cc binning method norm nSlow squares row pos newAx r nlevel 0 f1 f2 f1s f2s
  .ok ((fast.cor.shape, kShape ++ [len]), fast.arrays, slow)

/-- `ccorr_multi` = `_compute_multi` with `f2` given (cddm/multitau.py:159-301, 304-354), see `ccorrMultiBody`. -/
noncomputable def ccorrMultiAnyBody {C : Type} [Zero C] (complex : Bool) (cc : CrossFnAny C)
    (f1 f2 : Tensor (Cx ℝ)) (t1 t2 : Option (List Int)) (axis : Int) (levelSize : Nat) (norm : Option Int)
    (method : Option String) (period : Nat) (binning : Option Int) (nlevel : Option Int) (align contiguous : Bool)
    (divisor : Option Int) (r : Nat → ℚ) : Py (CorrAoutAny C × List (CorrAoutAny C)) := do
  let (method, binning) ← defaultMethodBinning method binning
  let norm ← defaultNorm norm method true
  if t1.isNone ≠ t2.isNone then .error .valueError
  else if f1.shape = [] ∨ f1.shape ≠ f2.shape then .error .valueError
  else
  let (t, levelSize) ← inspectCross 0 0 t1 t2 (some levelSize) none false
  let (f1, kshape) ← reshapeInAny f1 axis divisor
  let (f2, _) ← reshapeInAny f2 axis divisor
  let out ← crossMultiCore complex cc method binning norm levelSize period nlevel t axis align contiguous r f1 f2
  reshapeMulti kshape out.1.1 out.1.2 out.2

/-- The loop over levels, auto-correlation (cddm/multitau.py:276-296). -/
noncomputable def multiLevelsAutoAny {C : Type} (ac : AutoFnAny C) (binning : Int) (method : String)
    (norm nSlow : Nat) (squares : Bool) (row : CorrAoutAny C) (ax : Nat) (axis : Int) (r : Nat → ℚ) :
    Nat → Nat → Tensor (Cx ℝ) → Option (Tensor ℝ) → Py (List (CorrAoutAny C))
  | 0, _, _, _ => .ok []
  | k + 1, i, f, fs => do
    let f := binAny binning (r (4 * i)) ax f
    let fs := if squares then fs.map (binAny binning (r (4 * i + 2)) ax) else fs
    let d ← ac (i + 1) f none (some nSlow) (some norm) (some method) axis fs row
    let rest ← multiLevelsAutoAny ac binning method norm nSlow squares row ax axis r k (i + 1) f fs
    .ok (d.into row :: rest)

/-- The part of `_compute_multi` between the reshaping of the input and that of the output, auto-correlation
(cddm/multitau.py:185-296).  `t2` is absent, so that times are absent where `t` is. -/
noncomputable def autoMultiCore {C : Type} [Zero C] (complex : Bool) (ac : AutoFnAny C) (method : String) (binning : Int)
    (norm levelSize period : Nat) (nlevel : Option Int) (t : Option (List Int)) (axis : Int)
    (align contiguous : Bool) (r : Nat → ℚ) (f : Tensor (Cx ℝ)) :
    Py ((List Nat × List Nat) × CorrAoutAny C × List (CorrAoutAny C)) := do
  let correlate : Bool := method = "corr" ∨ method = "fft"
  let ndim := f.shape.length
  let ax ← findAxis ndim axis true
  let pos := newAxis ndim (t.isNone && isAligned ndim axis contiguous align)
  let newAx : Int := (pos : Int) - ndim
  let f := moveAxisAndAlign f ax pos
  let (nFast, nSlow, nlevel) ← determineLengths (f.shape.getD pos 0) levelSize period nlevel
  let squares := needsSquares norm && correlate
  let fs := if squares then some (f.map Cx.abs2) else none
  let fast ← ac 0 f t (some nFast) (some norm) (some method) newAx fs {}
  let kShape := fast.cor.shape.dropLast
  let len := if complex then nSlow * 2 + 1 else nSlow
  let row := zeroArraysAny norm false correlate kShape len nSlow
  let slow ← multiLevelsAutoAny ac binning method norm nSlow squares row pos newAx r nlevel 0 f fs
  .ok ((fast.cor.shape, kShape ++ [len]), fast.arrays, slow)

/-- `acorr_multi` = `_compute_multi` with `f2 = None` (cddm/multitau.py:159-301, 356-402), see `acorrMultiBody`. -/
noncomputable def acorrMultiAnyBody {C : Type} [Zero C] (complex : Bool) (ac : AutoFnAny C)
    (f : Tensor (Cx ℝ)) (t : Option (List Int)) (axis : Int) (levelSize : Nat) (norm : Option Int)
    (method : Option String) (period : Nat) (binning : Option Int) (nlevel : Option Int) (align contiguous : Bool)
    (divisor : Option Int) (r : Nat → ℚ) : Py (CorrAoutAny C × List (CorrAoutAny C)) := do
  let (method, binning) ← defaultMethodBinning method binning
  let norm ← defaultNorm norm method false
  if f.shape = [] then .error .valueError
  else
  let (t, levelSize) ← inspectAuto 0 t (some levelSize) none
  let (f, kshape) ← reshapeInAny f axis divisor
  let out ← autoMultiCore complex ac method binning norm levelSize period nlevel t axis align contiguous r f
  reshapeMulti kshape out.1.1 out.1.2 out.2

/-- `ccorr_multi(complex = False)` (cddm/multitau.py:304-354). -/
noncomputable def ccorrMultiAny (flags : Nat → Bool × Bool) :=
  ccorrMultiAnyBody false fun i f1 f2 t1 t2 n norm method axis f1s f2s aout =>
    ccorrAny f1 f2 t1 t2 n norm method false (flags i).1 (flags i).2 axis f1s f2s aout
/-- `ccorr_multi(complex = True)` (cddm/multitau.py:304-354). -/
noncomputable def ccorrMultiComplexAny (flags : Nat → Bool × Bool) :=
  ccorrMultiAnyBody true fun i f1 f2 t1 t2 n norm method axis f1s f2s aout =>
    ccorrComplexAny f1 f2 t1 t2 n norm method false (flags i).1 (flags i).2 axis f1s f2s aout
/-- `acorr_multi(complex = False)` (cddm/multitau.py:356-402). -/
noncomputable def acorrMultiAny (flags : Nat → Bool × Bool) :=
  acorrMultiAnyBody false fun i f t n norm method axis fs aout =>
    acorrAny f t n norm method false (flags i).1 (flags i).2 axis fs aout
/-- `acorr_multi(complex = True)` (cddm/multitau.py:356-402). -/
noncomputable def acorrMultiComplexAny (flags : Nat → Bool × Bool) :=
  acorrMultiAnyBody true fun i f t n norm method axis fs aout =>
    acorrComplexAny f t n norm method false (flags i).1 (flags i).2 axis fs aout

end Cddm
