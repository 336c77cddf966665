import Verif.Model.ViewerAvg
import Verif.Model.LogAvg
import Verif.Model.NormMulti

/-!
# The viewers of raw correlation data (cddm/viewer.py:767-1053): what they plot

`normalize`, `normalize_multi`, `fold_data`, `log_average` and `log_merge` treat every pixel (wave vector) on its own;
the arrays are therefore given as arrays of cells, one for each pixel.  `data_repr` is modelled in
Verif/Model/ViewerAvg.lean, the check boxes in Verif/Model/Viewer.lean.
-/

namespace Cddm

/-- The argument `background` or `variance` of `set_data`: None, an array, or a tuple of two arrays, as told by
`is None` and `isinstance(..., tuple)` (cddm/viewer.py:920-922, 1004-1006, 502-504, 565-567). -/
inductive ViewArg
  | missing
  | array
  | tuple
  deriving DecidableEq

/-- What the arrays given to `set_data` hold for one pixel (cddm/viewer.py:895-911): the data tuple, and the values of
the two background and the two variance arrays.  For arguments that are a single array only the first value is there,
for missing arguments none. -/
structure ViewCell (D : Type) where
  data : D
  b1 : Cx ℝ
  b2 : Cx ℝ
  v1 : ℝ
  v2 : ℝ

/-- The background of a pixel, as `normalize` gets it (cddm/viewer.py:917, 1001, with `mask`). -/
def ViewArg.background {D : Type} (k : ViewArg) (c : ViewCell D) : Option Background :=
  match k with
  | .missing => none
  | .array => some (.one c.b1)
  | .tuple => some (.two c.b1 c.b2)

/-- The variance of a pixel, as `normalize` gets it (cddm/viewer.py:917, 1001, with `mask`). -/
def ViewArg.variance {D : Type} (k : ViewArg) (c : ViewCell D) : Option Variance :=
  match k with
  | .missing => none
  | .array => some (.one c.v1)
  | .tuple => some (.two c.v1 c.v2)

/-- Attributes of a `CorrViewer` (cddm/viewer.py:832-841), `MultitauViewer` (960-969), `CorrArrayViewer` (424-431),
and the kind of the last background and variance given to `set_data`.  Simplification: `size` is an integer. -/
structure ViewConfig where
  norm : NormArg
  scale : Bool
  size : Option Int
  semilogx : Bool
  fold : Option Bool
  bg : ViewArg
  var : ViewArg

/-- The functions selected by `np.iscomplexobj` (cddm/viewer.py:919, 1003, 931, 1015): real data are not folded and
conjugation does not change them. -/
structure ViewOps (C : Type) where
  norm : NormOps C
  conj : C → C
  fold : Option (Int → List C → Py (List C))
  logAverage : List C → Int → Py (List Nat × List (Option C))
  logMerge : List C → List (List C) → Nat → Py (List Nat × List (Option C))

/-- Real data (cddm/viewer.py:919, 926, 931, 1003, 1010). -/
noncomputable def viewOpsR : ViewOps ℝ :=
  { norm := normOpsR
    conj := id
    fold := none
    logAverage := fun x size => Cddm.logAverage ℝ x size
    logMerge := fun lin multi nslow => Cddm.logMerge ℝ lin multi nslow 1 (fun _ => false) }

/-- Complex data: "folding has already been made, so set to False" (cddm/viewer.py:919-926, 931, 1003-1010). -/
noncomputable def viewOpsC : ViewOps (Cx ℝ) :=
  { norm := normOpsC
    conj := Cx.conj
    fold := some fun mode x => foldData (.cplx x) mode
    logAverage := fun x size => logAverageComplex x size (some false)
    logMerge := fun lin multi nslow => logMergeComplex lin multi nslow 1 (fun _ => false) (some false) }

section
variable {C : Type} [AddCommGroup C] [Module ℝ C]

/-- `normalize` with a norm that is a number, None, or a string (cddm/viewer.py:917, 499). -/
noncomputable def viewNormalize (ops : NormOps C) (data : NormData C) (background : Option Background)
    (variance : Option Variance) (norm : NormArg) (scale : Bool) : Py (List (Option C)) := do
  let r ← (match norm with
    | .num z => normalize ops data background variance z "corr" scale none
    | .str s => normalizeStr ops data background variance s "corr" scale none)
  .ok r.1

/-- Whether to fold complex data (cddm/viewer.py:920-923, 1004-1007, 502-505, 565-568): `none` for real data; `fold`
counts when it is not None, whatever its value. -/
def ViewConfig.foldFun (cfg : ViewConfig) (ops : ViewOps C) (mode : Int) : Py (Option (List C → Py (List C))) :=
  match ops.fold with
  | none => .ok none
  | some f =>
    if cfg.bg = .tuple ∨ cfg.var = .tuple ∨ cfg.fold.isSome then .ok (some (f mode))
    else if cfg.bg = .missing ∧ cfg.var = .missing then .error .valueError
    else .ok none

/-- Folding of a curve.  The folding of curves that contain inf or NaN is not modelled (cddm/viewer.py:921). -/
def foldCurve (f : Option (List C → Py (List C))) (r : List (Option C)) : Py (List (Option C)) :=
  match f with
  | none => .ok r
  | some f => do
    let x ← allFinite r
    let y ← f x
    .ok (y.map some)

/-- One pixel in `CorrViewer._get_avg_data` and `CorrArrayViewer._get_avg_data` (cddm/viewer.py:917-929, 499-511):
times and curve.  Log-averaging of curves that contain inf or NaN is not modelled. -/
noncomputable def corrCurve (ops : ViewOps C) (cfg : ViewConfig) (c : ViewCell (NormData C)) :
    Py (List Nat × List (Option C)) := do
  let r ← viewNormalize ops.norm c.data (cfg.bg.background c) (cfg.var.variance c) cfg.norm cfg.scale
  let f ← cfg.foldFun ops 0
  let r ← foldCurve f r
  match cfg.size with
  | some size => do
    let x ← allFinite r
    ops.logAverage x size
  | none => .ok (List.range r.length, r)

/-- One pixel in `MultitauViewer._get_avg_data` and `MultitauArrayViewer._get_avg_data` (cddm/viewer.py:1001-1014,
562-575): data are the linear part and the rows of the levels.  Merging of curves that contain inf or NaN, and data
without levels, are not modelled. -/
noncomputable def multiCurve (ops : ViewOps C) (cfg : ViewConfig) (c : ViewCell (NormData C × List (NormData C))) :
    Py (List Nat × List (Option C)) := do
  let r ← normalizeMulti ops.norm c.data.1 c.data.2 (cfg.bg.background c) (cfg.var.variance c) cfg.norm "corr" cfg.scale
  let f ← cfg.foldFun ops 1
  let fast ← foldCurve f r.1
  let slow ← r.2.mapM (foldCurve f)
  if cfg.semilogx then do
    let lin ← allFinite fast
    let multi ← slow.mapM allFinite
    match multi with
    | [] => .error .notModelled
    | row :: _ => ops.logMerge lin multi row.length
  else .ok (List.range fast.length, fast)

/-- `data[...,m,:] = np.conj(data[...,m,:])` and `np.nanmean(data, axis = -2)` (cddm/viewer.py:931-934, 1016-1019): for
each time the mean over the selected pixels.  The shape of the data is that of the first one; no pixel at all is not
modelled. -/
noncomputable def averageCurves (conj : C → C) (curves : List (List Nat × List (Option C))) (flags : List Bool) :
    Py (List Nat × List (Option C)) :=
  match curves with
  | [] => .error .notModelled
  | c :: _ => .ok (c.1, (List.range c.2.length).map fun n =>
      nanMean ((curves.zip flags).map fun p =>
        if p.2 then (p.1.2.getD n none).map conj else p.1.2.getD n none))

/-- The pixels `data[..., half_mask, :]` (cddm/norm.py:757-759, as called in cddm/viewer.py:917, 1001). -/
def selectCells {D : Type} (data : KData D) (mask : KMask) : Py (List D) := do
  let l ← selectData data mask
  match l.mapM id with
  | some x => .ok x
  | none => .error .undefined

/-- `get_data` and `_get_avg_data` up to `data_repr` (cddm/viewer.py:697-714, 916-936, 1000-1022).  `view` holds the
data and the masks: `set_mask` is inherited from `DataViewer`, `set_data` (cddm/viewer.py:895-914, 977-998) differs from
the one of `DataViewer` only in the time and in the background and variance that are kept. -/
noncomputable def shownCurve {D : Type} (conj : C → C) (curve : ViewCell D → Py (List Nat × List (Option C)))
    (view : DataView (ViewCell D)) : Py (List Nat × List (Option C)) :=
  match view.data, view.masks with
  | none, _ => .error .valueError
  | _, none => .error .valueError
  | some data, some ms => do
    let cells ← selectCells data ms.half
    let curves ← cells.mapM curve
    let m ← indexMask ms.conj ms.half
    averageCurves conj curves m

/-- `CorrViewer.get_data` (cddm/viewer.py:697-714, 916-936) up to `data_repr`. -/
noncomputable def corrShown (ops : ViewOps C) (cfg : ViewConfig) (view : DataView (ViewCell (NormData C))) :
    Py (List Nat × List (Option C)) :=
  shownCurve ops.conj (corrCurve ops cfg) view

/-- `MultitauViewer.get_data` (cddm/viewer.py:697-714, 1000-1022) up to `data_repr`. -/
noncomputable def multiShown (ops : ViewOps C) (cfg : ViewConfig)
    (view : DataView (ViewCell (NormData C × List (NormData C)))) : Py (List Nat × List (Option C)) :=
  shownCurve ops.conj (multiCurve ops cfg) view

end

end Cddm
