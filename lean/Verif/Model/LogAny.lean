import Verif.Model.AnyAxisFft
import Verif.Model.LogAvg

/-!
# Log averaging and merging of arrays of any number of axes

`multilevel`, `merge_multilevel`, `log_average` and `log_merge` (`cddm/multitau.py`) for data of any number of axes: the last axis
is that of the delays, multilevel data have the levels as their first axis.
Simplified: as in `Verif.Model.LogAvg`; `fold_data` and `convolve` are applied to every row, and do not fail for arrays without
rows.
-/

namespace Cddm

/-! ### numpy -/

section
variable {α : Type}

/-- `x[..., idx]` for a slice given by its indices (cddm/multitau.py:97-98, 1449, 1458-1460, 1496). -/
def pickLast (x : Tensor α) (idx : List Nat) : Tensor α where
  shape := x.shape.dropLast ++ [idx.length]
  get p := x.get (p.dropLast ++ [idx.getD (p.getLastD 0) 0])

/-- `x.transpose(axes)` (cddm/multitau.py:1499). -/
def transposeAxes (x : Tensor α) (axes : List Nat) : Tensor α where
  shape := axes.map fun a => x.shape.getD a 0
  get p := x.get ((List.range axes.length).map fun a => p.getD (axes.idxOf a) 0)

/-- The number of an element in C order (cddm/multitau.py:1500). -/
def ravel (shape p : List Nat) : Nat := (shape.zip p).foldl (fun k (ni : Nat × Nat) => k * ni.1 + ni.2) 0

/-- The position of the element number `k` in C order (cddm/multitau.py:1500). -/
def unravel : List Nat → Nat → List Nat
  | [], _ => []
  | _ :: s, k => k / s.prod :: unravel s (k % s.prod)

/-- `x.reshape(shape)` (cddm/multitau.py:1500). -/
def reshapeAny (x : Tensor α) (shape : List Nat) : Py (Tensor α) :=
  if shape.prod ≠ x.shape.prod then .error .valueError
  else .ok ⟨shape, fun p => x.get (unravel x.shape (ravel shape p))⟩

/-- `np.concatenate((x, y), axis = -1)` (cddm/multitau.py:1485, 1609-1610). -/
def concatLast (x y : Tensor α) : Py (Tensor α) :=
  if x.shape = [] ∨ y.shape = [] ∨ x.shape.dropLast ≠ y.shape.dropLast then .error .valueError
  else
    let n := x.shape.getLastD 0
    .ok ⟨x.shape.dropLast ++ [n + y.shape.getLastD 0], fun p =>
      if p.getLastD 0 < n then x.get p else y.get (p.dropLast ++ [p.getLastD 0 - n])⟩

/-- `out[l,...] = …` for each level (cddm/multitau.py:1444-1455): the levels are the first axis. -/
def stackLevels (shape : List Nat) (levels : List (Tensor (Option α))) : Tensor (Option α) where
  shape := levels.length :: shape
  get p := match levels[p.headD 0]? with
    | some x => x.get p.tail
    | none => none

end

/-! ### multilevel -/

section
variable {V : Type}

/-- One level of the output: the sliced data, NaN beyond it (cddm/multitau.py:1449-1455). -/
def levelArray (size : Nat) (data : Tensor V) : Tensor (Option V) :=
  let sliced := pickLast data (sliceBy (data.shape.getLastD 0) 0 size 1)
  ⟨data.shape.dropLast ++ [size], fun p => if p.getLastD 0 < sliced.shape.getLastD 0 then some (sliced.get p) else none⟩

/-- `x[...,::2]` (cddm/multitau.py:1458, 1460). -/
def everySecondAny (x : Tensor V) : Tensor V := pickLast x (sliceBy (x.shape.getLastD 0) 0 (x.shape.getLastD 0) 2)

/-- `choose_data(data, axis = -1)` (cddm/multitau.py:85-101): one random number for the whole array. -/
def chooseDataAny (low : Bool) (x : Tensor V) : Tensor V :=
  let n := x.shape.getLastD 0
  let f1 := pickLast x (sliceBy n 0 (n - 1) 2)
  let f2 := pickLast x (sliceBy n 1 n 2)
  if low then f2 else f1

variable (K : Type) [Field K] [AddCommGroup V] [Module K V]

/-- The data of the next level (cddm/multitau.py:1456-1462). -/
def nextLevelAny (binning : Int) (low : Bool) (data : Tensor V) : Py (Tensor V) :=
  if binning = 1 then do
    let n := data.shape.getLastD 0
    let c ← overRowsPy data.shape.dropLast n fun o => convolveInto K (rowAt data n o) (rowAt data n o)
    .ok (everySecondAny c)
  else if binning = 0 then .ok (everySecondAny data)
  else .ok (chooseDataAny low data)

/-- The loop over levels (cddm/multitau.py:1448-1462). -/
def levelArrays (size : Nat) (binning : Int) (low : Nat → Bool) :
    Nat → Nat → Tensor V → Py (List (Tensor (Option V)))
  | 0, _, data => .ok [levelArray size data]
  | k + 1, l, data => do
    let next ← nextLevelAny K binning (low l) data
    let rest ← levelArrays size binning low k (l + 1) next
    .ok (levelArray size data :: rest)

/-- `multilevel` of real data (cddm/multitau.py:1407-1463). -/
def multilevelAny (data : Tensor V) (levelSize binning : Int) (low : Nat → Bool) : Py (Tensor (Option V)) :=
  if binning ∉ ([2, 1, 0] : List Int) then .error .valueError
  else if levelSize < 2 then .error .valueError
  else if data.shape = [] then .error .indexError
  else do
    let size := levelSize.toNat
    let level := levelLoop size (data.shape.getLastD 0) 0
    let levels ← levelArrays K size binning low level 0 data
    .ok (stackLevels (data.shape.dropLast ++ [size]) levels)

end

/-- `fold_data(data)` of complex data (cddm/norm.py:819-863). -/
noncomputable def foldDataAny (data : Tensor (Cx ℝ)) : Py (Tensor (Cx ℝ)) :=
  if data.shape = [] then .error .indexError
  else
    let len := data.shape.getLastD 0
    overRowsPy data.shape.dropLast ((len + 1) / 2) fun o => foldData (.cplx (rowAt data len o)) 0

/-- The block `if np.iscomplexobj(data)` (cddm/multitau.py:1435-1439, 1593-1602). -/
noncomputable def foldIfAskedAny (data : Tensor (Cx ℝ)) (fold : Option Bool) : Py (Tensor (Cx ℝ)) :=
  match fold with
  | none => .error .valueError
  | some true => foldDataAny data
  | some false => .ok data

/-- `multilevel` of complex data (cddm/multitau.py:1407-1463). -/
noncomputable def multilevelComplexAny (data : Tensor (Cx ℝ)) (levelSize binning : Int) (low : Nat → Bool)
    (fold : Option Bool) : Py (Tensor (Option (Cx ℝ))) :=
  if binning ∉ ([2, 1, 0] : List Int) then .error .valueError
  else if levelSize < 2 then .error .valueError
  else do
    let data ← foldIfAskedAny data fold
    multilevelAny ℝ data levelSize binning low

/-! ### Merging -/

section
variable {α : Type}

/-- The order of axes `axes.insert(-1,axes.pop(0))` (cddm/multitau.py:1497-1498). -/
def levelAxes (ndim : Nat) : List Nat :=
  let axes := List.range ndim
  let rest := axes.tail
  pyInsert rest (rest.length - 1) (axes.headD 0)

/-- `merge_multilevel(data, mode = "half")` (cddm/multitau.py:1486-1502). -/
def mergeHalfAny (data : Tensor α) : Py (List Nat × Tensor α) :=
  if data.shape = [] then .error .indexError
  else if data.shape.getLastD 0 % 2 ≠ 0 then .error .valueError
  else do
    let n := data.shape.getLastD 0
    let outSize := n / 2 * data.shape.headD 0
    let xSlow := (List.range (data.shape.headD 0)).map fun i => (List.range n).map (· * 2 ^ i)
    let x := (xSlow.map (List.drop (n / 2))).flatten
    let data := pickLast data (sliceBy n (n / 2) n 1)
    let data := transposeAxes data (levelAxes data.shape.length)
    let y ← reshapeAny data (data.shape.dropLast.dropLast ++ [outSize])
    .ok (x, y)

/-- `merge_multilevel` (cddm/multitau.py:1465-1504). -/
def mergeMultilevelAny (data : Tensor α) (mode : String) : Py (List Nat × Tensor α) :=
  if mode = "full" then
    match data.shape with
    | [] => .error .indexError
    | 0 :: _ => .error .indexError
    | (len + 1) :: s => do
      let n := data.shape.getLastD 0
      let y0 : Tensor α := ⟨s, fun p => data.get (0 :: p)⟩
      let (x, y) ← mergeHalfAny ⟨len :: s, fun p => data.get ((p.headD 0 + 1) :: p.tail)⟩
      let y ← concatLast y0 y
      .ok (List.range n ++ x.map (· * 2), y)
  else if mode = "half" then mergeHalfAny data
  else .error .valueError

end

/-! ### Averaging and merging -/

section
variable {V : Type} (K : Type) [Field K] [AddCommGroup V] [Module K V]

/-- `log_average` of real data (cddm/multitau.py:1506-1533). -/
def logAverageAny (data : Tensor V) (size : Int) : Py (List Nat × Tensor (Option V)) :=
  if size < 1 then .error .valueError
  else do
    let ldata ← multilevelAny K data (size * 2) 1 (fun _ => false)
    mergeMultilevelAny ldata "full"

/-- The part of `log_merge` after the folding (cddm/multitau.py:1603-1611). -/
def logMergeCoreAny (lin multi : Tensor V) (binning : Int) (low : Nat → Bool) : Py (List Nat × Tensor (Option V)) :=
  if lin.shape = [] ∨ multi.shape = [] then .error .indexError
  else do
    let period ← periodFromData (lin.shape.getLastD 0) (multi.shape.getLastD 0)
    let nslow := multi.shape.getLastD 0
    let ldata ← multilevelAny K lin nslow binning low
    let (xfast, cfast) ← mergeMultilevelAny ldata "full"
    let (xslow, cslow) ← mergeMultilevelAny multi "half"
    let cc ← concatLast cfast ⟨cslow.shape, fun p => some (cslow.get p)⟩
    .ok (xfast ++ xslow.map (2 * period * ·), cc)

/-- `log_merge` of real data (cddm/multitau.py:1566-1611). -/
def logMergeAny (lin multi : Tensor V) (binning : Int) (low : Nat → Bool) : Py (List Nat × Tensor (Option V)) :=
  if binning ∉ ([2, 1, 0] : List Int) then .error .valueError
  else logMergeCoreAny K lin multi binning low

end

/-- `log_average` of complex data (cddm/multitau.py:1506-1533). -/
noncomputable def logAverageComplexAny (data : Tensor (Cx ℝ)) (size : Int) (fold : Option Bool) :
    Py (List Nat × Tensor (Option (Cx ℝ))) :=
  if size < 1 then .error .valueError
  else do
    let ldata ← multilevelComplexAny data (size * 2) 1 (fun _ => false) fold
    mergeMultilevelAny ldata "full"

/-- `log_merge` of complex data (cddm/multitau.py:1566-1611). -/
noncomputable def logMergeComplexAny (lin multi : Tensor (Cx ℝ)) (binning : Int) (low : Nat → Bool) (fold : Option Bool) :
    Py (List Nat × Tensor (Option (Cx ℝ))) :=
  if binning ∉ ([2, 1, 0] : List Int) then .error .valueError
  else do
    let lin ← foldIfAskedAny lin fold
    let multi ← foldIfAskedAny multi fold
    logMergeCoreAny ℝ lin multi binning low

end Cddm
