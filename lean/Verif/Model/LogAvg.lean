import Verif.Model.Filters
import Verif.Model.Fold

/-!
# Log averaging of linear data and merging of multiple-tau data (`cddm/multitau.py`)

One pixel: `data` is the list of values over the delay axis, multilevel data is the list of its
levels.  Numbers are exact; `none` is the NaN that `multilevel` writes into missing cells (the
input itself holds no NaN).  Printing is not modelled.
-/

namespace Cddm

/-- The loops of `triangular_kernel` (cddm/multitau.py:1256-1276).  `power` is a float only in the
divisions. -/
def triangularKernel (K : Type) [Field K] (n : Nat) : Option (List K) := do
  let size := (List.range n).foldl (fun s _ => s * 2 + 1) 1
  let power := 2 ^ n
  let out : List K := List.replicate size 0
  let out ← forRange (size / 2) out fun out i => do
    let out ← setAt out i (((i + 1 : Nat) : K) / (power : Nat) / (power : Nat))
    let v ← pyGet out i
    setAt out (-i - 1) v
  setAt out (size / 2 : Nat) (1 / (power : Nat))

/-- Indices of `x[a:b:step]` for non-negative bounds and a positive step
(cddm/multitau.py:68-69, 94-95, 109, 1458-1460). -/
def sliceBy (len a b step : Nat) : List Nat :=
  List.range' a ((min b len - a + step - 1) / step) step

/-- `data[...,::2]` (cddm/multitau.py:109, 1458, 1460). -/
def everySecond {α : Type} (x : List α) : List α := takeIdx x (sliceBy x.length 0 x.length 2)

/-- `choose_data` (cddm/multitau.py:85-101); `low` is the outcome of `r < 0.5`. -/
def chooseData {α : Type} (low : Bool) (x : List α) : List α :=
  let n := x.length
  let f1 := takeIdx x (sliceBy n 0 (n - 1) 2)
  let f2 := takeIdx x (sliceBy n 1 n 2)
  if low then f2 else f1

/-- The loop `while size * 2**(level) < data.shape[-1]: level += 1` (cddm/multitau.py:1441-1442,
1309-1310); the guard `0 < size` holds at every call (`size >= 2`). -/
def levelLoop (size len level : Nat) : Nat :=
  if 0 < size ∧ size * 2 ^ level < len then levelLoop size len (level + 1) else level
termination_by len - level
decreasing_by
  rename_i h
  have h1 : level < 2 ^ level := Nat.lt_two_pow_self
  have h2 : 2 ^ level ≤ size * 2 ^ level := Nat.le_mul_of_pos_left _ h.1
  omega

section
variable {V : Type} (K : Type) [Field K] [AddCommGroup V] [Module K V]

/-- One row of the output: `out[l,...,0:n_sliced] = sliced`, the rest NaN
(cddm/multitau.py:1449-1455). -/
def levelRow (size : Nat) (data : List V) : List (Option V) :=
  (data.take size).map some ++ List.replicate (size - (data.take size).length) none

/-- The data of the next level (cddm/multitau.py:1456-1462). -/
def nextLevel (binning : Int) (low : Bool) (data : List V) : Py (List V) :=
  if binning = 1 then do
    let c ← convolveInto K data data
    .ok (everySecond c)
  else if binning = 0 then .ok (everySecond data)
  else .ok (chooseData low data)

/-- The loop over levels (cddm/multitau.py:1448-1462): `k` levels are still to follow after the
present one, `l`. -/
def levelRows (size : Nat) (binning : Int) (low : Nat → Bool) :
    Nat → Nat → List V → Py (List (List (Option V)))
  | 0, _, data => .ok [levelRow size data]
  | k + 1, l, data => do
    let next ← nextLevel K binning (low l) data
    let rest ← levelRows size binning low k (l + 1) next
    .ok (levelRow size data :: rest)

/-- `multilevel` of real data (cddm/multitau.py:1407-1463).  `low l` is the outcome of `r < 0.5` in
the call of `choose_data` at level `l`.  Simplification: `level_size` is an integer. -/
def multilevel (data : List V) (levelSize binning : Int) (low : Nat → Bool) :
    Py (List (List (Option V))) :=
  if binning ∉ ([2, 1, 0] : List Int) then .error .valueError
  else if levelSize < 2 then .error .valueError
  else
    let size := levelSize.toNat
    let level := levelLoop size data.length 0
    levelRows K size binning low level 0 data

end

/-- The block `if np.iscomplexobj(data)` (cddm/multitau.py:1435-1439, 1593-1597). -/
noncomputable def foldIfAsked (data : List (Cx ℝ)) (fold : Option Bool) : Py (List (Cx ℝ)) :=
  match fold with
  | none => .error .valueError
  | some true => foldData (.cplx data) 0
  | some false => .ok data

/-- `multilevel` of complex data (cddm/multitau.py:1407-1463). -/
noncomputable def multilevelComplex (data : List (Cx ℝ)) (levelSize binning : Int)
    (low : Nat → Bool) (fold : Option Bool) : Py (List (List (Option (Cx ℝ)))) :=
  if binning ∉ ([2, 1, 0] : List Int) then .error .valueError
  else if levelSize < 2 then .error .valueError
  else do
    let data ← foldIfAsked data fold
    multilevel ℝ data levelSize binning low

section
variable {α : Type}

/-- `merge_multilevel(data, mode = "half")` (cddm/multitau.py:1486-1502); `n` is `data.shape[-1]`,
the common length of the rows. -/
def mergeHalf (data : List (List α)) (n : Nat) : Py (List Nat × List α) :=
  if n % 2 ≠ 0 then .error .valueError
  else
    let xSlow := data.mapIdx fun i _ => (List.range n).map (· * 2 ^ i)
    .ok ((xSlow.map (List.drop (n / 2))).flatten, (data.map (List.drop (n / 2))).flatten)

/-- `merge_multilevel` (cddm/multitau.py:1465-1504). -/
def mergeMultilevel (data : List (List α)) (n : Nat) (mode : String) : Py (List Nat × List α) :=
  if mode = "full" then
    match data with
    | [] => .error .indexError
    | y0 :: rest => do
      let (x, y) ← mergeHalf rest n
      .ok (List.range n ++ x.map (· * 2), y0 ++ y)
  else if mode = "half" then mergeHalf data n
  else .error .valueError

end

/-- `_period_from_data` (cddm/multitau.py:1558-1564). -/
def periodFromData (nfast nslow : Nat) : Py Nat :=
  if nslow = 0 then .error .zeroDivisionError
  else if nfast % nslow ≠ 0 then .error .valueError
  else .ok (nfast / nslow)

section
variable {V : Type} (K : Type) [Field K] [AddCommGroup V] [Module K V]

/-- `log_average` of real data (cddm/multitau.py:1506-1533). -/
def logAverage (data : List V) (size : Int) : Py (List Nat × List (Option V)) :=
  if size < 1 then .error .valueError
  else do
    let ldata ← multilevel K data (size * 2) 1 (fun _ => false)
    mergeMultilevel ldata (size * 2).toNat "full"

/-- The part of `log_merge` after the folding (cddm/multitau.py:1603-1611); `nslow` is
`multi.shape[-1]`. -/
def logMergeCore (lin : List V) (multi : List (List V)) (nslow : Nat) (binning : Int)
    (low : Nat → Bool) : Py (List Nat × List (Option V)) := do
  let period ← periodFromData lin.length nslow
  let ldata ← multilevel K lin nslow binning low
  let (xfast, cfast) ← mergeMultilevel ldata nslow "full"
  let (xslow, cslow) ← mergeMultilevel multi nslow "half"
  .ok (xfast ++ xslow.map (2 * period * ·), cfast ++ cslow.map some)

/-- `log_merge` of real data (cddm/multitau.py:1566-1611). -/
def logMerge (lin : List V) (multi : List (List V)) (nslow : Nat) (binning : Int)
    (low : Nat → Bool) : Py (List Nat × List (Option V)) :=
  if binning ∉ ([2, 1, 0] : List Int) then .error .valueError
  else logMergeCore K lin multi nslow binning low

end

/-- `log_average` of complex data (cddm/multitau.py:1506-1533). -/
noncomputable def logAverageComplex (data : List (Cx ℝ)) (size : Int) (fold : Option Bool) :
    Py (List Nat × List (Option (Cx ℝ))) :=
  if size < 1 then .error .valueError
  else do
    let ldata ← multilevelComplex data (size * 2) 1 (fun _ => false) fold
    mergeMultilevel ldata (size * 2).toNat "full"

/-- `log_merge` of complex data (cddm/multitau.py:1566-1611); folding shortens the rows of
`multi`. -/
noncomputable def logMergeComplex (lin : List (Cx ℝ)) (multi : List (List (Cx ℝ))) (nslow : Nat)
    (binning : Int) (low : Nat → Bool) (fold : Option Bool) :
    Py (List Nat × List (Option (Cx ℝ))) :=
  if binning ∉ ([2, 1, 0] : List Int) then .error .valueError
  else do
    let lin ← foldIfAsked lin fold
    let multi ← (if fold = none then .error .valueError
      else multi.mapM (fun row => foldIfAsked row fold))
    logMergeCore ℝ lin multi (if fold = some true then (nslow + 1) / 2 else nslow) binning low

/-- `t_multilevel(shape, period)` for `levels` levels of length `n` (cddm/multitau.py:1644-1654):
`x` is doubled after each level. -/
def tMultilevel (levels n period : Nat) : List (List Nat) :=
  ((List.range levels).foldl (fun (s : List (List Nat) × List Nat) _ =>
    (s.1 ++ [s.2], s.2.map (· * 2))) ([], (List.range n).map (· * period * 2))).1

end Cddm
