import Verif.Model.LogAvg
import Mathlib.Algebra.BigOperators.Group.Finset.Basic
import Mathlib.Data.Finset.Range

/-!
# Effective counts of multilevel data (cddm/multitau.py:1278-1400, 1535-1556, 1613-1641)

Numbers are exact; `none` is a value that is not finite, in particular the NaN written into missing cells.
-/

namespace Cddm
open scoped BigOperators

section
variable {K : Type} [Field K]

/-- Entry `m` of the full discrete convolution computed by `np.convolve` (cddm/multitau.py:1325-1326). -/
def convFull (a v : List K) (m : Nat) : K := ∑ j ∈ Finset.range (m + 1), a.getD j 0 * v.getD (m - j) 0

/-- `np.convolve(a, v, "same")` (cddm/multitau.py:1325-1326): the middle of the full convolution, as long as the longer
array; the number of entries left out in front depends on the length of the shorter one. -/
def npConvolveSame (a v : List K) : Py (List K) :=
  if a = [] ∨ v = [] then .error .valueError
  else
    let n := min a.length v.length
    .ok ((List.range (max a.length v.length)).map fun (i : Nat) => convFull a v (i + (n - 1 - n / 2)))

variable [DecidableEq K]

/-- One row of the output of `multilevel_count` (cddm/multitau.py:1318-1334). -/
def countRow (count : List K) (size : Nat) (binning : Int) (l : Nat) : Py (List (Option K)) :=
  match (if binning = 1 then triangularKernel K l else some [1]) with
  | none => .error .indexError
  | some kernel =>
    match npConvolveSame (kernel.map (· ^ 2)) (count.map (· ^ 2)), npConvolveSame kernel count with
    | .ok data, .ok norm =>
      let dataSliced := (takeIdx data (sliceBy data.length 0 data.length (2 ^ l))).take size
      let normSliced := (takeIdx norm (sliceBy norm.length 0 norm.length (2 ^ l))).take size
      .ok (List.zipWith (fun n d => fdiv (n ^ 3) d) normSliced dataSliced ++
        List.replicate (size - dataSliced.length) none)
    | .error e, _ => .error e
    | _, .error e => .error e

/-- `multilevel_count` (cddm/multitau.py:1278-1336) for an integer `level_size`. -/
def multilevelCount (count : List K) (levelSize binning : Int) : Py (List (List (Option K))) :=
  if levelSize < 2 then .error .valueError
  else (List.range (levelLoop levelSize.toNat count.length 0 + 1)).mapM
    (countRow count levelSize.toNat binning)

/-- `log_average_count` (cddm/multitau.py:1535-1556) for an integer `size`. -/
def logAverageCount (count : List K) (size : Int) : Py (List Nat × List (Option K)) :=
  match multilevelCount count (size * 2) 1 with
  | .error e => .error e
  | .ok data => mergeMultilevel data (size * 2).toNat "full"

/-- `np.linspace(a, b, num)` (cddm/multitau.py:1359-1360, 1391-1393). -/
def linspace (a b : K) (num : Nat) : List K :=
  (List.range num).map fun (i : Nat) => if num = 1 then a else a + (i : K) * ((b - a) / ((num : K) - 1))

/-- The slow part of `ccorr_multi_count` and `acorr_multi_count`, after the counts of the linear axis (cddm/multitau.py:
1361-1367, 1394-1400): with other binnings than the mean level `l` is divided by `2**l`; level 0 is dropped. -/
def slowCount (count : List K) (levelSize binning : Int) : Py (List (List (Option K))) :=
  match multilevelCount count levelSize binning with
  | .error e => .error e
  | .ok rows =>
    .ok ((if binning = 1 then rows
      else rows.mapIdx fun l row => row.map fun c => c.map (· / (2 ^ l : Nat))).drop 1)

/-- `ccorr_multi_count` (cddm/multitau.py:1338-1367) for natural numbers `count`, `period` and `level_size`. -/
def ccorrMultiCount (K : Type) [Field K] [DecidableEq K] (count period levelSize : Nat) (binning : Int) :
    Py (List K × List (List (Option K))) :=
  if period = 0 then .error .zeroDivisionError
  else
    let fast := linspace ((count : K) / period * 2) (((count : K) - levelSize) / period * 2) (period * levelSize)
    match slowCount ((linspace (count : K) 1 count).map (· * 2)) levelSize binning with
    | .error e => .error e
    | .ok slow => .ok (fast, slow)

/-- `acorr_multi_count` (cddm/multitau.py:1369-1400) for natural numbers `count`, `period` and `level_size`.  The first
`period + 1` cells of the linear part are written again. -/
def acorrMultiCount (K : Type) [Field K] [DecidableEq K] (count period levelSize : Nat) (binning : Int) :
    Py (List K × List (List (Option K))) :=
  if period = 0 then .error .zeroDivisionError
  else
    let fast := linspace ((count : K) / period) (((count : K) - levelSize) / period) (period * levelSize)
    match fast[period]? with
    | none => .error .indexError
    | some v =>
      let fast := linspace 0 v (period + 1) ++ fast.drop (period + 1)
      match slowCount (linspace (count : K) 1 count) levelSize binning with
      | .error e => .error e
      | .ok slow => .ok (fast, slow)

/-- `log_merge_count` (cddm/multitau.py:1613-1641); `nslow` is `multi_count.shape[-1]`. -/
def logMergeCount (lin : List K) (multi : List (List (Option K))) (nslow : Nat) (binning : Int) :
    Py (List Nat × List (Option K)) := do
  let period ← periodFromData lin.length nslow
  let ldata ← multilevelCount lin nslow binning
  let (xfast, cfast) ← mergeMultilevel ldata nslow "full"
  let (xslow, cslow) ← mergeMultilevel multi nslow "half"
  .ok (xfast ++ xslow.map (2 * period * ·), cfast ++ cslow)

end

end Cddm
