import Verif.Model.Err
import Verif.Model.Kernels
import Verif.Model.Regular
import Mathlib.Algebra.Module.Defs
import Mathlib.Algebra.Field.Defs

/-!
# Correlation API of `cddm/core.py`, for one signal (1-D arrays)

Simplifications, all stated once here:
* one signal: `f.ndim == 1` (several pixels: see `Verif.Model.Vec`);
* `axis` is then irrelevant, `_move_axis_and_align` and `_transpose_data`
  (cddm/core.py:66-73, 171-172) are the identity;
* `_is_aligned` (cddm/core.py:247-252) asks numpy for memory contiguity; its answer is the Boolean
  argument `aligned`, and all theorems quantify over it;
* dtype conversions (`np.asarray(f, CDTYPE)`) are the identity on exact numbers; the dtype check of
  `_default_out` (cddm/core.py:187-188) always passes because lists are typed;
* `n` is a natural number (a negative `n` makes `np.zeros` raise).
-/

namespace Cddm
variable {R : Type} [Zero R] [Add R] [Sub R] [Neg R] [Mul R]

/-- `np.arange(n)` (cddm/core.py:446, 705, 747). -/
def arange (n : Nat) : List Int := (List.range n).map Int.ofNat

/-- `t.min()`; numpy raises ValueError for an empty array (cddm/core.py:110, 124, 135). -/
def npMin (t : List Int) : Py Int := match t.min? with
  | some m => .ok m
  | none => .error .valueError

/-- `t.max()` (cddm/core.py:124, 135-136). -/
def npMax (t : List Int) : Py Int := match t.max? with
  | some m => .ok m
  | none => .error .valueError

/-- `_determine_full_length_cross` (cddm/core.py:128-138). -/
def fullLengthCross (N : Nat) (t : Option (List Int × List Int)) : Py Nat :=
  match t with
  | none => .ok N
  | some (t1, t2) => do
    let t1min ← npMin t1
    let t1max ← npMax t1
    let t2min ← npMin t2
    let t2max ← npMax t2
    .ok (1 + max (t2max - t1min) (t1max - t2min)).toNat

/-- `_determine_full_length_auto` (cddm/core.py:117-126). -/
def fullLengthAuto (N : Nat) (t : Option (List Int)) : Py Nat :=
  match t with
  | none => .ok N
  | some t => do
    let tmin ← npMin t
    let tmax ← npMax t
    .ok (1 + tmax - tmin).toNat

/-- `_inspect_cross_arguments` (cddm/core.py:75-114).  `N1`, `N2` are the lengths of the data,
`aoutLen` the length of `aout` if given; returns the shifted times and the output length. -/
def inspectCross (N1 N2 : Nat) (t1 t2 : Option (List Int)) (n : Option Nat)
    (aoutLen : Option Nat) (full : Bool) : Py (Option (List Int × List Int) × Nat) := do
  let t : Option (List Int × List Int) ← (match t1, t2 with
    | none, none => .ok none
    | some a, some b => .ok (some (a, b))
    | _, _ => .error .valueError)
  if N1 ≠ N2 then .error .valueError else
  let n ← (match n, aoutLen with
    | some n, _ => .ok n
    | none, some L => .ok (if full then (L + 1) / 2 else L)
    | none, none => fullLengthCross N1 t)
  match t with
  | none => .ok (none, n)
  | some (a, b) => do
    let t1min ← npMin a
    let t2min ← npMin b
    .ok (some (a.map (· - min t1min t2min), b.map (· - min t1min t2min)), n)

/-- `_inspect_auto_arguments` (cddm/core.py:141-169). -/
def inspectAuto (N : Nat) (t : Option (List Int)) (n : Option Nat) (aoutLen : Option Nat) :
    Py (Option (List Int) × Nat) := do
  let n ← (match n, aoutLen with
    | some n, _ => .ok n
    | none, some L => .ok L
    | none, none => fullLengthAuto N t)
  match t with
  | none => .ok (none, n)
  | some a => do
    let tmin ← npMin a
    .ok (some (a.map (· - tmin)), n)

/-- `_default_out` (cddm/core.py:174-190): a given `aout` is used as it is, whatever `n`;
otherwise zeros of length `n`, or `2n-1` for `complex` (a negative size raises ValueError). -/
def defaultOut {M : Type} [Zero M] (aout : Option (List M)) (n : Nat) (complex : Bool) :
    Py (List M) :=
  match aout with
  | some out => .ok out
  | none =>
    if complex then (if n = 0 then .error .valueError else .ok (List.replicate (2 * n - 1) 0))
    else .ok (List.replicate n 0)

/-- numpy's core-dimension check of a generalized ufunc: the arrays sharing a dimension letter
must have equal lengths, e.g. `"(m),(n),(m),(n),(k)->(k)"` (cddm/_core_nb.py:300). -/
def checkDims (ok : Bool) : Py Unit := if ok then .ok () else .error .valueError

/-- `cross_correlate(..., complex = False)` (cddm/core.py:390-466). -/
def crossCorrelate (f1 f2 : List (Cx R)) (t1 t2 : Option (List Int)) (n : Option Nat)
    (aligned : Bool) (aout : Option (List R)) : Py (List R) := do
  let (t, n) ← inspectCross f1.length f2.length t1 t2 n (aout.map List.length) false
  let out ← defaultOut aout n false
  match t with
  | none =>
    if aligned then orUB (crossCorrRegular f1 f2 out)
    else orUB (crossCorr f1 f2 (arange f1.length) (arange f1.length) out)
  | some (t1, t2) => do
    checkDims (t1.length = f1.length ∧ t2.length = f2.length)
    orUB (crossCorr f1 f2 t1 t2 out)

/-- `cross_correlate(..., complex = True)` (cddm/core.py:390-466). -/
def crossCorrelateComplex (f1 f2 : List (Cx R)) (t1 t2 : Option (List Int)) (n : Option Nat)
    (aligned : Bool) (aout : Option (List (Cx R))) : Py (List (Cx R)) := do
  let (t, n) ← inspectCross f1.length f2.length t1 t2 n (aout.map List.length) true
  let out ← defaultOut aout n true
  match t with
  | none =>
    if aligned then orUB (crossCorrComplexRegular f1 f2 out)
    else orUB (crossCorrComplex f1 f2 (arange f1.length) (arange f1.length) out)
  | some (t1, t2) => do
    checkDims (t1.length = f1.length ∧ t2.length = f2.length)
    orUB (crossCorrComplex f1 f2 t1 t2 out)

/-- `cross_difference` (cddm/core.py:468-535). -/
def crossDifference (f1 f2 : List (Cx R)) (t1 t2 : Option (List Int)) (n : Option Nat)
    (aligned : Bool) (aout : Option (List R)) : Py (List R) := do
  let (t, n) ← inspectCross f1.length f2.length t1 t2 n (aout.map List.length) false
  let out ← defaultOut aout n false
  match t with
  | none =>
    if aligned then orUB (crossDiffRegular f1 f2 out)
    else orUB (crossDiff f1 f2 (arange f1.length) (arange f1.length) out)
  | some (t1, t2) => do
    checkDims (t1.length = f1.length ∧ t2.length = f2.length)
    orUB (crossDiff f1 f2 t1 t2 out)

/-- `auto_correlate(..., complex = False)` (cddm/core.py:537-607). -/
def autoCorrelate (f : List (Cx R)) (t : Option (List Int)) (n : Option Nat)
    (aligned : Bool) (aout : Option (List R)) : Py (List R) := do
  let (t, n) ← inspectAuto f.length t n (aout.map List.length)
  let out ← defaultOut aout n false
  match t with
  | none =>
    if aligned then orUB (autoCorrRegular f out)
    else orUB (autoCorr f (arange f.length) out)
  | some t => do
    checkDims (t.length = f.length)
    orUB (autoCorr f t out)

/-- `auto_correlate(..., complex = True)` (cddm/core.py:537-607). -/
def autoCorrelateComplex (f : List (Cx R)) (t : Option (List Int)) (n : Option Nat)
    (aligned : Bool) (aout : Option (List (Cx R))) : Py (List (Cx R)) := do
  let (t, n) ← inspectAuto f.length t n (aout.map List.length)
  let out ← defaultOut aout n false
  match t with
  | none =>
    if aligned then orUB (autoCorrComplexRegular f out)
    else orUB (autoCorrComplex f (arange f.length) out)
  | some t => do
    checkDims (t.length = f.length)
    orUB (autoCorrComplex f t out)

/-- `auto_difference` (cddm/core.py:609-667). -/
def autoDifference (f : List (Cx R)) (t : Option (List Int)) (n : Option Nat)
    (aligned : Bool) (aout : Option (List R)) : Py (List R) := do
  let (t, n) ← inspectAuto f.length t n (aout.map List.length)
  let out ← defaultOut aout n false
  match t with
  | none =>
    if aligned then orUB (autoDiffRegular f out)
    else orUB (autoDiff f (arange f.length) out)
  | some t => do
    checkDims (t.length = f.length)
    orUB (autoDiff f t out)

section sums
variable {M : Type}

/-- `cross_sum` (cddm/core.py:759-826); `M` is `F` or `C`.  Regular data always take the regular
kernel here, whatever the memory layout. -/
def crossSumApi [Zero M] [Add M] [Sub M] (f : List M) (t tOther : Option (List Int)) (n : Option Nat)
    (complex timeInversion : Bool) (aout : Option (List M)) : Py (List M) := do
  let (t, n) ← inspectCross f.length f.length t tOther n (aout.map List.length) complex
  let out ← defaultOut aout n complex
  match t with
  | none =>
    if complex then
      (if timeInversion then orUB (crossSumComplexRegularInverted f out)
       else orUB (crossSumComplexRegular f out))
    else orUB (crossSumRegular f out)
  | some (t1, t2) => do
    let t1 := if timeInversion then t1.map (- ·) else t1
    let t2 := if timeInversion then t2.map (- ·) else t2
    checkDims (t1.length = f.length)
    if complex then orUB (crossSumComplex f t1 t2 out) else orUB (crossSum f t1 t2 out)

/-- `auto_sum` (cddm/core.py:862-924): the cross sum of the signal with itself, all entries but
the first halved, added to `out`; `half` is the division by 2 of the numbers used. -/
def autoSumWith [Zero M] [Add M] [Sub M] (half : M → M) (f : List M) (t : Option (List Int))
    (n : Option Nat) (aout : Option (List M)) : Py (List M) := do
  let (t, n) ← inspectAuto f.length t n (aout.map List.length)
  let out ← defaultOut aout n false
  let out0 : List M := List.replicate out.length 0
  let out0 ← (match t with
    | none => orUB (crossSumRegular f out0)
    | some t => do
      checkDims (t.length = f.length)
      orUB (crossSum f t t out0))
  let out0 := out0.mapIdx fun k v => if k = 0 then v else half v
  .ok (List.zipWith (· + ·) out out0)

/-- `auto_sum` (cddm/core.py:862-924) with exact division. -/
def autoSumApi [AddCommGroup M] (K : Type) [Field K] [Module K M] (f : List M) (t : Option (List Int))
    (n : Option Nat) (aout : Option (List M)) : Py (List M) :=
  autoSumWith (fun v => (1 / 2 : K) • v) f t n aout

end sums

/-- A time argument of the count functions: a 0-d value (length of regular data) or an array
(cddm/core.py:711-719, 747-750). -/
inductive TimeArg
  | scalar (n : Nat)
  | array (t : List Int)

/-- `np.asarray(t); if t.ndim == 0: t = np.arange(t)` (cddm/core.py:711-719, 747-750). -/
def TimeArg.times : TimeArg → List Int
  | .scalar n => arange n
  | .array t => t

/-- `_default_count` (cddm/core.py:669-683). -/
def defaultCount (t1 t2 : List Int) (n : Option Nat) (out : Option (List Nat)) (complex : Bool) :
    Py (List Nat) :=
  match out with
  | some out => .ok out
  | none => do
    let n ← (match n with
      | some n => .ok n
      | none => do
        let t1min ← npMin t1
        let t1max ← npMax t1
        let t2min ← npMin t2
        let t2max ← npMax t2
        .ok (1 + max (t2max - t1min) (t1max - t2min)).toNat)
    if complex then (if n = 0 then .error .valueError else .ok (List.replicate (2 * n - 1) 0))
    else .ok (List.replicate n 0)

/-- `cross_count` (cddm/core.py:685-724). -/
def crossCount (t1 : TimeArg) (t2 : Option TimeArg) (n : Option Nat) (complex : Bool)
    (aout : Option (List Nat)) : Py (List Nat) := do
  let a := t1.times
  let b := match t2 with
    | none => a
    | some t2 => t2.times
  let out ← defaultCount a b n aout complex
  if complex then orUB (addCountCrossComplex a b out) else orUB (addCountCross a b out)

/-- `auto_count` (cddm/core.py:726-754). -/
def autoCount (t : TimeArg) (n : Option Nat) (aout : Option (List Nat)) : Py (List Nat) := do
  let a := t.times
  let out ← defaultCount a a n aout false
  orUB (addCountAuto a out)

end Cddm
