import Verif.Model.Py
import Verif.Model.Err
import Verif.Model.Cx
import Mathlib.Algebra.Order.Field.Basic
import Mathlib.Analysis.SpecialFunctions.Log.Basic

/-!
# Filters and interpolation (`cddm/_core_nb.py`, `cddm/avg.py`)

Numbers are exact (an ordered field `K`); NaN does not occur in the filters.  A kernel writes into
an output array whose previous content is arbitrary, so the model takes that array (`out`) as an
argument.  A call in place (`f(a, out = a)`) is the same loop reading from the array it writes to:
`src` says where the loop reads.
-/

namespace Cddm

/-- `out[m] = v` (cddm/_core_nb.py:63-66, 143-157, 211-216). -/
def setAt {M : Type} (out : List M) (m : Int) (v : M) : Option (List M) :=
  (pyIdx out.length m).bind fun k => some (out.set k v)

section filters
variable {K : Type}

/-- The three-sample decision of the median filter (cddm/_core_nb.py:145-154) with
`a, b, c = array[i-1], array[i], array[i+1]`. -/
def med3 [LinearOrder K] (a b c : K) : K :=
  if b < c then (if b < a then min c a else b)
  else (if b < a then b else max c a)

/-- The loop of `_median` (cddm/_core_nb.py:139-156). -/
def medianKernel [LinearOrder K] (src : List K → List K) (out : List K) : Option (List K) := do
  let n := out.length
  let first ← pyGet (src out) 0
  let last ← pyGet (src out) (-1)
  let out ← setAt out (-1) last
  let (out, r) ← forRange' 1 (n - 1) (out, first) fun (out, r) i => do
    let b ← pyGet (src out) i
    let c ← pyGet (src out) (i + 1)
    let a ← pyGet (src out) (i - 1)
    let out ← setAt out (i - 1) r
    some (out, med3 a b c)
  setAt out (n - 2 : Nat) r

/-- `_median(array, out)` (cddm/_core_nb.py:136-158); `out` is the (uninitialised) output array. -/
def medianInto [LinearOrder K] (array out : List K) : Py (List K) :=
  if array.length > 2 then orUB (medianKernel (fun _ => array) out) else .error .assertionError

/-- `_median(array, array)`: in place (cddm/_core_nb.py:136-158). -/
def medianInPlace [LinearOrder K] (array : List K) : Py (List K) :=
  if array.length > 2 then orUB (medianKernel id array) else .error .assertionError

/-- `_median_slow` (cddm/_core_nb.py:193-203): the middle element of the three sorted values. -/
def medianSlow [LinearOrder K] (array out : List K) : Py (List K) :=
  if array.length > 2 then orUB do
    let n := array.length
    let out ← forRange' 1 (n - 1) out fun out i => do
      let s := ((array.drop (i - 1)).take 3).insertionSort (· ≤ ·)
      let m ← pyGet s 1
      setAt out i m
    let first ← pyGet array 0
    let last ← pyGet array (-1)
    let out ← setAt out 0 first
    setAt out (-1) last
  else .error .assertionError

/-- `median` of complex data (cddm/_core_nb.py:160-171): real and imaginary parts separately. -/
def medianCx [LinearOrder K] (array out : List (Cx K)) : Py (List (Cx K)) := do
  let re ← medianInto (array.map Cx.re) (out.map Cx.re)
  let im ← medianInto (array.map Cx.im) (out.map Cx.im)
  .ok (List.zipWith Cx.mk re im)

/-- The loop of `convolve` (cddm/_core_nb.py:59-68), for real or complex samples.  The value
`result` of cell `i-1` is stored before `a[i-1]` is read. -/
def convolveKernel {V : Type} (K : Type) [Field K] [AddCommGroup V] [Module K V]
    (src : List V → List V) (out : List V) : Option (List V) := do
  let n := out.length
  let first ← pyGet (src out) 0
  let (out, r) ← forRange' 1 (n - 1) (out, first) fun (out, r) i => do
    let out ← setAt out (i - 1) r
    let a ← pyGet (src out) (i - 1)
    let b ← pyGet (src out) i
    let c ← pyGet (src out) (i + 1)
    some (out, (1 / 4 : K) • (a + (2 : K) • b + c))
  let out ← setAt out (n - 2 : Nat) r
  let last ← pyGet (src out) (-1)
  setAt out (-1) last

/-- `convolve(a, out)` (cddm/_core_nb.py:56-68); `out` is the (uninitialised) output array. -/
def convolveInto {V : Type} (K : Type) [Field K] [AddCommGroup V] [Module K V]
    (a out : List V) : Py (List V) :=
  if out.length > 2 then orUB (convolveKernel K (fun _ => a) out) else .error .assertionError

/-- `convolve(a, a)`: in place (cddm/_core_nb.py:56-68). -/
def convolveInPlace {V : Type} (K : Type) [Field K] [AddCommGroup V] [Module K V]
    (a : List V) : Py (List V) :=
  if a.length > 2 then orUB (convolveKernel K id a) else .error .assertionError

/-- `denoise(x, n)` for real data (cddm/avg.py:7-27).  Each filter allocates a fresh output array;
its content is overwritten, the model uses the input itself as the initial content. -/
def denoise [LinearOrder K] [Field K] (x : List K) : Nat → Py (List K)
  | 0 => .ok x
  | n + 1 => do
    let y ← medianInto x x
    let z ← convolveInto K y y
    denoise z n

/-- `denoise(x, n)` for complex data (cddm/avg.py:7-27). -/
def denoiseCx [LinearOrder K] [Field K] (x : List (Cx K)) : Nat → Py (List (Cx K))
  | 0 => .ok x
  | n + 1 => do
    let y ← medianCx x x
    let z ← convolveInto K y y
    denoiseCx z n

/-- `decreasing` (cddm/_core_nb.py:206-218); finite input, so the `isnan` test is false. -/
def decreasing [LinearOrder K] (array out : List K) : Option (List K) :=
  forRange array.length out fun out i => do
    let x ← pyGet array i
    if i = 0 then setAt out 0 x else do
      let p ← pyGet out (i - 1)
      if x < p then setAt out i x else setAt out i p

/-- `increasing` (cddm/_core_nb.py:221-233); finite input.  The loop starts at 1, so `out[0]` is
never written. -/
def increasing [LinearOrder K] (array out : List K) : Option (List K) :=
  forRange' 1 array.length out fun out i => do
    let x ← pyGet array i
    if i = 0 then setAt out 0 x else do
      let p ← pyGet out (i - 1)
      if x > p then setAt out i x else setAt out i p

/-- Float division (cddm/_core_nb.py:92, 98): `none` stands for a value that is not finite (inf or NaN), which is what
numba and numpy return for a zero divisor. -/
def fdiv [Field K] [DecidableEq K] (a b : K) : Option K := if b = 0 then none else some (a / b)

/-- The value `(xi - x0) * deltay / deltax + y0` of `interpolate` (cddm/_core_nb.py:90-92, 96-98),
for real or complex `y`. -/
def lineAt {V : Type} [Field K] [DecidableEq K] [AddCommGroup V] [Module K V]
    (x0 x1 : K) (y0 y1 : V) (xi : K) : Option V :=
  (fdiv (xi - x0) (x1 - x0)).map fun s => s • (y1 - y0) + y0

/-- One query of `interpolate` (cddm/_core_nb.py:83-98), `j` being the loop variable: the first
segment whose right end is not left of `xi`, or the last segment. -/
def interpolateFrom {V : Type} [Field K] [LinearOrder K] [AddCommGroup V] [Module K V]
    (xi : K) : List (K × V) → Option V
  | (x0, y0) :: (x1, y1) :: rest =>
    if xi ≤ x1 then lineAt x0 x1 y0 y1 xi
    else match rest with
      | [] => lineAt x0 x1 y0 y1 xi
      | _ :: _ => interpolateFrom xi ((x1, y1) :: rest)
  | _ => none

/-- `interpolate(x_new, x, y)` (cddm/_core_nb.py:78-98).  Nodes are modelled as pairs. -/
def interpolate {V : Type} [Field K] [LinearOrder K] [AddCommGroup V] [Module K V]
    (xNew : List K) (nodes : List (K × V)) : Py (List (Option V)) :=
  if nodes.length ≥ 2 then .ok (xNew.map fun xi => interpolateFrom xi nodes)
  else .error .assertionError

end filters

/-- The loop over `j` of `_log_interpolate` for one query (cddm/_core_nb.py:104-126).  `q` is
`x_new[i]`; `out` the previous content of the output cell, kept when nothing is written. -/
noncomputable def logInterpolateFrom (q : Int) (out : Option ℝ) : List (Int × ℝ) → Option ℝ
  | (x0, y0) :: (x1, y1) :: rest =>
    let log : Bool := q > 1
    let xi : ℝ := if log then Real.log q else q
    let u0 : ℝ := if x0 ≥ 1 ∧ log = true then Real.log x0 else x0
    let u1 : ℝ := if x0 ≥ 1 ∧ log = true then Real.log x1 else x1
    if q ≤ x1 then lineAt u0 u1 y0 y1 xi
    else match rest with
      | [] => if xi > u1 then lineAt u0 u1 y0 y1 xi else out
      | _ :: _ => logInterpolateFrom q out ((x1, y1) :: rest)
  | _ => none

/-- `_log_interpolate(x_new, x, y, out)` (cddm/_core_nb.py:99-126); `out` the uninitialised
output. -/
noncomputable def logInterpolate (xNew : List Int) (nodes : List (Int × ℝ))
    (out : List (Option ℝ)) : Py (List (Option ℝ)) :=
  if nodes.length ≥ 2 then .ok (List.zipWith (fun q o => logInterpolateFrom q o nodes) xNew out)
  else .error .assertionError

end Cddm
