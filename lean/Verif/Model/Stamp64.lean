import Verif.Model.Core

/-!
# Time stamps in 64-bit integer arithmetic

`Verif.Model.Kernels` and `Verif.Model.Core` compute with unbounded time stamps.  The code converts the
time arrays to `int64` (`np.asarray(t, I64DTYPE)`, cddm/core.py:80-81, 144, 711, 718, 748) and the kernels
are compiled for `I64[:]` (cddm/_core_nb.py:300, 310, 391, 400, 435, 476, 502, 510), so that every
difference is reduced to 64 bits.  Here are the same functions with that arithmetic.
Simplified: the stamps are given as integers already (numpy raises OverflowError for a Python integer
that does not fit in `int64`), `2*n - 1` for the length of the complex results is not reduced (an array
of that length does not exist), and regular data take the kernels of `Verif.Model.Regular`, whose
indices are array positions.
-/

namespace Cddm
variable {R : Type} [Zero R] [Add R] [Sub R] [Neg R] [Mul R]

/-- Reduction of an integer to the range of `int64`, as done by every operation on `I64` numbers
(cddm/conf.py:187, 369). -/
def wrap64 (x : Int) : Int := (x + 2 ^ 63) % 2 ^ 64 - 2 ^ 63

/-- `abs(m)` of an `int64` number (cddm/_core_nb.py:305, 315): the absolute value of the smallest
number does not fit and is that number again. -/
def abs64 (x : Int) : Int := wrap64 |x|

/-- The length given to `np.zeros` (cddm/core.py:179-184, 678-679): a negative one raises ValueError. -/
def length64 (n : Int) : Py Nat := if n < 0 then .error .valueError else .ok n.toNat

/-- `_cross_corr` (cddm/_core_nb.py:300-308) in `int64` arithmetic. -/
def crossCorr64 (x y : List (Cx R)) (t1 t2 : List Int) (out : List R) : Option (List R) :=
  forRange x.length out fun out i =>
    forRange y.length out fun out j => do
      let t2j ← t2[j]?
      let t1i ← t1[i]?
      let m : Int := abs64 (wrap64 (t2j - t1i))
      if m < out.length then
        let xi ← x[i]?
        let yj ← y[j]?
        let tmp := xi.re * yj.re + xi.im * yj.im
        addAt out m tmp
      else some out

/-- `_cross_corr_complex` (cddm/_core_nb.py:310-317) in `int64` arithmetic. -/
def crossCorrComplex64 (x y : List (Cx R)) (t1 t2 : List Int) (out : List (Cx R)) :
    Option (List (Cx R)) :=
  forRange x.length out fun out i =>
    forRange y.length out fun out j => do
      let t2j ← t2[j]?
      let t1i ← t1[i]?
      let m : Int := wrap64 (t2j - t1i)
      if abs64 m < ((out.length + 1) / 2 : Nat) then
        let xi ← x[i]?
        let yj ← y[j]?
        let tmp := xi.conj * yj
        addAt out m tmp
      else some out

/-- `_auto_corr` (cddm/_core_nb.py:391-398) in `int64` arithmetic. -/
def autoCorr64 (f : List (Cx R)) (t : List Int) (out : List R) : Option (List R) :=
  forRange f.length out fun out i =>
    forRange' i f.length out fun out j => do
      let tj ← t[j]?
      let ti ← t[i]?
      let m : Int := abs64 (wrap64 (tj - ti))
      if m < out.length then
        let fi ← f[i]?
        let fj ← f[j]?
        let tmp := fi.re * fj.re + fi.im * fj.im
        addAt out m tmp
      else some out

/-- `_auto_corr_complex` (cddm/_core_nb.py:400-413) in `int64` arithmetic. -/
def autoCorrComplex64 (f : List (Cx R)) (t : List Int) (out : List (Cx R)) :
    Option (List (Cx R)) :=
  forRange f.length out fun out i =>
    forRange' i f.length out fun out j => do
      let tj ← t[j]?
      let ti ← t[i]?
      let m : Int := wrap64 (tj - ti)
      if m ≥ 0 then
        if m < out.length then
          let fi ← f[i]?
          let fj ← f[j]?
          let tmp := fi.conj * fj
          addAt out m tmp
        else some out
      else
        let m : Int := abs64 m
        if m < out.length then
          let fi ← f[i]?
          let fj ← f[j]?
          let tmp := fi * fj.conj
          addAt out m tmp
        else some out

/-- `_cross_diff` (cddm/_core_nb.py:435-444) in `int64` arithmetic. -/
def crossDiff64 (x y : List (Cx R)) (t1 t2 : List Int) (out : List R) : Option (List R) :=
  forRange x.length out fun out i =>
    forRange y.length out fun out j => do
      let t2j ← t2[j]?
      let t1i ← t1[i]?
      let m : Int := abs64 (wrap64 (t2j - t1i))
      if m < out.length then
        let xi ← x[i]?
        let yj ← y[j]?
        let tmp := yj - xi
        let d := tmp.re * tmp.re + tmp.im * tmp.im
        addAt out m d
      else some out

/-- `_auto_diff` (cddm/_core_nb.py:476-484) in `int64` arithmetic. -/
def autoDiff64 (f : List (Cx R)) (t : List Int) (out : List R) : Option (List R) :=
  forRange f.length out fun out i =>
    forRange' i f.length out fun out j => do
      let tj ← t[j]?
      let ti ← t[i]?
      let m : Int := abs64 (wrap64 (tj - ti))
      if m < out.length then
        let fi ← f[i]?
        let fj ← f[j]?
        let tmp := fj - fi
        let d := tmp.re * tmp.re + tmp.im * tmp.im
        addAt out m d
      else some out

/-- `_cross_sum` (cddm/_core_nb.py:502-508) in `int64` arithmetic.  The element type is `F` or `C` in
the code; here any additive type. -/
def crossSum64 {M : Type} [Add M] (f : List M) (t1 t2 : List Int) (out : List M) :
    Option (List M) :=
  forRange t1.length out fun out i =>
    forRange t2.length out fun out j => do
      let t2j ← t2[j]?
      let t1i ← t1[i]?
      let m : Int := abs64 (wrap64 (t2j - t1i))
      if m < out.length then
        let fi ← f[i]?
        addAt out m fi
      else some out

/-- `_cross_sum_complex` (cddm/_core_nb.py:510-516) in `int64` arithmetic. -/
def crossSumComplex64 {M : Type} [Add M] (f : List M) (t1 t2 : List Int) (out : List M) :
    Option (List M) :=
  forRange t1.length out fun out i =>
    forRange t2.length out fun out j => do
      let t2j ← t2[j]?
      let t1i ← t1[i]?
      let m : Int := wrap64 (t2j - t1i)
      if abs64 m < ((out.length + 1) / 2 : Nat) then
        let fi ← f[i]?
        addAt out m fi
      else some out

/-- `_add_count_cross` (cddm/_core_nb.py:706-712), differences in `int64` arithmetic.  Simplified: counts are
unbounded naturals. -/
def addCountCross64 (t1 t2 : List Int) (n : List Nat) : Option (List Nat) :=
  forRange t1.length n fun n ii =>
    forRange t2.length n fun n jj => do
      let b ← t2[jj]?
      let a ← t1[ii]?
      let m : Int := abs64 (wrap64 (b - a))
      if m < n.length then addAt n m 1 else some n

/-- `_add_count_cross_complex` (cddm/_core_nb.py:714-720), differences in `int64` arithmetic.  The guard is
`abs(m) < (len(n)+1)/2` with *true* division. -/
def addCountCrossComplex64 (t1 t2 : List Int) (n : List Nat) : Option (List Nat) :=
  forRange t1.length n fun n ii =>
    forRange t2.length n fun n jj => do
      let b ← t2[jj]?
      let a ← t1[ii]?
      let m : Int := wrap64 (b - a)
      if 2 * abs64 m < (n.length + 1 : Nat) then addAt n m 1 else some n

/-- `_add_count_auto` (cddm/_core_nb.py:818-824) in `int64` arithmetic. -/
def addCountAuto64 (t : List Int) (n : List Nat) : Option (List Nat) :=
  forRange t.length n fun n ii =>
    forRange' ii t.length n fun n jj => do
      let a ← t[ii]?
      let b ← t[jj]?
      let m : Int := abs64 (wrap64 (a - b))
      if m < n.length then addAt n m 1 else some n

/-- `_determine_full_length_cross` (cddm/core.py:128-138) in `int64` arithmetic. -/
def fullLengthCross64 (N : Nat) (t : Option (List Int × List Int)) : Py Nat :=
  match t with
  | none => .ok N
  | some (t1, t2) => do
    let t1min ← npMin t1
    let t1max ← npMax t1
    let t2min ← npMin t2
    let t2max ← npMax t2
    length64 (wrap64 (1 + max (wrap64 (t2max - t1min)) (wrap64 (t1max - t2min))))

/-- `_determine_full_length_auto` (cddm/core.py:117-126) in `int64` arithmetic. -/
def fullLengthAuto64 (N : Nat) (t : Option (List Int)) : Py Nat :=
  match t with
  | none => .ok N
  | some t => do
    let tmin ← npMin t
    let tmax ← npMax t
    length64 (wrap64 (wrap64 (1 + tmax) - tmin))

/-- `_inspect_cross_arguments` (cddm/core.py:75-114) in `int64` arithmetic.  `N1`, `N2` are the lengths of the data,
`aoutLen` the length of `aout` if given; returns the shifted times and the output length. -/
def inspectCross64 (N1 N2 : Nat) (t1 t2 : Option (List Int)) (n : Option Nat)
    (aoutLen : Option Nat) (full : Bool) : Py (Option (List Int × List Int) × Nat) := do
  let t : Option (List Int × List Int) ← (match t1, t2 with
    | none, none => .ok none
    | some a, some b => .ok (some (a, b))
    | _, _ => .error .valueError)
  if N1 ≠ N2 then .error .valueError else
  let n ← (match n, aoutLen with
    | some n, _ => .ok n
    | none, some L => .ok (if full then (L + 1) / 2 else L)
    | none, none => fullLengthCross64 N1 t)
  match t with
  | none => .ok (none, n)
  | some (a, b) => do
    let t1min ← npMin a
    let t2min ← npMin b
    .ok (some (a.map (fun x => wrap64 (x - min t1min t2min)), b.map (fun x => wrap64 (x - min t1min t2min))), n)

/-- `_inspect_auto_arguments` (cddm/core.py:141-169) in `int64` arithmetic. -/
def inspectAuto64 (N : Nat) (t : Option (List Int)) (n : Option Nat) (aoutLen : Option Nat) :
    Py (Option (List Int) × Nat) := do
  let n ← (match n, aoutLen with
    | some n, _ => .ok n
    | none, some L => .ok L
    | none, none => fullLengthAuto64 N t)
  match t with
  | none => .ok (none, n)
  | some a => do
    let tmin ← npMin a
    .ok (some (a.map (fun x => wrap64 (x - tmin))), n)

/-- `cross_correlate(..., complex = False)` (cddm/core.py:390-466) in `int64` arithmetic. -/
def crossCorrelate64 (f1 f2 : List (Cx R)) (t1 t2 : Option (List Int)) (n : Option Nat)
    (aligned : Bool) (aout : Option (List R)) : Py (List R) := do
  let (t, n) ← inspectCross64 f1.length f2.length t1 t2 n (aout.map List.length) false
  let out ← defaultOut aout n false
  match t with
  | none =>
    if aligned then orUB (crossCorrRegular f1 f2 out)
    else orUB (crossCorr64 f1 f2 (arange f1.length) (arange f1.length) out)
  | some (t1, t2) => do
    checkDims (t1.length = f1.length ∧ t2.length = f2.length)
    orUB (crossCorr64 f1 f2 t1 t2 out)

/-- `cross_correlate(..., complex = True)` (cddm/core.py:390-466) in `int64` arithmetic. -/
def crossCorrelateComplex64 (f1 f2 : List (Cx R)) (t1 t2 : Option (List Int)) (n : Option Nat)
    (aligned : Bool) (aout : Option (List (Cx R))) : Py (List (Cx R)) := do
  let (t, n) ← inspectCross64 f1.length f2.length t1 t2 n (aout.map List.length) true
  let out ← defaultOut aout n true
  match t with
  | none =>
    if aligned then orUB (crossCorrComplexRegular f1 f2 out)
    else orUB (crossCorrComplex64 f1 f2 (arange f1.length) (arange f1.length) out)
  | some (t1, t2) => do
    checkDims (t1.length = f1.length ∧ t2.length = f2.length)
    orUB (crossCorrComplex64 f1 f2 t1 t2 out)

/-- `cross_difference` (cddm/core.py:468-535) in `int64` arithmetic. -/
def crossDifference64 (f1 f2 : List (Cx R)) (t1 t2 : Option (List Int)) (n : Option Nat)
    (aligned : Bool) (aout : Option (List R)) : Py (List R) := do
  let (t, n) ← inspectCross64 f1.length f2.length t1 t2 n (aout.map List.length) false
  let out ← defaultOut aout n false
  match t with
  | none =>
    if aligned then orUB (crossDiffRegular f1 f2 out)
    else orUB (crossDiff64 f1 f2 (arange f1.length) (arange f1.length) out)
  | some (t1, t2) => do
    checkDims (t1.length = f1.length ∧ t2.length = f2.length)
    orUB (crossDiff64 f1 f2 t1 t2 out)

/-- `auto_correlate(..., complex = False)` (cddm/core.py:537-607) in `int64` arithmetic. -/
def autoCorrelate64 (f : List (Cx R)) (t : Option (List Int)) (n : Option Nat)
    (aligned : Bool) (aout : Option (List R)) : Py (List R) := do
  let (t, n) ← inspectAuto64 f.length t n (aout.map List.length)
  let out ← defaultOut aout n false
  match t with
  | none =>
    if aligned then orUB (autoCorrRegular f out)
    else orUB (autoCorr64 f (arange f.length) out)
  | some t => do
    checkDims (t.length = f.length)
    orUB (autoCorr64 f t out)

/-- `auto_correlate(..., complex = True)` (cddm/core.py:537-607) in `int64` arithmetic. -/
def autoCorrelateComplex64 (f : List (Cx R)) (t : Option (List Int)) (n : Option Nat)
    (aligned : Bool) (aout : Option (List (Cx R))) : Py (List (Cx R)) := do
  let (t, n) ← inspectAuto64 f.length t n (aout.map List.length)
  let out ← defaultOut aout n false
  match t with
  | none =>
    if aligned then orUB (autoCorrComplexRegular f out)
    else orUB (autoCorrComplex64 f (arange f.length) out)
  | some t => do
    checkDims (t.length = f.length)
    orUB (autoCorrComplex64 f t out)

/-- `auto_difference` (cddm/core.py:609-667) in `int64` arithmetic. -/
def autoDifference64 (f : List (Cx R)) (t : Option (List Int)) (n : Option Nat)
    (aligned : Bool) (aout : Option (List R)) : Py (List R) := do
  let (t, n) ← inspectAuto64 f.length t n (aout.map List.length)
  let out ← defaultOut aout n false
  match t with
  | none =>
    if aligned then orUB (autoDiffRegular f out)
    else orUB (autoDiff64 f (arange f.length) out)
  | some t => do
    checkDims (t.length = f.length)
    orUB (autoDiff64 f t out)

section sums
variable {M : Type}

/-- `cross_sum` (cddm/core.py:759-826) with time stamps in `int64` arithmetic. -/
def crossSumApi64 [Zero M] [Add M] [Sub M] (f : List M) (t tOther : Option (List Int)) (n : Option Nat)
    (complex timeInversion : Bool) (aout : Option (List M)) : Py (List M) := do
  let (t, n) ← inspectCross64 f.length f.length t tOther n (aout.map List.length) complex
  let out ← defaultOut aout n complex
  match t with
  | none =>
    if complex then
      (if timeInversion then orUB (crossSumComplexRegularInverted f out)
       else orUB (crossSumComplexRegular f out))
    else orUB (crossSumRegular f out)
  | some (t1, t2) => do
    let t1 := if timeInversion then t1.map (fun x => wrap64 (-x)) else t1
    let t2 := if timeInversion then t2.map (fun x => wrap64 (-x)) else t2
    checkDims (t1.length = f.length)
    if complex then orUB (crossSumComplex64 f t1 t2 out) else orUB (crossSum64 f t1 t2 out)

/-- `auto_sum` (cddm/core.py:862-924) with time stamps in `int64` arithmetic: the cross sum of the signal with itself, all entries but
the first halved, added to `out`; `half` is the division by 2 of the numbers used. -/
def autoSumWith64 [Zero M] [Add M] [Sub M] (half : M → M) (f : List M) (t : Option (List Int))
    (n : Option Nat) (aout : Option (List M)) : Py (List M) := do
  let (t, n) ← inspectAuto64 f.length t n (aout.map List.length)
  let out ← defaultOut aout n false
  let out0 : List M := List.replicate out.length 0
  let out0 ← (match t with
    | none => orUB (crossSumRegular f out0)
    | some t => do
      checkDims (t.length = f.length)
      orUB (crossSum64 f t t out0))
  let out0 := out0.mapIdx fun k v => if k = 0 then v else half v
  .ok (List.zipWith (· + ·) out out0)

end sums

/-- `_default_count` (cddm/core.py:669-683) in `int64` arithmetic. -/
def defaultCount64 (t1 t2 : List Int) (n : Option Nat) (out : Option (List Nat)) (complex : Bool) :
    Py (List Nat) :=
  match out with
  | some out => .ok out
  | none => do
    let n ← (match n with
      | some n => .ok n
      | none => do
        let t1min ← npMin t1
        let t1max ← npMax t1
        let t2min ← npMin t2
        let t2max ← npMax t2
        length64 (wrap64 (1 + max (wrap64 (t2max - t1min)) (wrap64 (t1max - t2min)))))
    if complex then (if n = 0 then .error .valueError else .ok (List.replicate (2 * n - 1) 0))
    else .ok (List.replicate n 0)

/-- `cross_count` (cddm/core.py:685-724) in `int64` arithmetic. -/
def crossCount64 (t1 : TimeArg) (t2 : Option TimeArg) (n : Option Nat) (complex : Bool)
    (aout : Option (List Nat)) : Py (List Nat) := do
  let a := t1.times
  let b := match t2 with
    | none => a
    | some t2 => t2.times
  let out ← defaultCount64 a b n aout complex
  if complex then orUB (addCountCrossComplex64 a b out) else orUB (addCountCross64 a b out)

/-- `auto_count` (cddm/core.py:726-754) in `int64` arithmetic. -/
def autoCount64 (t : TimeArg) (n : Option Nat) (aout : Option (List Nat)) : Py (List Nat) := do
  let a := t.times
  let out ← defaultCount64 a a n aout false
  orUB (addCountAuto64 a out)

end Cddm
