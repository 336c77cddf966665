import Verif.Model.Cx
import Verif.Model.Py

/-!
# Irregular-time kernels of `cddm/_core_nb.py`

One signal (one pixel) at a time: numba's `guvectorize` applies these core functions to every
slice.  The gufunc signature, e.g. `"(m),(n),(m),(n),(k)->(k)"`, makes numpy reject inputs whose
time and data arrays differ in length, which is why theorems assume equal lengths.
The `dummy` argument (only used for the gufunc signature) is omitted.
`none` = an access outside an array.
-/

namespace Cddm
variable {R : Type} [Add R] [Sub R] [Neg R] [Mul R]

/-- `_cross_corr` (cddm/_core_nb.py:300-308). -/
def crossCorr (x y : List (Cx R)) (t1 t2 : List Int) (out : List R) : Option (List R) :=
  forRange x.length out fun out i =>
    forRange y.length out fun out j => do
      let t2j ← t2[j]?
      let t1i ← t1[i]?
      let m : Int := |t2j - t1i|
      if m < out.length then
        let xi ← x[i]?
        let yj ← y[j]?
        let tmp := xi.re * yj.re + xi.im * yj.im
        addAt out m tmp
      else some out

/-- `_cross_corr_complex` (cddm/_core_nb.py:310-317). -/
def crossCorrComplex (x y : List (Cx R)) (t1 t2 : List Int) (out : List (Cx R)) :
    Option (List (Cx R)) :=
  forRange x.length out fun out i =>
    forRange y.length out fun out j => do
      let t2j ← t2[j]?
      let t1i ← t1[i]?
      let m : Int := t2j - t1i
      if |m| < ((out.length + 1) / 2 : Nat) then
        let xi ← x[i]?
        let yj ← y[j]?
        let tmp := xi.conj * yj
        addAt out m tmp
      else some out

/-- `_auto_corr` (cddm/_core_nb.py:391-398). -/
def autoCorr (f : List (Cx R)) (t : List Int) (out : List R) : Option (List R) :=
  forRange f.length out fun out i =>
    forRange' i f.length out fun out j => do
      let tj ← t[j]?
      let ti ← t[i]?
      let m : Int := |tj - ti|
      if m < out.length then
        let fi ← f[i]?
        let fj ← f[j]?
        let tmp := fi.re * fj.re + fi.im * fj.im
        addAt out m tmp
      else some out

/-- `_auto_corr_complex` (cddm/_core_nb.py:400-413). -/
def autoCorrComplex (f : List (Cx R)) (t : List Int) (out : List (Cx R)) :
    Option (List (Cx R)) :=
  forRange f.length out fun out i =>
    forRange' i f.length out fun out j => do
      let tj ← t[j]?
      let ti ← t[i]?
      let m : Int := tj - ti
      if m ≥ 0 then
        if m < out.length then
          let fi ← f[i]?
          let fj ← f[j]?
          let tmp := fi.conj * fj
          addAt out m tmp
        else some out
      else
        let m : Int := |m|
        if m < out.length then
          let fi ← f[i]?
          let fj ← f[j]?
          let tmp := fi * fj.conj
          addAt out m tmp
        else some out

/-- `_cross_diff` (cddm/_core_nb.py:435-444). -/
def crossDiff (x y : List (Cx R)) (t1 t2 : List Int) (out : List R) : Option (List R) :=
  forRange x.length out fun out i =>
    forRange y.length out fun out j => do
      let t2j ← t2[j]?
      let t1i ← t1[i]?
      let m : Int := |t2j - t1i|
      if m < out.length then
        let xi ← x[i]?
        let yj ← y[j]?
        let tmp := yj - xi
        let d := tmp.re * tmp.re + tmp.im * tmp.im
        addAt out m d
      else some out

/-- `_auto_diff` (cddm/_core_nb.py:476-484). -/
def autoDiff (f : List (Cx R)) (t : List Int) (out : List R) : Option (List R) :=
  forRange f.length out fun out i =>
    forRange' i f.length out fun out j => do
      let tj ← t[j]?
      let ti ← t[i]?
      let m : Int := |tj - ti|
      if m < out.length then
        let fi ← f[i]?
        let fj ← f[j]?
        let tmp := fj - fi
        let d := tmp.re * tmp.re + tmp.im * tmp.im
        addAt out m d
      else some out

/-- `_cross_sum` (cddm/_core_nb.py:502-508).  The element type is `F` or `C` in the code; here any
additive type. -/
def crossSum {M : Type} [Add M] (f : List M) (t1 t2 : List Int) (out : List M) :
    Option (List M) :=
  forRange t1.length out fun out i =>
    forRange t2.length out fun out j => do
      let t2j ← t2[j]?
      let t1i ← t1[i]?
      let m : Int := |t2j - t1i|
      if m < out.length then
        let fi ← f[i]?
        addAt out m fi
      else some out

/-- `_cross_sum_complex` (cddm/_core_nb.py:510-516). -/
def crossSumComplex {M : Type} [Add M] (f : List M) (t1 t2 : List Int) (out : List M) :
    Option (List M) :=
  forRange t1.length out fun out i =>
    forRange t2.length out fun out j => do
      let t2j ← t2[j]?
      let t1i ← t1[i]?
      let m : Int := t2j - t1i
      if |m| < ((out.length + 1) / 2 : Nat) then
        let fi ← f[i]?
        addAt out m fi
      else some out

/-- `_add_count_cross` (cddm/_core_nb.py:706-712). Simplified: counts are unbounded naturals. -/
def addCountCross (t1 t2 : List Int) (n : List Nat) : Option (List Nat) :=
  forRange t1.length n fun n ii =>
    forRange t2.length n fun n jj => do
      let b ← t2[jj]?
      let a ← t1[ii]?
      let m : Int := |b - a|
      if m < n.length then addAt n m 1 else some n

/-- `_add_count_cross_complex` (cddm/_core_nb.py:714-720).  The guard is `abs(m) < (len(n)+1)/2`
with *true* division; over the integers this is `2*|m| < len(n)+1`. -/
def addCountCrossComplex (t1 t2 : List Int) (n : List Nat) : Option (List Nat) :=
  forRange t1.length n fun n ii =>
    forRange t2.length n fun n jj => do
      let b ← t2[jj]?
      let a ← t1[ii]?
      let m : Int := b - a
      if 2 * |m| < (n.length + 1 : Nat) then addAt n m 1 else some n

/-- `_add_count_auto` (cddm/_core_nb.py:818-824). -/
def addCountAuto (t : List Int) (n : List Nat) : Option (List Nat) :=
  forRange t.length n fun n ii =>
    forRange' ii t.length n fun n jj => do
      let a ← t[ii]?
      let b ← t[jj]?
      let m : Int := |a - b|
      if m < n.length then addAt n m 1 else some n

end Cddm
