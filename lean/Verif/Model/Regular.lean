import Verif.Model.Cx
import Verif.Model.Py

/-!
# Regular-time ("fast path") kernels of `cddm/_core_nb.py`

Same conventions as `Verif.Model.Kernels`; `none` = an access outside an array.
Slices `out[i:i+1]` handed to the inner functions are one-cell views, so the inner function takes
the array and the cell.
-/

namespace Cddm
variable {R : Type} [Add R] [Sub R] [Neg R] [Mul R]

/-- `_cross_corr_add` (cddm/_core_nb.py:319-327), adding to the one-cell view `out[c:c+1]`. -/
def crossCorrAdd (xv yv : List (Cx R)) (out : List R) (c : Nat) : Option (List R) :=
  forRange xv.length out fun out j => do
    let x ← xv[j]?
    let y ← yv[j]?
    let tmp := x.re * y.re + x.im * y.im
    addAt out c tmp

/-- `_cross_corr_complex_add` (cddm/_core_nb.py:329-337). -/
def crossCorrComplexAdd (xv yv : List (Cx R)) (out : List (Cx R)) (c : Nat) :
    Option (List (Cx R)) :=
  forRange xv.length out fun out j => do
    let x ← xv[j]?
    let y ← yv[j]?
    let tmp := y * x.conj
    addAt out c tmp

/-- `_cross_diff_add` (cddm/_core_nb.py:446-451). -/
def crossDiffAdd (xv yv : List (Cx R)) (out : List R) (c : Nat) : Option (List R) :=
  forRange xv.length out fun out j => do
    let x ← xv[j]?
    let y ← yv[j]?
    let tmp := x - y
    let d := tmp.re * tmp.re + tmp.im * tmp.im
    addAt out c d

/-- `_cross_corr_regular` (cddm/_core_nb.py:339-345). -/
def crossCorrRegular (x y : List (Cx R)) (out : List R) : Option (List R) :=
  forRange out.length out fun out i => do
    let n : Int := (x.length : Int) - i
    let out ← crossCorrAdd (pyTake x n) (pyDrop y i) out i
    if i > 0 then crossCorrAdd (pyTake y n) (pyDrop x i) out i else some out

/-- `_cross_corr_complex_regular` (cddm/_core_nb.py:347-354). -/
def crossCorrComplexRegular (x y : List (Cx R)) (out : List (Cx R)) : Option (List (Cx R)) :=
  forRange ((out.length + 1) / 2) out fun out i => do
    let n : Int := (x.length : Int) - i
    let out ← crossCorrComplexAdd (pyTake x n) (pyDrop y i) out i
    if i > 0 then
      let j := out.length - i
      crossCorrComplexAdd (pyDrop x i) (pyTake y n) out j
    else some out

/-- `_auto_corr_regular` (cddm/_core_nb.py:356-360). -/
def autoCorrRegular (x : List (Cx R)) (out : List R) : Option (List R) :=
  forRange out.length out fun out i => do
    let n : Int := (x.length : Int) - i
    crossCorrAdd (pyDrop x i) (pyTake x n) out i

/-- `_auto_corr_complex_regular` (cddm/_core_nb.py:362-366). -/
def autoCorrComplexRegular (x : List (Cx R)) (out : List (Cx R)) : Option (List (Cx R)) :=
  forRange out.length out fun out i => do
    let n : Int := (x.length : Int) - i
    crossCorrComplexAdd (pyTake x n) (pyDrop x i) out i

/-- `_cross_diff_regular` (cddm/_core_nb.py:453-459). -/
def crossDiffRegular (x y : List (Cx R)) (out : List R) : Option (List R) :=
  forRange out.length out fun out i => do
    let n : Int := (x.length : Int) - i
    let out ← crossDiffAdd (pyDrop y i) (pyTake x n) out i
    if i > 0 then crossDiffAdd (pyTake y n) (pyDrop x i) out i else some out

/-- `_auto_diff_regular` (cddm/_core_nb.py:470-474). -/
def autoDiffRegular (x : List (Cx R)) (out : List R) : Option (List R) :=
  forRange out.length out fun out i => do
    let n : Int := (x.length : Int) - i
    crossDiffAdd (pyDrop x i) (pyTake x n) out i

section sums
variable {M : Type} [Zero M] [Add M] [Sub M]

/-- `tmp = out[0]*0.; for j in range(len(x)): tmp = tmp + x[j]` (cddm/_core_nb.py:523-527).
Simplified: exact numbers, so `out[0]*0.` is `0` (a NaN or infinity already in `out[0]` is not
modelled). -/
def plainSum (x : List M) : Option M :=
  forRange x.length (0 : M) fun tmp j => do
    let xj ← x[j]?
    some (tmp + xj)

/-- `_cross_sum_regular` (cddm/_core_nb.py:519-532).  State: `(out, prev)`. -/
def crossSumRegular (x out : List M) : Option (List M) := do
  let r ← forRange out.length (out, (0 : M)) fun (out, prev) i => do
    let n : Int := (x.length : Int) - i
    if i = 0 then
      let tmp ← plainSum x
      let out ← addAt out 0 tmp
      some (out, tmp + tmp)
    else
      let a ← pyGet x ((i : Int) - 1)
      let b ← pyGet x n
      let prev := prev - a - b
      let out ← addAt out i prev
      some (out, prev)
  some r.1

/-- `_cross_sum_complex_regular_inverted` (cddm/_core_nb.py:534-550).
State: `(out, prev1, prev2)`. -/
def crossSumComplexRegularInverted (x out : List M) : Option (List M) := do
  let r ← forRange ((out.length + 1) / 2) (out, (0 : M), (0 : M)) fun (out, prev1, prev2) i => do
    let n : Int := (x.length : Int) - i
    if i = 0 then
      let tmp ← plainSum x
      let out ← addAt out 0 tmp
      some (out, tmp, tmp)
    else
      let a ← pyGet x ((i : Int) - 1)
      let prev1 := prev1 - a
      let b ← pyGet x n
      let prev2 := prev2 - b
      let out ← addAt out i prev1
      let out ← addAt out (-(i : Int)) prev2
      some (out, prev1, prev2)
  some r.1

/-- `_cross_sum_complex_regular` (cddm/_core_nb.py:552-568). -/
def crossSumComplexRegular (x out : List M) : Option (List M) := do
  let r ← forRange ((out.length + 1) / 2) (out, (0 : M), (0 : M)) fun (out, prev1, prev2) i => do
    let n : Int := (x.length : Int) - i
    if i = 0 then
      let tmp ← plainSum x
      let out ← addAt out 0 tmp
      some (out, tmp, tmp)
    else
      let a ← pyGet x ((i : Int) - 1)
      let prev1 := prev1 - a
      let b ← pyGet x n
      let prev2 := prev2 - b
      let out ← addAt out i prev2
      let out ← addAt out (-(i : Int)) prev1
      some (out, prev1, prev2)
  some r.1

end sums
end Cddm
