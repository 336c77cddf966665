import Verif.Model.Vec
import Verif.Model.Stamp64

/-!
# Frame stacks with time stamps in 64-bit integer arithmetic

The kernels for several pixels at once and the functions of `Verif.Model.Vec` with the arithmetic of
`Verif.Model.Stamp64`; the simplifications of both apply.
-/

namespace Cddm
variable {R : Type} [CommRing R]

/-- `_cross_corr_vec` (cddm/_core_nb.py:285-290) in `int64` arithmetic. -/
def crossCorrVec64 (f1 f2 : List (List (Cx R))) (t1 t2 : List Int) (out : List (List R)) :
    Option (List (List R)) :=
  forRange f1.length out fun out i =>
    forRange f2.length out fun out j => do
      let t2j ← t2[j]?
      let t1i ← t1[i]?
      let m : Int := abs64 (wrap64 (t2j - t1i))
      if m < out.length then
        let x ← f1[i]?
        let y ← f2[j]?
        modRow out m (crossCorrAddVec x y)
      else some out

/-- `_cross_corr_complex_vec` (cddm/_core_nb.py:293-298) in `int64` arithmetic. -/
def crossCorrComplexVec64 (f1 f2 : List (List (Cx R))) (t1 t2 : List Int)
    (out : List (List (Cx R))) : Option (List (List (Cx R))) :=
  forRange f1.length out fun out i =>
    forRange f2.length out fun out j => do
      let t2j ← t2[j]?
      let t1i ← t1[i]?
      let m : Int := wrap64 (t2j - t1i)
      if abs64 m < ((out.length + 1) / 2 : Nat) then
        let x ← f1[i]?
        let y ← f2[j]?
        modRow out m (crossCorrComplexAddVec x y)
      else some out

/-- `_auto_corr_vec` (cddm/_core_nb.py:369-374) in `int64` arithmetic. -/
def autoCorrVec64 (f : List (List (Cx R))) (t : List Int) (out : List (List R)) :
    Option (List (List R)) :=
  forRange f.length out fun out i =>
    forRange' i f.length out fun out j => do
      let tj ← t[j]?
      let ti ← t[i]?
      let m : Int := abs64 (wrap64 (tj - ti))
      if m < out.length then
        let x ← f[i]?
        let y ← f[j]?
        modRow out m (crossCorrAddVec x y)
      else some out

/-- `_auto_corr_complex_vec` (cddm/_core_nb.py:378-388) in `int64` arithmetic. -/
def autoCorrComplexVec64 (f : List (List (Cx R))) (t : List Int) (out : List (List (Cx R))) :
    Option (List (List (Cx R))) :=
  forRange f.length out fun out i =>
    forRange' i f.length out fun out j => do
      let tj ← t[j]?
      let ti ← t[i]?
      let m : Int := wrap64 (tj - ti)
      if m ≥ 0 then
        if m < out.length then
          let x ← f[i]?
          let y ← f[j]?
          modRow out m (crossCorrComplexAddVec x y)
        else some out
      else
        let m : Int := abs64 m
        if m < out.length then
          let x ← f[j]?
          let y ← f[i]?
          modRow out m (crossCorrComplexAddVec x y)
        else some out

/-- `_cross_diff_vec` (cddm/_core_nb.py:427-432) in `int64` arithmetic. -/
def crossDiffVec64 (f1 f2 : List (List (Cx R))) (t1 t2 : List Int) (out : List (List R)) :
    Option (List (List R)) :=
  forRange f1.length out fun out i =>
    forRange f2.length out fun out j => do
      let t2j ← t2[j]?
      let t1i ← t1[i]?
      let m : Int := abs64 (wrap64 (t2j - t1i))
      if m < out.length then
        let x ← f2[j]?
        let y ← f1[i]?
        modRow out m (crossDiffAddVec x y)
      else some out

/-- `_auto_diff_vec` (cddm/_core_nb.py:462-467) in `int64` arithmetic. -/
def autoDiffVec64 (f : List (List (Cx R))) (t : List Int) (out : List (List R)) :
    Option (List (List R)) :=
  forRange f.length out fun out i =>
    forRange' i f.length out fun out j => do
      let tj ← t[j]?
      let ti ← t[i]?
      let m : Int := abs64 (wrap64 (tj - ti))
      if m < out.length then
        let x ← f[j]?
        let y ← f[i]?
        modRow out m (crossDiffAddVec x y)
      else some out

/-- `_cross_sum_vec` (cddm/_core_nb.py:487-492) in `int64` arithmetic. -/
def crossSumVec64 {M : Type} [Add M] (f : List (List M)) (t1 t2 : List Int) (out : List (List M)) :
    Option (List (List M)) :=
  forRange t1.length out fun out i =>
    forRange t2.length out fun out j => do
      let t2j ← t2[j]?
      let t1i ← t1[i]?
      let m : Int := abs64 (wrap64 (t2j - t1i))
      if m < out.length then
        let x ← f[i]?
        modRow out m (addVec x)
      else some out

/-- `_cross_sum_complex_vec` (cddm/_core_nb.py:495-500) in `int64` arithmetic. -/
def crossSumComplexVec64 {M : Type} [Add M] (f : List (List M)) (t1 t2 : List Int)
    (out : List (List M)) : Option (List (List M)) :=
  forRange t1.length out fun out i =>
    forRange t2.length out fun out j => do
      let t2j ← t2[j]?
      let t1i ← t1[i]?
      let m : Int := wrap64 (t2j - t1i)
      if abs64 m < ((out.length + 1) / 2 : Nat) then
        let x ← f[i]?
        modRow out m (addVec x)
      else some out

/-- The common body of `cross_correlate` (cddm/core.py:436-466) and `cross_difference`
(cddm/core.py:505-535) for frame stacks with `axis = 0`.  `kReg` is the regular kernel, `kVec` the
vectorised one.  The two stacks have `K1`, `K2` pixels; the first `if` is the shape test of
`_inspect_cross_arguments`.  The internal result of the vectorised branch is transposed back
(`_transpose_data(out, new_axis)`).  All in `int64` arithmetic. -/
def crossFrames64 {M : Type} [Zero M] (kReg : List (Cx R) → List (Cx R) → List M → Option (List M))
    (kVec : List (List (Cx R)) → List (List (Cx R)) → List Int → List Int → List (List M) →
      Option (List (List M)))
    (f1 f2 : Frames (Cx R)) (t1 t2 : Option (List Int)) (n : Option Nat) (align complex : Bool)
    (aout : Option (Frames M)) : Py (List (List M)) := do
  let (t, n) ← inspectCross64 f1.rows.length f2.rows.length t1 t2 n (aout.map Frames.width) complex
  if f1.width ≠ f2.width then .error .valueError else
  match t with
  | none =>
    if align then do
      let out ← defaultOut2 aout f1.width n complex true
      orUB (perRow2 kReg (transposed f1.width f1.rows) (transposed f2.width f2.rows) out)
    else do
      let out ← defaultOut2 aout f1.width n complex false
      let t := arange f1.rows.length
      let out ← orUB (kVec f1.rows f2.rows t t out)
      .ok (transposed f1.width out)
  | some (t1, t2) => do
    let out ← defaultOut2 aout f1.width n complex false
    checkDims (t1.length = f1.rows.length ∧ t2.length = f2.rows.length)
    let out ← orUB (kVec f1.rows f2.rows t1 t2 out)
    .ok (transposed f1.width out)

/-- `cross_correlate` on frame stacks (cddm/core.py:390-466) in `int64` arithmetic. -/
def crossCorrelateFrames64 (f1 f2 : Frames (Cx R)) (t1 t2 : Option (List Int)) (n : Option Nat)
    (align : Bool) (aout : Option (Frames R)) : Py (List (List R)) :=
  crossFrames64 crossCorrRegular crossCorrVec64 f1 f2 t1 t2 n align false aout

/-- `cross_correlate(complex = True)` on frame stacks (cddm/core.py:390-466) in `int64` arithmetic. -/
def crossCorrelateComplexFrames64 (f1 f2 : Frames (Cx R)) (t1 t2 : Option (List Int))
    (n : Option Nat) (align : Bool) (aout : Option (Frames (Cx R))) : Py (List (List (Cx R))) :=
  crossFrames64 crossCorrComplexRegular crossCorrComplexVec64 f1 f2 t1 t2 n align true aout

/-- `cross_difference` on frame stacks (cddm/core.py:468-535) in `int64` arithmetic. -/
def crossDifferenceFrames64 (f1 f2 : Frames (Cx R)) (t1 t2 : Option (List Int)) (n : Option Nat)
    (align : Bool) (aout : Option (Frames R)) : Py (List (List R)) :=
  crossFrames64 crossDiffRegular crossDiffVec64 f1 f2 t1 t2 n align false aout

/-- The common body of `auto_correlate` (cddm/core.py:578-607) and `auto_difference`
(cddm/core.py:644-667) for frame stacks with `axis = 0`. -/
def autoFrames64 {M : Type} [Zero M] (kReg : List (Cx R) → List M → Option (List M))
    (kVec : List (List (Cx R)) → List Int → List (List M) → Option (List (List M)))
    (f : Frames (Cx R)) (t : Option (List Int)) (n : Option Nat) (align : Bool)
    (aout : Option (Frames M)) : Py (List (List M)) := do
  let (t, n) ← inspectAuto64 f.rows.length t n (aout.map Frames.width)
  match t with
  | none =>
    if align then do
      let out ← defaultOut2 aout f.width n false true
      orUB (perRow kReg (transposed f.width f.rows) out)
    else do
      let out ← defaultOut2 aout f.width n false false
      let out ← orUB (kVec f.rows (arange f.rows.length) out)
      .ok (transposed f.width out)
  | some t => do
    let out ← defaultOut2 aout f.width n false false
    checkDims (t.length = f.rows.length)
    let out ← orUB (kVec f.rows t out)
    .ok (transposed f.width out)

/-- `auto_correlate` on frame stacks (cddm/core.py:537-607) in `int64` arithmetic. -/
def autoCorrelateFrames64 (f : Frames (Cx R)) (t : Option (List Int)) (n : Option Nat)
    (align : Bool) (aout : Option (Frames R)) : Py (List (List R)) :=
  autoFrames64 autoCorrRegular autoCorrVec64 f t n align aout

/-- `auto_correlate(complex = True)` on frame stacks (cddm/core.py:537-607) in `int64` arithmetic. -/
def autoCorrelateComplexFrames64 (f : Frames (Cx R)) (t : Option (List Int)) (n : Option Nat)
    (align : Bool) (aout : Option (Frames (Cx R))) : Py (List (List (Cx R))) :=
  autoFrames64 autoCorrComplexRegular autoCorrComplexVec64 f t n align aout

/-- `auto_difference` on frame stacks (cddm/core.py:609-667) in `int64` arithmetic. -/
def autoDifferenceFrames64 (f : Frames (Cx R)) (t : Option (List Int)) (n : Option Nat)
    (align : Bool) (aout : Option (Frames R)) : Py (List (List R)) :=
  autoFrames64 autoDiffRegular autoDiffVec64 f t n align aout

/-- `cross_sum` on frame stacks (cddm/core.py:759-826) in `int64` arithmetic. -/
def crossSumFrames64 {M : Type} [AddCommGroup M] (f : Frames M) (t tOther : Option (List Int))
    (n : Option Nat) (complex timeInversion : Bool) (aout : Option (Frames M)) :
    Py (List (List M)) := do
  let (t, n) ← inspectCross64 f.rows.length f.rows.length t tOther n (aout.map Frames.width) complex
  match t with
  | none => do
    let out ← defaultOut2 aout f.width n complex true
    if complex then
      (if timeInversion then
        orUB (perRow crossSumComplexRegularInverted (transposed f.width f.rows) out)
       else orUB (perRow crossSumComplexRegular (transposed f.width f.rows) out))
    else orUB (perRow crossSumRegular (transposed f.width f.rows) out)
  | some (t1, t2) => do
    let out ← defaultOut2 aout f.width n complex false
    let t1 := if timeInversion then t1.map (fun x => wrap64 (-x)) else t1
    let t2 := if timeInversion then t2.map (fun x => wrap64 (-x)) else t2
    checkDims (t1.length = f.rows.length)
    let out ← (if complex then orUB (crossSumComplexVec64 f.rows t1 t2 out)
      else orUB (crossSumVec64 f.rows t1 t2 out))
    .ok (transposed f.width out)

/-- `auto_sum` on frame stacks (cddm/core.py:862-924) in `int64` arithmetic. -/
def autoSumFrames64 (K : Type) [Field K] {M : Type} [AddCommGroup M] [Module K M] (f : Frames M)
    (t : Option (List Int)) (n : Option Nat) (aout : Option (Frames M)) : Py (List (List M)) := do
  let (t, n) ← inspectAuto64 f.rows.length t n (aout.map Frames.width)
  let (out, out0) ← (match t with
    | none => do
      let out ← defaultOut2 aout f.width n false true
      let out0 := out.map fun r => List.replicate r.length (0 : M)
      let out0 ← orUB (perRow crossSumRegular (transposed f.width f.rows) out0)
      .ok (out, out0)
    | some t => do
      let out ← defaultOut2 aout f.width n false false
      let out0 := out.map fun r => List.replicate r.length (0 : M)
      checkDims (t.length = f.rows.length)
      let out0 ← orUB (crossSumVec64 f.rows t t out0)
      .ok (transposed f.width out, transposed f.width out0))
  let out0 := out0.map fun r => r.mapIdx fun k v => if k = 0 then v else (1 / 2 : K) • v
  .ok (List.zipWith (List.zipWith (· + ·)) out out0)

end Cddm
