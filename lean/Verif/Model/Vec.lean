import Verif.Model.Core

/-!
# Frame stacks: the vectorised kernels and the API functions on two-dimensional data

`f` is a stack of frames (`f.rows[i]` is frame number `i`, a row of `f.width` pixels) and the
computation axis is the first one (`axis = 0`, the default).  More frame dimensions are only a
flattening of the pixel index, another `axis` only a transposition (`np.moveaxis`), neither is
modelled.
-/

namespace Cddm
variable {R : Type} [CommRing R]

/-- A two-dimensional numpy array, the data of cddm/core.py:390-667: rows of equal length `width`. -/
structure Frames (α : Type) where
  width : Nat
  rows : List (List α)
  rect : ∀ r ∈ rows, r.length = width

/-- `X[:, p]`, one pixel (cddm/core.py:70, 172). -/
def col {α : Type} (p : Nat) (X : List (List α)) : List α := X.filterMap (·[p]?)

/-- `np.moveaxis` exchanging the two axes (cddm/core.py:70, 172): the list of the first `K`
columns. -/
def transposed {α : Type} (K : Nat) (X : List (List α)) : List (List α) :=
  (List.range K).map fun p => col p X

/-- Hand the row view `out[m]` (negative `m` from the end) to a compiled function that updates it
in place, e.g. `_cross_corr_add_vec(f1[i], f2[j], out[m])` (cddm/_core_nb.py:290). -/
def modRow {M : Type} (out : List (List M)) (m : Int) (F : List M → Option (List M)) :
    Option (List (List M)) := do
  let k ← pyIdx out.length m
  let row ← out[k]?
  let row ← F row
  some (out.set k row)

/-- `_cross_corr_add_vec` (cddm/_core_nb.py:239-246). -/
def crossCorrAddVec (xv yv : List (Cx R)) (out : List R) : Option (List R) :=
  forRange xv.length out fun out j => do
    let x ← xv[j]?
    let y ← yv[j]?
    let tmp := x.re * y.re + x.im * y.im
    addAt out j tmp

/-- `_cross_corr_complex_add_vec` (cddm/_core_nb.py:249-256). -/
def crossCorrComplexAddVec (xv yv : List (Cx R)) (out : List (Cx R)) : Option (List (Cx R)) :=
  forRange xv.length out fun out j => do
    let x ← xv[j]?
    let y ← yv[j]?
    let tmp := y * x.conj
    addAt out j tmp

/-- `_cross_diff_add_vec` (cddm/_core_nb.py:416-424). -/
def crossDiffAddVec (xv yv : List (Cx R)) (out : List R) : Option (List R) :=
  forRange xv.length out fun out j => do
    let x ← xv[j]?
    let y ← yv[j]?
    let tmp := x - y
    let d := tmp.re * tmp.re + tmp.im * tmp.im
    addAt out j d

/-- `_add_vec` (cddm/_core_nb.py:259-261). -/
def addVec {M : Type} [Add M] (x out : List M) : Option (List M) :=
  forRange x.length out fun out j => do
    let xj ← x[j]?
    addAt out j xj

/-- `_cross_corr_vec` (cddm/_core_nb.py:285-290). -/
def crossCorrVec (f1 f2 : List (List (Cx R))) (t1 t2 : List Int) (out : List (List R)) :
    Option (List (List R)) :=
  forRange f1.length out fun out i =>
    forRange f2.length out fun out j => do
      let t2j ← t2[j]?
      let t1i ← t1[i]?
      let m : Int := |t2j - t1i|
      if m < out.length then
        let x ← f1[i]?
        let y ← f2[j]?
        modRow out m (crossCorrAddVec x y)
      else some out

/-- `_cross_corr_complex_vec` (cddm/_core_nb.py:293-298). -/
def crossCorrComplexVec (f1 f2 : List (List (Cx R))) (t1 t2 : List Int)
    (out : List (List (Cx R))) : Option (List (List (Cx R))) :=
  forRange f1.length out fun out i =>
    forRange f2.length out fun out j => do
      let t2j ← t2[j]?
      let t1i ← t1[i]?
      let m : Int := t2j - t1i
      if |m| < ((out.length + 1) / 2 : Nat) then
        let x ← f1[i]?
        let y ← f2[j]?
        modRow out m (crossCorrComplexAddVec x y)
      else some out

/-- `_auto_corr_vec` (cddm/_core_nb.py:369-374). -/
def autoCorrVec (f : List (List (Cx R))) (t : List Int) (out : List (List R)) :
    Option (List (List R)) :=
  forRange f.length out fun out i =>
    forRange' i f.length out fun out j => do
      let tj ← t[j]?
      let ti ← t[i]?
      let m : Int := |tj - ti|
      if m < out.length then
        let x ← f[i]?
        let y ← f[j]?
        modRow out m (crossCorrAddVec x y)
      else some out

/-- `_auto_corr_complex_vec` (cddm/_core_nb.py:378-388). -/
def autoCorrComplexVec (f : List (List (Cx R))) (t : List Int) (out : List (List (Cx R))) :
    Option (List (List (Cx R))) :=
  forRange f.length out fun out i =>
    forRange' i f.length out fun out j => do
      let tj ← t[j]?
      let ti ← t[i]?
      let m : Int := tj - ti
      if m ≥ 0 then
        if m < out.length then
          let x ← f[i]?
          let y ← f[j]?
          modRow out m (crossCorrComplexAddVec x y)
        else some out
      else
        let m : Int := |m|
        if m < out.length then
          let x ← f[j]?
          let y ← f[i]?
          modRow out m (crossCorrComplexAddVec x y)
        else some out

/-- `_cross_diff_vec` (cddm/_core_nb.py:427-432). -/
def crossDiffVec (f1 f2 : List (List (Cx R))) (t1 t2 : List Int) (out : List (List R)) :
    Option (List (List R)) :=
  forRange f1.length out fun out i =>
    forRange f2.length out fun out j => do
      let t2j ← t2[j]?
      let t1i ← t1[i]?
      let m : Int := |t2j - t1i|
      if m < out.length then
        let x ← f2[j]?
        let y ← f1[i]?
        modRow out m (crossDiffAddVec x y)
      else some out

/-- `_auto_diff_vec` (cddm/_core_nb.py:462-467). -/
def autoDiffVec (f : List (List (Cx R))) (t : List Int) (out : List (List R)) :
    Option (List (List R)) :=
  forRange f.length out fun out i =>
    forRange' i f.length out fun out j => do
      let tj ← t[j]?
      let ti ← t[i]?
      let m : Int := |tj - ti|
      if m < out.length then
        let x ← f[j]?
        let y ← f[i]?
        modRow out m (crossDiffAddVec x y)
      else some out

/-- `_cross_sum_vec` (cddm/_core_nb.py:487-492). -/
def crossSumVec {M : Type} [Add M] (f : List (List M)) (t1 t2 : List Int) (out : List (List M)) :
    Option (List (List M)) :=
  forRange t1.length out fun out i =>
    forRange t2.length out fun out j => do
      let t2j ← t2[j]?
      let t1i ← t1[i]?
      let m : Int := |t2j - t1i|
      if m < out.length then
        let x ← f[i]?
        modRow out m (addVec x)
      else some out

/-- `_cross_sum_complex_vec` (cddm/_core_nb.py:495-500). -/
def crossSumComplexVec {M : Type} [Add M] (f : List (List M)) (t1 t2 : List Int)
    (out : List (List M)) : Option (List (List M)) :=
  forRange t1.length out fun out i =>
    forRange t2.length out fun out j => do
      let t2j ← t2[j]?
      let t1i ← t1[i]?
      let m : Int := t2j - t1i
      if |m| < ((out.length + 1) / 2 : Nat) then
        let x ← f[i]?
        modRow out m (addVec x)
      else some out

/-! ### API on frame stacks -/

/-- numpy applies a generalized ufunc with core signature `(n),(n),(k)->(k)` to every row of its
arguments (cddm/_core_nb.py:339, 347, 453, ...). -/
def perRow2 {α β M : Type} (k : α → β → List M → Option (List M)) :
    List α → List β → List (List M) → Option (List (List M))
  | a :: as, b :: bs, o :: os => do
    let o ← k a b o
    let os ← perRow2 k as bs os
    some (o :: os)
  | _, _, _ => some []

/-- The same for one data argument (cddm/_core_nb.py:356, 362, 470, 519, ...). -/
def perRow {α M : Type} (k : α → List M → Option (List M)) :
    List α → List (List M) → Option (List (List M))
  | a :: as, o :: os => do
    let o ← k a o
    let os ← perRow k as os
    some (o :: os)
  | _, _ => some []

/-- `_default_out` (cddm/core.py:174-190) for a frame stack of `K` pixels.  `last` tells whether the
computation axis of the internal layout is the last (`new_axis = -1`) or the first (`-2`) one;
`aout` comes with the computation axis last. -/
def defaultOut2 {M : Type} [Zero M] (aout : Option (Frames M)) (K n : Nat) (complex last : Bool) :
    Py (List (List M)) :=
  match aout with
  | some o =>
    if o.rows.length ≠ K then .error .valueError
    else .ok (if last then o.rows else transposed o.width o.rows)
  | none =>
    if complex ∧ n = 0 then .error .valueError else
    let L := if complex then 2 * n - 1 else n
    .ok (if last then List.replicate K (List.replicate L 0) else List.replicate L (List.replicate K 0))

/-- The common body of `cross_correlate` (cddm/core.py:436-466) and `cross_difference`
(cddm/core.py:505-535) for frame stacks with `axis = 0`.  `kReg` is the regular kernel, `kVec` the
vectorised one.  The two stacks have `K1`, `K2` pixels; the first `if` is the shape test of
`_inspect_cross_arguments`.  The internal result of the vectorised branch is transposed back
(`_transpose_data(out, new_axis)`). -/
def crossFrames {M : Type} [Zero M] (kReg : List (Cx R) → List (Cx R) → List M → Option (List M))
    (kVec : List (List (Cx R)) → List (List (Cx R)) → List Int → List Int → List (List M) →
      Option (List (List M)))
    (f1 f2 : Frames (Cx R)) (t1 t2 : Option (List Int)) (n : Option Nat) (align complex : Bool)
    (aout : Option (Frames M)) : Py (List (List M)) := do
  let (t, n) ← inspectCross f1.rows.length f2.rows.length t1 t2 n (aout.map Frames.width) complex
  if f1.width ≠ f2.width then .error .valueError else
  match t with
  | none =>
    if align then do
      let out ← defaultOut2 aout f1.width n complex true
      orUB (perRow2 kReg (transposed f1.width f1.rows) (transposed f2.width f2.rows) out)
    else do
      let out ← defaultOut2 aout f1.width n complex false
      let t := arange f1.rows.length
      let out ← orUB (kVec f1.rows f2.rows t t out)
      .ok (transposed f1.width out)
  | some (t1, t2) => do
    let out ← defaultOut2 aout f1.width n complex false
    checkDims (t1.length = f1.rows.length ∧ t2.length = f2.rows.length)
    let out ← orUB (kVec f1.rows f2.rows t1 t2 out)
    .ok (transposed f1.width out)

/-- `cross_correlate` on frame stacks (cddm/core.py:390-466). -/
def crossCorrelateFrames (f1 f2 : Frames (Cx R)) (t1 t2 : Option (List Int)) (n : Option Nat)
    (align : Bool) (aout : Option (Frames R)) : Py (List (List R)) :=
  crossFrames crossCorrRegular crossCorrVec f1 f2 t1 t2 n align false aout

/-- `cross_correlate(complex = True)` on frame stacks (cddm/core.py:390-466). -/
def crossCorrelateComplexFrames (f1 f2 : Frames (Cx R)) (t1 t2 : Option (List Int))
    (n : Option Nat) (align : Bool) (aout : Option (Frames (Cx R))) : Py (List (List (Cx R))) :=
  crossFrames crossCorrComplexRegular crossCorrComplexVec f1 f2 t1 t2 n align true aout

/-- `cross_difference` on frame stacks (cddm/core.py:468-535). -/
def crossDifferenceFrames (f1 f2 : Frames (Cx R)) (t1 t2 : Option (List Int)) (n : Option Nat)
    (align : Bool) (aout : Option (Frames R)) : Py (List (List R)) :=
  crossFrames crossDiffRegular crossDiffVec f1 f2 t1 t2 n align false aout

/-- The common body of `auto_correlate` (cddm/core.py:578-607) and `auto_difference`
(cddm/core.py:644-667) for frame stacks with `axis = 0`. -/
def autoFrames {M : Type} [Zero M] (kReg : List (Cx R) → List M → Option (List M))
    (kVec : List (List (Cx R)) → List Int → List (List M) → Option (List (List M)))
    (f : Frames (Cx R)) (t : Option (List Int)) (n : Option Nat) (align : Bool)
    (aout : Option (Frames M)) : Py (List (List M)) := do
  let (t, n) ← inspectAuto f.rows.length t n (aout.map Frames.width)
  match t with
  | none =>
    if align then do
      let out ← defaultOut2 aout f.width n false true
      orUB (perRow kReg (transposed f.width f.rows) out)
    else do
      let out ← defaultOut2 aout f.width n false false
      let out ← orUB (kVec f.rows (arange f.rows.length) out)
      .ok (transposed f.width out)
  | some t => do
    let out ← defaultOut2 aout f.width n false false
    checkDims (t.length = f.rows.length)
    let out ← orUB (kVec f.rows t out)
    .ok (transposed f.width out)

/-- `auto_correlate` on frame stacks (cddm/core.py:537-607). -/
def autoCorrelateFrames (f : Frames (Cx R)) (t : Option (List Int)) (n : Option Nat)
    (align : Bool) (aout : Option (Frames R)) : Py (List (List R)) :=
  autoFrames autoCorrRegular autoCorrVec f t n align aout

/-- `auto_correlate(complex = True)` on frame stacks (cddm/core.py:537-607). -/
def autoCorrelateComplexFrames (f : Frames (Cx R)) (t : Option (List Int)) (n : Option Nat)
    (align : Bool) (aout : Option (Frames (Cx R))) : Py (List (List (Cx R))) :=
  autoFrames autoCorrComplexRegular autoCorrComplexVec f t n align aout

/-- `auto_difference` on frame stacks (cddm/core.py:609-667). -/
def autoDifferenceFrames (f : Frames (Cx R)) (t : Option (List Int)) (n : Option Nat)
    (align : Bool) (aout : Option (Frames R)) : Py (List (List R)) :=
  autoFrames autoDiffRegular autoDiffVec f t n align aout

/-- `cross_sum` on frame stacks (cddm/core.py:759-826). -/
def crossSumFrames {M : Type} [AddCommGroup M] (f : Frames M) (t tOther : Option (List Int))
    (n : Option Nat) (complex timeInversion : Bool) (aout : Option (Frames M)) :
    Py (List (List M)) := do
  let (t, n) ← inspectCross f.rows.length f.rows.length t tOther n (aout.map Frames.width) complex
  match t with
  | none => do
    let out ← defaultOut2 aout f.width n complex true
    if complex then
      (if timeInversion then
        orUB (perRow crossSumComplexRegularInverted (transposed f.width f.rows) out)
       else orUB (perRow crossSumComplexRegular (transposed f.width f.rows) out))
    else orUB (perRow crossSumRegular (transposed f.width f.rows) out)
  | some (t1, t2) => do
    let out ← defaultOut2 aout f.width n complex false
    let t1 := if timeInversion then t1.map (- ·) else t1
    let t2 := if timeInversion then t2.map (- ·) else t2
    checkDims (t1.length = f.rows.length)
    let out ← (if complex then orUB (crossSumComplexVec f.rows t1 t2 out)
      else orUB (crossSumVec f.rows t1 t2 out))
    .ok (transposed f.width out)

/-- `auto_sum` on frame stacks (cddm/core.py:862-924). -/
def autoSumFrames (K : Type) [Field K] {M : Type} [AddCommGroup M] [Module K M] (f : Frames M)
    (t : Option (List Int)) (n : Option Nat) (aout : Option (Frames M)) : Py (List (List M)) := do
  let (t, n) ← inspectAuto f.rows.length t n (aout.map Frames.width)
  let (out, out0) ← (match t with
    | none => do
      let out ← defaultOut2 aout f.width n false true
      let out0 := out.map fun r => List.replicate r.length (0 : M)
      let out0 ← orUB (perRow crossSumRegular (transposed f.width f.rows) out0)
      .ok (out, out0)
    | some t => do
      let out ← defaultOut2 aout f.width n false false
      let out0 := out.map fun r => List.replicate r.length (0 : M)
      checkDims (t.length = f.rows.length)
      let out0 ← orUB (crossSumVec f.rows t t out0)
      .ok (transposed f.width out, transposed f.width out0))
  let out0 := out0.map fun r => r.mapIdx fun k v => if k = 0 then v else (1 / 2 : K) • v
  .ok (List.zipWith (List.zipWith (· + ·)) out out0)

end Cddm
