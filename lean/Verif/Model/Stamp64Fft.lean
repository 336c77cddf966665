import Verif.Model.Fft
import Verif.Model.Stamp64

/-!
# The FFT functions with time stamps in 64-bit integer arithmetic

As `Verif.Model.Fft`, with the arithmetic of `Verif.Model.Stamp64`; also the size of the buffers, `length*2`, is an
`int64` number.  Simplified: memory is not limited.
-/

namespace Cddm

/-- The size of the buffers, `np.zeros((length*2), ...)` (cddm/_core_nb.py:635, 638, 657, 672, 689, cddm/core.py:852,
948): a negative one raises ValueError. -/
def fftSize64 (length : Nat) : Py Nat := length64 (wrap64 ((length : Int) * 2))

/-- `_cross_corr_fft` (cddm/_core_nb.py:629-651), real output.  In `int64` arithmetic. -/
noncomputable def crossCorrFft64 (x y : List (Cx ℝ)) (t1 t2 : List Int) (length : Nat)
    (out : List ℝ) : Py (List ℝ) := do
  let m ← fftSize64 length
  let a ← orUB (fillData x t1 (List.replicate m 0))
  let b ← orUB (fillData y t2 (List.replicate m 0))
  let o ← fftProduct a b
  foldReal o out

/-- `_cross_corr_fft` (cddm/_core_nb.py:629-651), complex output.  In `int64` arithmetic. -/
noncomputable def crossCorrComplexFft64 (x y : List (Cx ℝ)) (t1 t2 : List Int) (length : Nat)
    (out : List (Cx ℝ)) : Py (List (Cx ℝ)) := do
  let m ← fftSize64 length
  let a ← orUB (fillData x t1 (List.replicate m 0))
  let b ← orUB (fillData y t2 (List.replicate m 0))
  let o ← fftProduct a b
  foldFull o out

/-- `_auto_corr_fft` (cddm/_core_nb.py:653-667), real output.  In `int64` arithmetic. -/
noncomputable def autoCorrFft64 (x : List (Cx ℝ)) (t : List Int) (length : Nat)
    (out : List ℝ) : Py (List ℝ) := do
  let m ← fftSize64 length
  let a ← orUB (fillData x t (List.replicate m 0))
  let o ← fftPower a
  npIadd out ((o.take out.length).map Cx.re)

/-- `_auto_corr_fft` (cddm/_core_nb.py:653-667), complex output.  In `int64` arithmetic. -/
noncomputable def autoCorrComplexFft64 (x : List (Cx ℝ)) (t : List Int) (length : Nat)
    (out : List (Cx ℝ)) : Py (List (Cx ℝ)) := do
  let m ← fftSize64 length
  let a ← orUB (fillData x t (List.replicate m 0))
  let o ← fftPower a
  npIadd out (o.take out.length)

/-- `_cross_sum_fft` (cddm/_core_nb.py:669-682), complex data: `y` is the spectrum of the other
times.  In `int64` arithmetic. -/
noncomputable def crossSumFftC64 (x y : List (Cx ℝ)) (t : List Int) (length : Nat)
    (out : List (Cx ℝ)) : Py (List (Cx ℝ)) := do
  let m ← fftSize64 length
  let a ← orUB (fillData x t (List.replicate m 0))
  let X ← npFft a
  let o ← npIfft (List.zipWith (fun x y => x.conj * y) X y)
  let n := out.length
  let out ← npIadd out ((o.take n).map Cx.conj)
  iaddTail out ((revSlice o n).map Cx.conj)

/-- `_cross_sum_fft` (cddm/_core_nb.py:669-682), real data (converted to complex by the signature
of the kernel).  In `int64` arithmetic. -/
noncomputable def crossSumFftR64 (x : List ℝ) (y : List (Cx ℝ)) (t : List Int) (length : Nat)
    (out : List ℝ) : Py (List ℝ) := do
  let m ← fftSize64 length
  let a ← orUB (fillData (x.map Cx.ofR) t (List.replicate m 0))
  let X ← npFft a
  let o ← npIfft (List.zipWith (fun x y => x.conj * y) X y)
  let n := out.length
  let out ← npIadd out ((o.take n).map Cx.re)
  iaddTail out ((revSlice o n).map Cx.re)

/-- `_cross_sum_complex_fft` (cddm/_core_nb.py:685-699), complex data.  In `int64` arithmetic. -/
noncomputable def crossSumComplexFftC64 (x y : List (Cx ℝ)) (t : List Int) (length : Nat)
    (out : List (Cx ℝ)) : Py (List (Cx ℝ)) := do
  let m ← fftSize64 length
  let a ← orUB (fillData x t (List.replicate m 0))
  let X ← npFft a
  let o ← npIfft (List.zipWith (fun x y => x.conj * y) X y)
  let n := (out.length + 1) / 2
  let out ← iaddHead out n ((o.take n).map Cx.conj)
  iaddRev out n ((revSlice o n).map Cx.conj)

/-- `_cross_sum_complex_fft` (cddm/_core_nb.py:685-699), real data.  In `int64` arithmetic. -/
noncomputable def crossSumComplexFftR64 (x : List ℝ) (y : List (Cx ℝ)) (t : List Int) (length : Nat)
    (out : List ℝ) : Py (List ℝ) := do
  let m ← fftSize64 length
  let a ← orUB (fillData (x.map Cx.ofR) t (List.replicate m 0))
  let X ← npFft a
  let o ← npIfft (List.zipWith (fun x y => x.conj * y) X y)
  let n := (out.length + 1) / 2
  let out ← iaddHead out n ((o.take n).map Cx.re)
  iaddRev out n ((revSlice o n).map Cx.re)

/-! ### API -/

/-- `cross_correlate_fft(complex = False)` (cddm/core.py:192-218).  In `int64` arithmetic. -/
noncomputable def crossCorrelateFft64 (f1 f2 : List (Cx ℝ)) (t1 t2 : Option (List Int))
    (n : Option Nat) (aout : Option (List ℝ)) : Py (List ℝ) := do
  let (t, n) ← inspectCross64 f1.length f2.length t1 t2 n (aout.map List.length) false
  let length ← fullLengthCross64 f1.length t
  let out ← defaultOut aout n false
  match t with
  | none => crossCorrFftRegular f1 f2 out
  | some (t1, t2) => do
    checkDims (t1.length = f1.length ∧ t2.length = f2.length)
    crossCorrFft64 f1 f2 t1 t2 length out

/-- `cross_correlate_fft(complex = True)` (cddm/core.py:192-218).  In `int64` arithmetic. -/
noncomputable def crossCorrelateComplexFft64 (f1 f2 : List (Cx ℝ)) (t1 t2 : Option (List Int))
    (n : Option Nat) (aout : Option (List (Cx ℝ))) : Py (List (Cx ℝ)) := do
  let (t, n) ← inspectCross64 f1.length f2.length t1 t2 n (aout.map List.length) true
  let length ← fullLengthCross64 f1.length t
  let out ← defaultOut aout n true
  match t with
  | none => crossCorrComplexFftRegular f1 f2 out
  | some (t1, t2) => do
    checkDims (t1.length = f1.length ∧ t2.length = f2.length)
    crossCorrComplexFft64 f1 f2 t1 t2 length out

/-- `auto_correlate_fft(complex = False)` (cddm/core.py:220-245).  In `int64` arithmetic. -/
noncomputable def autoCorrelateFft64 (f : List (Cx ℝ)) (t : Option (List Int))
    (n : Option Nat) (aout : Option (List ℝ)) : Py (List ℝ) := do
  let (t, n) ← inspectAuto64 f.length t n (aout.map List.length)
  let length ← fullLengthAuto64 f.length t
  let out ← defaultOut aout n false
  match t with
  | none => autoCorrFftRegular f out
  | some t => do
    checkDims (t.length = f.length)
    autoCorrFft64 f t length out

/-- `auto_correlate_fft(complex = True)` (cddm/core.py:220-245).  In `int64` arithmetic. -/
noncomputable def autoCorrelateComplexFft64 (f : List (Cx ℝ)) (t : Option (List Int))
    (n : Option Nat) (aout : Option (List (Cx ℝ))) : Py (List (Cx ℝ)) := do
  let (t, n) ← inspectAuto64 f.length t n (aout.map List.length)
  let length ← fullLengthAuto64 f.length t
  let out ← defaultOut aout n false
  match t with
  | none => autoCorrComplexFftRegular f out
  | some t => do
    checkDims (t.length = f.length)
    autoCorrComplexFft64 f t length out

/-- `cross_sum_fft` (cddm/core.py:828-859), for a data type `M` with the kernels for it.  In `int64` arithmetic. -/
noncomputable def crossSumFftApi64 {M : Type} [Zero M]
    (kR kC : List M → List (Cx ℝ) → List Int → Nat → List M → Py (List M))
    (f : List M) (t tOther : Option (List Int)) (n : Option Nat) (complex timeInversion : Bool)
    (aout : Option (List M)) : Py (List M) := do
  let (t, n) ← inspectCross64 f.length f.length t tOther n (aout.map List.length) complex
  let length ← fullLengthCross64 f.length t
  let out ← defaultOut aout n complex
  match t with
  | none => .error .valueError
  | some (t1, t2) => do
    let t1 := if timeInversion then t1.map (fun x => wrap64 (-x)) else t1
    let t2 := if timeInversion then t2.map (fun x => wrap64 (-x)) else t2
    let m ← fftSize64 length
    let y ← orUB (fillOnes t2 (List.replicate m (0 : Cx ℝ)))
    let y ← npFft y
    checkDims (t1.length = f.length)
    if complex then kC f y t1 length out else kR f y t1 length out

/-- `auto_sum_fft` (cddm/core.py:926-957), for a data type `M` with the kernel for it.  In `int64` arithmetic. -/
noncomputable def autoSumFftApi64 {M : Type} [AddCommGroup M] [Module ℝ M]
    (kR : List M → List (Cx ℝ) → List Int → Nat → List M → Py (List M))
    (f : List M) (t : Option (List Int)) (n : Option Nat)
    (aout : Option (List M)) : Py (List M) := do
  let (t, n) ← inspectAuto64 f.length t n (aout.map List.length)
  let length ← fullLengthAuto64 f.length t
  let out ← defaultOut aout n false
  let out0 : List M := List.replicate out.length 0
  match t with
  | none => .error .valueError
  | some t => do
    let m ← fftSize64 length
    let y ← orUB (fillOnes t (List.replicate m (0 : Cx ℝ)))
    let y ← npFft y
    checkDims (t.length = f.length)
    let out0 ← kR f y t length out0
    let out0 := out0.mapIdx fun k v => if k = 0 then v else (1 / 2 : ℝ) • v
    .ok (List.zipWith (· + ·) out out0)

end Cddm
