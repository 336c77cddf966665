import Verif.Model.Core
import Mathlib.Analysis.SpecialFunctions.Trigonometric.Basic

/-!
# FFT variants of the correlation functions (`cddm/_core_nb.py`, `cddm/core.py`)

The FFT libraries are modelled by the exact discrete Fourier transform over `ℝ`
(no rounding); which library is used (`CDDMConfig["fftlib"]`, cddm/fft.py:26-46) does not matter
then.  One signal at a time, as in `Verif.Model.Core`.  The kernels run in Python object mode, so a
shape mismatch of `+=` raises ValueError (no undefined behaviour); `_fill_data` is compiled.
-/

namespace Cddm
open scoped BigOperators

/-- `exp(2πi a / N)`, the factors in the transforms of cddm/fft.py:26-46. -/
noncomputable def twiddle (N : Nat) (a : Int) : Cx ℝ :=
  ⟨Real.cos (2 * Real.pi * a / N), Real.sin (2 * Real.pi * a / N)⟩

/-- `_fft` (cddm/fft.py:26-35): the unnormalized forward transform; FFT libraries reject empty
arrays with ValueError. Simplified: exact. -/
noncomputable def npFft (x : List (Cx ℝ)) : Py (List (Cx ℝ)) :=
  if x.length = 0 then .error .valueError else
  .ok ((List.range x.length).map fun (k : Nat) =>
    ∑ j ∈ Finset.range x.length, twiddle x.length (-((j : Int) * k)) * x.getD j 0)

/-- `_ifft` (cddm/fft.py:37-46): the inverse transform, normalized by `1/N`. Simplified: exact. -/
noncomputable def npIfft (x : List (Cx ℝ)) : Py (List (Cx ℝ)) :=
  if x.length = 0 then .error .valueError else
  .ok ((List.range x.length).map fun (k : Nat) => (1 / (x.length : ℝ)) •
    ∑ j ∈ Finset.range x.length, twiddle x.length ((j : Int) * k) * x.getD j 0)

section
variable {M : Type} [Add M]

/-- `a += b` for numpy arrays: equal shapes, or `b` of length one, else ValueError
(cddm/_core_nb.py:590-594). -/
def npIadd (a b : List M) : Py (List M) :=
  if b.length = a.length then .ok (List.zipWith (· + ·) a b)
  else match b with
    | [v] => .ok (a.map (· + v))
    | _ => .error .valueError

/-- `out[:m] += v` (cddm/_core_nb.py:590, 646, 694). -/
def iaddHead (out : List M) (m : Nat) (v : List M) : Py (List M) := do
  let h ← npIadd (out.take m) v
  .ok (h ++ out.drop m)

/-- `out[1:] += v` (cddm/_core_nb.py:594, 650, 680). -/
def iaddTail (out : List M) (v : List M) : Py (List M) := do
  let h ← npIadd (out.drop 1) v
  .ok (out.take 1 ++ h)

/-- Length of the slice `[-1:-L:-1]` of an array of length `len`: the last `L-1` elements, but for
`L = 0` the slice is `[-1:0:-1]`, all elements except the first (cddm/_core_nb.py:591, 594). -/
def revLen (len L : Nat) : Nat := if L = 0 then len - 1 else L - 1

/-- `x[-1:-L:-1]` (cddm/_core_nb.py:591, 594). -/
def revSlice (x : List M) (L : Nat) : List M := x.reverse.take (revLen x.length L)

/-- `out[-1:-L:-1] += v` (cddm/_core_nb.py:591, 647, 695). -/
def iaddRev (out : List M) (L : Nat) (v : List M) : Py (List M) := do
  let r ← npIadd (out.reverse.take (revLen out.length L)) v
  .ok (r ++ out.reverse.drop (revLen out.length L)).reverse

end

/-- `_fill_data` (cddm/_core_nb.py:615-620); `out[m] = x[i]` resolves negative `m` from the end. -/
def fillData {α : Type} (x : List α) (t : List Int) (out : List α) : Option (List α) :=
  forRange t.length out fun out i => do
    let m ← t[i]?
    if m < out.length then
      let xi ← x[i]?
      let k ← pyIdx out.length m
      some (out.set k xi)
    else some out

/-- `_fill_ones` (cddm/_core_nb.py:622-627). -/
def fillOnes {α : Type} [One α] (t : List Int) (out : List α) : Option (List α) :=
  forRange t.length out fun out i => do
    let m ← t[i]?
    if m < out.length then
      let k ← pyIdx out.length m
      some (out.set k 1)
    else some out

/-- The spectrum product of the cross kernels and its inverse transform:
`_ifft(conj(_fft(a)) * _fft(b))` (cddm/_core_nb.py:583-588, 638-642). -/
noncomputable def fftProduct (a b : List (Cx ℝ)) : Py (List (Cx ℝ)) := do
  let x ← npFft a
  let y ← npFft b
  npIfft (List.zipWith (fun x y => x.conj * y) x y)

/-- `out[:] += _out[:L].real; out[1:] += _out[-1:-L:-1].real` with `L = len(out)`
(cddm/_core_nb.py:593-594, 649-650). -/
def foldReal (o : List (Cx ℝ)) (out : List ℝ) : Py (List ℝ) := do
  let n := out.length
  let out ← npIadd out ((o.take n).map Cx.re)
  iaddTail out ((revSlice o n).map Cx.re)

/-- `out[:L] += _out[:L]; out[-1:-L:-1] += _out[-1:-L:-1]` with `L = (len(out)+1)//2`
(cddm/_core_nb.py:590-591, 646-647). -/
def foldFull (o : List (Cx ℝ)) (out : List (Cx ℝ)) : Py (List (Cx ℝ)) := do
  let n := (out.length + 1) / 2
  let out ← iaddHead out n (o.take n)
  iaddRev out n (revSlice o n)

/-- `_cross_corr_fft_regular` (cddm/_core_nb.py:571-594), real output. -/
noncomputable def crossCorrFftRegular (x y : List (Cx ℝ)) (out : List ℝ) : Py (List ℝ) := do
  let o ← fftProduct (x ++ List.replicate x.length 0) (y ++ List.replicate x.length 0)
  foldReal o out

/-- `_cross_corr_fft_regular` (cddm/_core_nb.py:571-594), complex output. -/
noncomputable def crossCorrComplexFftRegular (x y : List (Cx ℝ)) (out : List (Cx ℝ)) :
    Py (List (Cx ℝ)) := do
  let o ← fftProduct (x ++ List.replicate x.length 0) (y ++ List.replicate x.length 0)
  foldFull o out

/-- `_cross_corr_fft` (cddm/_core_nb.py:629-651), real output. -/
noncomputable def crossCorrFft (x y : List (Cx ℝ)) (t1 t2 : List Int) (length : Nat)
    (out : List ℝ) : Py (List ℝ) := do
  let a ← orUB (fillData x t1 (List.replicate (length * 2) 0))
  let b ← orUB (fillData y t2 (List.replicate (length * 2) 0))
  let o ← fftProduct a b
  foldReal o out

/-- `_cross_corr_fft` (cddm/_core_nb.py:629-651), complex output. -/
noncomputable def crossCorrComplexFft (x y : List (Cx ℝ)) (t1 t2 : List Int) (length : Nat)
    (out : List (Cx ℝ)) : Py (List (Cx ℝ)) := do
  let a ← orUB (fillData x t1 (List.replicate (length * 2) 0))
  let b ← orUB (fillData y t2 (List.replicate (length * 2) 0))
  let o ← fftProduct a b
  foldFull o out

/-- The auto kernels' `_ifft(x * conj(x))` (cddm/_core_nb.py:604-607, 660-663). -/
noncomputable def fftPower (a : List (Cx ℝ)) : Py (List (Cx ℝ)) := do
  let x ← npFft a
  npIfft (x.map fun x => x * x.conj)

/-- `_auto_corr_fft_regular` (cddm/_core_nb.py:596-612), real output. -/
noncomputable def autoCorrFftRegular (x : List (Cx ℝ)) (out : List ℝ) : Py (List ℝ) := do
  let o ← fftPower (x ++ List.replicate x.length 0)
  npIadd out ((o.take out.length).map Cx.re)

/-- `_auto_corr_fft_regular` (cddm/_core_nb.py:596-612), complex output. -/
noncomputable def autoCorrComplexFftRegular (x : List (Cx ℝ)) (out : List (Cx ℝ)) :
    Py (List (Cx ℝ)) := do
  let o ← fftPower (x ++ List.replicate x.length 0)
  npIadd out (o.take out.length)

/-- `_auto_corr_fft` (cddm/_core_nb.py:653-667), real output. -/
noncomputable def autoCorrFft (x : List (Cx ℝ)) (t : List Int) (length : Nat)
    (out : List ℝ) : Py (List ℝ) := do
  let a ← orUB (fillData x t (List.replicate (length * 2) 0))
  let o ← fftPower a
  npIadd out ((o.take out.length).map Cx.re)

/-- `_auto_corr_fft` (cddm/_core_nb.py:653-667), complex output. -/
noncomputable def autoCorrComplexFft (x : List (Cx ℝ)) (t : List Int) (length : Nat)
    (out : List (Cx ℝ)) : Py (List (Cx ℝ)) := do
  let a ← orUB (fillData x t (List.replicate (length * 2) 0))
  let o ← fftPower a
  npIadd out (o.take out.length)

/-- `_cross_sum_fft` (cddm/_core_nb.py:669-682), complex data: `y` is the spectrum of the other
times. -/
noncomputable def crossSumFftC (x y : List (Cx ℝ)) (t : List Int) (length : Nat)
    (out : List (Cx ℝ)) : Py (List (Cx ℝ)) := do
  let a ← orUB (fillData x t (List.replicate (length * 2) 0))
  let X ← npFft a
  let o ← npIfft (List.zipWith (fun x y => x.conj * y) X y)
  let n := out.length
  let out ← npIadd out ((o.take n).map Cx.conj)
  iaddTail out ((revSlice o n).map Cx.conj)

/-- `_cross_sum_fft` (cddm/_core_nb.py:669-682), real data (converted to complex by the signature
of the kernel). -/
noncomputable def crossSumFftR (x : List ℝ) (y : List (Cx ℝ)) (t : List Int) (length : Nat)
    (out : List ℝ) : Py (List ℝ) := do
  let a ← orUB (fillData (x.map Cx.ofR) t (List.replicate (length * 2) 0))
  let X ← npFft a
  let o ← npIfft (List.zipWith (fun x y => x.conj * y) X y)
  let n := out.length
  let out ← npIadd out ((o.take n).map Cx.re)
  iaddTail out ((revSlice o n).map Cx.re)

/-- `_cross_sum_complex_fft` (cddm/_core_nb.py:685-699), complex data. -/
noncomputable def crossSumComplexFftC (x y : List (Cx ℝ)) (t : List Int) (length : Nat)
    (out : List (Cx ℝ)) : Py (List (Cx ℝ)) := do
  let a ← orUB (fillData x t (List.replicate (length * 2) 0))
  let X ← npFft a
  let o ← npIfft (List.zipWith (fun x y => x.conj * y) X y)
  let n := (out.length + 1) / 2
  let out ← iaddHead out n ((o.take n).map Cx.conj)
  iaddRev out n ((revSlice o n).map Cx.conj)

/-- `_cross_sum_complex_fft` (cddm/_core_nb.py:685-699), real data. -/
noncomputable def crossSumComplexFftR (x : List ℝ) (y : List (Cx ℝ)) (t : List Int) (length : Nat)
    (out : List ℝ) : Py (List ℝ) := do
  let a ← orUB (fillData (x.map Cx.ofR) t (List.replicate (length * 2) 0))
  let X ← npFft a
  let o ← npIfft (List.zipWith (fun x y => x.conj * y) X y)
  let n := (out.length + 1) / 2
  let out ← iaddHead out n ((o.take n).map Cx.re)
  iaddRev out n ((revSlice o n).map Cx.re)

/-! ### API -/

/-- `cross_correlate_fft(complex = False)` (cddm/core.py:192-218). -/
noncomputable def crossCorrelateFft (f1 f2 : List (Cx ℝ)) (t1 t2 : Option (List Int))
    (n : Option Nat) (aout : Option (List ℝ)) : Py (List ℝ) := do
  let (t, n) ← inspectCross f1.length f2.length t1 t2 n (aout.map List.length) false
  let length ← fullLengthCross f1.length t
  let out ← defaultOut aout n false
  match t with
  | none => crossCorrFftRegular f1 f2 out
  | some (t1, t2) => do
    checkDims (t1.length = f1.length ∧ t2.length = f2.length)
    crossCorrFft f1 f2 t1 t2 length out

/-- `cross_correlate_fft(complex = True)` (cddm/core.py:192-218). -/
noncomputable def crossCorrelateComplexFft (f1 f2 : List (Cx ℝ)) (t1 t2 : Option (List Int))
    (n : Option Nat) (aout : Option (List (Cx ℝ))) : Py (List (Cx ℝ)) := do
  let (t, n) ← inspectCross f1.length f2.length t1 t2 n (aout.map List.length) true
  let length ← fullLengthCross f1.length t
  let out ← defaultOut aout n true
  match t with
  | none => crossCorrComplexFftRegular f1 f2 out
  | some (t1, t2) => do
    checkDims (t1.length = f1.length ∧ t2.length = f2.length)
    crossCorrComplexFft f1 f2 t1 t2 length out

/-- `auto_correlate_fft(complex = False)` (cddm/core.py:220-245). -/
noncomputable def autoCorrelateFft (f : List (Cx ℝ)) (t : Option (List Int))
    (n : Option Nat) (aout : Option (List ℝ)) : Py (List ℝ) := do
  let (t, n) ← inspectAuto f.length t n (aout.map List.length)
  let length ← fullLengthAuto f.length t
  let out ← defaultOut aout n false
  match t with
  | none => autoCorrFftRegular f out
  | some t => do
    checkDims (t.length = f.length)
    autoCorrFft f t length out

/-- `auto_correlate_fft(complex = True)` (cddm/core.py:220-245). -/
noncomputable def autoCorrelateComplexFft (f : List (Cx ℝ)) (t : Option (List Int))
    (n : Option Nat) (aout : Option (List (Cx ℝ))) : Py (List (Cx ℝ)) := do
  let (t, n) ← inspectAuto f.length t n (aout.map List.length)
  let length ← fullLengthAuto f.length t
  let out ← defaultOut aout n false
  match t with
  | none => autoCorrComplexFftRegular f out
  | some t => do
    checkDims (t.length = f.length)
    autoCorrComplexFft f t length out

/-- `cross_sum_fft` (cddm/core.py:828-859), for a data type `M` with the kernels for it. -/
noncomputable def crossSumFftApi {M : Type} [Zero M]
    (kR kC : List M → List (Cx ℝ) → List Int → Nat → List M → Py (List M))
    (f : List M) (t tOther : Option (List Int)) (n : Option Nat) (complex timeInversion : Bool)
    (aout : Option (List M)) : Py (List M) := do
  let (t, n) ← inspectCross f.length f.length t tOther n (aout.map List.length) complex
  let length ← fullLengthCross f.length t
  let out ← defaultOut aout n complex
  match t with
  | none => .error .valueError
  | some (t1, t2) => do
    let t1 := if timeInversion then t1.map (- ·) else t1
    let t2 := if timeInversion then t2.map (- ·) else t2
    let y ← orUB (fillOnes t2 (List.replicate (length * 2) (0 : Cx ℝ)))
    let y ← npFft y
    checkDims (t1.length = f.length)
    if complex then kC f y t1 length out else kR f y t1 length out

/-- `auto_sum_fft` (cddm/core.py:926-957), for a data type `M` with the kernel for it. -/
noncomputable def autoSumFftApi {M : Type} [AddCommGroup M] [Module ℝ M]
    (kR : List M → List (Cx ℝ) → List Int → Nat → List M → Py (List M))
    (f : List M) (t : Option (List Int)) (n : Option Nat)
    (aout : Option (List M)) : Py (List M) := do
  let (t, n) ← inspectAuto f.length t n (aout.map List.length)
  let length ← fullLengthAuto f.length t
  let out ← defaultOut aout n false
  let out0 : List M := List.replicate out.length 0
  match t with
  | none => .error .valueError
  | some t => do
    let y ← orUB (fillOnes t (List.replicate (length * 2) (0 : Cx ℝ)))
    let y ← npFft y
    checkDims (t.length = f.length)
    let out0 ← kR f y t length out0
    let out0 := out0.mapIdx fun k v => if k = 0 then v else (1 / 2 : ℝ) • v
    .ok (List.zipWith (· + ·) out out0)

end Cddm
