import Verif.Model.AnyAxis
import Verif.Model.Ccorr

/-!
# The FFT functions, `ccorr` and `acorr` on arrays of any number of axes (`cddm/core.py`)

The functions that use the FFT move the computation axis to the end and work on whole arrays, row by row.  Exact transforms over
`ℝ`; an array is its shape and a function of the position; printing omitted.
-/

namespace Cddm

/-- The operations of `_cross_corr_fft_regular` and the like on whole arrays (cddm/_core_nb.py:571-699): every row by itself.
They fail for all rows alike, for reasons of the lengths; the error raised is that of the first row.  Simplified: an
array without rows does not fail. -/
def overRowsPy {M : Type} [Zero M] (outer : List Nat) (L : Nat) (F : List Nat → Py (List M)) : Py (Tensor M) := do
  let _ ← (positionsOf outer).mapM F
  .ok ⟨outer ++ [L], fun p => match F p.dropLast with
    | .ok l => l.getD (p.getLastD 0) 0
    | .error _ => 0⟩

/-- The output array and the rows (cddm/core.py:212-218, 238-245, 844-859, 941-957). -/
def fftRows {M : Type} [Zero M] (shape : List Nat) (n : Nat) (complex : Bool) (aout : Option (Tensor M))
    (F : List Nat → List M → Py (List M)) : Py (Tensor M) := do
  let out ← defaultOutAny aout shape n (shape.length - 1) complex
  let L := out.shape.getLastD 0
  overRowsPy shape.dropLast L fun o => F o (rowAt out L o)

/-- `cross_correlate_fft` (cddm/core.py:192-218) with the kernels for its type of output. -/
def crossFftAny {M : Type} [Zero M] (kReg : List (Cx ℝ) → List (Cx ℝ) → List M → Py (List M))
    (k : List (Cx ℝ) → List (Cx ℝ) → List Int → List Int → Nat → List M → Py (List M))
    (f1 f2 : Tensor (Cx ℝ)) (t1 t2 : Option (List Int)) (axis : Int) (n : Option Nat) (complex : Bool)
    (aout : Option (Tensor M)) : Py (Tensor M) :=
  if t1.isNone ≠ t2.isNone then .error .valueError
  else if f1.shape = [] ∨ f1.shape ≠ f2.shape then .error .valueError
  else do
    let ndim := f1.shape.length
    let N := f1.shape.getD ((resolveIdx ndim axis).getD 0) 0
    let last ← lastLength n aout
    let (t, m) ← inspectCross N N t1 t2 n last complex
    let ax ← findAxis ndim axis true
    let length ← fullLengthCross N t
    let g1 := moveAxis f1 ax (ndim - 1)
    let g2 := moveAxis f2 ax (ndim - 1)
    fftRows g1.shape m complex aout fun o out =>
      match t with
      | none => kReg (rowAt g1 N o) (rowAt g2 N o) out
      | some (a, b) => do
        checkDims (a.length = N ∧ b.length = N)
        k (rowAt g1 N o) (rowAt g2 N o) a b length out

/-- `cross_correlate_fft(complex = False)` (cddm/core.py:192-218). -/
noncomputable def crossCorrelateFftAny (f1 f2 : Tensor (Cx ℝ)) (t1 t2 : Option (List Int)) (axis : Int) (n : Option Nat)
    (aout : Option (Tensor ℝ)) : Py (Tensor ℝ) :=
  crossFftAny crossCorrFftRegular crossCorrFft f1 f2 t1 t2 axis n false aout

/-- `cross_correlate_fft(complex = True)` (cddm/core.py:192-218). -/
noncomputable def crossCorrelateComplexFftAny (f1 f2 : Tensor (Cx ℝ)) (t1 t2 : Option (List Int)) (axis : Int)
    (n : Option Nat) (aout : Option (Tensor (Cx ℝ))) : Py (Tensor (Cx ℝ)) :=
  crossFftAny crossCorrComplexFftRegular crossCorrComplexFft f1 f2 t1 t2 axis n true aout

/-- `auto_correlate_fft` (cddm/core.py:220-245) with the kernels for its type of output. -/
def autoFftAny {M : Type} [Zero M] (kReg : List (Cx ℝ) → List M → Py (List M))
    (k : List (Cx ℝ) → List Int → Nat → List M → Py (List M))
    (f : Tensor (Cx ℝ)) (t : Option (List Int)) (axis : Int) (n : Option Nat) (aout : Option (Tensor M)) :
    Py (Tensor M) :=
  if f.shape = [] then .error .valueError
  else do
    let ndim := f.shape.length
    let N := f.shape.getD ((resolveIdx ndim axis).getD 0) 0
    let last ← lastLength n aout
    let (t, m) ← inspectAuto N t n last
    let ax ← findAxis ndim axis true
    let length ← fullLengthAuto N t
    let g := moveAxis f ax (ndim - 1)
    fftRows g.shape m false aout fun o out =>
      match t with
      | none => kReg (rowAt g N o) out
      | some a => do
        checkDims (a.length = N)
        k (rowAt g N o) a length out

/-- `auto_correlate_fft(complex = False)` (cddm/core.py:220-245). -/
noncomputable def autoCorrelateFftAny (f : Tensor (Cx ℝ)) (t : Option (List Int)) (axis : Int) (n : Option Nat)
    (aout : Option (Tensor ℝ)) : Py (Tensor ℝ) :=
  autoFftAny autoCorrFftRegular autoCorrFft f t axis n aout

/-- `auto_correlate_fft(complex = True)` (cddm/core.py:220-245). -/
noncomputable def autoCorrelateComplexFftAny (f : Tensor (Cx ℝ)) (t : Option (List Int)) (axis : Int) (n : Option Nat)
    (aout : Option (Tensor (Cx ℝ))) : Py (Tensor (Cx ℝ)) :=
  autoFftAny autoCorrComplexFftRegular autoCorrComplexFft f t axis n aout

/-- `cross_sum_fft` (cddm/core.py:828-859), for a data type `M` with the kernels for it. -/
noncomputable def crossSumFftAny {M : Type} [Zero M]
    (kR kC : List M → List (Cx ℝ) → List Int → Nat → List M → Py (List M))
    (f : Tensor M) (t tOther : Option (List Int)) (axis : Int) (n : Option Nat) (complex timeInversion : Bool)
    (aout : Option (Tensor M)) : Py (Tensor M) :=
  if t.isNone ≠ tOther.isNone then .error .valueError
  else if f.shape = [] then .error .valueError
  else do
    let ndim := f.shape.length
    let N := f.shape.getD ((resolveIdx ndim axis).getD 0) 0
    let last ← lastLength n aout
    let (t, m) ← inspectCross N N t tOther n last complex
    let ax ← findAxis ndim axis true
    let length ← fullLengthCross N t
    let g := moveAxis f ax (ndim - 1)
    fftRows g.shape m complex aout fun o out =>
      match t with
      | none => .error .valueError
      | some (t1, t2) => do
        let t1 := if timeInversion then t1.map (- ·) else t1
        let t2 := if timeInversion then t2.map (- ·) else t2
        let y ← orUB (fillOnes t2 (List.replicate (length * 2) (0 : Cx ℝ)))
        let y ← npFft y
        checkDims (t1.length = N)
        if complex then kC (rowAt g N o) y t1 length out else kR (rowAt g N o) y t1 length out

/-- `auto_sum_fft` (cddm/core.py:926-957), for a data type `M` with the kernel for it. -/
noncomputable def autoSumFftAny {M : Type} [AddCommGroup M] [Module ℝ M]
    (kR : List M → List (Cx ℝ) → List Int → Nat → List M → Py (List M))
    (f : Tensor M) (t : Option (List Int)) (axis : Int) (n : Option Nat) (aout : Option (Tensor M)) : Py (Tensor M) :=
  if f.shape = [] then .error .valueError
  else do
    let ndim := f.shape.length
    let N := f.shape.getD ((resolveIdx ndim axis).getD 0) 0
    let last ← lastLength n aout
    let (t, m) ← inspectAuto N t n last
    let ax ← findAxis ndim axis true
    let length ← fullLengthAuto N t
    let g := moveAxis f ax (ndim - 1)
    fftRows g.shape m false aout fun o out =>
      match t with
      | none => .error .valueError
      | some t => do
        let y ← orUB (fillOnes t (List.replicate (length * 2) (0 : Cx ℝ)))
        let y ← npFft y
        checkDims (t.length = N)
        let out0 ← kR (rowAt g N o) y t length (List.replicate out.length 0)
        let out0 := out0.mapIdx fun k v => if k = 0 then v else (1 / 2 : ℝ) • v
        .ok (List.zipWith (· + ·) out out0)

end Cddm
