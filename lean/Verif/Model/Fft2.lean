import Verif.Model.Fft
import Verif.Model.Rfft2
import Verif.Model.Sim

/-!
# Two-dimensional Fourier transforms of videos (`cddm/fft.py`)

Exact transforms over `ℝ`.  A frame is a two-dimensional array of complex numbers; frames of real numbers are those
with imaginary parts zero.  The options `overwrite_x` and `extra` and the conversion to `CDTYPE` are not modelled.
-/

namespace Cddm
open scoped BigOperators

/-- `_fft2` (cddm/fft.py:48-57): the unnormalized transform; FFT libraries reject empty arrays with ValueError.
Simplified: exact, so that the libraries agree. -/
noncomputable def npFft2 (x : Arr2 (Cx ℝ)) : Py (Arr2 (Cx ℝ)) :=
  if x.h = 0 ∨ x.w = 0 then .error .valueError else
  .ok ⟨x.h, x.w, fun (i j : Nat) => ∑ p ∈ Finset.range x.h, ∑ q ∈ Finset.range x.w,
    twiddle x.h (-((p : Int) * i)) * (twiddle x.w (-((q : Int) * j)) * x.get p q)⟩

/-- `_ifft2` (cddm/fft.py:59-68): the inverse transform, normalized.  Simplified: exact. -/
noncomputable def npIfft2 (x : Arr2 (Cx ℝ)) : Py (Arr2 (Cx ℝ)) :=
  if x.h = 0 ∨ x.w = 0 then .error .valueError else
  .ok ⟨x.h, x.w, fun (p q : Nat) => (1 / ((x.h : ℝ) * (x.w : ℝ))) •
    ∑ i ∈ Finset.range x.h, ∑ j ∈ Finset.range x.w,
      twiddle x.h ((i : Int) * p) * (twiddle x.w ((j : Int) * q) * x.get i j)⟩

/-- `a.real` (cddm/fft.py:73-82). -/
noncomputable def realPart (x : Arr2 (Cx ℝ)) : Arr2 (Cx ℝ) := ⟨x.h, x.w, fun i j => ⟨(x.get i j).re, 0⟩⟩

/-- `_rfft2` (cddm/fft.py:70-87): `scipy` transforms the frame, the other libraries its real part; with any other name
`out` is not bound.  The transform of a real frame is kept up to the column `w // 2`. -/
noncomputable def npRfft2 (lib : String) (x : Arr2 (Cx ℝ)) : Py (Arr2 (Cx ℝ)) :=
  if lib = "scipy" then do
    let y ← npFft2 x
    .ok (asRfft2Data y)
  else if lib = "mkl_fft" ∨ lib = "numpy" ∨ lib = "pyfftw" then do
    let y ← npFft2 (realPart x)
    .ok (asRfft2Data y)
  else .error .nameError

/-- A generator which works on each frame of each multi-frame (cddm/fft.py:215-216, 245-246, 301-302, 323-327): the
multi-frames yielded, and the exception that ends it, if any. -/
def mapVideo {F G : Type} (f : F → Py G) : List (List F) → List (List G) × Option PyErr
  | [] => ([], none)
  | fs :: rest =>
    match fs.mapM f with
    | .error e => ([], some e)
    | .ok gs => (gs :: (mapVideo f rest).1, (mapVideo f rest).2)

/-- The transform of one frame in `rfft2_video` (cddm/fft.py:216). -/
noncomputable def rfft2Frame (lib : String) (junk : Nat → Nat → Cx ℝ) (kimax kjmax : Option Int) (x : Arr2 (Cx ℝ)) :
    Py (Arr2 (Cx ℝ)) := do
  let y ← npRfft2 lib x
  rfft2Crop junk y kimax kjmax

/-- The transform of one frame in `fft2_video` (cddm/fft.py:246). -/
noncomputable def fft2Frame (junk : Nat → Nat → Cx ℝ) (kimax kjmax : Option Int) (x : Arr2 (Cx ℝ)) :
    Py (Arr2 (Cx ℝ)) := do
  let y ← npFft2 x
  fft2Crop junk y kimax kjmax

/-- `rfft2_video` (cddm/fft.py:188-216). -/
noncomputable def rfft2Video (lib : String) (junk : Nat → Nat → Cx ℝ) (kimax kjmax : Option Int)
    (video : List (List (Arr2 (Cx ℝ)))) : List (List (Arr2 (Cx ℝ))) × Option PyErr :=
  mapVideo (rfft2Frame lib junk kimax kjmax) video

/-- `fft2_video` (cddm/fft.py:218-246). -/
noncomputable def fft2Video (junk : Nat → Nat → Cx ℝ) (kimax kjmax : Option Int)
    (video : List (List (Arr2 (Cx ℝ)))) : List (List (Arr2 (Cx ℝ))) × Option PyErr :=
  mapVideo (fft2Frame junk kimax kjmax) video

/-! ### Normalization -/

/-- Complex division; the result is not finite when the divisor is zero (cddm/fft.py:325-327, cddm/video.py:300-302). -/
noncomputable def cxDiv (a b : Cx ℝ) : Option (Cx ℝ) :=
  open Classical in if b = 0 then none else some ((1 / b.abs2) • (a * b.conj))

/-- `frame / value` (cddm/fft.py:325-327, cddm/video.py:300-302), `none` being a number that is not finite. -/
noncomputable def divideFrame (x : Arr2 (Cx ℝ)) (v : Cx ℝ) : Arr2 (Option (Cx ℝ)) :=
  ⟨x.h, x.w, fun i j => cxDiv (x.get i j) v⟩

/-- One frame in `normalize_fft` (cddm/fft.py:324-327); `frame[0,0]` of an empty frame is an IndexError. -/
noncomputable def normalizeFftFrame (x : Arr2 (Cx ℝ)) : Py (Arr2 (Option (Cx ℝ))) :=
  if x.h = 0 ∨ x.w = 0 then .error .indexError else .ok (divideFrame x (x.get 0 0))

/-- `frame.mean()` (cddm/video.py:300-302); not finite for an empty frame, which does not matter here. -/
noncomputable def frameMean (x : Arr2 (Cx ℝ)) : Cx ℝ :=
  (1 / ((x.h : ℝ) * (x.w : ℝ))) • ∑ p ∈ Finset.range x.h, ∑ q ∈ Finset.range x.w, x.get p q

/-- One frame in `normalize_video` (cddm/video.py:299-302).  Conversion to a `dtype`, and the refusal to work in place
on integers, are not modelled. -/
noncomputable def normalizeVideoFrame (x : Arr2 (Cx ℝ)) : Py (Arr2 (Option (Cx ℝ))) :=
  .ok (divideFrame x (frameMean x))

/-- `normalize_fft` (cddm/fft.py:304-327). -/
noncomputable def normalizeFft (video : List (List (Arr2 (Cx ℝ)))) :
    List (List (Arr2 (Option (Cx ℝ)))) × Option PyErr :=
  mapVideo normalizeFftFrame video

/-- `normalize_video` (cddm/video.py:280-302). -/
noncomputable def normalizeVideo (video : List (List (Arr2 (Cx ℝ)))) :
    List (List (Arr2 (Option (Cx ℝ)))) × Option PyErr :=
  mapVideo normalizeVideoFrame video

/-! ### DLS-like imaging -/

/-- `_build_kf` (cddm/fft.py:248-270) for one wave vector and a two-dimensional window.  The test of the number of
entries is in the assignment `ki,kj = kvec`. -/
noncomputable def buildKf (window : Arr2 (Cx ℝ)) (kvec : List Int) : Py (Arr2 (Cx ℝ)) :=
  match kvec with
  | [ki, kj] =>
    match resolveIdx window.h ki, resolveIdx window.w kj with
    | some i0, some j0 => npFft2 ⟨window.h, window.w, fun i j => if i = i0 ∧ j = j0 then 1 else 0⟩
    | _, _ => .error .indexError
  | _ => .error .valueError

/-- `_build_kernel` (cddm/fft.py:272-274); window and `kf` have the same shape. -/
noncomputable def buildKernel (window kf : Arr2 (Cx ℝ)) : Py (Arr2 (Cx ℝ)) :=
  npFft2 ⟨window.h, window.w, fun i j => window.get i j * kf.get i j⟩

/-- Broadcasting of one axis (cddm/fft.py:278). -/
def broadcastLen (n m : Nat) : Option Nat :=
  if n = m then some n else if n = 1 then some m else if m = 1 then some n else none

/-- `fout*kernel` with broadcasting (cddm/fft.py:278). -/
noncomputable def npMul2 (a b : Arr2 (Cx ℝ)) : Py (Arr2 (Cx ℝ)) :=
  match broadcastLen a.h b.h, broadcastLen a.w b.w with
  | some h, some w => .ok ⟨h, w, fun i j =>
      a.get (if a.h = 1 then 0 else i) (if a.w = 1 then 0 else j) *
      b.get (if b.h = 1 then 0 else i) (if b.w = 1 then 0 else j)⟩
  | _, _ => .error .valueError

/-- `_convolve_fft` (cddm/fft.py:276-281). -/
noncomputable def convolveFft (junk : Nat → Nat → Cx ℝ) (frame kernel : Arr2 (Cx ℝ)) (kimax kjmax : Option Int) :
    Py (Arr2 (Cx ℝ)) := do
  let fout ← npFft2 frame
  let fout ← npMul2 fout kernel
  let fout ← fft2Crop junk fout kimax kjmax
  npIfft2 fout

/-- `dls` (cddm/fft.py:283-295) for one wave vector. -/
noncomputable def dls (junk : Nat → Nat → Cx ℝ) (frame window : Arr2 (Cx ℝ)) (kvec : List Int)
    (kimax kjmax : Option Int) : Py (Arr2 (Cx ℝ)) := do
  let kf ← buildKf window kvec
  let kernel ← buildKernel window kf
  convolveFft junk frame kernel kimax kjmax

/-- `dls_video` (cddm/fft.py:297-302) for one wave vector. -/
noncomputable def dlsVideo (junk : Nat → Nat → Cx ℝ) (video : List (List (Arr2 (Cx ℝ)))) (window : Arr2 (Cx ℝ))
    (kvec : List Int) (kimax kjmax : Option Int) : List (List (Arr2 (Cx ℝ))) × Option PyErr :=
  match (do let kf ← buildKf window kvec; buildKernel window kf) with
  | .error e => ([], some e)
  | .ok kernel => mapVideo (fun frame => convolveFft junk frame kernel kimax kjmax) video

end Cddm
