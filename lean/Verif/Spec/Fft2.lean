import Verif.Model.Fft2
import Verif.Spec.Freq

/-!
# Specification vocabulary: Fourier components of a frame
-/

namespace Cddm
namespace Spec
open scoped BigOperators

/-- The plane wave `exp(-2πi (a p / h + b q / w))`. -/
noncomputable def planeWave (h w : Nat) (a b p q : Int) : Cx ℝ :=
  ⟨Real.cos (2 * Real.pi * ((a : ℝ) * p / h + (b : ℝ) * q / w)),
    -Real.sin (2 * Real.pi * ((a : ℝ) * p / h + (b : ℝ) * q / w))⟩

/-- The Fourier component of the frame at the wave vector `(a, b)`. -/
noncomputable def fourierAt (x : Arr2 (Cx ℝ)) (a b : Int) : Cx ℝ :=
  ∑ p ∈ Finset.range x.h, ∑ q ∈ Finset.range x.w, x.get p q * planeWave x.h x.w a b p q

/-- The frame holds real numbers. -/
def RealFrame (x : Arr2 (Cx ℝ)) : Prop := ∀ p q : Nat, p < x.h → q < x.w → (x.get p q).im = 0

/-- Light scattered at the wave vector `(ki, kj)` and seen at the point `(p, q)` of the frame, with the window around
that point; the frame is continued periodically. -/
noncomputable def dlsImage (frame window : Arr2 (Cx ℝ)) (ki kj : Int) (p q : Int) : Cx ℝ :=
  ∑ p' ∈ Finset.range frame.h, ∑ q' ∈ Finset.range frame.w,
    frame.get p' q' * (window.get (wrap frame.h (p - p')) (wrap frame.w (q - q')) *
      planeWave frame.h frame.w ki kj (p - p') (q - q'))

/-- The names of the libraries. -/
def fftLibs : List String := ["mkl_fft", "scipy", "numpy", "pyfftw"]

end Spec
end Cddm
