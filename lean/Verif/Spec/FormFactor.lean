import Verif.Spec.Sim
import Verif.Spec.Fft2

/-!
# A particle seen through a window
-/

namespace Cddm
namespace Spec

/-- The image of a particle at `(y, x)` of peak intensity `light`, drawn as a square of half-width `r` in a frame that continues
periodically, multiplied with the window. -/
noncomputable def psfSeen (window : Arr2 ℝ) (r : ℤ) (light : Nat) (sigma y x : ℝ) : Arr2 (Cx ℝ) :=
  ⟨window.h, window.w, fun i j => ⟨lightAt (window.h, window.w) r light sigma y x i j * window.get i j, 0⟩⟩

/-- The power of the image at the wave vector `(a, b)`. -/
noncomputable def power (im : Arr2 (Cx ℝ)) (a b : Int) : ℝ := (fourierAt im a b).re ^ 2 + (fourierAt im a b).im ^ 2

/-- The mean of `f i j` over the mesh of `n` times `n` points. -/
noncomputable def meshMean (n : Nat) (f : Nat → Nat → ℝ) : ℝ :=
  (∑ i ∈ Finset.range n, ∑ j ∈ Finset.range n, f i j) / (n : ℝ) ^ 2

/-- A window of ones. -/
def noWindow (h w : Nat) : Arr2 ℝ := ⟨h, w, fun _ _ => 1⟩

end Spec
end Cddm
