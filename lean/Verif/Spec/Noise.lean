import Verif.Spec.Fft2
import Mathlib.Data.Fintype.BigOperators

/-!
# Specification vocabulary: camera noise
-/

namespace Cddm
namespace Spec
open scoped BigOperators

/-- The mean of a random quantity over finitely many cases with their probabilities. -/
def expect {Ω : Type} [Fintype Ω] (p : Ω → ℝ) (x : Ω → ℝ) : ℝ := ∑ ω, p ω * x ω

/-- Photon noise: the random frames `X ω` (`h × w` pixels) have mean `μ`, the deviations at different pixels are
uncorrelated, and the variance at each pixel is the intensity `I`. -/
structure PhotonNoise {Ω : Type} [Fintype Ω] (p : Ω → ℝ) (h w : Nat) (X : Ω → Nat → Nat → ℝ) (μ : Nat → Nat → ℝ)
    (I : ℝ) : Prop where
  mean : ∀ i < h, ∀ j < w, expect p (fun ω => X ω i j) = μ i j
  variance : ∀ i < h, ∀ j < w, expect p (fun ω => (X ω i j - μ i j) * (X ω i j - μ i j)) = I
  uncorrelated : ∀ i < h, ∀ j < w, ∀ i' < h, ∀ j' < w, (i, j) ≠ (i', j') →
    expect p (fun ω => (X ω i j - μ i j) * (X ω i' j' - μ i' j')) = 0

/-- The frame times the window. -/
noncomputable def windowed (window : Arr2 (Cx ℝ)) (x : Nat → Nat → ℝ) : Arr2 (Cx ℝ) :=
  ⟨window.h, window.w, fun i j => x i j • window.get i j⟩

end Spec
end Cddm
