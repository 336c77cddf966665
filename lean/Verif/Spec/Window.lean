import Mathlib.Data.Real.Basic

/-!
# Specification vocabulary: windows
-/

namespace Cddm
namespace Spec

/-- The square of the elliptic radius of the centre of pixel `i, j` in an image of `h` rows and `w` columns: 0 in
the middle of the image, 1 on the inscribed ellipse. -/
noncomputable def ellipse (h w i j : Nat) : ℝ :=
  (((j : ℝ) + 1 / 2 - w / 2) / (w / 2)) ^ 2 + (((i : ℝ) + 1 / 2 - h / 2) / (h / 2)) ^ 2

/-- A window: values between 0 and 1, symmetric under both flips of the image, and not increasing outwards. -/
structure IsWindow (h w : Nat) (win : Nat → Nat → ℝ) : Prop where
  nonneg : ∀ i j, i < h → j < w → 0 ≤ win i j
  le_one : ∀ i j, i < h → j < w → win i j ≤ 1
  flip_rows : ∀ i j, i < h → j < w → win (h - 1 - i) j = win i j
  flip_columns : ∀ i j, i < h → j < w → win i (w - 1 - j) = win i j
  decreasing : ∀ i j i' j', i < h → j < w → i' < h → j' < w → ellipse h w i j ≤ ellipse h w i' j' →
    win i' j' ≤ win i j

/-- Zero on and outside the inscribed ellipse. -/
def ZeroOutside (h w : Nat) (win : Nat → Nat → ℝ) : Prop :=
  ∀ i j, i < h → j < w → 1 ≤ ellipse h w i j → win i j = 0

end Spec
end Cddm
