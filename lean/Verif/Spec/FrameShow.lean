import Verif.Spec.Fft2

/-!
# Levels of shown images
-/

namespace Cddm
namespace Spec

/-- What is shown of the component `(a, b)`: its real part, imaginary part or modulus; the mean intensity is left out. -/
noncomputable def shownAt (mode : String) (im : Arr2 (Cx ℝ)) (a : Int) (b : Nat) : ℝ :=
  if (im.h : Int) ∣ a ∧ b = 0 then 0
  else if mode = "real" then (fourierAt im a b).re
  else if mode = "imag" then (fourierAt im a b).im
  else Real.sqrt ((fourierAt im a b).re ^ 2 + (fourierAt im a b).im ^ 2)

/-- `M` is the largest value shown. -/
def IsBrightest (mode : String) (im : Arr2 (Cx ℝ)) (M : ℝ) : Prop :=
  (∃ (a : Int) (b : Nat), b ≤ im.w / 2 ∧ shownAt mode im a b = M) ∧ ∀ (a : Int) (b : Nat), b ≤ im.w / 2 → shownAt mode im a b ≤ M

/-- Cut to the range from 0 to 1. -/
noncomputable def toUnit (x : ℝ) : ℝ := if x < 0 then 0 else if 1 < x then 1 else x

/-- The grey level of the value `x` if `c` is the largest that is shown: from black for zero with 'abs', otherwise zero is grey. -/
noncomputable def greyLevel (mode : String) (c x : ℝ) : ℝ :=
  toUnit (if mode = "abs" then x / c else 1 / 2 + x / (2 * c))

/-- `M` is the largest value in the frame. -/
def IsFrameMax (x : Arr2 ℝ) (M : ℝ) : Prop :=
  (∃ i j, i < x.h ∧ j < x.w ∧ x.get i j = M) ∧ ∀ i j, i < x.h → j < x.w → x.get i j ≤ M

/-- The mean of the frame. -/
noncomputable def meanLevel (x : Arr2 ℝ) : ℝ := (∑ i ∈ Finset.range x.h, ∑ j ∈ Finset.range x.w, x.get i j) / (x.h * x.w)

end Spec
end Cddm
