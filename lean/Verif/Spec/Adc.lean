import Mathlib.Data.Real.Basic

/-!
# Specification vocabulary: digitized signals
-/

namespace Cddm
namespace Spec

/-- The signal on the scale where the saturation is `top`. -/
noncomputable def scaled (top : Nat) (saturation blackLevel signal : ℝ) : ℝ :=
  top * (signal - blackLevel) / saturation

/-- `v` is the digitized value of `x` in the range `0..top`: no signal below the range, the largest value
above it, and the whole part of `x` inside. -/
def Digitized (top : Nat) (x : ℝ) (v : Nat) : Prop :=
  v ≤ top ∧ (x < 0 → v = 0) ∧ ((top : ℝ) < x → v = top) ∧
    (0 ≤ x → x ≤ top → (v : ℝ) ≤ x ∧ x < v + 1)

end Spec
end Cddm
