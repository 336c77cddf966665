import Verif.Model.Err
import Mathlib.Analysis.SpecialFunctions.Trigonometric.Basic

/-!
# Window functions (cddm/window.py)

Over the real numbers; windows are functions of the pixel.  The `out` argument (overwritten completely by every
function) and rounding to `FDTYPE` are not modelled.
-/

namespace Cddm

/-- Element `k` of `np.arange(-l/2. + .5, l/2. + .5)` (cddm/window.py:14), which has `l` of them. -/
noncomputable def winAxis (l k : Nat) : ℝ := -(l : ℝ) / 2 + 1 / 2 + k

/-- `_r(shape, scale)` at pixel `i, j` for `shape = (h, w)` (cddm/window.py:11-17). -/
noncomputable def winR (scale : ℝ) (h w i j : Nat) : ℝ :=
  Real.sqrt ((winAxis w j / ((w : ℝ) / 2 * scale)) ^ 2 + (winAxis h i / ((h : ℝ) / 2 * scale)) ^ 2)

open Classical in
/-- `blackman` (cddm/window.py:20-41) as a function of the radius. -/
noncomputable def blackmanOf (r : ℝ) : ℝ :=
  if 1 ≤ r then 0 else 42 / 100 + 1 / 2 * Real.cos (1 * Real.pi * r) + 8 / 100 * Real.cos (2 * Real.pi * r)

/-- `blackman(shape)` (cddm/window.py:20-41). -/
noncomputable def blackman (h w : Nat) (i j : Nat) : ℝ := blackmanOf (winR 1 h w i j)

open Classical in
/-- `gaussian(shape, sigma)` (cddm/window.py:43-65). -/
noncomputable def gaussian (h w : Nat) (sigma : ℝ) : Py (Nat → Nat → ℝ) :=
  if sigma ≤ 0 then .error .valueError
  else .ok fun i j => Real.exp (-(winR (sigma * Real.sqrt 2) h w i j) ^ 2)

open Classical in
/-- `_tukey` with `rmax = 1.` at one pixel (cddm/window.py:107-122), for a valid `alpha`. -/
noncomputable def tukeyOf (alpha r : ℝ) : ℝ :=
  if 1 ≤ r then 0
  else if 0 < alpha ∧ 1 - alpha < r then 1 / 2 * (1 - Real.cos (Real.pi * (r - 1) / alpha)) else 1

open Classical in
/-- `_tukey(r, alpha)` (cddm/window.py:107-122). -/
noncomputable def tukeyR (r : Nat → Nat → ℝ) (alpha : ℝ) : Py (Nat → Nat → ℝ) :=
  if 1 < alpha ∨ alpha < 0 then .error .valueError else .ok fun i j => tukeyOf alpha (r i j)

/-- `tukey(shape, alpha)` (cddm/window.py:67-87). -/
noncomputable def tukey (h w : Nat) (alpha : ℝ) : Py (Nat → Nat → ℝ) := tukeyR (winR 1 h w) alpha

/-- `hann(shape)` (cddm/window.py:89-105). -/
noncomputable def hann (h w : Nat) : Py (Nat → Nat → ℝ) := tukeyR (winR 1 h w) 1

end Cddm
