import Verif.Model.Norm
import Verif.Model.Filters
import Verif.Model.Arr2

/-!
# Noise and weights with background (cddm/norm.py)
-/

namespace Cddm
open scoped BigOperators

/-- `noise_level` (cddm/norm.py:165-202).  `np.abs(window)**2` is the square modulus, the sum is over all pixels. -/
noncomputable def noiseLevel (window : Arr2 (Cx ℝ)) (intensity : ℝ) : ℝ :=
  (∑ i ∈ Finset.range window.h, ∑ j ∈ Finset.range window.w, (window.get i j).abs2) * intensity

/-- `np.clip(x, lo, hi)` (cddm/norm.py:225, 227, 347, 357): `minimum(maximum(x, lo), hi)`. -/
noncomputable def npClip (lo hi x : ℝ) : ℝ := min (max x lo) hi

/-- `noise_mean` (cddm/norm.py:204-230) for one curve.  A zero scale factor makes numpy divide by zero; that case is not
modelled. -/
noncomputable def noiseMean (corr : List ℝ) (scale : ℝ) (mode : String) : Py ℝ :=
  if scale = 0 then .error .notModelled
  else
    let g := corr.map fun x => x / scale
    if mode = "corr" then
      match g with
      | [] => .error .indexError
      | x :: _ => .ok (npClip 0 1 (1 - x))
    else if mode = "diff" then
      match g with
      | [] => .error .indexError
      | x :: _ => .ok (npClip 0 1 (x / 2))
    else .error .valueError

/-- `weight_prime_from_d` (cddm/_core_nb.py:1183-1185). -/
noncomputable def weightPrimeFromD (d : Cx ℝ) (delta : ℝ) (b1 b2 : Cx ℝ) : Option ℝ :=
  weightPrimeFromG (1 - (1 / 2 : ℝ) • d) delta b1 b2

/-- The filters applied to the data for mode 'corr' (cddm/norm.py:344-348).  `mem` is the content of the memory in which
the output of `decreasing` is allocated. -/
noncomputable def primeFilterCorr (corr mem : List ℝ) (scale : ℝ) : Py (List ℝ) := do
  let x ← denoise corr 3
  let y ← orUB (decreasing x mem)
  denoise (y.map (npClip 0 scale)) 3

/-- The filters applied to the data for mode 'diff' (cddm/norm.py:354-358). -/
noncomputable def primeFilterDiff (corr mem : List ℝ) (scale : ℝ) : Py (List ℝ) := do
  let x ← denoise corr 3
  let y ← orUB (increasing x mem)
  denoise (y.map (npClip 0 (scale * 2))) 3

/-- `weight_prime_from_data` (cddm/norm.py:314-362) for one real curve.  `mem` as above; a zero scale factor is not
modelled. -/
noncomputable def weightPrimeFromData (corr : List ℝ) (b1 b2 : Cx ℝ) (delta scale : ℝ) (mode : String) (preFilter : Bool)
    (mem : List ℝ) : Py (List (Option ℝ)) :=
  if mode = "corr" then do
    let x ← (if preFilter then primeFilterCorr corr mem scale else .ok corr)
    if scale = 0 then .error .notModelled else
    .ok (x.map fun a => weightPrimeFromG (Cx.ofR (a / scale)) delta b1 b2)
  else if mode = "diff" then do
    let x ← (if preFilter then primeFilterDiff corr mem scale else .ok corr)
    if scale = 0 then .error .notModelled else
    .ok (x.map fun a => weightPrimeFromD (Cx.ofR (a / scale)) delta b1 b2)
  else .error .valueError

end Cddm
