import Verif.Model.Fft2
import Mathlib.Analysis.SpecialFunctions.Pow.Real

/-!
# Images that are shown

`norm_rfft2` (cddm/video.py:607-634) and the image of `show_diff` (cddm/video.py:718-727).
-/

namespace Cddm

/-- `im.max()` of an array that is not empty (cddm/video.py:622, 725). -/
noncomputable def frameMax (x : Arr2 ℝ) : ℝ :=
  ((List.range x.h ×ˢ List.range x.w).map fun p => x.get p.1 p.2).foldl max (x.get 0 0)

/-- The part of the transform that is shown (cddm/video.py:614-619). -/
noncomputable def shownPart (mode : String) (z : Cx ℝ) : ℝ :=
  if mode = "real" then z.re else if mode = "imag" then z.im else Real.sqrt z.abs2

/-- `im.clip(0,1)` of a number (cddm/video.py:632). -/
noncomputable def clip01 (x : ℝ) : ℝ := min (max x 0) 1

/-- The level of one pixel (cddm/video.py:628-632).  Division by zero gives an infinite number, which is clipped to 0 or 1, or, for zero,
nan, here `none`. -/
noncomputable def showLevel (mode : String) (c x : ℝ) : Option ℝ :=
  if c = 0 then (if x = 0 then none else some (if 0 < x then 1 else 0))
  else if mode = "abs" then some (clip01 (x / c)) else some (clip01 (x / (c * 2) + 1 / 2))

/-- `np.fft.fftshift(im,0)` (cddm/video.py:633). -/
def fftshift0 {α : Type} (x : Arr2 α) : Arr2 α := ⟨x.h, x.w, fun i j => x.get ((i + (x.h - x.h / 2)) % x.h) j⟩

/-- `_clip_fft` (cddm/video.py:612-633), with `lib` the configured library. -/
noncomputable def clipFft (lib : String) (clip : Option ℝ) (mode : String) (im : Arr2 (Cx ℝ)) : Py (Arr2 (Option ℝ)) := do
  let f ← npRfft2 lib im
  let v : Arr2 ℝ := ⟨f.h, f.w, fun i j => if i = 0 ∧ j = 0 then 0 else shownPart mode (f.get i j)⟩
  let c := clip.getD (frameMax v)
  .ok (fftshift0 ⟨v.h, v.w, fun i j => showLevel mode c (v.get i j)⟩)

/-- `norm_rfft2` (cddm/video.py:607-634). -/
noncomputable def normRfft2 (lib : String) (clip : Option ℝ) (mode : String) : Py (Arr2 (Cx ℝ) → Py (Arr2 (Option ℝ))) :=
  if mode = "real" ∨ mode = "imag" ∨ mode = "abs" then .ok (clipFft lib clip mode) else .error .valueError

/-- `x/x.mean()` (cddm/video.py:723-724); `none` if the mean is zero, where no pixel is a number. -/
noncomputable def overMean (x : Arr2 ℝ) : Option (Arr2 ℝ) :=
  let m := ((List.range x.h ×ˢ List.range x.w).map fun p => x.get p.1 p.2).sum / (x.h * x.w)
  if m = 0 then none else some ⟨x.h, x.w, fun i j => x.get i j / m⟩

/-- `2* max(x.max(),y.max())` and the difference image (cddm/video.py:725-726); if the maximum is zero no pixel is a finite number. -/
noncomputable def diffLevels (x y : Arr2 ℝ) : Arr2 (Option ℝ) :=
  let m := 2 * max (frameMax x) (frameMax y)
  ⟨x.h, x.w, fun i j => if m = 0 then none else some (x.get i j / m - y.get i j / m + 1 / 2)⟩

/-- The image that `show_diff` shows of two frames of real numbers of the same shape (cddm/video.py:719-727).  Frames of different
shapes are not modelled; frames without pixels have no maximum: ValueError. -/
noncomputable def diffImage (normalize : Bool) (x y : Arr2 ℝ) : Py (Arr2 (Option ℝ)) :=
  if x.h ≠ y.h ∨ x.w ≠ y.w then .error .notModelled
  else if x.h = 0 ∨ x.w = 0 then .error .valueError
  else if normalize then
    match overMean x, overMean y with
    | some x', some y' => .ok (diffLevels x' y')
    | _, _ => .ok ⟨x.h, x.w, fun _ _ => none⟩
  else .ok (diffLevels x y)

end Cddm
