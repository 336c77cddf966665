import Verif.Model.Rfft2
import Verif.Model.AnyAxis

/-!
# Cropping the spectra of many frames at once

`rfft2_crop` and `fft2_crop` (cddm/fft.py:126-186) of arrays with any number of axes: the slices `[..., a:b, c:d]` are over the last two axes.
-/

namespace Cddm
variable {α : Type}

/-- An array of two axes or more as a matrix over its last two axes, as the slices `x[..., a:b, c:d]` see it (cddm/fft.py:148, 152-153, 182-185):
the entries are the arrays over the leading axes. -/
def lastTwo (x : Tensor α) : Arr2 (List Nat → α) :=
  ⟨x.shape.getD (x.shape.length - 2) 0, x.shape.getD (x.shape.length - 1) 0, fun i j p => x.get (p ++ [i, j])⟩

/-- The array `out` of shape `x.shape[:-2] + shape` (cddm/fft.py:151, 181) with these entries. -/
def withLeading (lead : List Nat) (r : Arr2 (List Nat → α)) : Tensor α :=
  ⟨lead ++ [r.h, r.w], fun p => r.get (p.getD (p.length - 2) 0) (p.getD (p.length - 1) 0) (p.take (p.length - 2))⟩

/-- `rfft2_crop` (cddm/fft.py:126-154) of an array with any number of axes; `junk` is what `np.empty` contains.  An array of one axis has no
`shape[1]` (cddm/fft.py:109): IndexError. -/
def rfft2CropAny (junk : List Nat → α) (x : Tensor α) (kimax kjmax : Option Int) : Py (Tensor α) :=
  if kimax = none ∧ kjmax = none then .ok x
  else if x.shape.length < 2 then .error .indexError
  else (rfft2Crop (fun i j p => junk (p ++ [i, j])) (lastTwo x) kimax kjmax).map (withLeading (x.shape.take (x.shape.length - 2)))

/-- `fft2_crop` (cddm/fft.py:156-186) of an array with any number of axes. -/
def fft2CropAny (junk : List Nat → α) (x : Tensor α) (kimax kjmax : Option Int) : Py (Tensor α) :=
  if kimax = none ∧ kjmax = none then .ok x
  else if x.shape.length < 2 then .error .indexError
  else (fft2Crop (fun i j p => junk (p ++ [i, j])) (lastTwo x) kimax kjmax).map (withLeading (x.shape.take (x.shape.length - 2)))

end Cddm
