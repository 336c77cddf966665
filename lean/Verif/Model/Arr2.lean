import Verif.Model.Slice

/-!
# Two-dimensional numpy arrays

An array is a shape and a function of two indices, of which the values inside the shape matter.
Leading axes (`...`) are not modelled: all functions act on each frame separately.
-/

namespace Cddm

/-- A two-dimensional array (cddm/map.py:409-555, cddm/fft.py:126-186). -/
structure Arr2 (α : Type) where
  h : Nat
  w : Nat
  get : Nat → Nat → α

/-- `x[rows, cols]` with two slices, given as lists of indices (cddm/map.py:455, 464;
cddm/fft.py:151-152, 181-184). -/
def take2 {α : Type} (x : Arr2 α) (rows cols : List Nat) : Arr2 α :=
  ⟨rows.length, cols.length, fun i j => x.get (rows.getD i 0) (cols.getD j 0)⟩

/-- `out[rows, cols] = src`.  As in numpy, a source of length 1 along an axis is repeated along it;
otherwise the shapes must agree (cddm/map.py:456, 464; cddm/fft.py:151-152, 181-184). -/
def assign2 {α : Type} (out : Arr2 α) (rows cols : List Nat) (src : Arr2 α) : Py (Arr2 α) :=
  if (src.h = rows.length ∨ src.h = 1) ∧ (src.w = cols.length ∨ src.w = 1) then
    .ok { out with
      get := fun i j =>
        if i ∈ rows ∧ j ∈ cols then
          src.get (if src.h = 1 then 0 else rows.idxOf i) (if src.w = 1 then 0 else cols.idxOf j)
        else out.get i j }
  else .error .valueError

end Cddm
