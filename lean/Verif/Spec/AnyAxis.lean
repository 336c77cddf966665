import Verif.Model.AnyAxis
import Verif.Spec.Api

/-!
# What it means to compute along an axis

The vocabulary is that of numpy's `apply_along_axis`: the signal of a pixel runs along the axis, and the result holds
one row for each pixel.
-/

namespace Cddm
namespace Spec
variable {α M : Type}

/-- `axis` names the axis `ax` of an array of `ndim` axes: counted from the front, or negative from the end. -/
def NamesAxis (ndim : Nat) (axis : Int) (ax : Nat) : Prop := ax < ndim ∧ (axis = ax ∨ axis = (ax : Int) - ndim)

/-- A position inside an array of the given shape. -/
def InShape (p s : List Nat) : Prop := List.Forall₂ (· < ·) p s

/-- The signal of pixel `p` (the position on all other axes) along the axis `ax`. -/
def along (x : Tensor α) (ax : Nat) (p : List Nat) : List α :=
  (List.range (x.shape.getD ax 0)).map fun i => x.get (p.take ax ++ i :: p.drop ax)

/-- The shape of the frame: that of the data without the axis. -/
def frameShape (s : List Nat) (ax : Nat) : List Nat := s.eraseIdx ax

/-- A given output array has the shape of the frame and one more axis, the last. -/
def OutFits (frame : List Nat) (aout : Option (Tensor M)) : Prop := ∀ o, aout = some o → ∃ L, o.shape = frame ++ [L]

/-- The row of pixel `p` of a given output array. -/
def outAt (frame : List Nat) (aout : Option (Tensor M)) (p : List Nat) : Option (List M) :=
  aout.map fun o => along o frame.length p

/-- A computation acts on each pixel alone: it raises what it raises for any one pixel, or its result has the shape of the frame
with one more axis and the row of each pixel is the result for that pixel. -/
def PixelWise (frame : List Nat) (res : Py (Tensor M)) (one : List Nat → Py (List M)) : Prop :=
  match res with
  | .error e => ∀ p, InShape p frame → one p = .error e
  | .ok r => ∃ L, r.shape = frame ++ [L] ∧ ∀ p, InShape p frame → one p = .ok (along r frame.length p)

end Spec
end Cddm
