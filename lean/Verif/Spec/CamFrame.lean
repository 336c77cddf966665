import Verif.Model.CamFrame
import Verif.Spec.FrameShow

/-!
# Camera frames: what the operations should give
-/

namespace Cddm
namespace Spec

/-- The difference, sum or product of two pixels. -/
noncomputable def wanted (op : FrameOp) (a b : ℝ) : ℝ :=
  match op with
  | .sub => a - b
  | .add => a + b
  | .mul => a * b

/-- A frame of whole numbers a camera of `bits` bits can deliver. -/
def IsCamera (bits : Nat) : CamFrame → Prop
  | .uint b px => b = bits ∧ ∀ v ∈ px, 0 ≤ v ∧ v < 2 ^ bits
  | .float _ => False

/-- The number of pixels. -/
def frameSize : CamFrame → Nat
  | .uint _ px => px.length
  | .float px => px.length

/-- The value of pixel `i`. -/
noncomputable def pixelAt (f : CamFrame) (i : Nat) : ℝ :=
  match f with
  | .uint _ px => ((px.getD i 0 : Int) : ℝ)
  | .float px => px.getD i 0

/-- A floating-point frame. -/
def IsFloat : CamFrame → Prop
  | .uint _ _ => False
  | .float _ => True

/-- Both videos are of cameras of the same number of bits, with frames of the same size. -/
def SameCamera (bits : Nat) (x y : List (List CamFrame)) : Prop :=
  ∀ p ∈ x.zip y, ∀ q ∈ p.1.zip p.2, IsCamera bits q.1 ∧ IsCamera bits q.2 ∧ frameSize q.1 = frameSize q.2

/-- The integers of a camera picture as real numbers. -/
noncomputable def toReal2 (x : Arr2 Int) : Arr2 ℝ := ⟨x.h, x.w, fun i j => (x.get i j : ℝ)⟩

end Spec
end Cddm
