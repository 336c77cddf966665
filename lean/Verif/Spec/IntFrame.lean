import Verif.Model.IntFrame

/-!
# Integer frames: what the operations should give
-/

namespace Cddm
namespace Spec

/-- The sizes of the integer types. -/
def StdInt (t : IntPix) : Prop := t.bits = 8 ∨ t.bits = 16 ∨ t.bits = 32 ∨ t.bits = 64

/-- The whole numbers of a type. -/
def HoldsInt (t : IntPix) (v : Int) : Prop :=
  if t.signed then -(2 ^ (t.bits - 1)) ≤ v ∧ v < 2 ^ (t.bits - 1) else 0 ≤ v ∧ v < 2 ^ t.bits

/-- All pixels are of the type. -/
def PixOf (t : IntPix) (x : Arr2 Int) : Prop := ∀ i j, i < x.h → j < x.w → HoldsInt t (x.get i j)

/-- The difference, sum or product. -/
def wantedInt (op : FrameOp) (a b : Int) : Int :=
  match op with
  | .sub => a - b
  | .add => a + b
  | .mul => a * b

/-- The pixel seen at a place of a bigger frame: a single row or column is repeated. -/
def seenAt (x : Arr2 Int) (i j : Nat) : Int :=
  x.get (if x.h = 1 then 0 else i) (if x.w = 1 then 0 else j)

/-- Two lengths fit: they are equal, or one of them is one; `n` is the other. -/
def Fits (a b n : Nat) : Prop := (a = n ∧ b = n) ∨ (a = 1 ∧ b = n) ∨ (a = n ∧ b = 1)

end Spec
end Cddm
