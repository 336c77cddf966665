import Verif.Model.RandomVideo

/-! # Specification vocabulary: random videos -/

namespace Cddm
namespace Spec

/-- The random numbers are those of `np.random.rand`: at least 0, below 1. -/
def UnitNumbers (u : Nat → Rat) : Prop := ∀ k, 0 ≤ u k ∧ u k < 1

/-- Every value below `m` can be stored. -/
def Stores : PixDtype → Rat → Prop
  | .float, _ => True
  | .uint bits, m => m ≤ 2 ^ bits

/-- The pixel made of the number `x`: itself, or the whole number below it. -/
def drawnPixel : PixDtype → Rat → Rat
  | .float, x => x
  | .uint _, x => (⌊x⌋ : Int)

end Spec
end Cddm
