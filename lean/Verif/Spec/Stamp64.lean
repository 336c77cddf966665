import Mathlib.Algebra.Order.Group.Int
import Mathlib.Data.List.Basic

/-! # Specification vocabulary: time stamps that 64-bit arithmetic handles -/

namespace Cddm
namespace Spec

/-- All time stamps of an optional array. -/
def allStamps (t : Option (List Int)) : List Int := t.getD []

/-- The time stamps lie within less than `2^63 - 1` of each other.  (Stamps counted in nanoseconds may
be 292 years apart.) -/
def CloseStamps (l : List Int) : Prop := ∀ a ∈ l, ∀ b ∈ l, b - a < 2 ^ 63 - 1

/-- The time stamps lie within less than `2^62 - 1` of each other: twice the number of delays fits in 64 bits. -/
def NearStamps (l : List Int) : Prop := ∀ a ∈ l, ∀ b ∈ l, b - a < 2 ^ 62 - 1

end Spec
end Cddm
