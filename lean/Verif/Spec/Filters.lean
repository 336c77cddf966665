import Mathlib.Order.Bounds.Basic
import Mathlib.Algebra.Order.Field.Basic
import Mathlib.Algebra.Module.Defs

/-! # Specification vocabulary for filters and interpolation -/

namespace Cddm
namespace Spec
variable {K V : Type}

/-- `m` is the middle one of three values: it is one of them, two of them are not above it and
two are not below it. -/
def IsMedian [LinearOrder K] (m a b c : K) : Prop :=
  m ∈ [a, b, c] ∧ 2 ≤ ([a, b, c].filter (· ≤ m)).length ∧ 2 ≤ ([a, b, c].filter (m ≤ ·)).length

/-- Nodes of an interpolation with strictly increasing abscissae. -/
def Increasing [LT K] (nodes : List (K × V)) : Prop := nodes.Pairwise fun p q => p.1 < q.1

/-- The value at `x` of the straight line through two points. -/
def chord [Field K] [AddCommGroup V] [Module K V] (p q : K × V) (x : K) : V :=
  p.2 + ((x - p.1) / (q.1 - p.1)) • (q.2 - p.2)

end Spec
end Cddm
