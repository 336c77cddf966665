import Mathlib.Algebra.Field.Basic
import Mathlib.Algebra.BigOperators.Group.Finset.Basic
import Mathlib.Order.Interval.Finset.Basic
import Mathlib.Data.Int.Interval
import Mathlib.Algebra.Order.Group.Unbundled.Int

/-!
# Effective number of measurements of an averaged value
-/

namespace Cddm.Spec
variable {K : Type} [Field K]

/-- The count at an integer delay; outside the data there are no measurements. -/
def countAt (count : List K) (k : ℤ) : K := if 0 ≤ k then count.getD k.toNat 0 else 0

/-- The weight of the neighbour at distance `d` in a triangular average of half-width `w`. -/
def triWeight (K : Type) [Field K] (w : Nat) (d : ℤ) : K := ((w : K) - (|d| : ℤ)) / (w : K) ^ 2

/-- Sum of the `p`-th powers of the weighted counts around delay `t`. -/
def weightedPow (p : Nat) (count : List K) (t w : Nat) : K :=
  ∑ d ∈ Finset.Ioo (-(w : ℤ)) w, (triWeight K w d * countAt count (t + d)) ^ p

/-- The effective number of measurements of the triangular average: the averaged count, times the effective number of
cells averaged, `(Σ w c)² / Σ (w c)²`. -/
def effectiveCount (count : List K) (t w : Nat) : K :=
  weightedPow 1 count t w * ((weightedPow 1 count t w) ^ 2 / weightedPow 2 count t w)

end Cddm.Spec
