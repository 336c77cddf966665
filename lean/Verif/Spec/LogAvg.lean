import Mathlib.Algebra.Field.Basic
import Mathlib.Algebra.Module.Basic
import Mathlib.Algebra.BigOperators.Group.Finset.Basic
import Mathlib.Order.Interval.Finset.Basic
import Mathlib.Data.Int.Interval
import Mathlib.Algebra.Order.Group.Unbundled.Int

/-!
# What log averaging should return
-/

namespace Cddm.Spec

/-- The sample at an integer time (0 outside the data; the theorems only use it inside). -/
def sampleAt {V : Type} [Zero V] (data : List V) (k : ℤ) : V := data.getD k.toNat 0

/-- The triangular average of half-width `w` around time `t`: weights `(w - |d|) / w²` for
`|d| < w`. -/
def triangularMean {V : Type} (K : Type) [Field K] [AddCommGroup V] [Module K V] (data : List V)
    (t w : Nat) : V :=
  ∑ d ∈ Finset.Ioo (-(w : ℤ)) w, (((w : K) - (|d| : ℤ)) / (w : K) ^ 2) • sampleAt data (t + d)

/-- `L` is the number of doublings of `size` needed to reach `N`. -/
def IsDoublings (size N L : Nat) : Prop := N ≤ size * 2 ^ L ∧ ∀ l, l < L → size * 2 ^ l < N

/-- The times of `N` samples averaged with `size`: all times up to `2*size`, then `size` times in each octave, as many
octaves as are needed to reach `N`. -/
def IsLogTimes (N size : Nat) (x : List Nat) : Prop :=
  x.Pairwise (· < ·) ∧ ∃ L, IsDoublings (2 * size) N L ∧
    ∀ t, t ∈ x ↔ t < 2 * size ∨ ∃ l j, 1 ≤ l ∧ l ≤ L ∧ size ≤ j ∧ j < 2 * size ∧ t = j * 2 ^ l

/-- `(x, y)` is the log-average of `data`: the samples themselves up to `2*size`, triangular averages of half-width `2^l` at
the times `j * 2^l` of octave `l` if the window lies inside the data, and NaN (`none`) beyond the data. -/
def IsLogAverage {V : Type} (K : Type) [Field K] [AddCommGroup V] [Module K V] (data : List V) (size : Nat)
    (x : List Nat) (y : List (Option V)) : Prop :=
  IsLogTimes data.length size x ∧ x.length = y.length ∧ ∀ t v, (t, v) ∈ x.zip y →
    (v.isSome ↔ t < data.length) ∧ (t < 2 * size → v = data[t]?) ∧
    (2 * size ≤ t → ∃ l j, 1 ≤ l ∧ size ≤ j ∧ j < 2 * size ∧ t = j * 2 ^ l ∧
      (t + 2 ^ l ≤ data.length → v = some (triangularMean K data t (2 ^ l))))

/-- `(x, y)` is the merged curve of multi-tau data with `period`, linear part `lin` and levels of `n` values: the
log-average of the linear part, followed by the second halves of the levels; entry `j` of level `l` is at the delay
`2 * period * j * 2^l`. -/
def IsLogMerge {V : Type} (K : Type) [Field K] [AddCommGroup V] [Module K V] (lin : List V) (multi : List (List V))
    (period n : Nat) (x : List Nat) (y : List (Option V)) : Prop :=
  ∃ xf yf xs ys, x = xf ++ xs ∧ y = yf ++ ys ∧ IsLogAverage K lin (n / 2) xf yf ∧ xs.Pairwise (· < ·) ∧
    xs.length = ys.length ∧ ∀ t v, (t, v) ∈ xs.zip ys ↔
      ∃ l row j w, multi[l]? = some row ∧ row[j]? = some w ∧ v = some w ∧ n / 2 ≤ j ∧ t = 2 * period * (j * 2 ^ l)

end Cddm.Spec
