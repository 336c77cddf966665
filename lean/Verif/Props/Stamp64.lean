import Verif.Lemmas.Stamp64
import Verif.Props.Correlation

/-!
# C113: time stamps in 64-bit arithmetic

The functions of `Verif.Model.Stamp64` do what C01-C06 say of the exact ones as long as the time stamps
lie within `2^63 - 1` of each other; not for all time stamps that `int64` holds.
-/

namespace Cddm
open Spec

section
variable {R : Type} [CommRing R] {M : Type} [AddCommGroup M]

/-- **C113.** `cross_correlate` with 64-bit time stamps: entry `k` is the sum over the pairs at time
distance `k` (as C01).  Missing: stamps further apart, see `C113_refuted`. -/
theorem C113_cross_correlate_partial (f1 f2 : List (Cx R)) (t1 t2 : Option (List Int)) (n : Option Nat)
    (aligned : Bool) (aout : Option (List R))
    (hv : ValidCross f1.length f2.length t1 t2)
    (hfast : t1 = none → aligned = true → outLen n aout f1.length ≤ f1.length + 1)
    (hc : CloseStamps (allStamps t1 ++ allStamps t2)) (hN : f1.length ≤ 2 ^ 63) :
    ∃ out, crossCorrelate64 f1 f2 t1 t2 n aligned aout = .ok out
      ∧ out.length = outLen n aout (defaultN f1.length t1 t2)
      ∧ ∀ k (hk : k < out.length),
          out[k] = start aout k + pairSum reProd (stream f1 t1) (stream f2 t2) k := by
  rw [crossCorrelate64_eq _ _ _ _ _ _ _ hc hN]
  exact C01_cross_correlate f1 f2 t1 t2 n aligned aout hv hfast

/-- C113: `cross_correlate(complex=True)` (as C02).  Missing: stamps further apart. -/
theorem C113_cross_correlate_complex_partial (f1 f2 : List (Cx R)) (t1 t2 : Option (List Int))
    (n : Nat) (hn : 1 ≤ n) (aligned : Bool) (aout : Option (List (Cx R)))
    (haout : ∀ o, aout = some o → o.length = 2 * n - 1)
    (hv : ValidCross f1.length f2.length t1 t2)
    (hfast : t1 = none → aligned = true → n ≤ f1.length + 1)
    (hc : CloseStamps (allStamps t1 ++ allStamps t2)) (hN : f1.length ≤ 2 ^ 63) :
    ∃ out, crossCorrelateComplex64 f1 f2 t1 t2 (some n) aligned aout = .ok out
      ∧ out.length = 2 * n - 1
      ∧ ∀ d : Int, |d| < n →
          ∃ k, pyIdx out.length d = some k ∧
            pyGet out d = some (start aout k + pairSumAt cxProd (stream f1 t1) (stream f2 t2) d) := by
  rw [crossCorrelateComplex64_eq _ _ _ _ _ _ _ hc hN]
  exact C02_cross_correlate_complex f1 f2 t1 t2 n hn aligned aout haout hv hfast

/-- C113: `auto_correlate` (as C03).  Missing: stamps further apart. -/
theorem C113_auto_correlate_partial (f : List (Cx R)) (t : Option (List Int)) (n : Option Nat)
    (aligned : Bool) (aout : Option (List R)) (hv : ValidAuto f.length t)
    (hc : CloseStamps (allStamps t)) (hN : f.length ≤ 2 ^ 63) :
    ∃ out, autoCorrelate64 f t n aligned aout = .ok out
      ∧ out.length = outLen n aout (defaultN f.length t t)
      ∧ ∀ k (hk : k < out.length), out[k] = start aout k + selfSum reProd (stream f t) k := by
  rw [autoCorrelate64_eq _ _ _ _ _ hc hN]
  exact C03_auto_correlate f t n aligned aout hv

/-- C113: `auto_correlate(complex=True)` (as C03).  Missing: stamps further apart. -/
theorem C113_auto_correlate_complex_partial (f : List (Cx R)) (t : Option (List Int)) (n : Option Nat)
    (aligned : Bool) (aout : Option (List (Cx R))) (hv : ValidAuto f.length t)
    (hfast : t = none → aligned = true → outLen n aout f.length ≤ f.length + 1)
    (hc : CloseStamps (allStamps t)) (hN : f.length ≤ 2 ^ 63) :
    ∃ out, autoCorrelateComplex64 f t n aligned aout = .ok out
      ∧ out.length = outLen n aout (defaultN f.length t t)
      ∧ ∀ k (hk : k < out.length), out[k] = start aout k + selfSumFwd cxProd (stream f t) k := by
  rw [autoCorrelateComplex64_eq _ _ _ _ _ hc hN]
  exact C03_auto_correlate_complex f t n aligned aout hv hfast

/-- C113: `cross_difference` (as C04).  Missing: stamps further apart. -/
theorem C113_cross_difference_partial (f1 f2 : List (Cx R)) (t1 t2 : Option (List Int)) (n : Option Nat)
    (aligned : Bool) (aout : Option (List R))
    (hv : ValidCross f1.length f2.length t1 t2)
    (hfast : t1 = none → aligned = true → outLen n aout f1.length ≤ f1.length + 1)
    (hc : CloseStamps (allStamps t1 ++ allStamps t2)) (hN : f1.length ≤ 2 ^ 63) :
    ∃ out, crossDifference64 f1 f2 t1 t2 n aligned aout = .ok out
      ∧ out.length = outLen n aout (defaultN f1.length t1 t2)
      ∧ ∀ k (hk : k < out.length),
          out[k] = start aout k + pairSum dist2 (stream f1 t1) (stream f2 t2) k := by
  rw [crossDifference64_eq _ _ _ _ _ _ _ hc hN]
  exact C04_cross_difference f1 f2 t1 t2 n aligned aout hv hfast

/-- C113: `auto_difference` (as C04).  Missing: stamps further apart. -/
theorem C113_auto_difference_partial (f : List (Cx R)) (t : Option (List Int)) (n : Option Nat)
    (aligned : Bool) (aout : Option (List R)) (hv : ValidAuto f.length t)
    (hc : CloseStamps (allStamps t)) (hN : f.length ≤ 2 ^ 63) :
    ∃ out, autoDifference64 f t n aligned aout = .ok out
      ∧ out.length = outLen n aout (defaultN f.length t t)
      ∧ ∀ k (hk : k < out.length), out[k] = start aout k + selfSum dist2 (stream f t) k := by
  rw [autoDifference64_eq _ _ _ _ _ hc hN]
  exact C04_auto_difference f t n aligned aout hv

/-- C113: `cross_sum` (as C05).  Missing: stamps further apart. -/
theorem C113_cross_sum_partial (f : List M) (t tOther : Option (List Int)) (n : Option Nat)
    (timeInversion : Bool) (aout : Option (List M)) (hv : ValidSum f.length t tOther)
    (hfast : t = none → outLen n aout f.length ≤ f.length + 1)
    (hc : CloseStamps (allStamps t ++ allStamps tOther)) :
    ∃ out, crossSumApi64 f t tOther n false timeInversion aout = .ok out
      ∧ out.length = outLen n aout (defaultN f.length t tOther)
      ∧ ∀ k (hk : k < out.length), out[k] = start aout k
          + pairSum (fun a _ => a) (stream f t) (otherStream f.length tOther) k := by
  rw [crossSumApi64_eq _ _ _ _ _ _ _ hc]
  exact C05_cross_sum f t tOther n timeInversion aout hv hfast

/-- C113: `cross_sum(complex=True)` (as C05).  Missing: stamps further apart. -/
theorem C113_cross_sum_complex_partial (f : List M) (t tOther : Option (List Int)) (n : Nat) (hn : 1 ≤ n)
    (timeInversion : Bool) (aout : Option (List M))
    (haout : ∀ o, aout = some o → o.length = 2 * n - 1)
    (hv : ValidSum f.length t tOther) (hfast : t = none → n ≤ f.length + 1)
    (hc : CloseStamps (allStamps t ++ allStamps tOther)) :
    ∃ out, crossSumApi64 f t tOther (some n) true timeInversion aout = .ok out
      ∧ out.length = 2 * n - 1
      ∧ ∀ d : Int, |d| < n →
          ∃ k, pyIdx out.length d = some k ∧
            pyGet out d = some (start aout k
              + pairSumAt (fun a _ => a) (stream f t) (otherStream f.length tOther)
                  (if timeInversion then -d else d)) := by
  rw [crossSumApi64_eq _ _ _ _ _ _ _ hc]
  exact C05_cross_sum_complex f t tOther n hn timeInversion aout haout hv hfast

/-- C113: `cross_count` (as C06).  Missing: stamps further apart. -/
theorem C113_cross_count_partial (t1 : TimeArg) (t2 : Option TimeArg) (n : Option Nat)
    (aout : Option (List Nat))
    (h : aout = none → n = none → t1.times ≠ [] ∧ (t2.getD t1).times ≠ [])
    (hc : CloseStamps (t1.times ++ (t2.getD t1).times)) :
    ∃ out, crossCount64 t1 t2 n false aout = .ok out
      ∧ out.length = outLen n aout (defaultN 0 (some t1.times) (some (t2.getD t1).times))
      ∧ ∀ k (hk : k < out.length), out[k] = start aout k
          + ((t1.times ×ˢ (t2.getD t1).times).filter fun p => (p.2 - p.1).natAbs = k).length := by
  rw [crossCount64_eq _ _ _ _ _ hc]
  exact C06_cross_count t1 t2 n aout h

/-- C113: `cross_count(complex=True)` (as C06).  Missing: stamps further apart. -/
theorem C113_cross_count_complex_partial (t1 : TimeArg) (t2 : Option TimeArg) (n : Nat) (hn : 1 ≤ n)
    (aout : Option (List Nat)) (haout : ∀ o, aout = some o → o.length = 2 * n - 1)
    (hc : CloseStamps (t1.times ++ (t2.getD t1).times)) :
    ∃ out, crossCount64 t1 t2 (some n) true aout = .ok out
      ∧ out.length = 2 * n - 1
      ∧ ∀ d : Int, |d| < n →
          ∃ k, pyIdx out.length d = some k ∧
            pyGet out d = some (start aout k
              + ((t1.times ×ˢ (t2.getD t1).times).filter fun p => p.2 - p.1 = d).length) := by
  rw [crossCount64_eq _ _ _ _ _ hc]
  exact C06_cross_count_complex t1 t2 n hn aout haout

/-- C113: `auto_count` (as C06).  Missing: stamps further apart. -/
theorem C113_auto_count_partial (t : TimeArg) (n : Option Nat) (aout : Option (List Nat))
    (h : aout = none → n = none → t.times ≠ [])
    (hc : CloseStamps t.times) :
    ∃ out, autoCount64 t n aout = .ok out
      ∧ out.length = outLen n aout (defaultN 0 (some t.times) (some t.times))
      ∧ ∀ k (hk : k < out.length), out[k] = start aout k
          + ((selfPairs t.times).filter fun p => (p.2 - p.1).natAbs = k).length := by
  rw [autoCount64_eq _ _ _ hc]
  exact C06_auto_count t n aout h

/-- C113: `auto_sum` gives what it gives in exact arithmetic.  Missing: stamps further apart. -/
theorem C113_auto_sum_partial (half : M → M) (f : List M) (t : Option (List Int)) (n : Option Nat) (aout : Option (List M))
    (hc : CloseStamps (allStamps t)) : autoSumWith64 half f t n aout = autoSumWith half f t n aout :=
  autoSumWith64_eq half f t n aout hc

end

/-- Close stamps far from zero: nanoseconds since 1970. -/
example : CloseStamps (allStamps (some [1600000000000000000, 1600000000000000007]) ++ allStamps (some [1600000000000000005])) := by
  intro a ha b hb
  simp [allStamps] at ha hb
  omega

example : crossCorrelate64 (R := Int) [⟨1, 2⟩, ⟨3, 4⟩] [⟨5, 6⟩, ⟨0, 1⟩] (some [1600000000000000000, 1600000000000000007])
    (some [1600000000000000005, 1599999999999999997]) (some 6) false none = .ok [0, 0, 39, 2, 0, 17] := by decide

/-- C113 fails for stamps at the two ends of the range of `int64`: the two frames are `2^64 - 1` apart
and are counted at delay 1. -/
theorem C113_refuted : autoCorrelate64 (R := Int) [⟨1, 0⟩, ⟨10, 0⟩] (some [-(2 ^ 63), 2 ^ 63 - 1]) (some 2) true none = .ok [101, 10]
    ∧ autoCorrelate (R := Int) [⟨1, 0⟩, ⟨10, 0⟩] (some [-(2 ^ 63), 2 ^ 63 - 1]) (some 2) true none = .ok [101, 0] := by
  constructor <;> decide

/-- C113 fails for stamps exactly `2^63` apart: the absolute value of the difference is negative, passes the
test `m < len(out)` and addresses memory far in front of the array. -/
theorem C113_outside_refuted : autoCorrelate64 (R := Int) [⟨1, 0⟩, ⟨10, 0⟩] (some [-(2 ^ 63), 0]) (some 2) true none = .error .undefined := by
  decide

/-- C113 fails for the default length: with stamps `2^63 - 1` apart the length is negative. -/
theorem C113_length_refuted : autoCorrelate64 (R := Int) [⟨1, 0⟩, ⟨10, 0⟩] (some [0, 2 ^ 63 - 1]) none true none = .error .valueError := by
  decide

end Cddm
