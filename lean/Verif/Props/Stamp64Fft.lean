import Verif.Lemmas.Stamp64Fft
import Verif.Props.FftCorr
import Verif.Props.Stamp64

/-!
# C113: time stamps of 64 bits, the FFT functions

With time stamps less than `2^62 - 1` apart the FFT functions, in the integers of the machine, compute what the direct
functions compute with unbounded stamps.  The FFT functions double the number of delays, hence the smaller range.
-/

namespace Cddm
open Spec

/-- C113 for `cross_correlate_fft`.  Missing: stamps `2^62 - 1` or more apart. -/
theorem C113_cross_correlate_fft_partial (f1 f2 : List (Cx ℝ)) (t1 t2 : Option (List Int)) (n : Option Nat)
    (aligned : Bool) (aout : Option (List ℝ)) (hv : ValidCross f1.length f2.length t1 t2)
    (hne : f1 ≠ []) (hd1 : Distinct t1) (hd2 : Distinct t2)
    (h1 : 1 ≤ outLen n aout (defaultN f1.length t1 t2))
    (h2 : outLen n aout (defaultN f1.length t1 t2) ≤ defaultN f1.length t1 t2 + 1)
    (hc : NearStamps (allStamps t1 ++ allStamps t2)) :
    crossCorrelateFft64 f1 f2 t1 t2 n aout = crossCorrelate f1 f2 t1 t2 n aligned aout := by
  rw [crossCorrelateFft64_eq f1 f2 t1 t2 n aout hc]
  exact C09_cross_correlate f1 f2 t1 t2 n aligned aout hv hne hd1 hd2 h1 h2

/-- C113 for `cross_correlate_fft(complex = True)`.  Missing: stamps `2^62 - 1` or more apart. -/
theorem C113_cross_correlate_complex_fft_partial (f1 f2 : List (Cx ℝ)) (t1 t2 : Option (List Int))
    (n : Option Nat) (aligned : Bool) (aout : Option (List (Cx ℝ)))
    (hv : ValidCross f1.length f2.length t1 t2)
    (hne : f1 ≠ []) (hd1 : Distinct t1) (hd2 : Distinct t2)
    (hodd : outLenFull n aout (defaultN f1.length t1 t2) % 2 = 1)
    (h2 : (outLenFull n aout (defaultN f1.length t1 t2) + 1) / 2 ≤ defaultN f1.length t1 t2 + 1)
    (hc : NearStamps (allStamps t1 ++ allStamps t2)) :
    crossCorrelateComplexFft64 f1 f2 t1 t2 n aout
      = crossCorrelateComplex f1 f2 t1 t2 n aligned aout := by
  rw [crossCorrelateComplexFft64_eq f1 f2 t1 t2 n aout hc]
  exact C09_cross_correlate_complex f1 f2 t1 t2 n aligned aout hv hne hd1 hd2 hodd h2

/-- C113 for `auto_correlate_fft`.  Missing: stamps `2^62 - 1` or more apart. -/
theorem C113_auto_correlate_fft_partial (f : List (Cx ℝ)) (t : Option (List Int)) (n : Option Nat)
    (aligned : Bool) (aout : Option (List ℝ)) (hv : ValidAuto f.length t)
    (hne : f ≠ []) (hd : Distinct t)
    (h2 : outLen n aout (defaultN f.length t t) ≤ defaultN f.length t t + 1)
    (hc : NearStamps (allStamps t)) :
    autoCorrelateFft64 f t n aout = autoCorrelate f t n aligned aout := by
  rw [autoCorrelateFft64_eq f t n aout hc]
  exact C09_auto_correlate f t n aligned aout hv hne hd h2

/-- C113 for `auto_correlate_fft(complex = True)`.  Missing: stamps `2^62 - 1` or more apart. -/
theorem C113_auto_correlate_complex_fft_partial (f : List (Cx ℝ)) (t : Option (List Int)) (n : Option Nat)
    (aligned : Bool) (aout : Option (List (Cx ℝ))) (hv : ValidAuto f.length t)
    (hne : f ≠ []) (hd : Distinct t)
    (h2 : outLen n aout (defaultN f.length t t) ≤ defaultN f.length t t + 1)
    (hc : NearStamps (allStamps t)) :
    autoCorrelateComplexFft64 f t n aout = autoCorrelateComplex f t n aligned aout := by
  rw [autoCorrelateComplexFft64_eq f t n aout hc]
  exact C09_auto_correlate_complex f t n aligned aout hv hne hd h2

/-- C113 for `cross_sum_fft` of real data.  Missing: stamps `2^62 - 1` or more apart. -/
theorem C113_cross_sum_fft_partial (f : List ℝ) (t1 t2 : List Int) (n : Option Nat) (inv : Bool)
    (aout : Option (List ℝ)) (hv : ValidSum f.length (some t1) (some t2))
    (hd1 : t1.Nodup) (hd2 : t2.Nodup)
    (h1 : 1 ≤ outLen n aout (defaultN f.length (some t1) (some t2)))
    (h2 : outLen n aout (defaultN f.length (some t1) (some t2))
      ≤ defaultN f.length (some t1) (some t2) + 1)
    (hc : NearStamps (t1 ++ t2)) :
    crossSumFftApi64 crossSumFftR64 crossSumComplexFftR64 f (some t1) (some t2) n false inv aout
      = crossSumApi f (some t1) (some t2) n false inv aout := by
  rw [crossSumFftApi64_eq _ _ crossSumFftR crossSumComplexFftR (fun x y t _ out h => crossSumFftR64_eq x y t out h)
    (fun x y t _ out h => crossSumComplexFftR64_eq x y t out h) f (some t1) (some t2) n false inv aout hc]
  exact C10_cross_sum f t1 t2 n inv aout hv hd1 hd2 h1 h2

/-- C113 for `cross_sum_fft` of complex data.  Missing: stamps `2^62 - 1` or more apart. -/
theorem C113_cross_sum_cdata_fft_partial (f : List (Cx ℝ)) (t1 t2 : List Int) (n : Option Nat) (inv : Bool)
    (aout : Option (List (Cx ℝ))) (hv : ValidSum f.length (some t1) (some t2))
    (hd1 : t1.Nodup) (hd2 : t2.Nodup)
    (h1 : 1 ≤ outLen n aout (defaultN f.length (some t1) (some t2)))
    (h2 : outLen n aout (defaultN f.length (some t1) (some t2))
      ≤ defaultN f.length (some t1) (some t2) + 1)
    (hc : NearStamps (t1 ++ t2)) :
    crossSumFftApi64 crossSumFftC64 crossSumComplexFftC64 f (some t1) (some t2) n false inv aout
      = crossSumApi f (some t1) (some t2) n false inv aout := by
  rw [crossSumFftApi64_eq _ _ crossSumFftC crossSumComplexFftC (fun x y t _ out h => crossSumFftC64_eq x y t out h)
    (fun x y t _ out h => crossSumComplexFftC64_eq x y t out h) f (some t1) (some t2) n false inv aout hc]
  exact C10_cross_sum_cdata f t1 t2 n inv aout hv hd1 hd2 h1 h2

/-- C113 for `cross_sum_fft(complex = True)` of real data.  Missing: stamps `2^62 - 1` or more apart. -/
theorem C113_cross_sum_complex_fft_partial (f : List ℝ) (t1 t2 : List Int) (n : Option Nat) (inv : Bool)
    (aout : Option (List ℝ)) (hv : ValidSum f.length (some t1) (some t2))
    (hd1 : t1.Nodup) (hd2 : t2.Nodup)
    (hodd : outLenFull n aout (defaultN f.length (some t1) (some t2)) % 2 = 1)
    (h2 : (outLenFull n aout (defaultN f.length (some t1) (some t2)) + 1) / 2
      ≤ defaultN f.length (some t1) (some t2) + 1)
    (hc : NearStamps (t1 ++ t2)) :
    crossSumFftApi64 crossSumFftR64 crossSumComplexFftR64 f (some t1) (some t2) n true inv aout
      = crossSumApi f (some t1) (some t2) n true inv aout := by
  rw [crossSumFftApi64_eq _ _ crossSumFftR crossSumComplexFftR (fun x y t _ out h => crossSumFftR64_eq x y t out h)
    (fun x y t _ out h => crossSumComplexFftR64_eq x y t out h) f (some t1) (some t2) n true inv aout hc]
  exact C10_cross_sum_complex f t1 t2 n inv aout hv hd1 hd2 hodd h2

/-- C113 for `cross_sum_fft(complex = True)` of complex data.  Missing: stamps `2^62 - 1` or more apart. -/
theorem C113_cross_sum_complex_cdata_fft_partial (f : List (Cx ℝ)) (t1 t2 : List Int) (n : Option Nat)
    (inv : Bool) (aout : Option (List (Cx ℝ))) (hv : ValidSum f.length (some t1) (some t2))
    (hd1 : t1.Nodup) (hd2 : t2.Nodup)
    (hodd : outLenFull n aout (defaultN f.length (some t1) (some t2)) % 2 = 1)
    (h2 : (outLenFull n aout (defaultN f.length (some t1) (some t2)) + 1) / 2
      ≤ defaultN f.length (some t1) (some t2) + 1)
    (hc : NearStamps (t1 ++ t2)) :
    crossSumFftApi64 crossSumFftC64 crossSumComplexFftC64 f (some t1) (some t2) n true inv aout
      = crossSumApi f (some t1) (some t2) n true inv aout := by
  rw [crossSumFftApi64_eq _ _ crossSumFftC crossSumComplexFftC (fun x y t _ out h => crossSumFftC64_eq x y t out h)
    (fun x y t _ out h => crossSumComplexFftC64_eq x y t out h) f (some t1) (some t2) n true inv aout hc]
  exact C10_cross_sum_complex_cdata f t1 t2 n inv aout hv hd1 hd2 hodd h2

/-- C113 for `auto_sum_fft` of real data.  Missing: stamps `2^62 - 1` or more apart. -/
theorem C113_auto_sum_fft_partial (f : List ℝ) (t : List Int) (n : Option Nat)
    (aout : Option (List ℝ)) (hv : ValidAuto f.length (some t)) (hd : t.Nodup)
    (h1 : 1 ≤ outLen n aout (defaultN f.length (some t) (some t)))
    (h2 : outLen n aout (defaultN f.length (some t) (some t))
      ≤ defaultN f.length (some t) (some t) + 1)
    (hc : NearStamps (t)) :
    autoSumFftApi64 crossSumFftR64 f (some t) n aout = autoSumApi ℝ f (some t) n aout := by
  rw [autoSumFftApi64_eq _ crossSumFftR (fun x y t _ out h => crossSumFftR64_eq x y t out h) f (some t) n aout hc]
  exact C10_auto_sum f t n aout hv hd h1 h2

/-- C113 for `auto_sum_fft` of complex data.  Missing: stamps `2^62 - 1` or more apart. -/
theorem C113_auto_sum_cdata_fft_partial (f : List (Cx ℝ)) (t : List Int) (n : Option Nat)
    (aout : Option (List (Cx ℝ))) (hv : ValidAuto f.length (some t)) (hd : t.Nodup)
    (h1 : 1 ≤ outLen n aout (defaultN f.length (some t) (some t)))
    (h2 : outLen n aout (defaultN f.length (some t) (some t))
      ≤ defaultN f.length (some t) (some t) + 1)
    (hc : NearStamps (t)) :
    autoSumFftApi64 crossSumFftC64 f (some t) n aout = autoSumApi ℝ f (some t) n aout := by
  rw [autoSumFftApi64_eq _ crossSumFftC (fun x y t _ out h => crossSumFftC64_eq x y t out h) f (some t) n aout hc]
  exact C10_auto_sum_cdata f t n aout hv hd h1 h2

/-- The hypotheses are met: stamps counted in nanoseconds, near `2^63`. -/
example : ValidCross [(1 : Cx ℝ), 2].length [(3 : Cx ℝ), 4].length (some [9223372036854775807, 9223372036854775800])
      (some [9223372036854775801, 9223372036854775806]) ∧
    Distinct (some [9223372036854775807, 9223372036854775800]) ∧
    Distinct (some [9223372036854775801, 9223372036854775806]) ∧
    defaultN 2 (some [9223372036854775807, 9223372036854775800])
      (some [9223372036854775801, 9223372036854775806]) = 7 ∧
    NearStamps (allStamps (some [9223372036854775807, 9223372036854775800])
      ++ allStamps (some [9223372036854775801, 9223372036854775806])) := by
  refine ⟨by simp [ValidCross], by simp [Distinct], by simp [Distinct], by decide, ?_⟩
  simp [NearStamps, allStamps]

/-- The range is the largest: with stamps `2^62 - 1` apart the size of the buffers is negative, and the FFT function
refuses data the direct function accepts. -/
theorem C113_fft_refuted (f1 f2 : Cx ℝ) :
    crossCorrelateFft64 [f1] [f2] (some [0]) (some [4611686018427387903]) (some 1) none = .error .valueError ∧
    ∃ out, crossCorrelate64 [f1] [f2] (some [0]) (some [4611686018427387903]) (some 1) false none = .ok out := by
  constructor
  · have h1 : inspectCross64 1 1 (some [0]) (some [4611686018427387903]) (some 1) none false
        = .ok (some ([0], [4611686018427387903]), 1) := by decide
    have h2 : fullLengthCross64 1 (some ([0], [4611686018427387903])) = .ok 4611686018427387904 := by decide
    have h3 : fftSize64 4611686018427387904 = .error .valueError := by decide
    unfold crossCorrelateFft64
    simp only [List.length_cons, List.length_nil, Nat.zero_add, Option.map_none, h1, okBind, h2]
    simp [crossCorrFft64, h3, errBind, okBind, defaultOut, checkDims]
  · obtain ⟨out, h, -⟩ := C113_cross_correlate_partial [f1] [f2] (some [0]) (some [4611686018427387903]) (some 1) false none
      (by simp [ValidCross]) (by simp) (by simp [CloseStamps, allStamps]) (by simp)
    exact ⟨out, h⟩

/-- The same hypotheses for the sums: as many stamps as data, and others. -/
example : ValidSum [(1 : ℝ), 2].length (some [9223372036854775807, 9223372036854775800]) (some [9223372036854775801]) ∧
    [9223372036854775807, (9223372036854775800 : Int)].Nodup ∧
    outLenFull (M := ℝ) none none (defaultN 2 (some [9223372036854775807, 9223372036854775800])
      (some [9223372036854775801])) % 2 = 1 ∧
    NearStamps ([9223372036854775807, 9223372036854775800] ++ [9223372036854775801]) := by
  refine ⟨by simp [ValidSum], by simp, by decide, by simp [NearStamps]⟩

end Cddm
