import Verif.Lemmas.FftApi
import Mathlib.Tactic.NormNum

/-!
# C09, C10: the FFT method equals the direct method

All statements are in exact arithmetic, with the exact discrete Fourier transform.
`Distinct t` says that no time stamp occurs twice; `defaultN` is the full number of delays.
-/

namespace Cddm
open Spec

/-! ### C09 -/

/-- `cross_correlate_fft` returns what `cross_correlate` returns, for every output length up to
one more than the full number of delays. -/
theorem C09_cross_correlate (f1 f2 : List (Cx ℝ)) (t1 t2 : Option (List Int)) (n : Option Nat)
    (aligned : Bool) (aout : Option (List ℝ)) (hv : ValidCross f1.length f2.length t1 t2)
    (hne : f1 ≠ []) (hd1 : Distinct t1) (hd2 : Distinct t2)
    (h1 : 1 ≤ outLen n aout (defaultN f1.length t1 t2))
    (h2 : outLen n aout (defaultN f1.length t1 t2) ≤ defaultN f1.length t1 t2 + 1) :
    crossCorrelateFft f1 f2 t1 t2 n aout = crossCorrelate f1 f2 t1 t2 n aligned aout := by
  rw [crossCorrelateFft_ok f1 f2 t1 t2 n aout hv hne hd1 hd2 h1 h2,
    crossCorrelate_ok f1 f2 t1 t2 n aligned aout hv]
  rintro rfl _
  simpa [defaultN] using h2

/-- The same for complex (signed delay) output. -/
theorem C09_cross_correlate_complex (f1 f2 : List (Cx ℝ)) (t1 t2 : Option (List Int))
    (n : Option Nat) (aligned : Bool) (aout : Option (List (Cx ℝ)))
    (hv : ValidCross f1.length f2.length t1 t2)
    (hne : f1 ≠ []) (hd1 : Distinct t1) (hd2 : Distinct t2)
    (hodd : outLenFull n aout (defaultN f1.length t1 t2) % 2 = 1)
    (h2 : (outLenFull n aout (defaultN f1.length t1 t2) + 1) / 2 ≤ defaultN f1.length t1 t2 + 1) :
    crossCorrelateComplexFft f1 f2 t1 t2 n aout
      = crossCorrelateComplex f1 f2 t1 t2 n aligned aout := by
  rw [crossCorrelateComplexFft_ok f1 f2 t1 t2 n aout hv hne hd1 hd2 hodd h2,
    crossCorrelateComplex_ok f1 f2 t1 t2 n aligned aout hv hodd]
  rintro rfl _
  simpa [defaultN] using h2

/-- `auto_correlate_fft` returns what `auto_correlate` returns. -/
theorem C09_auto_correlate (f : List (Cx ℝ)) (t : Option (List Int)) (n : Option Nat)
    (aligned : Bool) (aout : Option (List ℝ)) (hv : ValidAuto f.length t)
    (hne : f ≠ []) (hd : Distinct t)
    (h2 : outLen n aout (defaultN f.length t t) ≤ defaultN f.length t t + 1) :
    autoCorrelateFft f t n aout = autoCorrelate f t n aligned aout := by
  rw [autoCorrelateFft_ok f t n aout hv hne hd h2, autoCorrelate_ok f t n aligned aout hv]

/-- The same for complex output. -/
theorem C09_auto_correlate_complex (f : List (Cx ℝ)) (t : Option (List Int)) (n : Option Nat)
    (aligned : Bool) (aout : Option (List (Cx ℝ))) (hv : ValidAuto f.length t)
    (hne : f ≠ []) (hd : Distinct t)
    (h2 : outLen n aout (defaultN f.length t t) ≤ defaultN f.length t t + 1) :
    autoCorrelateComplexFft f t n aout = autoCorrelateComplex f t n aligned aout := by
  rw [autoCorrelateComplexFft_ok f t n aout hv hne hd h2,
    autoCorrelateComplex_ok f t n aligned aout hv]
  rintro rfl _
  simpa [defaultN] using h2

/-- Entry by entry, without reference to the direct method: every pair of samples contributes at
its delay, once. -/
theorem C09_entries (f1 f2 : List (Cx ℝ)) (t1 t2 : Option (List Int)) (n : Option Nat)
    (aout : Option (List ℝ)) (hv : ValidCross f1.length f2.length t1 t2)
    (hne : f1 ≠ []) (hd1 : Distinct t1) (hd2 : Distinct t2)
    (h1 : 1 ≤ outLen n aout (defaultN f1.length t1 t2))
    (h2 : outLen n aout (defaultN f1.length t1 t2) ≤ defaultN f1.length t1 t2 + 1) :
    ∃ out, crossCorrelateFft f1 f2 t1 t2 n aout = .ok out ∧
      out.length = outLen n aout (defaultN f1.length t1 t2) ∧
      ∀ k (hk : k < out.length),
        out[k] = start aout k + pairSum reProd (stream f1 t1) (stream f2 t2) k :=
  ok_entries (crossCorrelateFft_ok f1 f2 t1 t2 n aout hv hne hd1 hd2 h1 h2)
    (startOut_length _ _ _)

/-- Without any optional argument the two methods agree. -/
theorem C09_default (f1 f2 : List (Cx ℝ)) (t1 t2 : Option (List Int)) (aligned : Bool)
    (hv : ValidCross f1.length f2.length t1 t2) (hne : f1 ≠ [])
    (hd1 : Distinct t1) (hd2 : Distinct t2) :
    crossCorrelateFft f1 f2 t1 t2 none none = crossCorrelate f1 f2 t1 t2 none aligned none := by
  have hpos : 1 ≤ f1.length := List.length_pos_iff.mpr hne
  apply C09_cross_correlate f1 f2 t1 t2 none aligned none hv hne hd1 hd2
  · rcases t1 with _ | a <;> rcases t2 with _ | b <;> simp [outLen, defaultN] <;> omega
  · simp [outLen]

/-- Arguments the direct method refuses are refused by the FFT method too. -/
theorem C09_rejects (f1 f2 : List (Cx ℝ)) (t1 t2 : Option (List Int)) (n : Option Nat)
    (aout : Option (List ℝ)) (hv : ¬ ValidCross f1.length f2.length t1 t2) :
    crossCorrelateFft f1 f2 t1 t2 n aout = .error .valueError := by
  unfold crossCorrelateFft
  cases h : inspectCross f1.length f2.length t1 t2 n (aout.map List.length) false with
  | error e => rw [inspectCross_error h]; rfl
  | ok r =>
    by_cases hN : f1.length = f2.length
    · rcases t1 with _ | a <;> rcases t2 with _ | b
      · exact absurd hN hv
      · simp [inspectCross, bind, Except.bind] at h
      · simp [inspectCross, bind, Except.bind] at h
      · have hne : a ≠ [] ∧ b ≠ [] := by
          constructor
          · rintro rfl
            cases n <;> cases aout <;>
              simp [inspectCross, bind, Except.bind, hN, npMin_nil, fullLengthCross] at h
          · rintro rfl
            by_cases ha : a = []
            · subst ha
              cases n <;> cases aout <;>
                simp [inspectCross, bind, Except.bind, hN, npMin_nil, fullLengthCross] at h
            · obtain ⟨m, hm, -, -⟩ := npMin_ok ha
              obtain ⟨m', hm', -, -⟩ := npMax_ok ha
              cases n <;> cases aout <;>
                simp [inspectCross, bind, Except.bind, hN, npMin_nil, fullLengthCross, hm, hm'] at h
        obtain ⟨c, hc⟩ := inspectCross_some f1.length hne.1 hne.2 n (aout.map List.length) false
        rw [← hN, hc] at h
        rw [← Except.ok.inj h]
        simp only [bind, Except.bind]
        rw [fullLengthCross_ok _ (by simpa using hne.1) (by simpa using hne.2)]
        dsimp only
        rw [defaultOut_real]
        dsimp only
        rw [checkDims, if_neg]
        simp only [List.length_map, decide_eq_true_eq, not_and]
        intro h1 h2
        apply hv
        refine ⟨hN, h1, h2, ?_⟩
        intro h0
        rw [h0] at h1
        exact hne.1 (List.length_eq_zero_iff.mp h1)
    · rcases t1 with _ | a <;> rcases t2 with _ | b <;>
        simp [inspectCross, bind, Except.bind, hN] at h

/-- The hypotheses are met by irregular, unordered times starting at a negative value. -/
example : ValidCross [(1 : Cx ℝ), ⟨0, 1⟩, 2].length [(1 : Cx ℝ), 0, 1].length
      (some [5, -3, 0]) (some [1, 2, -2]) ∧
    Distinct (some [5, -3, 0]) ∧ Distinct (some [1, 2, -2]) ∧
    1 ≤ outLen (M := ℝ) (some 4) none (defaultN 3 (some [5, -3, 0]) (some [1, 2, -2])) ∧
    outLen (M := ℝ) (some 4) none (defaultN 3 (some [5, -3, 0]) (some [1, 2, -2]))
      ≤ defaultN 3 (some [5, -3, 0]) (some [1, 2, -2]) + 1 := by
  refine ⟨by simp [ValidCross], ?_, ?_, by simp [outLen], by simp [outLen, defaultN]⟩ <;>
  · intro l h
    rw [← Option.some.inj h]
    decide

/-! ### The limits of C09 are sharp -/

/-- Regular data, two ones, four delays: the FFT result wraps around, the direct one does not. -/
theorem C09_aliasing :
    crossCorrelateFft [1, 1] [1, 1] none none (some 4) none = .ok [2, 2, 0, 2] ∧
    crossCorrelate ([1, 1] : List (Cx ℝ)) [1, 1] none none (some 4) false none
      = .ok [2, 2, 0, 0] := by
  constructor
  · unfold crossCorrelateFft
    rw [show ([1, 1] : List (Cx ℝ)).length = 2 from rfl, inspectCross_none]
    simp only [bind, Except.bind, fullLengthCross, defaultOut, Option.getD,
      crossCorrFftRegular]
    have h := regular_holds ([1, 1] : List (Cx ℝ)) (by simp) rfl
    rw [fftProduct_holds (by simp) h h]
    simp [foldReal, npIadd, iaddTail, revSlice, revLen, bind, Except.bind, List.range_succ,
      circSum, regular, cxProd, List.replicate]
    norm_num
  · rw [crossCorrelate_ok _ _ _ _ _ _ _ (by simp [ValidCross]) (by simp)]
    simp [addSeq, startOut, outLen, pairSum_eq, stream, regular, List.replicate, reProd]
    norm_num

/-- Two frames with the same time stamp: the FFT method keeps only the second one. -/
theorem C09_duplicates :
    autoCorrelateFft [1, ⟨2, 0⟩] (some [0, 0]) none none = .ok [4] ∧
    autoCorrelate ([1, ⟨2, 0⟩] : List (Cx ℝ)) (some [0, 0]) none false none = .ok [7] := by
  constructor
  · unfold autoCorrelateFft
    obtain ⟨c, hc1, hc2, hc⟩ := inspectAuto_some' (a := [0, 0]) 2 (by simp) none none
    simp at hc1 hc2
    subst hc2
    rw [show ([1, ⟨2, 0⟩] : List (Cx ℝ)).length = 2 from rfl]
    simp only [Option.map_none]
    rw [hc]
    simp [bind, Except.bind, fullLengthAuto, npMin, npMax, List.min?, List.max?, defaultOut,
      defaultN, checkDims, autoCorrFft, fillData, forRange, List.range_succ, pyIdx, orUB,
      List.replicate]
    have h := regular_holds ([⟨2, 0⟩] : List (Cx ℝ)) (by simp) rfl
    rw [show [(⟨2, 0⟩ : Cx ℝ), 0] = [⟨2, 0⟩] ++ List.replicate ([⟨2, 0⟩] : List (Cx ℝ)).length 0
      from rfl, fftPower_holds (by simp) h]
    simp [npIadd, List.range_succ, circSum, regular, cxProd]
    norm_num
  · rw [autoCorrelate_ok _ _ _ _ _ (by simp [ValidAuto])]
    simp [addSeq, startOut, outLen, selfSum_eq, stream, selfPairs, reProd, defaultN]
    norm_num

/-- The empty signal: the FFT method raises ValueError, the direct method returns zeros. -/
theorem C09_empty :
    crossCorrelateFft [] [] none none (some 2) none = .error .valueError ∧
    crossCorrelate ([] : List (Cx ℝ)) [] none none (some 2) false none = .ok [0, 0] := by
  constructor
  · unfold crossCorrelateFft
    rw [show ([] : List (Cx ℝ)).length = 0 from rfl, inspectCross_none]
    rfl
  · rw [crossCorrelate_ok _ _ _ _ _ _ _ (by simp [ValidCross]) (by simp)]
    simp [addSeq, startOut, outLen, pairSum_eq, stream, regular, List.replicate]

/-! ### C10 -/

/-- `cross_sum_fft(complex = False)` for real data. -/
theorem C10_cross_sum (f : List ℝ) (t1 t2 : List Int) (n : Option Nat) (inv : Bool)
    (aout : Option (List ℝ)) (hv : ValidSum f.length (some t1) (some t2))
    (hd1 : t1.Nodup) (hd2 : t2.Nodup)
    (h1 : 1 ≤ outLen n aout (defaultN f.length (some t1) (some t2)))
    (h2 : outLen n aout (defaultN f.length (some t1) (some t2))
      ≤ defaultN f.length (some t1) (some t2) + 1) :
    crossSumFftApi crossSumFftR crossSumComplexFftR f (some t1) (some t2) n false inv aout
      = crossSumApi f (some t1) (some t2) n false inv aout := by
  rw [crossSumFftApi_real_ok sumKernelsR f t1 t2 n inv aout hv hd1 hd2 h1 h2,
    crossSumApi_real_ok f _ _ n inv aout hv (by simp)]

/-- `cross_sum_fft(complex = False)` for complex data. -/
theorem C10_cross_sum_cdata (f : List (Cx ℝ)) (t1 t2 : List Int) (n : Option Nat) (inv : Bool)
    (aout : Option (List (Cx ℝ))) (hv : ValidSum f.length (some t1) (some t2))
    (hd1 : t1.Nodup) (hd2 : t2.Nodup)
    (h1 : 1 ≤ outLen n aout (defaultN f.length (some t1) (some t2)))
    (h2 : outLen n aout (defaultN f.length (some t1) (some t2))
      ≤ defaultN f.length (some t1) (some t2) + 1) :
    crossSumFftApi crossSumFftC crossSumComplexFftC f (some t1) (some t2) n false inv aout
      = crossSumApi f (some t1) (some t2) n false inv aout := by
  rw [crossSumFftApi_real_ok sumKernelsC f t1 t2 n inv aout hv hd1 hd2 h1 h2,
    crossSumApi_real_ok f _ _ n inv aout hv (by simp)]

/-- `cross_sum_fft(complex = True)` (signed delays) for real data, also with time inversion. -/
theorem C10_cross_sum_complex (f : List ℝ) (t1 t2 : List Int) (n : Option Nat) (inv : Bool)
    (aout : Option (List ℝ)) (hv : ValidSum f.length (some t1) (some t2))
    (hd1 : t1.Nodup) (hd2 : t2.Nodup)
    (hodd : outLenFull n aout (defaultN f.length (some t1) (some t2)) % 2 = 1)
    (h2 : (outLenFull n aout (defaultN f.length (some t1) (some t2)) + 1) / 2
      ≤ defaultN f.length (some t1) (some t2) + 1) :
    crossSumFftApi crossSumFftR crossSumComplexFftR f (some t1) (some t2) n true inv aout
      = crossSumApi f (some t1) (some t2) n true inv aout := by
  rw [crossSumFftApi_full_ok sumKernelsR f t1 t2 n inv aout hv hd1 hd2 hodd h2,
    crossSumApi_full_ok f _ _ n inv aout hv hodd (by simp)]

/-- `cross_sum_fft(complex = True)` for complex data. -/
theorem C10_cross_sum_complex_cdata (f : List (Cx ℝ)) (t1 t2 : List Int) (n : Option Nat)
    (inv : Bool) (aout : Option (List (Cx ℝ))) (hv : ValidSum f.length (some t1) (some t2))
    (hd1 : t1.Nodup) (hd2 : t2.Nodup)
    (hodd : outLenFull n aout (defaultN f.length (some t1) (some t2)) % 2 = 1)
    (h2 : (outLenFull n aout (defaultN f.length (some t1) (some t2)) + 1) / 2
      ≤ defaultN f.length (some t1) (some t2) + 1) :
    crossSumFftApi crossSumFftC crossSumComplexFftC f (some t1) (some t2) n true inv aout
      = crossSumApi f (some t1) (some t2) n true inv aout := by
  rw [crossSumFftApi_full_ok sumKernelsC f t1 t2 n inv aout hv hd1 hd2 hodd h2,
    crossSumApi_full_ok f _ _ n inv aout hv hodd (by simp)]

/-- `auto_sum_fft` for real data. -/
theorem C10_auto_sum (f : List ℝ) (t : List Int) (n : Option Nat)
    (aout : Option (List ℝ)) (hv : ValidAuto f.length (some t)) (hd : t.Nodup)
    (h1 : 1 ≤ outLen n aout (defaultN f.length (some t) (some t)))
    (h2 : outLen n aout (defaultN f.length (some t) (some t))
      ≤ defaultN f.length (some t) (some t) + 1) :
    autoSumFftApi crossSumFftR f (some t) n aout = autoSumApi ℝ f (some t) n aout := by
  rw [autoSumFftApi_ok sumKernelsR f t n aout hv hd h1 h2,
    autoSumApi_ok ℝ f _ n aout hv (by simp)]

/-- `auto_sum_fft` for complex data. -/
theorem C10_auto_sum_cdata (f : List (Cx ℝ)) (t : List Int) (n : Option Nat)
    (aout : Option (List (Cx ℝ))) (hv : ValidAuto f.length (some t)) (hd : t.Nodup)
    (h1 : 1 ≤ outLen n aout (defaultN f.length (some t) (some t)))
    (h2 : outLen n aout (defaultN f.length (some t) (some t))
      ≤ defaultN f.length (some t) (some t) + 1) :
    autoSumFftApi crossSumFftC f (some t) n aout = autoSumApi ℝ f (some t) n aout := by
  rw [autoSumFftApi_ok sumKernelsC f t n aout hv hd h1 h2,
    autoSumApi_ok ℝ f _ n aout hv (by simp)]

/-- Regular data is refused, as documented. -/
theorem C10_regular_rejected {M : Type} [AddCommGroup M]
    (kR kC : List M → List (Cx ℝ) → List Int → Nat → List M → Py (List M))
    (f : List M) (n : Option Nat) (inv : Bool) (aout : Option (List M)) :
    crossSumFftApi kR kC f none none n false inv aout = .error .valueError := by
  unfold crossSumFftApi
  rw [inspectCross_none]
  simp only [bind, Except.bind, fullLengthCross]
  rw [defaultOut_real]

/-- The hypotheses of C10 are met with time stamps of different numbers. -/
example : ValidSum [(1 : ℝ), 2, 3].length (some [5, -3, 0]) (some [1, 2]) ∧
    [5, -3, (0 : Int)].Nodup ∧ [1, (2 : Int)].Nodup ∧
    outLenFull (M := ℝ) (some 3) none (defaultN 3 (some [5, -3, 0]) (some [1, 2])) % 2 = 1 ∧
    (outLenFull (M := ℝ) (some 3) none (defaultN 3 (some [5, -3, 0]) (some [1, 2])) + 1) / 2
      ≤ defaultN 3 (some [5, -3, 0]) (some [1, 2]) + 1 := by
  refine ⟨by simp [ValidSum], by decide, by decide, by simp [outLenFull],
    by simp [outLenFull, defaultN]⟩

end Cddm
