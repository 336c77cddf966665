import Verif.Lemmas.Stamp64Vec
import Verif.Props.Vec
import Verif.Props.Stamp64

/-!
# C113: time stamps of 64 bits, several pixels at once

Every pixel of a stack of frames gets what the single-signal function computes with unbounded stamps (C01-C06, C17).
-/

namespace Cddm
open Spec
variable {R : Type} [CommRing R]

/-- C113 for stacks of frames: `cross_correlate`.  Missing as for one signal: stamps `2^63 - 1` or more apart. -/
theorem C113_cross_correlate_frames_partial (f1 f2 : Frames (Cx R)) (t1 t2 : Option (List Int)) (n : Option Nat)
    (align : Bool) (aout : Option (Frames R)) (hw : f2.width = f1.width) (h0 : 0 < f1.width)
    (ho : OutShape aout f1.width) (hc : CloseStamps (allStamps t1 ++ allStamps t2)) (hN : f1.rows.length ≤ 2 ^ 63) :
    crossCorrelateFrames64 f1 f2 t1 t2 n align aout
      = (List.range f1.width).mapM fun p =>
        crossCorrelate (col p f1.rows) (col p f2.rows) t1 t2 n align (outRow aout p) := by
  rw [← C17_cross_correlate f1 f2 t1 t2 n align aout hw h0 ho]
  exact crossFrames64_eq crossCorrRegular crossCorrVec64 crossCorrVec crossCorrVec64_eq f1 f2 t1 t2 n align false aout hc hN

/-- C113 for stacks of frames: `cross_correlate(complex = True)`.  Missing as for one signal: stamps `2^63 - 1` or more apart. -/
theorem C113_cross_correlate_complex_frames_partial (f1 f2 : Frames (Cx R)) (t1 t2 : Option (List Int)) (n : Option Nat)
    (align : Bool) (aout : Option (Frames (Cx R))) (hw : f2.width = f1.width) (h0 : 0 < f1.width)
    (ho : OutShape aout f1.width) (hc : CloseStamps (allStamps t1 ++ allStamps t2)) (hN : f1.rows.length ≤ 2 ^ 63) :
    crossCorrelateComplexFrames64 f1 f2 t1 t2 n align aout
      = (List.range f1.width).mapM fun p =>
        crossCorrelateComplex (col p f1.rows) (col p f2.rows) t1 t2 n align (outRow aout p) := by
  rw [← C17_cross_correlate_complex f1 f2 t1 t2 n align aout hw h0 ho]
  exact crossFrames64_eq crossCorrComplexRegular crossCorrComplexVec64 crossCorrComplexVec crossCorrComplexVec64_eq f1 f2 t1 t2 n align true aout hc hN

/-- C113 for stacks of frames: `cross_difference`.  Missing as for one signal: stamps `2^63 - 1` or more apart. -/
theorem C113_cross_difference_frames_partial (f1 f2 : Frames (Cx R)) (t1 t2 : Option (List Int)) (n : Option Nat)
    (align : Bool) (aout : Option (Frames R)) (hw : f2.width = f1.width) (h0 : 0 < f1.width)
    (ho : OutShape aout f1.width) (hc : CloseStamps (allStamps t1 ++ allStamps t2)) (hN : f1.rows.length ≤ 2 ^ 63) :
    crossDifferenceFrames64 f1 f2 t1 t2 n align aout
      = (List.range f1.width).mapM fun p =>
        crossDifference (col p f1.rows) (col p f2.rows) t1 t2 n align (outRow aout p) := by
  rw [← C17_cross_difference f1 f2 t1 t2 n align aout hw h0 ho]
  exact crossFrames64_eq crossDiffRegular crossDiffVec64 crossDiffVec crossDiffVec64_eq f1 f2 t1 t2 n align false aout hc hN

/-- C113 for stacks of frames: `auto_correlate`. -/
theorem C113_auto_correlate_frames_partial (f : Frames (Cx R)) (t : Option (List Int)) (n : Option Nat)
    (align : Bool) (aout : Option (Frames R)) (h0 : 0 < f.width) (ho : OutShape aout f.width)
    (hc : CloseStamps (allStamps t)) (hN : f.rows.length ≤ 2 ^ 63) :
    autoCorrelateFrames64 f t n align aout
      = (List.range f.width).mapM fun p => autoCorrelate (col p f.rows) t n align (outRow aout p) := by
  rw [← C17_auto_correlate f t n align aout h0 ho]
  exact autoFrames64_eq autoCorrRegular autoCorrVec64 autoCorrVec autoCorrVec64_eq f t n align aout hc hN

/-- C113 for stacks of frames: `auto_correlate(complex = True)`. -/
theorem C113_auto_correlate_complex_frames_partial (f : Frames (Cx R)) (t : Option (List Int)) (n : Option Nat)
    (align : Bool) (aout : Option (Frames (Cx R))) (h0 : 0 < f.width) (ho : OutShape aout f.width)
    (hc : CloseStamps (allStamps t)) (hN : f.rows.length ≤ 2 ^ 63) :
    autoCorrelateComplexFrames64 f t n align aout
      = (List.range f.width).mapM fun p => autoCorrelateComplex (col p f.rows) t n align (outRow aout p) := by
  rw [← C17_auto_correlate_complex f t n align aout h0 ho]
  exact autoFrames64_eq autoCorrComplexRegular autoCorrComplexVec64 autoCorrComplexVec autoCorrComplexVec64_eq f t n align aout hc hN

/-- C113 for stacks of frames: `auto_difference`. -/
theorem C113_auto_difference_frames_partial (f : Frames (Cx R)) (t : Option (List Int)) (n : Option Nat)
    (align : Bool) (aout : Option (Frames R)) (h0 : 0 < f.width) (ho : OutShape aout f.width)
    (hc : CloseStamps (allStamps t)) (hN : f.rows.length ≤ 2 ^ 63) :
    autoDifferenceFrames64 f t n align aout
      = (List.range f.width).mapM fun p => autoDifference (col p f.rows) t n align (outRow aout p) := by
  rw [← C17_auto_difference f t n align aout h0 ho]
  exact autoFrames64_eq autoDiffRegular autoDiffVec64 autoDiffVec autoDiffVec64_eq f t n align aout hc hN

section
variable {M : Type} [AddCommGroup M]

omit [CommRing R]

/-- C113 for stacks of frames: `cross_sum`. -/
theorem C113_cross_sum_frames_partial (f : Frames M) (t tOther : Option (List Int)) (n : Option Nat)
    (complex timeInversion : Bool) (aout : Option (Frames M)) (h0 : 0 < f.width)
    (ho : OutShape aout f.width) (hc : CloseStamps (allStamps t ++ allStamps tOther)) :
    crossSumFrames64 f t tOther n complex timeInversion aout
      = (List.range f.width).mapM fun p =>
        crossSumApi (col p f.rows) t tOther n complex timeInversion (outRow aout p) := by
  rw [← C17_cross_sum f t tOther n complex timeInversion aout h0 ho]
  exact crossSumFrames64_eq f t tOther n complex timeInversion aout hc

/-- C113 for stacks of frames: `auto_sum`. -/
theorem C113_auto_sum_frames_partial (K : Type) [Field K] [Module K M] (f : Frames M) (t : Option (List Int))
    (n : Option Nat) (aout : Option (Frames M)) (h0 : 0 < f.width) (ho : OutShape aout f.width)
    (hc : CloseStamps (allStamps t)) :
    autoSumFrames64 K f t n aout
      = (List.range f.width).mapM fun p => autoSumApi K (col p f.rows) t n (outRow aout p) := by
  rw [← C17_auto_sum K f t n aout h0 ho]
  exact autoSumFrames64_eq K f t n aout hc

end

/-- C113 for stacks of frames, the numbers themselves: at each pixel the sums over the pairs of its samples. -/
theorem C113_frames_entries_partial (f1 f2 : Frames (Cx R)) (t1 t2 : Option (List Int)) (n : Option Nat)
    (align : Bool) (hw : f2.width = f1.width) (h0 : 0 < f1.width)
    (hv : ValidCross f1.rows.length f2.rows.length t1 t2)
    (hn : t1 = none → align = true → n.getD f1.rows.length ≤ f1.rows.length + 1)
    (hc : CloseStamps (allStamps t1 ++ allStamps t2)) (hN : f1.rows.length ≤ 2 ^ 63) :
    ∃ out, crossCorrelateFrames64 f1 f2 t1 t2 n align none = .ok out
      ∧ out.length = f1.width
      ∧ ∀ p (hp : p < out.length), out[p].length = n.getD (defaultN f1.rows.length t1 t2)
        ∧ ∀ k (hk : k < out[p].length),
          out[p][k] = pairSum reProd (stream (col p f1.rows) t1) (stream (col p f2.rows) t2) k := by
  have e : crossCorrelateFrames64 f1 f2 t1 t2 n align none = crossCorrelateFrames f1 f2 t1 t2 n align none :=
    crossFrames64_eq crossCorrRegular crossCorrVec64 crossCorrVec crossCorrVec64_eq f1 f2 t1 t2 n align false none hc hN
  rw [e]
  exact C17_entries f1 f2 t1 t2 n align hw h0 hv hn

/-- Three frames of two pixels; the stamps are those of a clock in nanoseconds. -/
example : crossCorrelateFrames64 exFrames1 exFrames2 (some [10 ^ 18, 10 ^ 18 + 1, 10 ^ 18 + 3])
      (some [10 ^ 18, 10 ^ 18 + 2, 10 ^ 18 + 3]) (some 3) true none
    = (List.range 2).mapM fun p => crossCorrelate (col p exFrames1.rows) (col p exFrames2.rows)
        (some [10 ^ 18, 10 ^ 18 + 1, 10 ^ 18 + 3]) (some [10 ^ 18, 10 ^ 18 + 2, 10 ^ 18 + 3]) (some 3) true none :=
  C113_cross_correlate_frames_partial exFrames1 exFrames2 _ _ _ true none rfl (by decide)
    (fun o h => by simp at h) (by unfold CloseStamps allStamps; decide) (by decide)

/-- C113 fails for stacks of frames with stamps exactly `2^63` apart: memory in front of the array is addressed. -/
theorem C113_frames_outside_refuted : autoCorrelateFrames64 (R := Int) ⟨2, [[⟨1, 0⟩, ⟨2, 0⟩], [⟨10, 0⟩, ⟨3, 0⟩]], by decide⟩
    (some [-(2 ^ 63), 0]) (some 2) true none = .error .undefined := by
  decide

/-- C113 fails for stacks of frames with stamps at both ends of the range: delay `2^64 - 1` is taken for delay 1. -/
theorem C113_frames_refuted : autoCorrelateFrames64 (R := Int) ⟨2, [[⟨1, 0⟩, ⟨2, 0⟩], [⟨10, 0⟩, ⟨3, 0⟩]], by decide⟩
    (some [-(2 ^ 63), 2 ^ 63 - 1]) (some 2) true none = .ok [[101, 10], [13, 6]] := by
  decide

end Cddm
