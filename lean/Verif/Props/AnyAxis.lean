import Verif.Lemmas.AnyAxisAuto
import Verif.Props.Correlation
import Verif.Props.Regular

/-!
# C116: arrays of any number of axes, any computation axis

The functions of `cddm/core.py` compute along the axis named, for each pixel alone; the axis of the delays is the last of
the result.
-/

namespace Cddm
open Spec

section
variable {M : Type} [Zero M]

theorem outLen_of_ok {n : Option Nat} {aout : Option (List M)} {N m : Nat} {t} {out : List M}
    (h1 : inspectCross N N none none n (aout.map List.length) false = .ok (t, m))
    (h2 : defaultOut aout m false = .ok out) : out.length = outLen n aout N := by
  rw [inspectCross_none] at h1
  simp only [Except.ok.injEq, Prod.mk.injEq] at h1
  rcases aout with _ | o
  · simp only [defaultOut, Bool.false_eq_true, if_false, Except.ok.injEq] at h2
    rw [← h2, List.length_replicate]
    cases n <;> simp_all [outLen]
  · simp only [defaultOut, Except.ok.injEq] at h2
    simp [outLen, h2]

theorem outLen_of_ok_auto {n : Option Nat} {aout : Option (List M)} {N m : Nat} {t} {out : List M}
    (h1 : inspectAuto N none n (aout.map List.length) = .ok (t, m))
    (h2 : defaultOut aout m false = .ok out) : out.length = outLen n aout N := by
  rw [inspectAuto_none] at h1
  simp only [Except.ok.injEq, Prod.mk.injEq] at h1
  rcases aout with _ | o
  · simp only [defaultOut, Bool.false_eq_true, if_false, Except.ok.injEq] at h2
    rw [← h2, List.length_replicate]
    cases n <;> simp_all [outLen]
  · simp only [defaultOut, Except.ok.injEq] at h2
    simp [outLen, h2]

theorem outLenFull_of_ok {n : Option Nat} {aout : Option (List M)} {N m : Nat} {t} {out : List M}
    (h1 : inspectCross N N none none n (aout.map List.length) true = .ok (t, m))
    (h2 : defaultOut aout m true = .ok out) : out.length = outLenFull n aout N := by
  rw [inspectCross_none] at h1
  simp only [Except.ok.injEq, Prod.mk.injEq] at h1
  rcases aout with _ | o
  · simp only [defaultOut, if_true] at h2
    by_cases hm : m = 0
    · simp [hm] at h2
    · rw [if_neg hm, Except.ok.injEq] at h2
      rw [← h2, List.length_replicate]
      cases n <;> simp_all [outLenFull]
  · simp only [defaultOut, Except.ok.injEq] at h2
    simp [outLenFull, h2]

end

section
variable {R : Type} [CommRing R]

/-- **C116.** `cross_correlate` of arrays of any number of axes is, at each pixel, `cross_correlate` of the signals of that
pixel along the axis. -/
theorem C116_cross_correlate (f1 f2 : Tensor (Cx R)) (t1 t2 : Option (List Int)) (axis : Int) (n : Option Nat)
    (align contiguous : Bool) (aout : Option (Tensor R)) (ax : Nat) (hs : f2.shape = f1.shape)
    (hax : NamesAxis f1.shape.length axis ax) (hfit : OutFits (frameShape f1.shape ax) aout)
    (hfast : t1 = none → isAligned f1.shape.length axis contiguous align = true → ∀ p,
      outLen n (outAt (frameShape f1.shape ax) aout p) (f1.shape.getD ax 0) ≤ f1.shape.getD ax 0 + 1) :
    PixelWise (frameShape f1.shape ax) (crossCorrelateAny f1 f2 t1 t2 axis n align contiguous aout) fun p =>
      crossCorrelate (along f1 ax p) (along f2 ax p) t1 t2 n (isAligned f1.shape.length axis contiguous align)
        (outAt (frameShape f1.shape ax) aout p) :=
  crossAny_pixelWise crossCorrRegular crossCorrVec_sim f1 f2 t1 t2 axis n align contiguous false aout hs hax hfit
    fun h1 h2 p _ m out e1 e2 =>
      ⟨_, crossCorrRegular_eq _ _ out (by rw [along_length, along_length, hs])
        (by rw [outLen_of_ok e1 e2, along_length]; exact hfast h1 h2 p), by simp [addSeq]⟩

/-- C116 for the complex-valued correlation. -/
theorem C116_cross_correlate_complex (f1 f2 : Tensor (Cx R)) (t1 t2 : Option (List Int)) (axis : Int) (n : Option Nat)
    (align contiguous : Bool) (aout : Option (Tensor (Cx R))) (ax : Nat) (hs : f2.shape = f1.shape)
    (hax : NamesAxis f1.shape.length axis ax) (hfit : OutFits (frameShape f1.shape ax) aout)
    (hfast : t1 = none → isAligned f1.shape.length axis contiguous align = true → ∀ p,
      outLenFull n (outAt (frameShape f1.shape ax) aout p) (f1.shape.getD ax 0) % 2 = 1 ∧
      (outLenFull n (outAt (frameShape f1.shape ax) aout p) (f1.shape.getD ax 0) + 1) / 2 ≤ f1.shape.getD ax 0 + 1) :
    PixelWise (frameShape f1.shape ax) (crossCorrelateComplexAny f1 f2 t1 t2 axis n align contiguous aout) fun p =>
      crossCorrelateComplex (along f1 ax p) (along f2 ax p) t1 t2 n (isAligned f1.shape.length axis contiguous align)
        (outAt (frameShape f1.shape ax) aout p) :=
  crossAny_pixelWise crossCorrComplexRegular crossCorrComplexVec_sim f1 f2 t1 t2 axis n align contiguous true aout hs hax
    hfit fun h1 h2 p _ m out e1 e2 =>
      ⟨_, crossCorrComplexRegular_eq _ _ out (by rw [along_length, along_length, hs])
        (by rw [outLenFull_of_ok e1 e2]; exact (hfast h1 h2 p).1)
        (by rw [outLenFull_of_ok e1 e2, along_length]; exact (hfast h1 h2 p).2), by simp [addSeq]⟩

/-- C116 for `cross_difference`. -/
theorem C116_cross_difference (f1 f2 : Tensor (Cx R)) (t1 t2 : Option (List Int)) (axis : Int) (n : Option Nat)
    (align contiguous : Bool) (aout : Option (Tensor R)) (ax : Nat) (hs : f2.shape = f1.shape)
    (hax : NamesAxis f1.shape.length axis ax) (hfit : OutFits (frameShape f1.shape ax) aout)
    (hfast : t1 = none → isAligned f1.shape.length axis contiguous align = true → ∀ p,
      outLen n (outAt (frameShape f1.shape ax) aout p) (f1.shape.getD ax 0) ≤ f1.shape.getD ax 0 + 1) :
    PixelWise (frameShape f1.shape ax) (crossDifferenceAny f1 f2 t1 t2 axis n align contiguous aout) fun p =>
      crossDifference (along f1 ax p) (along f2 ax p) t1 t2 n (isAligned f1.shape.length axis contiguous align)
        (outAt (frameShape f1.shape ax) aout p) :=
  crossAny_pixelWise crossDiffRegular crossDiffVec_sim f1 f2 t1 t2 axis n align contiguous false aout hs hax hfit
    fun h1 h2 p _ m out e1 e2 =>
      ⟨_, crossDiffRegular_eq _ _ out (by rw [along_length, along_length, hs])
        (by rw [outLen_of_ok e1 e2, along_length]; exact hfast h1 h2 p), by simp [addSeq]⟩

/-- C116 for `auto_correlate`: no condition on the number of delays. -/
theorem C116_auto_correlate (f : Tensor (Cx R)) (t : Option (List Int)) (axis : Int) (n : Option Nat)
    (align contiguous : Bool) (aout : Option (Tensor R)) (ax : Nat)
    (hax : NamesAxis f.shape.length axis ax) (hfit : OutFits (frameShape f.shape ax) aout) :
    PixelWise (frameShape f.shape ax) (autoCorrelateAny f t axis n align contiguous aout) fun p =>
      autoCorrelate (along f ax p) t n (isAligned f.shape.length axis contiguous align)
        (outAt (frameShape f.shape ax) aout p) :=
  autoAny_pixelWise autoCorrRegular autoCorrVec_sim f t axis n align contiguous aout hax hfit
    fun _ _ p _ m out e1 e2 => ⟨_, autoCorrRegular_eq _ out, by simp [addSeq]⟩

/-- C116 for the complex-valued `auto_correlate`. -/
theorem C116_auto_correlate_complex (f : Tensor (Cx R)) (t : Option (List Int)) (axis : Int) (n : Option Nat)
    (align contiguous : Bool) (aout : Option (Tensor (Cx R))) (ax : Nat)
    (hax : NamesAxis f.shape.length axis ax) (hfit : OutFits (frameShape f.shape ax) aout)
    (hfast : t = none → isAligned f.shape.length axis contiguous align = true → ∀ p,
      outLen n (outAt (frameShape f.shape ax) aout p) (f.shape.getD ax 0) ≤ f.shape.getD ax 0 + 1) :
    PixelWise (frameShape f.shape ax) (autoCorrelateComplexAny f t axis n align contiguous aout) fun p =>
      autoCorrelateComplex (along f ax p) t n (isAligned f.shape.length axis contiguous align)
        (outAt (frameShape f.shape ax) aout p) :=
  autoAny_pixelWise autoCorrComplexRegular autoCorrComplexVec_sim f t axis n align contiguous aout hax hfit
    fun h1 h2 p _ m out e1 e2 => ⟨_, autoCorrComplexRegular_eq _ out
      (by rw [outLen_of_ok_auto e1 e2, along_length]; exact hfast h1 h2 p), by simp [addSeq]⟩

/-- C116 for `auto_difference`. -/
theorem C116_auto_difference (f : Tensor (Cx R)) (t : Option (List Int)) (axis : Int) (n : Option Nat)
    (align contiguous : Bool) (aout : Option (Tensor R)) (ax : Nat)
    (hax : NamesAxis f.shape.length axis ax) (hfit : OutFits (frameShape f.shape ax) aout) :
    PixelWise (frameShape f.shape ax) (autoDifferenceAny f t axis n align contiguous aout) fun p =>
      autoDifference (along f ax p) t n (isAligned f.shape.length axis contiguous align)
        (outAt (frameShape f.shape ax) aout p) :=
  autoAny_pixelWise autoDiffRegular autoDiffVec_sim f t axis n align contiguous aout hax hfit
    fun _ _ p _ m out e1 e2 => ⟨_, autoDiffRegular_eq _ out, by simp [addSeq]⟩

end

section
variable {M : Type} [AddCommGroup M]

/-- C116 for `cross_sum`. -/
theorem C116_cross_sum (f : Tensor M) (t tOther : Option (List Int)) (axis : Int) (n : Option Nat)
    (inv : Bool) (aout : Option (Tensor M)) (ax : Nat)
    (hax : NamesAxis f.shape.length axis ax) (hfit : OutFits (frameShape f.shape ax) aout)
    (hfast : t = none → ∀ p,
      outLen n (outAt (frameShape f.shape ax) aout p) (f.shape.getD ax 0) ≤ f.shape.getD ax 0 + 1) :
    PixelWise (frameShape f.shape ax) (crossSumAny f t tOther axis n false inv aout) fun p =>
      crossSumApi (along f ax p) t tOther n false inv (outAt (frameShape f.shape ax) aout p) :=
  crossSumAny_pixelWise f t tOther axis n false inv aout hax hfit fun h p _ m out e1 e2 =>
    ⟨_, crossSumRegular_eq _ out (by rw [outLen_of_ok e1 e2, along_length]; exact hfast h p), by simp [addSeq]⟩

/-- C116 for `cross_sum(complex = True)`. -/
theorem C116_cross_sum_complex (f : Tensor M) (t tOther : Option (List Int)) (axis : Int) (n : Option Nat)
    (inv : Bool) (aout : Option (Tensor M)) (ax : Nat)
    (hax : NamesAxis f.shape.length axis ax) (hfit : OutFits (frameShape f.shape ax) aout)
    (hfast : t = none → ∀ p,
      outLenFull n (outAt (frameShape f.shape ax) aout p) (f.shape.getD ax 0) % 2 = 1 ∧
      (outLenFull n (outAt (frameShape f.shape ax) aout p) (f.shape.getD ax 0) + 1) / 2 ≤ f.shape.getD ax 0 + 1) :
    PixelWise (frameShape f.shape ax) (crossSumAny f t tOther axis n true inv aout) fun p =>
      crossSumApi (along f ax p) t tOther n true inv (outAt (frameShape f.shape ax) aout p) := by
  refine crossSumAny_pixelWise f t tOther axis n true inv aout hax hfit fun h p _ m out e1 e2 => ?_
  have a1 : out.length % 2 = 1 := by rw [outLenFull_of_ok e1 e2]; exact (hfast h p).1
  have a2 : (out.length + 1) / 2 ≤ (along f ax p).length + 1 := by
    rw [outLenFull_of_ok e1 e2, along_length]; exact (hfast h p).2
  cases inv
  · exact ⟨_, crossSumComplexRegular_eq _ out a1 a2, by simp [addSeq]⟩
  · exact ⟨_, crossSumComplexRegularInverted_eq _ out a1 a2, by simp [addSeq]⟩

/-- C116 for `auto_sum`. -/
theorem C116_auto_sum (K : Type) [Field K] [Module K M] (f : Tensor M) (t : Option (List Int)) (axis : Int)
    (n : Option Nat) (aout : Option (Tensor M)) (ax : Nat)
    (hax : NamesAxis f.shape.length axis ax) (hfit : OutFits (frameShape f.shape ax) aout)
    (hfast : t = none → ∀ p,
      outLen n (outAt (frameShape f.shape ax) aout p) (f.shape.getD ax 0) ≤ f.shape.getD ax 0 + 1) :
    PixelWise (frameShape f.shape ax) (autoSumAny K f t axis n aout) fun p =>
      autoSumApi K (along f ax p) t n (outAt (frameShape f.shape ax) aout p) :=
  autoSumAny_pixelWise K f t axis n aout hax hfit fun h p _ m out e1 e2 =>
    ⟨_, crossSumRegular_eq _ _ (by
      rw [List.length_replicate, outLen_of_ok_auto e1 e2, along_length]; exact hfast h p), by simp [addSeq]⟩

end

/-! ### What it amounts to -/

section
variable {M : Type}

/-- A computation that acts on each pixel alone and succeeds at one pixel succeeds; its result holds there what that pixel gives. -/
theorem pixelWise_value {frame : List Nat} {res : Py (Tensor M)} {one : List Nat → Py (List M)}
    (h : PixelWise frame res one) {p : List Nat} (hp : InShape p frame) {l : List M} (hl : one p = .ok l) :
    ∃ out, res = .ok out ∧ out.shape = frame ++ [l.length] ∧ ∀ k (hk : k < l.length), out.get (p ++ [k]) = l[k] := by
  unfold PixelWise at h
  rcases res with e | r
  · have := h p hp
    rw [hl] at this
    cases this
  · obtain ⟨L, h1, h2⟩ := h
    have := h2 p hp
    rw [hl, along_eq_rowAt r h1 (inShape_length hp), Except.ok.injEq] at this
    subst this
    refine ⟨r, rfl, by rw [h1, rowAt_length], fun k hk => ?_⟩
    simp [rowAt]

end

section
variable {R : Type} [CommRing R]

/-- **C116.** For data of any shape and any valid axis, memory layout and `align`, the result of `cross_correlate` has the shape of the
frame with one more axis, and holds at pixel `p` and delay `k` the sum over the pairs of samples of that pixel `k` apart. -/
theorem C116_cross_values (f1 f2 : Tensor (Cx R)) (t1 t2 : Option (List Int)) (axis : Int) (n : Option Nat)
    (align contiguous : Bool) (aout : Option (Tensor R)) (ax : Nat) (hs : f2.shape = f1.shape)
    (hax : NamesAxis f1.shape.length axis ax) (hfit : OutFits (frameShape f1.shape ax) aout)
    (hv : ValidCross (f1.shape.getD ax 0) (f1.shape.getD ax 0) t1 t2)
    (hfast : t1 = none → isAligned f1.shape.length axis contiguous align = true → ∀ p,
      outLen n (outAt (frameShape f1.shape ax) aout p) (f1.shape.getD ax 0) ≤ f1.shape.getD ax 0 + 1)
    (p : List Nat) (hp : InShape p (frameShape f1.shape ax)) :
    ∃ out L, crossCorrelateAny f1 f2 t1 t2 axis n align contiguous aout = .ok out
      ∧ L = outLen n (outAt (frameShape f1.shape ax) aout p) (defaultN (f1.shape.getD ax 0) t1 t2)
      ∧ out.shape = frameShape f1.shape ax ++ [L]
      ∧ ∀ k, k < L → out.get (p ++ [k]) = start (outAt (frameShape f1.shape ax) aout p) k
          + pairSum reProd (stream (along f1 ax p) t1) (stream (along f2 ax p) t2) k := by
  have e1 : (along f1 ax p).length = f1.shape.getD ax 0 := along_length _ _ _
  have e2 : (along f2 ax p).length = f1.shape.getD ax 0 := by rw [along_length, hs]
  obtain ⟨l, h1, h2, h3⟩ := C01_cross_correlate (along f1 ax p) (along f2 ax p) t1 t2 n
    (isAligned f1.shape.length axis contiguous align) (outAt (frameShape f1.shape ax) aout p)
    (by rw [e1, e2]; exact hv) (by rw [e1]; exact fun a b => hfast a b p)
  obtain ⟨out, g1, g2, g3⟩ := pixelWise_value
    (C116_cross_correlate f1 f2 t1 t2 axis n align contiguous aout ax hs hax hfit hfast) hp h1
  rw [e1] at h2
  refine ⟨out, l.length, g1, h2, g2, fun k hk => ?_⟩
  rw [g3 k hk, h3 k hk]

/-- C116: the same for `auto_correlate`. -/
theorem C116_auto_values (f : Tensor (Cx R)) (t : Option (List Int)) (axis : Int) (n : Option Nat)
    (align contiguous : Bool) (aout : Option (Tensor R)) (ax : Nat)
    (hax : NamesAxis f.shape.length axis ax) (hfit : OutFits (frameShape f.shape ax) aout)
    (hv : ValidAuto (f.shape.getD ax 0) t)
    (p : List Nat) (hp : InShape p (frameShape f.shape ax)) :
    ∃ out L, autoCorrelateAny f t axis n align contiguous aout = .ok out
      ∧ L = outLen n (outAt (frameShape f.shape ax) aout p) (defaultN (f.shape.getD ax 0) t t)
      ∧ out.shape = frameShape f.shape ax ++ [L]
      ∧ ∀ k, k < L → out.get (p ++ [k]) = start (outAt (frameShape f.shape ax) aout p) k
          + selfSum reProd (stream (along f ax p) t) k := by
  have e1 : (along f ax p).length = f.shape.getD ax 0 := along_length _ _ _
  obtain ⟨l, h1, h2, h3⟩ := C03_auto_correlate (along f ax p) t n
    (isAligned f.shape.length axis contiguous align) (outAt (frameShape f.shape ax) aout p)
    (by rw [e1]; exact hv)
  obtain ⟨out, g1, g2, g3⟩ := pixelWise_value
    (C116_auto_correlate f t axis n align contiguous aout ax hax hfit) hp h1
  rw [e1] at h2
  refine ⟨out, l.length, g1, h2, g2, fun k hk => ?_⟩
  rw [g3 k hk, h3 k hk]

/-- C116: neither `align` nor the layout in memory nor the sign the axis is given with changes anything. -/
theorem C116_layout (f1 f2 : Tensor (Cx R)) (t1 t2 : Option (List Int)) (axis axis' : Int) (n : Option Nat)
    (align align' contiguous contiguous' : Bool) (aout : Option (Tensor R)) (ax : Nat) (hs : f2.shape = f1.shape)
    (hax : NamesAxis f1.shape.length axis ax) (hax' : NamesAxis f1.shape.length axis' ax)
    (hfit : OutFits (frameShape f1.shape ax) aout)
    (hv : ValidCross (f1.shape.getD ax 0) (f1.shape.getD ax 0) t1 t2)
    (hfast : t1 = none → ∀ p,
      outLen n (outAt (frameShape f1.shape ax) aout p) (f1.shape.getD ax 0) ≤ f1.shape.getD ax 0 + 1)
    (p : List Nat) (hp : InShape p (frameShape f1.shape ax)) :
    ∃ out out', crossCorrelateAny f1 f2 t1 t2 axis n align contiguous aout = .ok out
      ∧ crossCorrelateAny f1 f2 t1 t2 axis' n align' contiguous' aout = .ok out'
      ∧ out.shape = out'.shape
      ∧ ∀ k, k < out.shape.getLastD 0 → out.get (p ++ [k]) = out'.get (p ++ [k]) := by
  obtain ⟨out, L, h1, h2, h3, h4⟩ := C116_cross_values f1 f2 t1 t2 axis n align contiguous aout ax hs hax hfit hv
    (fun a _ => hfast a) p hp
  obtain ⟨out', L', h1', h2', h3', h4'⟩ := C116_cross_values f1 f2 t1 t2 axis' n align' contiguous' aout ax hs hax' hfit
    hv (fun a _ => hfast a) p hp
  have hL : L = L' := by rw [h2, h2']
  subst hL
  refine ⟨out, out', h1, h1', by rw [h3, h3'], fun k hk => ?_⟩
  rw [h3, List.getLastD_concat] at hk
  rw [h4 k hk, h4' k hk]

end

/-! ### Rejected arguments -/

section
variable {R : Type} [CommRing R]

theorem valid_isNone {N1 N2 : Nat} {t1 t2 : Option (List Int)} (hv : ValidCross N1 N2 t1 t2) :
    ¬ t1.isNone ≠ t2.isNone := by
  rcases t1 with _ | a <;> rcases t2 with _ | b <;> simp_all [ValidCross]

theorem resolveIdx_noAxis {ndim : Nat} {axis : Int} (h : ∀ ax, ¬ NamesAxis ndim axis ax) : resolveIdx ndim axis = none := by
  unfold resolveIdx
  by_cases h0 : 0 ≤ axis
  · rw [if_pos h0]
    by_cases h1 : axis < ndim
    · exact absurd ⟨by omega, Or.inl (by omega)⟩ (h axis.toNat)
    · rw [if_neg h1]
  · rw [if_neg h0]
    by_cases h1 : 0 ≤ axis + ndim
    · exact absurd ⟨by omega, Or.inr (by omega)⟩ (h (axis + ndim).toNat)
    · rw [if_neg h1]

/-- C116: an axis the data do not have is refused for data of two or more axes, also where all else is in order. -/
theorem C116_axis_rejected (f1 f2 : Tensor (Cx R)) (t1 t2 : Option (List Int)) (axis : Int) (n : Option Nat)
    (align contiguous : Bool) (aout : Option (Tensor R)) (hs : f2.shape = f1.shape) (hd : 2 ≤ f1.shape.length)
    (hno : ∀ ax, ¬ NamesAxis f1.shape.length axis ax) (hout : ∀ o, aout = some o → o.shape ≠ [])
    (N : Nat) (hv : ValidCross N N t1 t2) :
    crossCorrelateAny f1 f2 t1 t2 axis n align contiguous aout = .error .indexError := by
  have hne : ¬ (f1.shape = [] ∨ f1.shape ≠ f2.shape) := by
    rw [hs]
    rintro (h | h)
    · rw [h] at hd; simp at hd
    · exact h rfl
  have hlast : ∃ last, lastLength n aout = .ok last := by
    unfold lastLength
    split
    · rename_i o
      rw [if_neg (hout _ rfl)]
      exact ⟨_, rfl⟩
    · exact ⟨_, rfl⟩
  obtain ⟨last, hlast⟩ := hlast
  -- the inspection of the times does not depend on the number of samples
  have hI : ∀ N', ∃ t m, inspectCross N' N' t1 t2 n last false = .ok (t, m) := by
    intro N'
    rcases t1 with _ | a <;> rcases t2 with _ | b <;> simp only [ValidCross] at hv
    · exact ⟨_, _, inspectCross_none N' n last false⟩
    · obtain ⟨-, h1, h2, h0⟩ := hv
      obtain ⟨c, hc⟩ := inspectCross_some (a := a) (b := b) N' (by rintro rfl; simp at h1; omega)
        (by rintro rfl; simp at h2; omega) n last false
      exact ⟨_, _, hc⟩
  obtain ⟨t, m, hI⟩ := hI (f1.shape.getD 0 0)
  have h1 : ¬ (f1.shape.length = 1 ∧ (t1.isNone && ((n.isNone && aout.isNone) || !align)) = false) := by
    rintro ⟨h, -⟩
    omega
  unfold crossCorrelateAny crossAny
  rw [if_neg (valid_isNone hv), if_neg hne]
  simp only [resolveIdx_noAxis hno, Option.getD_none, hlast, hI, findAxis, bind, Except.bind, if_neg h1]

/-- C116: for one signal with its times, `axis` is not looked at: any number will do. -/
theorem C116_axis_ignored (f1 f2 : Tensor (Cx R)) (t1 t2 : List Int) (axis : Int) (n : Option Nat)
    (align contiguous : Bool) (aout : Option (Tensor R)) (hd : f1.shape.length = 1) :
    crossCorrelateAny f1 f2 (some t1) (some t2) axis n align contiguous aout
      = crossCorrelateAny f1 f2 (some t1) (some t2) 0 n align contiguous aout := by
  have hr : ∀ a : Int, (resolveIdx 1 a).getD 0 = 0 := by
    intro a
    unfold resolveIdx
    split_ifs <;> simp <;> omega
  have hf : ∀ a : Int, findAxis 1 a false = .ok 0 := by
    intro a
    unfold findAxis
    have := hr a
    rcases h : resolveIdx 1 a with _ | k
    · simp
    · rw [h] at this
      simp only [Option.getD_some] at this
      simp [this]
  unfold crossCorrelateAny crossAny
  simp only [hd, hr, hf, Option.isNone_some, Bool.false_and, ne_eq, not_true_eq_false, if_false]
  by_cases hc : f1.shape = [] ∨ ¬ f1.shape = f2.shape
  · rw [if_pos hc, if_pos hc]
  · rw [if_neg hc, if_neg hc]
    simp only [bind, Except.bind]
    rcases lastLength n aout with e | last
    · rfl
    · simp only
      generalize hN : f1.shape.getD 0 0 = N
      rcases hI : inspectCross N N (some t1) (some t2) n last false with e | ⟨t, m⟩
      · rfl
      · have ht : t ≠ none := by
          intro h
          have := (inspectCross_isNone (by simp) hI).1 h
          simp at this
        have : t.isNone = false := by simpa [Option.isSome_iff_ne_none] using ht
        simp only [this, Bool.false_and]

/-- C116: an output array that has not the shape of the frame with one more axis at the end is refused. -/
theorem C116_out_rejected (f1 f2 : Tensor (Cx R)) (t1 t2 : Option (List Int)) (axis : Int) (n : Option Nat)
    (align contiguous : Bool) (o : Tensor R) (ax : Nat) (hs : f2.shape = f1.shape)
    (hax : NamesAxis f1.shape.length axis ax) (hbad : ∀ L, o.shape ≠ frameShape f1.shape ax ++ [L]) :
    ∃ e, crossCorrelateAny f1 f2 t1 t2 axis n align contiguous (some o) = .error e := by
  have hl := hax.1
  have hfind : ∀ used, findAxis f1.shape.length axis used = .ok ax := by
    intro used
    simp only [findAxis, resolveIdx_axis hax]
  unfold crossCorrelateAny crossAny
  split_ifs with c1 c2
  · exact ⟨_, rfl⟩
  · exact ⟨_, rfl⟩
  simp only [resolveIdx_axis hax, Option.getD_some, hfind, bind, Except.bind]
  rcases lastLength n (some o) with e | last
  · exact ⟨e, rfl⟩
  simp only
  rcases inspectCross (f1.shape.getD ax 0) (f1.shape.getD ax 0) t1 t2 n last false with e | ⟨t, m⟩
  · exact ⟨e, rfl⟩
  simp only
  generalize (t.isNone && isAligned f1.shape.length axis contiguous align) = regular
  unfold applyKernels
  have hfl := frame_length hl
  have key : ∃ e, defaultOutAny (some o) (moveAxisAndAlign f1 ax (newAxis f1.shape.length regular)).shape m
      (newAxis f1.shape.length regular) false = .error e := by
    by_cases hr : regular = true ∨ f1.shape.length = 1
    · have e : newAxis f1.shape.length regular = f1.shape.length - 1 := if_pos hr
      rw [e, (moved_rows f1 hl).1, ← hfl]
      unfold defaultOutAny
      by_cases h1 : o.shape.length < (frameShape f1.shape ax ++ [f1.shape.getD ax 0]).length - (frameShape f1.shape ax).length
      · exact ⟨_, by simp only [if_pos h1]; rfl⟩
      · refine ⟨.valueError, ?_⟩
        simp only [if_neg h1]
        rw [if_pos]
        simp only [List.length_append, List.length_singleton, Nat.add_sub_cancel_left] at h1 ⊢
        obtain ⟨u, L, hu⟩ : ∃ u L, o.shape = u ++ [L] := by
          have : o.shape ≠ [] := by rintro h; rw [h] at h1; simp at h1
          exact ⟨_, _, (List.dropLast_append_getLast this).symm⟩
        intro hcon
        have e2 : o.shape.length - 1 = u.length := by rw [hu]; simp
        rw [e2] at hcon
        simp only [moveAxis, hu, eraseIdx_end, getD_end, pyInsert_end, List.getLastD_concat] at hcon
        refine hbad L ?_
        rw [hu, hcon]
        simp
    · push Not at hr
      have e : newAxis f1.shape.length regular = f1.shape.length - 2 := if_neg (by simp [hr])
      have hne : frameShape f1.shape ax ≠ [] := by
        intro h
        rw [h] at hfl
        simp at hfl
        omega
      obtain ⟨u, K, hu⟩ : ∃ u K, frameShape f1.shape ax = u ++ [K] :=
        ⟨_, _, (List.dropLast_append_getLast hne).symm⟩
      obtain ⟨h1, h2, -⟩ := moved_planes f1 hl hu
      rw [e, h1, h2]
      unfold defaultOutAny
      by_cases h3 : o.shape.length < (u ++ [f1.shape.getD ax 0, K]).length - u.length
      · exact ⟨_, by simp only [if_pos h3]; rfl⟩
      · refine ⟨.valueError, ?_⟩
        simp only [if_neg h3]
        rw [if_pos]
        have h4 : (u ++ [f1.shape.getD ax 0, K]).length - u.length = 2 := by simp
        rw [h4] at h3 ⊢
        obtain ⟨v, A, L, hv⟩ : ∃ v A L, o.shape = v ++ [A, L] := by
          have g1 : o.shape ≠ [] := by rintro h; rw [h] at h3; simp at h3
          have g2 : o.shape.dropLast ≠ [] := by
            intro h
            have := congrArg List.length h
            simp at this
            omega
          refine ⟨o.shape.dropLast.dropLast, o.shape.dropLast.getLast g2, o.shape.getLast g1, ?_⟩
          rw [show o.shape.dropLast.dropLast ++ [o.shape.dropLast.getLast g2, o.shape.getLast g1]
            = (o.shape.dropLast.dropLast ++ [o.shape.dropLast.getLast g2]) ++ [o.shape.getLast g1] by simp,
            List.dropLast_append_getLast, List.dropLast_append_getLast]
        intro hcon
        have e2 : o.shape.length - 2 = v.length := by rw [hv]; simp
        have e3 : o.shape.length - 1 = v.length + 1 := by rw [hv]; simp
        have e4 : (v ++ [A, L]).getLastD 0 = L := by
          rw [show v ++ [A, L] = (v ++ [A]) ++ [L] by simp, List.getLastD_concat]
        rw [e2, e3] at hcon
        simp only [moveAxis, hv, eraseIdx_pre, getD_pre, pyInsert_last, e4] at hcon
        have e5 : (u ++ [f1.shape.getD ax 0, K]).set u.length L = u ++ [L, K] := by simp
        rw [e5] at hcon
        have := List.append_inj' hcon rfl
        simp only [List.cons.injEq, and_true, true_and] at this
        refine hbad L ?_
        rw [hv, hu, this.1, this.2]
        simp
  obtain ⟨e, he⟩ := key
  exact ⟨e, by simp only [he, bind, Except.bind]⟩

end

/-! ### Examples -/

/-- Two rows of two pixels at three times; the axis of the times is the middle one. -/
def exAny : Tensor (Cx Int) := ⟨[2, 3, 2], fun p => ⟨(p.getD 0 0 * 6 + p.getD 1 0 * 2 + p.getD 2 0 : Nat), 1⟩⟩

/-- An output array that fits. -/
def exAnyOut : Tensor Int := ⟨[2, 2, 2], fun p => (p.getD 2 0 : Nat)⟩

example : NamesAxis 3 1 1 ∧ NamesAxis 3 (-2) 1 := by simp [NamesAxis]
example : frameShape exAny.shape 1 = [2, 2] ∧ InShape [1, 0] [2, 2] := by
  refine ⟨rfl, ?_⟩
  simp [InShape]
example : OutFits (frameShape exAny.shape 1) (some exAnyOut) := by
  intro o ho
  simp only [Option.some.injEq] at ho
  subst ho
  exact ⟨2, rfl⟩
/-- The signal of a pixel. -/
example : along exAny 1 [1, 0] = [⟨6, 1⟩, ⟨8, 1⟩, ⟨10, 1⟩] := rfl
/-- The result at that pixel: 36 + 64 + 100 + 3, then 48 + 80, twice, plus the four times one, plus what was there. -/
example : ∃ out, crossCorrelateAny exAny exAny none none (-2) none false true (some exAnyOut) = .ok out ∧
    out.shape = [2, 2, 2] ∧ out.get [1, 0, 0] = 203 ∧ out.get [1, 0, 1] = 1 + 260 := ⟨_, rfl, rfl, rfl, rfl⟩
example : ∃ out, crossCorrelateAny exAny exAny none none 1 (some 2) true true none = .ok out ∧
    out.shape = [2, 2, 2] ∧ out.get [1, 0, 0] = 203 ∧ out.get [1, 0, 1] = 260 := ⟨_, rfl, rfl, rfl, rfl⟩
example : ∃ out, autoDifferenceAny exAny (some [0, 5, 1]) 1 none false true none = .ok out ∧
    out.shape = [2, 2, 6] ∧ out.get [1, 1, 5] = 4 ∧ out.get [1, 1, 1] = 16 := ⟨_, rfl, rfl, rfl, rfl⟩
example : ∃ out, crossSumAny (M := Int) ⟨[2, 3], fun p => (p.getD 0 0 * 3 + p.getD 1 0 : Nat)⟩ none none (-1) (some 2) false false none = .ok out ∧
    out.shape = [2, 2] ∧ out.get [1, 0] = 12 ∧ out.get [1, 1] = 16 := ⟨_, rfl, rfl, rfl, rfl⟩
/-- The axis of the delays is not the last of the output array. -/
example : ∀ L, (⟨[2, 3, 2], fun _ => 0⟩ : Tensor Int).shape ≠ frameShape exAny.shape 1 ++ [L] := by
  intro L h
  simp [frameShape, exAny] at h
example : ∀ ax, ¬ NamesAxis 3 3 ax := by
  intro ax h
  obtain ⟨h1, h2⟩ := h
  omega

end Cddm
