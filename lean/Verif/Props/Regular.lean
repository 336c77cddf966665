import Verif.Lemmas.Unsafe

/-!
# C07, C08: the regular ("fast path") kernels
-/

namespace Cddm
open Spec

section
variable {R : Type} [CommRing R]

theorem defaultN_none_arange (N : Nat) (hN : N ≠ 0) :
    defaultN N none none = defaultN N (some (arange N)) (some (arange N)) := by
  rw [defaultN_arange N hN]; rfl

omit [CommRing R] in
theorem validCross_arange {f1 f2 : List (Cx R)} (hl : f1.length = f2.length) (h0 : f1 ≠ []) :
    ValidCross f1.length f2.length (some (arange f1.length)) (some (arange f2.length)) :=
  ⟨hl, arange_length _, arange_length _, by simpa using h0⟩

theorem stream_arange {α : Type} (f : List α) :
    stream f (some (arange f.length)) = stream f none := arange_zip f

/-- **C07.** `cross_correlate` on regular aligned data is the irregular algorithm on the time
stamps `0..N-1`, for every `aout` and every output length up to `N+1`. -/
theorem C07_cross_correlate (f1 f2 : List (Cx R)) (hl : f1.length = f2.length) (h0 : f1 ≠ [])
    (n : Option Nat) (al : Bool) (aout : Option (List R))
    (hn : outLen n aout f1.length ≤ f1.length + 1) :
    crossCorrelate f1 f2 none none n true aout
      = crossCorrelate f1 f2 (some (arange f1.length)) (some (arange f2.length)) n al aout := by
  have hN : f1.length ≠ 0 := by simpa using h0
  rw [crossCorrelate_ok f1 f2 none none n true aout hl (fun _ _ => hn),
    crossCorrelate_ok f1 f2 _ _ n al aout (validCross_arange hl h0)
      (by simp), stream_arange, stream_arange, defaultN_none_arange _ hN, hl]

theorem C07_cross_correlate_complex (f1 f2 : List (Cx R)) (hl : f1.length = f2.length)
    (h0 : f1 ≠ []) (n : Option Nat) (al : Bool) (aout : Option (List (Cx R)))
    (hodd : outLenFull n aout f1.length % 2 = 1)
    (hn : (outLenFull n aout f1.length + 1) / 2 ≤ f1.length + 1) :
    crossCorrelateComplex f1 f2 none none n true aout
      = crossCorrelateComplex f1 f2 (some (arange f1.length)) (some (arange f2.length)) n al aout
    := by
  have hN : f1.length ≠ 0 := by simpa using h0
  have e := defaultN_arange f1.length hN
  rw [crossCorrelateComplex_ok f1 f2 none none n true aout hl hodd (fun _ _ => hn),
    crossCorrelateComplex_ok f1 f2 _ _ n al aout (validCross_arange hl h0)
      (by rw [← hl, e]; exact hodd) (by simp), stream_arange, stream_arange,
    defaultN_none_arange _ hN, hl]

theorem C07_cross_difference (f1 f2 : List (Cx R)) (hl : f1.length = f2.length) (h0 : f1 ≠ [])
    (n : Option Nat) (al : Bool) (aout : Option (List R))
    (hn : outLen n aout f1.length ≤ f1.length + 1) :
    crossDifference f1 f2 none none n true aout
      = crossDifference f1 f2 (some (arange f1.length)) (some (arange f2.length)) n al aout := by
  have hN : f1.length ≠ 0 := by simpa using h0
  rw [crossDifference_ok f1 f2 none none n true aout hl (fun _ _ => hn),
    crossDifference_ok f1 f2 _ _ n al aout (validCross_arange hl h0)
      (by simp), stream_arange, stream_arange, defaultN_none_arange _ hN, hl]

/-- C07 for `auto_correlate`: no restriction on the output length. -/
theorem C07_auto_correlate (f : List (Cx R)) (h0 : f ≠ [])
    (n : Option Nat) (al : Bool) (aout : Option (List R)) :
    autoCorrelate f none n true aout
      = autoCorrelate f (some (arange f.length)) n al aout := by
  have hN : f.length ≠ 0 := by simpa using h0
  rw [autoCorrelate_ok f none n true aout trivial,
    autoCorrelate_ok f _ n al aout (by simp [ValidAuto, arange_length, h0]), stream_arange,
    defaultN_none_arange _ hN]

theorem C07_auto_difference (f : List (Cx R)) (h0 : f ≠ [])
    (n : Option Nat) (al : Bool) (aout : Option (List R)) :
    autoDifference f none n true aout
      = autoDifference f (some (arange f.length)) n al aout := by
  have hN : f.length ≠ 0 := by simpa using h0
  rw [autoDifference_ok f none n true aout trivial,
    autoDifference_ok f _ n al aout (by simp [ValidAuto, arange_length, h0]), stream_arange,
    defaultN_none_arange _ hN]

theorem C07_auto_correlate_complex (f : List (Cx R)) (h0 : f ≠ [])
    (n : Option Nat) (al : Bool) (aout : Option (List (Cx R)))
    (hn : outLen n aout f.length ≤ f.length + 1) :
    autoCorrelateComplex f none n true aout
      = autoCorrelateComplex f (some (arange f.length)) n al aout := by
  have hN : f.length ≠ 0 := by simpa using h0
  rw [autoCorrelateComplex_ok f none n true aout trivial (fun _ _ => hn),
    autoCorrelateComplex_ok f _ n al aout (by simp [ValidAuto, arange_length, h0]) (by simp),
    stream_arange, defaultN_none_arange _ hN]

/-- C07 for the memory layout: `aligned` selects between two different loops, which agree. -/
theorem C07_layout_irrelevant (f1 f2 : List (Cx R)) (t1 t2 : Option (List Int))
    (hv : ValidCross f1.length f2.length t1 t2) (n : Option Nat) (aout : Option (List R))
    (hn : t1 = none → outLen n aout f1.length ≤ f1.length + 1) :
    crossCorrelate f1 f2 t1 t2 n true aout = crossCorrelate f1 f2 t1 t2 n false aout
    ∧ crossDifference f1 f2 t1 t2 n true aout = crossDifference f1 f2 t1 t2 n false aout := by
  constructor
  · rw [crossCorrelate_ok f1 f2 t1 t2 n true aout hv (fun h _ => hn h),
      crossCorrelate_ok f1 f2 t1 t2 n false aout hv (by simp)]
  · rw [crossDifference_ok f1 f2 t1 t2 n true aout hv (fun h _ => hn h),
      crossDifference_ok f1 f2 t1 t2 n false aout hv (by simp)]

end

section
variable {M : Type} [AddCommGroup M]

theorem otherStream_arange (N : Nat) : otherStream N (some (arange N)) = otherStream N none :=
  arange_stamps N

/-- C07 for `cross_sum` (the fast path of sums is taken whatever the layout). -/
theorem C07_cross_sum (f : List M) (h0 : f ≠ []) (n : Option Nat) (inv : Bool)
    (aout : Option (List M)) (hn : outLen n aout f.length ≤ f.length + 1) :
    crossSumApi f none none n false inv aout
      = crossSumApi f (some (arange f.length)) (some (arange f.length)) n false inv aout := by
  have hN : f.length ≠ 0 := by simpa using h0
  have hne : arange f.length ≠ [] := by
    intro h; have := arange_length f.length; rw [h] at this; simp at this; omega
  rw [crossSumApi_real_ok f none none n inv aout trivial (fun _ => hn),
    crossSumApi_real_ok f (some (arange f.length)) (some (arange f.length)) n inv aout ⟨arange_length _, hN, hne⟩ (by simp),
    stream_arange, otherStream_arange, defaultN_none_arange _ hN]

theorem C07_cross_sum_complex (f : List M) (h0 : f ≠ []) (n : Option Nat) (inv : Bool)
    (aout : Option (List M)) (hodd : outLenFull n aout f.length % 2 = 1)
    (hn : (outLenFull n aout f.length + 1) / 2 ≤ f.length + 1) :
    crossSumApi f none none n true inv aout
      = crossSumApi f (some (arange f.length)) (some (arange f.length)) n true inv aout := by
  have hN : f.length ≠ 0 := by simpa using h0
  have hne : arange f.length ≠ [] := by
    intro h; have := arange_length f.length; rw [h] at this; simp at this; omega
  rw [crossSumApi_full_ok f none none n inv aout trivial hodd (fun _ => hn),
    crossSumApi_full_ok f (some (arange f.length)) (some (arange f.length)) n inv aout ⟨arange_length _, hN, hne⟩
      (by rw [defaultN_arange _ hN]; exact hodd) (by simp),
    stream_arange, otherStream_arange, defaultN_none_arange _ hN]

theorem C07_auto_sum (K : Type) [Field K] [Module K M] (f : List M) (h0 : f ≠ [])
    (n : Option Nat) (aout : Option (List M)) (hn : outLen n aout f.length ≤ f.length + 1) :
    autoSumApi K f none n aout = autoSumApi K f (some (arange f.length)) n aout := by
  have hN : f.length ≠ 0 := by simpa using h0
  rw [autoSumApi_ok K f none n aout trivial (fun _ => hn),
    autoSumApi_ok K f (some (arange f.length)) n aout ⟨arange_length _, hN⟩ (by simp),
    stream_arange, otherStream_arange, defaultN_none_arange _ hN]

end

example : crossCorrelate (R := Int) [⟨1, 2⟩, ⟨3, 4⟩, ⟨0, 1⟩] [⟨5, 6⟩, ⟨0, 1⟩, ⟨2, 2⟩] none none
    (some 4) true (some [7, 0, 0, 1]) = .ok [7 + 17 + 4 + 2, 56, 12, 1] := rfl
example : crossCorrelate (R := Int) [⟨1, 2⟩, ⟨3, 4⟩, ⟨0, 1⟩] [⟨5, 6⟩, ⟨0, 1⟩, ⟨2, 2⟩]
    (some (arange 3)) (some (arange 3))
    (some 4) false (some [7, 0, 0, 1]) = .ok [7 + 17 + 4 + 2, 56, 12, 1] := rfl

/-! ### C08 -/

section
variable {R : Type} [CommRing R]

/-- **C08 is false of the code.**  For regular aligned data of `N ≥ 2` samples `cross_correlate`
reads outside its input exactly when the output is longer than `N+1` (`x[0:-1]` is paired with the
empty `y[N+1:]`). -/
theorem C08_cross_correlate_unsafe_iff (f1 f2 : List (Cx R)) (hl : f1.length = f2.length)
    (hN : 2 ≤ f1.length) (n : Option Nat) (aout : Option (List R)) :
    crossCorrelate f1 f2 none none n true aout = .error .undefined
      ↔ f1.length + 1 < outLen n aout f1.length := by
  constructor
  · intro h
    by_contra hc
    rw [crossCorrelate_ok f1 f2 none none n true aout hl (fun _ _ => by omega)] at h
    cases h
  · intro h
    unfold crossCorrelate
    rw [← hl, inspectCross_none]
    cases aout <;> cases n <;> simp only [outLen] at h
    · omega
    · simp only [defaultOut, bind, Except.bind, Option.getD, if_true, Bool.false_eq_true,
        if_false]
      rw [crossCorrRegular_unsafe f1 f2 _ hl hN (by simpa using h)]
      rfl
    all_goals
      simp only [defaultOut, bind, Except.bind, if_true]
      rw [crossCorrRegular_unsafe f1 f2 _ hl hN h]
      rfl

/-- C08: a concrete refutation. -/
theorem C08_refuted : ∃ (f1 f2 : List (Cx Int)) (n : Nat), f1.length = f2.length ∧
    crossCorrelate f1 f2 none none (some n) true none = .error .undefined :=
  ⟨[1, 1], [1, 1], 4, rfl, rfl⟩

/-- The full statement of C08 is: for every `n` no access leaves the input.  Proved part: safe
whenever the output has at most `N+1` entries (always the case for the default `n`). -/
theorem C08_cross_correlate_safe_partial (f1 f2 : List (Cx R)) (hl : f1.length = f2.length)
    (n : Option Nat) (al : Bool) (aout : Option (List R))
    (hn : outLen n aout f1.length ≤ f1.length + 1) :
    crossCorrelate f1 f2 none none n al aout ≠ .error .undefined
    ∧ crossDifference f1 f2 none none n al aout ≠ .error .undefined := by
  constructor
  · rw [crossCorrelate_ok f1 f2 none none n al aout hl (fun _ _ => hn)]
    simp
  · rw [crossDifference_ok f1 f2 none none n al aout hl (fun _ _ => hn)]
    simp

/-- C08 with the default `n` and no `aout`: never outside the input. -/
theorem C08_default_safe_partial (f1 f2 : List (Cx R)) (hl : f1.length = f2.length) (al : Bool) :
    crossCorrelate f1 f2 none none none al none ≠ .error .undefined
    ∧ crossDifference f1 f2 none none none al none ≠ .error .undefined :=
  C08_cross_correlate_safe_partial f1 f2 hl none al none (by simp [outLen])

/-- The general (unaligned or irregular) loops are safe for every `n`. -/
theorem C08_irregular_safe_partial (f1 f2 : List (Cx R)) (t1 t2 : Option (List Int))
    (hv : ValidCross f1.length f2.length t1 t2) (n : Option Nat) (al : Bool)
    (aout : Option (List R)) (h : t1 = none → al = false) :
    crossCorrelate f1 f2 t1 t2 n al aout ≠ .error .undefined
    ∧ crossDifference f1 f2 t1 t2 n al aout ≠ .error .undefined := by
  constructor
  · rw [crossCorrelate_ok f1 f2 t1 t2 n al aout hv (fun h1 h2 => by simp [h h1] at h2)]
    simp
  · rw [crossDifference_ok f1 f2 t1 t2 n al aout hv (fun h1 h2 => by simp [h h1] at h2)]
    simp

/-- The real auto-correlation and auto-difference are safe for every `n`. -/
theorem C08_auto_safe_partial (f : List (Cx R)) (t : Option (List Int)) (n : Option Nat) (al : Bool)
    (aout : Option (List R)) (hv : ValidAuto f.length t) :
    autoCorrelate f t n al aout ≠ .error .undefined
    ∧ autoDifference f t n al aout ≠ .error .undefined := by
  rw [autoCorrelate_ok f t n al aout hv, autoDifference_ok f t n al aout hv]
  simp

/-- The other kernels of the fast path leave their input for every output longer than `N+1`. -/
theorem C08_other_kernels_unsafe (x y : List (Cx R)) (hxy : x.length = y.length)
    (hN : 2 ≤ x.length) :
    (∀ out : List (Cx R), x.length + 1 < (out.length + 1) / 2 →
      crossCorrComplexRegular x y out = none)
    ∧ (∀ out : List (Cx R), x.length + 1 < out.length → autoCorrComplexRegular x out = none)
    ∧ (∀ out : List R, x.length + 1 < out.length → crossDiffRegular x y out = none)
    ∧ (∀ out : List (Cx R), x.length + 1 < out.length → crossSumRegular x out = none) :=
  ⟨fun out h => crossCorrComplexRegular_unsafe x y out hxy hN h,
   fun out h => autoCorrComplexRegular_unsafe x out hN h,
   fun out h => crossDiffRegular_unsafe x y out hxy hN h,
   fun out h => crossSumRegular_unsafe x out h⟩

example : crossCorrComplexRegular (R := Int) [1, 1] [1, 1] (List.replicate 7 0) = none := rfl
example : crossCorrComplexRegular (R := Int) [1, 1] [1, 1] (List.replicate 5 0) ≠ none := by
  decide

end
end Cddm
