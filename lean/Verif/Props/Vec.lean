import Verif.Lemmas.Vec
import Verif.Props.Regular

/-!
# C17: frame stacks are processed pixel by pixel

Two different loops process a stack of frames: the regular kernel on every row of the transposed
data, or the vectorised kernel that updates whole output rows.  `col p f.rows` is the signal of
pixel `p`, `outRow aout p` the row of a given output array belonging to that pixel, and
`(List.range K).mapM g` the array whose row `p` is `g p` (raising what `g p` raises).
-/

namespace Cddm
open Spec
variable {R : Type} [CommRing R]

/-- **C17**, `cross_correlate` on a stack of frames is `cross_correlate` on each pixel. -/
theorem C17_cross_correlate (f1 f2 : Frames (Cx R)) (t1 t2 : Option (List Int)) (n : Option Nat)
    (align : Bool) (aout : Option (Frames R)) (hw : f2.width = f1.width) (h0 : 0 < f1.width)
    (ho : OutShape aout f1.width) :
    crossCorrelateFrames f1 f2 t1 t2 n align aout
      = (List.range f1.width).mapM fun p =>
        crossCorrelate (col p f1.rows) (col p f2.rows) t1 t2 n align (outRow aout p) :=
  crossFrames_eq crossCorrRegular crossCorrVec_sim f1 f2 t1 t2 n align false aout hw h0 ho

theorem C17_cross_correlate_complex (f1 f2 : Frames (Cx R)) (t1 t2 : Option (List Int))
    (n : Option Nat) (align : Bool) (aout : Option (Frames (Cx R))) (hw : f2.width = f1.width)
    (h0 : 0 < f1.width) (ho : OutShape aout f1.width) :
    crossCorrelateComplexFrames f1 f2 t1 t2 n align aout
      = (List.range f1.width).mapM fun p =>
        crossCorrelateComplex (col p f1.rows) (col p f2.rows) t1 t2 n align (outRow aout p) :=
  crossFrames_eq crossCorrComplexRegular crossCorrComplexVec_sim f1 f2 t1 t2 n align true aout
    hw h0 ho

theorem C17_cross_difference (f1 f2 : Frames (Cx R)) (t1 t2 : Option (List Int)) (n : Option Nat)
    (align : Bool) (aout : Option (Frames R)) (hw : f2.width = f1.width) (h0 : 0 < f1.width)
    (ho : OutShape aout f1.width) :
    crossDifferenceFrames f1 f2 t1 t2 n align aout
      = (List.range f1.width).mapM fun p =>
        crossDifference (col p f1.rows) (col p f2.rows) t1 t2 n align (outRow aout p) :=
  crossFrames_eq crossDiffRegular crossDiffVec_sim f1 f2 t1 t2 n align false aout hw h0 ho

theorem C17_auto_correlate (f : Frames (Cx R)) (t : Option (List Int)) (n : Option Nat)
    (align : Bool) (aout : Option (Frames R)) (h0 : 0 < f.width) (ho : OutShape aout f.width) :
    autoCorrelateFrames f t n align aout
      = (List.range f.width).mapM fun p =>
        autoCorrelate (col p f.rows) t n align (outRow aout p) :=
  autoFrames_eq autoCorrRegular autoCorrVec_sim f t n align aout h0 ho

theorem C17_auto_correlate_complex (f : Frames (Cx R)) (t : Option (List Int)) (n : Option Nat)
    (align : Bool) (aout : Option (Frames (Cx R))) (h0 : 0 < f.width)
    (ho : OutShape aout f.width) :
    autoCorrelateComplexFrames f t n align aout
      = (List.range f.width).mapM fun p =>
        autoCorrelateComplex (col p f.rows) t n align (outRow aout p) :=
  autoFrames_eq autoCorrComplexRegular autoCorrComplexVec_sim f t n align aout h0 ho

theorem C17_auto_difference (f : Frames (Cx R)) (t : Option (List Int)) (n : Option Nat)
    (align : Bool) (aout : Option (Frames R)) (h0 : 0 < f.width) (ho : OutShape aout f.width) :
    autoDifferenceFrames f t n align aout
      = (List.range f.width).mapM fun p =>
        autoDifference (col p f.rows) t n align (outRow aout p) :=
  autoFrames_eq autoDiffRegular autoDiffVec_sim f t n align aout h0 ho

section
variable {M : Type} [AddCommGroup M]

omit [CommRing R]

theorem C17_cross_sum (f : Frames M) (t tOther : Option (List Int)) (n : Option Nat)
    (complex timeInversion : Bool) (aout : Option (Frames M)) (h0 : 0 < f.width)
    (ho : OutShape aout f.width) :
    crossSumFrames f t tOther n complex timeInversion aout
      = (List.range f.width).mapM fun p =>
        crossSumApi (col p f.rows) t tOther n complex timeInversion (outRow aout p) :=
  crossSumFrames_eq f t tOther n complex timeInversion aout h0 ho

theorem C17_auto_sum (K : Type) [Field K] [Module K M] (f : Frames M) (t : Option (List Int))
    (n : Option Nat) (aout : Option (Frames M)) (h0 : 0 < f.width) (ho : OutShape aout f.width) :
    autoSumFrames K f t n aout
      = (List.range f.width).mapM fun p => autoSumApi K (col p f.rows) t n (outRow aout p) :=
  autoSumFrames_eq K f t n aout h0 ho

end

/-- A stack of three frames of two pixels. -/
def exFrames1 : Frames (Cx Int) :=
  ⟨2, [[⟨1, 2⟩, ⟨0, 1⟩], [⟨3, 4⟩, ⟨2, 0⟩], [⟨0, 1⟩, ⟨1, 1⟩]], by decide⟩
def exFrames2 : Frames (Cx Int) :=
  ⟨2, [[⟨5, 6⟩, ⟨1, 0⟩], [⟨0, 1⟩, ⟨2, 3⟩], [⟨2, 2⟩, ⟨0, -1⟩]], by decide⟩

example : crossCorrelateFrames exFrames1 exFrames2 none none (some 2) true none
    = .ok [[17 + 4 + 2, 2 + 14 + 39 + 1], [0 + 4 - 1, 3 + 0 + 2 + 5]] := rfl
example : crossCorrelateFrames exFrames1 exFrames2 none none (some 2) false none
    = .ok [[17 + 4 + 2, 2 + 14 + 39 + 1], [0 + 4 - 1, 3 + 0 + 2 + 5]] := rfl
example : crossCorrelateComplexFrames exFrames1 exFrames2 (some [0, 4, 2]) (some [1, 4, 3]) (some 2)
    false none = .ok [[⟨4, 3⟩, ⟨19, -6⟩, ⟨20, -7⟩], [⟨4, 6⟩, ⟨-1, -2⟩, ⟨1, -3⟩]] := rfl

/-- **C17**, the memory layout is unobservable: whatever `align` answers, the same data come out
(inside the safe range of the regular kernels, see C08). -/
theorem C17_layout_irrelevant (f1 f2 : Frames (Cx R)) (t1 t2 : Option (List Int))
    (hw : f2.width = f1.width) (h0 : 0 < f1.width)
    (hv : ValidCross f1.rows.length f2.rows.length t1 t2)
    (n : Option Nat) (aout : Option (Frames R)) (ho : OutShape aout f1.width)
    (hn : t1 = none → ∀ p, p < f1.width →
      outLen n (outRow aout p) f1.rows.length ≤ f1.rows.length + 1) :
    crossCorrelateFrames f1 f2 t1 t2 n true aout = crossCorrelateFrames f1 f2 t1 t2 n false aout
    ∧ crossDifferenceFrames f1 f2 t1 t2 n true aout
      = crossDifferenceFrames f1 f2 t1 t2 n false aout := by
  have r1 : Rect f1.width f1.rows := f1.rect
  have r2 : Rect f1.width f2.rows := hw ▸ f2.rect
  have key : ∀ p ∈ List.range f1.width, _ := fun p hp =>
    C07_layout_irrelevant (col p f1.rows) (col p f2.rows) t1 t2
      (by rw [List.mem_range] at hp; rw [col_length hp r1, col_length hp r2]; exact hv) n
      (outRow aout p)
      (fun h => by
        rw [List.mem_range] at hp; rw [col_length hp r1]; exact hn h p hp)
  constructor
  · rw [C17_cross_correlate f1 f2 t1 t2 n _ aout hw h0 ho,
      C17_cross_correlate f1 f2 t1 t2 n _ aout hw h0 ho]
    exact mapM_congr _ _ _ fun p hp => (key p hp).1
  · rw [C17_cross_difference f1 f2 t1 t2 n _ aout hw h0 ho,
      C17_cross_difference f1 f2 t1 t2 n _ aout hw h0 ho]
    exact mapM_congr _ _ _ fun p hp => (key p hp).2

theorem C17_layout_irrelevant_complex (f1 f2 : Frames (Cx R)) (t1 t2 : Option (List Int))
    (hw : f2.width = f1.width) (h0 : 0 < f1.width)
    (hv : ValidCross f1.rows.length f2.rows.length t1 t2)
    (n : Nat) (hn0 : 1 ≤ n) (hn : t1 = none → n ≤ f1.rows.length + 1) :
    crossCorrelateComplexFrames f1 f2 t1 t2 (some n) true none
      = crossCorrelateComplexFrames f1 f2 t1 t2 (some n) false none := by
  have r1 : Rect f1.width f1.rows := f1.rect
  have r2 : Rect f1.width f2.rows := hw ▸ f2.rect
  have ho : OutShape (none : Option (Frames (Cx R))) f1.width := fun o h => by simp at h
  rw [C17_cross_correlate_complex f1 f2 t1 t2 _ _ none hw h0 ho,
      C17_cross_correlate_complex f1 f2 t1 t2 _ _ none hw h0 ho]
  refine mapM_congr _ _ _ fun p hp => ?_
  rw [List.mem_range] at hp
  have hv' : ValidCross (col p f1.rows).length (col p f2.rows).length t1 t2 := by
    rw [col_length hp r1, col_length hp r2]; exact hv
  rw [crossCorrelateComplex_ok _ _ t1 t2 _ true _ hv'
      (by simp [outLenFull, outRow]; omega)
      (fun h _ => by
        rw [col_length hp r1]
        have := hn h
        simp [outLenFull, outRow]; omega),
    crossCorrelateComplex_ok _ _ t1 t2 _ false _ hv'
      (by simp [outLenFull, outRow]; omega) (by simp)]

theorem C17_layout_irrelevant_auto (f : Frames (Cx R)) (t : Option (List Int))
    (h0 : 0 < f.width) (hv : ValidAuto f.rows.length t)
    (n : Option Nat) (aout : Option (Frames R)) (ho : OutShape aout f.width) :
    autoCorrelateFrames f t n true aout = autoCorrelateFrames f t n false aout
    ∧ autoDifferenceFrames f t n true aout = autoDifferenceFrames f t n false aout := by
  have r1 : Rect f.width f.rows := f.rect
  constructor
  · rw [C17_auto_correlate f t n _ aout h0 ho, C17_auto_correlate f t n _ aout h0 ho]
    refine mapM_congr _ _ _ fun p hp => ?_
    rw [List.mem_range] at hp
    have hv' : ValidAuto (col p f.rows).length t := by rw [col_length hp r1]; exact hv
    rw [autoCorrelate_ok _ t n true _ hv', autoCorrelate_ok _ t n false _ hv']
  · rw [C17_auto_difference f t n _ aout h0 ho, C17_auto_difference f t n _ aout h0 ho]
    refine mapM_congr _ _ _ fun p hp => ?_
    rw [List.mem_range] at hp
    have hv' : ValidAuto (col p f.rows).length t := by rw [col_length hp r1]; exact hv
    rw [autoDifference_ok _ t n true _ hv', autoDifference_ok _ t n false _ hv']

/-- **C17**, end to end: entry `k` of pixel `p` of the correlated stacks is the sum over all pairs
of frames with delay `k` of the products of that pixel's values. -/
theorem C17_entries (f1 f2 : Frames (Cx R)) (t1 t2 : Option (List Int)) (n : Option Nat)
    (align : Bool) (hw : f2.width = f1.width) (h0 : 0 < f1.width)
    (hv : ValidCross f1.rows.length f2.rows.length t1 t2)
    (hn : t1 = none → align = true → n.getD f1.rows.length ≤ f1.rows.length + 1) :
    ∃ out, crossCorrelateFrames f1 f2 t1 t2 n align none = .ok out
      ∧ out.length = f1.width
      ∧ ∀ p (hp : p < out.length), out[p].length = n.getD (defaultN f1.rows.length t1 t2)
        ∧ ∀ k (hk : k < out[p].length),
          out[p][k] = pairSum reProd (stream (col p f1.rows) t1) (stream (col p f2.rows) t2) k := by
  have r1 : Rect f1.width f1.rows := f1.rect
  have r2 : Rect f1.width f2.rows := hw ▸ f2.rect
  have ho : OutShape (none : Option (Frames R)) f1.width := fun o h => by simp at h
  rw [C17_cross_correlate f1 f2 t1 t2 _ _ none hw h0 ho]
  have hv' : ∀ p, p < f1.width →
      ValidCross (col p f1.rows).length (col p f2.rows).length t1 t2 := by
    intro p hp
    rw [col_length hp r1, col_length hp r2]; exact hv
  rw [mapM_ok _ _ _ fun p hp => crossCorrelate_ok (col p f1.rows) (col p f2.rows) t1 t2 n align
    (outRow (none : Option (Frames R)) p) (hv' p (List.mem_range.mp hp)) (fun h h' => by
      rw [List.mem_range] at hp
      rw [col_length hp r1]
      have := hn h h'
      cases n with
      | none => simp [outLen, outRow]
      | some n => simpa [outLen, outRow] using this)]
  refine ⟨_, rfl, by simp, fun p hp => ?_⟩
  have hp' : p < f1.width := by simpa using hp
  constructor
  · cases n <;> simp [addSeq, startOut, outRow, outLen, col_length hp' r1]
  · intro k hk
    simp [addSeq, startOut, outRow]

/-- **C17**, shapes: stacks of different widths, or an output array with the wrong number of rows,
are rejected. -/
theorem C17_rejects (f1 f2 : Frames (Cx R)) (t1 t2 : Option (List Int)) (n : Option Nat)
    (align : Bool) (aout : Option (Frames R))
    (h : f2.width ≠ f1.width ∨ ¬ OutShape aout f1.width) :
    crossCorrelateFrames f1 f2 t1 t2 n align aout = .error .valueError := by
  unfold crossCorrelateFrames crossFrames
  rcases hI : inspectCross f1.rows.length f2.rows.length t1 t2 n (aout.map Frames.width) false
    with e | ⟨t, n'⟩
  · have : e = .valueError := by
      exact inspectCross_error hI
    rw [this]; rfl
  · simp only [bind, Except.bind]
    by_cases hw : f1.width = f2.width
    · have ho : ¬ OutShape aout f1.width := by
        rcases h with h | h
        · exact absurd hw.symm h
        · exact h
      rcases aout with _ | o
      · exact absurd (fun o h => by simp at h) ho
      · have hne : ¬ o.rows.length = f1.width := by
          intro hcon
          apply ho
          intro o' h'
          cases h'
          exact hcon
        simp only [hw, ne_eq, not_true_eq_false, if_false]
        rw [hw] at hne
        rcases t with _ | ⟨a, b⟩ <;> cases align <;> simp [defaultOut2, hne]
    · simp [hw]

end Cddm
