import Verif.Lemmas.Norm

/-!
# `normalize` on whole data tuples
-/

namespace Cddm
open Spec

theorem inspectBackground_some (b : Background) (norm : Nat) :
    inspectBackground (some b) norm = .ok (b.fst, b.snd) := by cases b <;> rfl

theorem scaleFactor_some (v : Variance) : scaleFactor (some v) = .ok v.offset := by cases v <;> rfl

section
variable {C : Type} [AddCommGroup C] [Module ℝ C] (ops : NormOps C)

theorem needArray_range {α : Type} (f : Nat → α) (n : Nat) :
    needArray (some ((List.range n).map f)) n = .ok ((List.range n).map f) := by
  simp [needArray]

theorem zip_range {α β : Type} (f : Nat → α) (g : Nat → β) (n : Nat) :
    ((List.range n).map f).zip ((List.range n).map g) = (List.range n).map fun k => (f k, g k) := by
  rw [List.zip_map']

theorem zipWith_range {α β γ : Type} (F : α → β → γ) (f : Nat → α) (g : Nat → β) (n : Nat) :
    List.zipWith F ((List.range n).map f) ((List.range n).map g)
      = (List.range n).map fun k => F (f k) (g k) := by
  rw [List.zipWith_map, List.zipWith_self]

variable (n : Nat) (c : Nat → C) (N : Nat → Nat) (q : Nat → ℝ) (m1 m2 : Nat → Cx ℝ)
  (bg : Background) (var : Option Variance) (v : Variance)

/-- Curve with given formula in each cell. -/
abbrev curve (f : Nat → Option C) (n : Nat) : List (Option C) := (List.range n).map f

theorem normalize_standard (sq : Option (List ℝ)) (s1 s2 : Option (List (Cx ℝ)))
    (w : Option (List C)) :
    normalize ops (.corr ((List.range n).map c) ((List.range n).map N) sq s1 s2) (some bg) var
      (some 1) "corr" false w
      = .ok (curve (fun k => ops.corrBaseline (c k) (N k) bg.fst bg.snd) n, w) := by
  have h : normFromCcorrData sq.isSome s1.isSome (some 1) = .ok 1 := by
    generalize sq.isSome = a
    generalize s1.isSome = b
    revert a b
    decide
  simp only [normalize, inspectMode, normOf, h, normalizePlain, inspectBackground_some, normCorr,
    needArray, finishCorr, finishScale, bind, Except.bind]
  simp [curve, zip_range, Function.comp_def]

theorem normalize_structured (s1 s2 : Option (List (Cx ℝ))) (w : Option (List C)) :
    normalize ops (.corr ((List.range n).map c) ((List.range n).map N)
      (some ((List.range n).map q)) s1 s2) (some bg) (some v) (some 2) "corr" false w
      = .ok (curve (fun k => ops.structBaseline (c k) (N k) bg.fst bg.snd v.offset (q k)) n, w) := by
  have h : normFromCcorrData true s1.isSome (some 2) = .ok 2 := by
    generalize s1.isSome = b
    revert b
    decide
  simp only [normalize, inspectMode, normOf, h, normalizePlain, inspectBackground_some, normCorr,
    needArray, finishCorr, finishScale, bind, Except.bind, Option.isSome_some,
    scaleFactor_some]
  simp [curve, zip_range]

/-- The second sum of the data tuple, by default the first (cddm/norm.py:666-667). -/
def sndOr (s1 : Nat → Cx ℝ) (s2 : Option (Nat → Cx ℝ)) : Nat → Cx ℝ := s2.getD s1

theorem isSome_sel (m2 : Option (Nat → Cx ℝ)) :
    (if ((m2.map fun f => (List.range n).map f).isSome = true) then
      (m2.map fun f => (List.range n).map f) else some ((List.range n).map m1))
      = some ((List.range n).map (sndOr m1 m2)) := by
  cases m2 <;> rfl

theorem normalize_subtracted (sq : Option (List ℝ)) (m2 : Option (Nat → Cx ℝ))
    (w : Option (List C)) (z : Int) (hz : z = 5 ∨ z = 13) :
    normalize ops (.corr ((List.range n).map c) ((List.range n).map N) sq
      (some ((List.range n).map m1)) (m2.map fun f => (List.range n).map f)) (some bg) var
      (some z) "corr" false w
      = .ok (curve (fun k => ops.corrSubtracted (c k) (N k) bg.fst bg.snd (m1 k) (sndOr m1 m2 k)) n,
          w) := by
  have h : normFromCcorrData sq.isSome true (some z) = .ok z.toNat := by
    generalize sq.isSome = a
    rcases hz with rfl | rfl <;> revert a <;> decide
  rcases hz with rfl | rfl <;>
  · simp only [normalize, inspectMode, normOf, h, normalizePlain, inspectBackground_some, normCorr,
      isSome_sel,
      needArray, finishCorr, finishScale, bind, Except.bind, Option.isSome_some]
    simp [curve, zip_range]

theorem normalize_compensated (sq : Option (List ℝ)) (m2 : Option (Nat → Cx ℝ))
    (w : Option (List C)) :
    normalize ops (.corr ((List.range n).map c) ((List.range n).map N) sq
      (some ((List.range n).map m1)) (m2.map fun f => (List.range n).map f)) (some bg) var
      (some 9) "corr" false w
      = .ok (curve (fun k => ops.corrCompensated (c k) (N k) (m1 k) (sndOr m1 m2 k)) n, w) := by
  have h : normFromCcorrData sq.isSome true (some 9) = .ok 9 := by
    generalize sq.isSome = a
    revert a
    decide
  simp only [normalize, inspectMode, normOf, h, normalizePlain, inspectBackground_some, normCorr,
      isSome_sel,
      needArray, finishCorr, finishScale, bind, Except.bind, Option.isSome_some]
  simp [curve, zip_range]

theorem normalize_structSubtracted (m2 : Option (Nat → Cx ℝ))
    (w : Option (List C)) (z : Int) (hz : z = 6 ∨ z = 14) :
    normalize ops (.corr ((List.range n).map c) ((List.range n).map N)
      (some ((List.range n).map q))
      (some ((List.range n).map m1)) (m2.map fun f => (List.range n).map f)) (some bg) (some v)
      (some z) "corr" false w
      = .ok (curve (fun k => ops.structSubtracted (c k) (N k) bg.fst bg.snd v.offset (q k) (m1 k)
          (sndOr m1 m2 k)) n, w) := by
  have h : normFromCcorrData true true (some z) = .ok z.toNat := by
    rcases hz with rfl | rfl <;> decide
  rcases hz with rfl | rfl <;>
  · simp only [normalize, inspectMode, normOf, h, normalizePlain, inspectBackground_some, normCorr,
      isSome_sel, scaleFactor_some,
      needArray, finishCorr, finishScale, bind, Except.bind, Option.isSome_some]
    simp [curve, zip_range]

theorem normalize_structCompensated (m2 : Option (Nat → Cx ℝ)) (w : Option (List C)) :
    normalize ops (.corr ((List.range n).map c) ((List.range n).map N)
      (some ((List.range n).map q))
      (some ((List.range n).map m1)) (m2.map fun f => (List.range n).map f)) (some bg) (some v)
      (some 10) "corr" false w
      = .ok (curve (fun k => ops.structCompensated (c k) (N k) v.offset (q k) (m1 k)
          (sndOr m1 m2 k)) n, w) := by
  have h : normFromCcorrData true true (some 10) = .ok 10 := by decide
  simp only [normalize, inspectMode, normOf, h, normalizePlain, inspectBackground_some, normCorr,
      isSome_sel, scaleFactor_some,
      needArray, finishCorr, finishScale, bind, Except.bind, Option.isSome_some]
  simp [curve, zip_range]

/-- Difference data, in mode 'diff'. -/
theorem normalize_diff (c : Nat → ℝ) (s1 s2 : Option (List (Cx ℝ))) (w : Option (List ℝ)) :
    normalize normOpsR (.diff ((List.range n).map c) ((List.range n).map N) s1 s2) (some bg) var
      (some 2) "diff" false w
      = .ok (curve (fun k => cdiff1 (c k) (N k) (bg.snd - bg.fst)) n, w) := by
  have h : normFromCdiffData s1.isSome s2.isSome (some 2) = .ok 2 := by
    generalize s1.isSome = a
    generalize s2.isSome = b
    revert a b
    decide
  simp only [normalize, inspectMode, normOf, h, normalizePlain, inspectBackground_some, normDiff,
    needArray, finishDiff, finishScale, bind, Except.bind, needLoop, normOpsR]
  simp [curve, zip_range, Function.comp_def]

/-- Difference data, in mode 'corr'. -/
theorem normalize_diff_corr (c : Nat → ℝ) (s1 s2 : Option (List (Cx ℝ))) (w : Option (List ℝ)) :
    normalize normOpsR (.diff ((List.range n).map c) ((List.range n).map N) s1 s2) (some bg)
      (some v) (some 2) "corr" false w
      = .ok (curve (fun k => (cdiff1 (c k) (N k) (bg.snd - bg.fst)).map
          (diff2corr normOpsR v.offset)) n, w) := by
  have h : normFromCdiffData s1.isSome s2.isSome (some 2) = .ok 2 := by
    generalize s1.isSome = a
    generalize s2.isSome = b
    revert a b
    decide
  simp only [normalize, inspectMode, normOf, h, normalizePlain, inspectBackground_some, normDiff,
    needArray, finishDiff, finishScale, bind, Except.bind, needLoop, normOpsR, scaleFactor_some]
  simp [curve, zip_range, Function.comp_def]

theorem normalize_diffSubtracted_corr (c : Nat → ℝ) (w : Option (List ℝ)) :
    normalize normOpsR (.diff ((List.range n).map c) ((List.range n).map N)
      (some ((List.range n).map m1)) (some ((List.range n).map m2))) (some bg) (some v)
      (some 6) "corr" false w
      = .ok (curve (fun k => (cdiff3 (c k) (N k) (bg.snd - bg.fst) (m1 k) (m2 k)).map
          (diff2corr normOpsR v.offset)) n, w) := by
  have h : normFromCdiffData true true (some 6) = .ok 6 := by decide
  simp only [normalize, inspectMode, normOf, h, normalizePlain, inspectBackground_some, normDiff,
    needArray, finishDiff, finishScale, bind, Except.bind, needLoop, normOpsR,
    Option.isSome_some, scaleFactor_some]
  simp [curve, zip_range, Function.comp_def]

theorem normalize_diffSubtracted (c : Nat → ℝ) (w : Option (List ℝ)) :
    normalize normOpsR (.diff ((List.range n).map c) ((List.range n).map N)
      (some ((List.range n).map m1)) (some ((List.range n).map m2))) (some bg) var
      (some 6) "diff" false w
      = .ok (curve (fun k => cdiff3 (c k) (N k) (bg.snd - bg.fst) (m1 k) (m2 k)) n, w) := by
  have h : normFromCdiffData true true (some 6) = .ok 6 := by decide
  simp only [normalize, inspectMode, normOf, h, normalizePlain, inspectBackground_some, normDiff,
    needArray, finishDiff, finishScale, bind, Except.bind, needLoop, normOpsR,
    Option.isSome_some]
  simp [curve, zip_range]

end

theorem isCurve_of {α β M : Type} (n : Nat) (P : Nat → List (α × β)) (F : List (α × β) → M)
    (f : Nat → Option M)
    (h0 : ∀ k < n, P k = [] → f k = none) (h : ∀ k < n, P k ≠ [] → f k = some (F (P k))) :
    IsCurve n P F ((List.range n).map f) := by
  refine ⟨by simp, fun k hk => ⟨fun e => ?_, fun e => ?_⟩⟩
  · simp [hk, h0 k hk e]
  · simp [hk, h k hk e]

end Cddm
