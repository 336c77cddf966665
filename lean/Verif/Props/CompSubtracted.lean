import Verif.Props.NormReject
import Mathlib.Tactic.FieldSimp
import Mathlib.Tactic.LinearCombination

/-!
# C118: the formula of compensated subtracted data, and complex difference data
-/

namespace Cddm
open Spec

/-- `normalize_corr_compensated_subtracted` of sums over the pairs `P`: the mean of the products of the samples without
background, whatever the backgrounds; not a number without pairs. -/
theorem C118_values (P : List (Cx ℝ × Cx ℝ)) (b1 b2 : Cx ℝ) :
    corrCompensatedSubtractedR (total reProd P) P.length b1 b2 (total (fun a _ => a) P) (total (fun _ b => b) P)
      = (if P = [] then none else some (mean (fun a b => reProd (a - b1) (b - b2)) P)) ∧
    corrCompensatedSubtractedC (total cxProd P) P.length b1 b2 (total (fun a _ => a) P) (total (fun _ b => b) P)
      = (if P = [] then none else some (mean (fun a b => cxProd (a - b1) (b - b2)) P)) := by
  by_cases h : P = []
  · subst h
    simp [corrCompensatedSubtractedR, corrCompensatedSubtractedC, divCount]
  · have hN := len_ne h
    rw [if_neg h, if_neg h]
    constructor
    · rw [corrCompensatedSubtractedR]
      simp only [divCount_pos _ h, Option.bind_some, Option.map_some, Option.some.injEq, mean, total_reProd_shift]
      simp only [smul_eq_mul, Cx.smul_re, Cx.smul_im, dot]
      field_simp
      ring
    · rw [corrCompensatedSubtractedC]
      simp only [divCount_pos _ h, Option.bind_some, Option.map_some, Option.some.injEq, mean, total_cxProd_shift]
      ext <;> simp <;> field_simp <;> ring

/-- For any sums at all, it is what `normalize_corr_subtracted`, the function which `normalize` calls, returns. -/
theorem C118_same_as_subtracted (count : Nat) (b1 b2 m1 m2 : Cx ℝ) :
    (∀ data, corrCompensatedSubtractedR data count b1 b2 m1 m2 = corrSubtractedR data count b1 b2 m1 m2) ∧
    ∀ data, corrCompensatedSubtractedC data count b1 b2 m1 m2 = corrSubtractedC data count b1 b2 m1 m2 := by
  by_cases hc : count = 0
  · subst hc
    simp [corrCompensatedSubtractedR, corrCompensatedSubtractedC, corrSubtractedR, corrSubtractedC, divCount]
  · have hN : (count : ℝ) ≠ 0 := Nat.cast_ne_zero.mpr hc
    constructor <;> intro data
    · simp only [corrCompensatedSubtractedR, corrSubtractedR, divCount, if_neg hc, Option.bind_some, Option.map_some,
        Option.some.injEq, smul_eq_mul, Cx.smul_re, Cx.smul_im]
      field_simp
      ring
    · simp only [corrCompensatedSubtractedC, corrSubtractedC, divCount, if_neg hc, Option.bind_some, Option.map_some,
        Option.some.injEq]
      ext <;> simp <;> field_simp <;> ring

/-- Complex difference data, which neither `ccorr` nor `acorr` returns, are never normalized: there are no loops for them
(cddm/_core_nb.py:1079-1116, real data only).  With everything there that the norm needs, TypeError; else ValueError or
TypeError. -/
theorem C118_complex_differences (dif : List (Cx ℝ)) (count : List Nat) (s1 s2 : Option (List (Cx ℝ)))
    (bg : Option Background) (var : Option Variance) (z : Int) (mode : String) (scale : Bool) (w : Option (List (Cx ℝ))) :
    (Complete (.diff dif count s1 s2) bg var z mode scale → SameLengths (.diff dif count s1 s2) →
      normalize normOpsC (.diff dif count s1 s2) bg var (some z) mode scale w = .error .typeError) ∧
    (normalize normOpsC (.diff dif count s1 s2) bg var (some z) mode scale w = .error .valueError ∨
      normalize normOpsC (.diff dif count s1 s2) bg var (some z) mode scale w = .error .typeError) := by
  have nas : ∀ {α : Type} (x : List α) (n : Nat), x.length = n → needArray (some x) n = .ok x := by
    intro α x n hx
    simp [needArray, hx]
  have na : ∀ {α : Type} (x : Option (List α)) (n : Nat),
      (∃ y, needArray x n = .ok y) ∨ needArray x n = .error .valueError ∨ needArray x n = .error .typeError := by
    intro α x n
    cases x <;> simp only [needArray]
    · simp
    · split <;> simp
  constructor
  · rintro ⟨hm, hs, hb, hv⟩ ⟨hc, h1, h2⟩
    obtain ⟨b, rfl⟩ := Option.isSome_iff_exists.mp hb
    have hno := (normOf_supports (.diff dif count s1 s2) z).1 hs
    have hsc : ∃ u, (if scale then (scaleFactor var).map some else .ok none : Py (Option ℝ)) = .ok u := by
      cases scale with
      | false => exact ⟨none, rfl⟩
      | true =>
        obtain ⟨v, rfl⟩ := Option.isSome_iff_exists.mp (hv (Or.inl rfl))
        cases v <;> exact ⟨_, rfl⟩
    obtain ⟨u, hu⟩ := hsc
    simp only [normalize, inspectMode, if_pos hm, hno, bind, Except.bind]
    rw [hu]
    rcases hs with rfl | ⟨rfl, ha, hb⟩
    · simp (decide := true) [normalizePlain, inspectBackground_some, normDiff, nas _ _ hc, bind, Except.bind, needLoop,
        normOpsC]
    · obtain ⟨a1, rfl⟩ := Option.isSome_iff_exists.mp ha
      obtain ⟨a2, rfl⟩ := Option.isSome_iff_exists.mp hb
      simp (decide := true) [normalizePlain, inspectBackground_some, normDiff, nas _ _ hc, nas _ _ (h1 _ rfl),
        nas _ _ (h2 _ rfl), bind, Except.bind, needLoop, normOpsC]
  · simp only [normalize, inspectMode, bind, Except.bind]
    by_cases hm : mode = "corr" ∨ mode = "diff"
    swap
    · simp [if_neg hm]
    rw [if_pos hm]
    dsimp only
    by_cases hs : Supports (.diff dif count s1 s2) z
    swap
    · simp [(normOf_supports (.diff dif count s1 s2) z).2 hs]
    rw [(normOf_supports (.diff dif count s1 s2) z).1 hs]
    dsimp only
    have hsc : (∃ u, (if scale then (scaleFactor var).map some else .ok none : Py (Option ℝ)) = .ok u) ∨
        (if scale then (scaleFactor var).map some else .ok none : Py (Option ℝ)) = .error .valueError := by
      cases scale with
      | false => exact Or.inl ⟨none, rfl⟩
      | true =>
        cases var with
        | none => exact Or.inr rfl
        | some v => cases v <;> exact Or.inl ⟨_, rfl⟩
    rcases hsc with ⟨u, hu⟩ | hu <;> rw [hu]
    swap
    · simp
    dsimp only
    have hpl : normalizePlain normOpsC (.diff dif count s1 s2) bg var z.toNat mode scale = .error .valueError ∨
        normalizePlain normOpsC (.diff dif count s1 s2) bg var z.toNat mode scale = .error .typeError := by
      have hb : (∃ b, inspectBackground bg z.toNat = .ok b) ∨ inspectBackground bg z.toNat = .error .valueError := by
        cases bg with
        | none =>
          simp only [inspectBackground]
          split <;> simp
        | some b => exact Or.inl ⟨_, inspectBackground_some b _⟩
      rcases hb with ⟨b, hb⟩ | hb
      swap
      · simp [normalizePlain, hb, bind, Except.bind]
      simp only [normalizePlain, hb, bind, Except.bind, normDiff]
      rcases na (some count) dif.length with ⟨y, hy⟩ | hy | hy <;> simp only [hy]
      rotate_left
      · simp
      · simp
      rcases hs with rfl | ⟨rfl, -, -⟩
      · simp (decide := true) [needLoop, normOpsC]
      · simp (decide := true) only [if_true, if_false, Int.reduceToNat]
        rcases na s1 dif.length with ⟨y1, h1⟩ | h1 | h1 <;> simp only [h1]
        · rcases na s2 dif.length with ⟨y2, h2⟩ | h2 | h2 <;> simp [h2, needLoop, normOpsC]
        · simp
        · simp
    have h3 : z.toNat &&& 3 ≠ 3 := by
      rcases hs with rfl | ⟨rfl, -, -⟩ <;> decide
    rw [if_neg h3]
    rcases hpl with h | h <;> rw [h] <;> simp

/-- Two pairs, backgrounds 1 and i; and complex difference data with everything the subtracted norm needs. -/
example : ([(⟨1, 2⟩, ⟨3, 4⟩), (⟨0, 1⟩, ⟨5, 0⟩)] : List (Cx ℝ × Cx ℝ)) ≠ [] ∧
    corrCompensatedSubtractedR (total reProd [(⟨1, 2⟩, ⟨3, 4⟩), (⟨0, 1⟩, ⟨5, 0⟩)]) 2 ⟨1, 0⟩ ⟨0, 1⟩ ⟨1, 3⟩ ⟨8, 4⟩ = some 0 := by
  refine ⟨by simp, ?_⟩
  norm_num [corrCompensatedSubtractedR, total, reProd, divCount]
example : Complete (.diff [⟨1, 1⟩, ⟨2, 0⟩] [1, 2] (some [⟨1, 0⟩, ⟨0, 1⟩]) (some [⟨2, 0⟩, ⟨0, 2⟩]) : NormData (Cx ℝ))
      (some (.one 0)) (some (.one 1)) 6 "corr" true ∧
    SameLengths (.diff [⟨1, 1⟩, ⟨2, 0⟩] [1, 2] (some [⟨1, 0⟩, ⟨0, 1⟩]) (some [⟨2, 0⟩, ⟨0, 2⟩]) : NormData (Cx ℝ)) := by
  simp [Complete, Supports, NeedsVariance, SameLengths]

end Cddm
