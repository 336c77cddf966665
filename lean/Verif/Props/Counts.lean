import Verif.Lemmas.Counts
import Verif.Props.LogAvg
import Mathlib.Algebra.Order.BigOperators.Ring.Finset
import Mathlib.Algebra.Order.Chebyshev
import Mathlib.Data.Rat.Defs
import Mathlib.Algebra.Order.Field.Rat
import Mathlib.Tactic.NormNum
import Mathlib.Tactic.FieldSimp
import Mathlib.Tactic.Ring

/-!
# C73: effective counts of multilevel data
-/

namespace Cddm
open Spec
open scoped BigOperators

section
variable {K : Type} [Field K] [LinearOrder K] [IsStrictOrderedRing K]

/-! ## C73 -/

/-- `multilevel_count` has the levels of `multilevel`, the same cells are missing, and the others hold the effective
count of the triangular average, whenever the average is not wider than the data. -/
theorem C73_mean_partial (count : List K) (hc : count ≠ []) (h0 : ∀ c ∈ count, 0 < c) (size : Nat) (hs : 2 ≤ size) :
    ∃ L rows, IsDoublings size count.length L ∧ multilevelCount count size 1 = .ok rows ∧ rows.length = L + 1 ∧
      ∀ (l : Nat) row, rows[l]? = some row → row.length = size ∧ ∀ j, j < size → ∃ c : Option K, row[j]? = some c ∧
        (c.isSome ↔ j * 2 ^ l < count.length) ∧
        (j * 2 ^ l < count.length → 2 * 2 ^ l ≤ count.length + 1 →
          c = some (effectiveCount count (j * 2 ^ l) (2 ^ l))) := by
  obtain ⟨L, rows, hL, e, hl, hr⟩ := multilevelCount_rows (two_ne_zero (α := K)) count hc size hs 1
  have hlen : 0 < count.length := List.length_pos_of_ne_nil hc
  refine ⟨L, rows, hL, e, hl, fun l row hrow => ?_⟩
  obtain ⟨hlL, hrow'⟩ := hr l row hrow
  have hp : 0 < 2 ^ l := Nat.two_pow_pos l
  have hker := triangularKernel_eq K two_ne_zero l
  have hkl := kernel_length two_ne_zero l _ hker
  obtain ⟨row', e', hlen', hget⟩ := countRow_mean two_ne_zero count _ hc size l hker
  rw [hrow', Except.ok.injEq] at e'
  subst e'
  refine ⟨hlen', fun j hj => ⟨_, hget j hj, ?_, ?_⟩⟩
  · generalize hker' : List.map (kernelWeight K l) (List.range (2 ^ (l + 1) - 1)) = ker at *
    have hkp : ∀ x ∈ ker, 0 < x := by
      intro x hx
      rw [← hker', List.mem_map] at hx
      obtain ⟨i, hi, rfl⟩ := hx
      rw [List.mem_range] at hi
      unfold kernelWeight
      have : 0 < min (i + 1) (2 ^ (l + 1) - 1 - i) := by omega
      have : (0 : K) < ((min (i + 1) (2 ^ (l + 1) - 1 - i) : Nat) : K) := by exact_mod_cast this
      positivity
    have hW : 1 ≤ l → 2 ^ l < count.length := by
      intro h1
      obtain ⟨l, rfl⟩ := Nat.exists_eq_add_of_le' h1
      have := hL.2 l (by omega)
      have h4 : 2 * 2 ^ l ≤ size * 2 ^ l := Nat.mul_le_mul_right _ hs
      rw [pow_succ]; omega
    have hW0 : l = 0 → 2 ^ l = 1 := by rintro rfl; rfl
    have hmax : j * 2 ^ l < max (2 * 2 ^ l - 1) count.length ↔ j * 2 ^ l < count.length := by
      constructor
      · intro h
        by_contra hn
        rcases Nat.lt_or_ge j 2 with hj2 | hj2
        · rcases (by omega : j = 0 ∨ j = 1) with rfl | rfl
          · omega
          · rcases Nat.eq_zero_or_pos l with h' | h'
            · have := hW0 h'; omega
            · have := hW h'; omega
        · have : 2 * 2 ^ l ≤ j * 2 ^ l := Nat.mul_le_mul_right _ hj2
          omega
      · intro h; omega
    by_cases hj' : j * 2 ^ l < count.length
    · rw [if_pos (hmax.mpr hj')]
      simp only [hj', iff_true]
      unfold fdiv
      rw [if_neg]
      · rfl
      · apply ne_of_gt
        apply convFull_pos
        · intro x hx
          rw [List.mem_map] at hx
          obtain ⟨y, hy, rfl⟩ := hx
          exact pow_pos (hkp y hy) 2
        · intro x hx
          rw [List.mem_map] at hx
          obtain ⟨y, hy, rfl⟩ := hx
          exact pow_pos (h0 y hy) 2
        · rw [List.length_map]; omega
        · rw [List.length_map]; omega
        · rw [List.length_map, List.length_map]; omega
    · rw [if_neg (mt hmax.mp hj')]; simp [hj']
  · intro hj' hw
    rw [if_pos (by omega)]
    have eo : min (2 * 2 ^ l - 1) count.length - 1 - min (2 * 2 ^ l - 1) count.length / 2 = 2 ^ l - 1 := by omega
    have e1 := convFull_kernel two_ne_zero l (j * 2 ^ l) 1 (by decide) count _ hker
    have e2 := convFull_kernel two_ne_zero l (j * 2 ^ l) 2 (by decide) count _ hker
    simp only [pow_one, List.map_id'] at e1
    rw [eo, e1, e2]
    have hpos : weightedPow 2 count (j * 2 ^ l) (2 ^ l) ≠ 0 := ne_of_gt (weightedPow_pos h0 _ _ hp hj' 2)
    unfold fdiv effectiveCount
    rw [if_neg hpos]
    congr 1
    ring

/-- With a level size of at least 4 the average is never wider than the data. -/
theorem C73_mean (count : List K) (hc : count ≠ []) (h0 : ∀ c ∈ count, 0 < c) (size : Nat) (hs : 4 ≤ size) :
    ∃ L rows, IsDoublings size count.length L ∧ multilevelCount count size 1 = .ok rows ∧ rows.length = L + 1 ∧
      ∀ (l : Nat) row, rows[l]? = some row → row.length = size ∧ ∀ j, j < size → row[j]? = some
        (if j * 2 ^ l < count.length then some (effectiveCount count (j * 2 ^ l) (2 ^ l)) else none) := by
  obtain ⟨L, rows, hL, e, hl, hr⟩ := C73_mean_partial count hc h0 size (by omega)
  refine ⟨L, rows, hL, e, hl, fun l row hrow => ?_⟩
  obtain ⟨h1, h2⟩ := hr l row hrow
  refine ⟨h1, fun j hj => ?_⟩
  obtain ⟨c, hc1, hc2, hc3⟩ := h2 j hj
  rw [hc1]
  congr 1
  by_cases hj' : j * 2 ^ l < count.length
  · rw [if_pos hj']
    apply hc3 hj'
    have hlt : l < rows.length := (List.getElem?_eq_some_iff.mp hrow).1
    have hlen : 0 < count.length := List.length_pos_of_ne_nil hc
    rcases Nat.eq_zero_or_pos l with rfl | hl0
    · simp; omega
    · obtain ⟨l, rfl⟩ := Nat.exists_eq_add_of_le' hl0
      have := hL.2 l (by omega)
      have h4 : 4 * 2 ^ l ≤ size * 2 ^ l := Nat.mul_le_mul_right _ hs
      rw [pow_succ]; omega
  · rw [if_neg hj']
    rw [← Option.not_isSome_iff_eq_none]
    exact fun h => hj' (hc2.mp h)

/-- Without averaging each cell holds the count at its delay. -/
theorem C73_pick (count : List K) (hc : count ≠ []) (h0 : ∀ c ∈ count, 0 < c) (size : Nat) (hs : 2 ≤ size)
    (binning : Int) (hb : binning ≠ 1) :
    ∃ L rows, IsDoublings size count.length L ∧ multilevelCount count size binning = .ok rows ∧ rows.length = L + 1 ∧
      ∀ (l : Nat) row, rows[l]? = some row → row.length = size ∧ ∀ j, j < size → row[j]? = some count[j * 2 ^ l]? := by
  obtain ⟨L, rows, hL, e, hl, hr⟩ := multilevelCount_rows (two_ne_zero (α := K)) count hc size hs binning
  refine ⟨L, rows, hL, e, hl, fun l row hrow => ?_⟩
  obtain ⟨hlL, hrow'⟩ := hr l row hrow
  obtain ⟨row', e', hlen', hget⟩ := countRow_pick count hc size l binning hb
  rw [hrow', Except.ok.injEq] at e'
  subst e'
  refine ⟨hlen', fun j hj => ?_⟩
  rw [hget j hj]
  congr 1
  by_cases hj' : j * 2 ^ l < count.length
  · rw [if_pos hj', List.getD_eq_getElem?_getD, List.getElem?_eq_getElem hj', Option.getD_some]
    have hne : count[j * 2 ^ l] ≠ 0 := ne_of_gt (h0 _ (List.getElem_mem hj'))
    unfold fdiv
    rw [if_neg (pow_ne_zero 2 hne)]
    congr 1
    field_simp
  · rw [if_neg hj', List.getElem?_eq_none (by omega)]

/-- Level 0 holds the counts themselves, in every binning mode. -/
theorem C73_level_zero (count : List K) (t : Nat) (ht : t < count.length) (h0 : ∀ c ∈ count, 0 < c) :
    some (effectiveCount count t 1) = count[t]? := by
  have hne : count[t] ≠ 0 := ne_of_gt (h0 _ (List.getElem_mem ht))
  have e : ∀ p, weightedPow p count t 1 = count[t] ^ p := by
    intro p
    unfold weightedPow
    have : Finset.Ioo (-((1 : Nat) : ℤ)) ((1 : Nat) : ℤ) = {0} := by ext x; simp; omega
    rw [this, Finset.sum_singleton]
    simp [triWeight, countAt, ht]
  unfold effectiveCount
  rw [e, e, List.getElem?_eq_getElem ht]
  congr 1
  field_simp

/-- The effective count is at least the averaged count, and at most that times the number of cells averaged. -/
theorem C73_bounds (count : List K) (t w : Nat) (hw : 0 < w) (ht : t < count.length) (h0 : ∀ c ∈ count, 0 < c) :
    0 < weightedPow 1 count t w ∧ weightedPow 1 count t w ≤ effectiveCount count t w ∧
      effectiveCount count t w ≤ (2 * (w : K) - 1) * weightedPow 1 count t w := by
  have h1 := weightedPow_pos h0 t w hw ht 1
  have h2 := weightedPow_pos h0 t w hw ht 2
  have hnn : ∀ d ∈ Finset.Ioo (-(w : ℤ)) w, 0 ≤ triWeight K w d * countAt count (t + d) := by
    intro d hd
    exact mul_nonneg (triWeight_pos w d hd).le (countAt_nonneg h0 _)
  have e1 : weightedPow 1 count t w = ∑ d ∈ Finset.Ioo (-(w : ℤ)) w, triWeight K w d * countAt count (t + d) := by
    unfold weightedPow; simp only [pow_one]
  have hlo : weightedPow 2 count t w ≤ weightedPow 1 count t w ^ 2 := by
    rw [e1]
    exact Finset.sum_sq_le_sq_sum_of_nonneg hnn
  have hhi : weightedPow 1 count t w ^ 2 ≤ (2 * (w : K) - 1) * weightedPow 2 count t w := by
    rw [e1]
    have := sq_sum_le_card_mul_sum_sq (s := Finset.Ioo (-(w : ℤ)) w)
      (f := fun d => triWeight K w d * countAt count (t + d))
    rw [Int.card_Ioo] at this
    have ec : (((w : ℤ) - -(w : ℤ) - 1).toNat : K) = 2 * (w : K) - 1 := by
      have : ((w : ℤ) - -(w : ℤ) - 1).toNat = 2 * w - 1 := by omega
      rw [this, Nat.cast_sub (by omega)]
      push_cast; ring
    rw [ec] at this
    exact this
  refine ⟨h1, ?_, ?_⟩
  · unfold effectiveCount
    conv_lhs => rw [← mul_one (weightedPow 1 count t w)]
    apply mul_le_mul_of_nonneg_left _ h1.le
    rw [one_le_div h2]
    exact hlo
  · unfold effectiveCount
    rw [mul_comm]
    apply mul_le_mul_of_nonneg_right _ h1.le
    rw [div_le_iff₀ h2]
    exact hhi

/-- Where the counts are constant, `w` cells on either side give `3 w³ / (2 w² + 1)` times the count. -/
theorem C73_constant (count : List K) (t w : Nat) (hw : 0 < w) (c : K) (hc : 0 < c)
    (h : ∀ d : ℤ, |d| < w → countAt count (t + d) = c) :
    weightedPow 1 count t w = c ∧ effectiveCount count t w = c * (3 * (w : K) ^ 3 / (2 * (w : K) ^ 2 + 1)) := by
  have hwK : (0 : K) < w := by exact_mod_cast hw
  have key : ∀ p, weightedPow p count t w = c ^ p / (w : K) ^ (2 * p) *
      ∑ d ∈ Finset.Ioo (-(w : ℤ)) w, ((w : K) - (|d| : ℤ)) ^ p := by
    intro p
    unfold weightedPow triWeight
    rw [Finset.mul_sum]
    apply Finset.sum_congr rfl
    intro d hd
    rw [Finset.mem_Ioo] at hd
    rw [h d (abs_lt.mpr ⟨hd.1, hd.2⟩), mul_pow, div_pow, pow_mul]
    ring
  have s1 : weightedPow 1 count t w = c := by
    rw [key, tri_sum_one w hw]
    field_simp
  have s2 : weightedPow 2 count t w = c ^ 2 * (2 * (w : K) ^ 2 + 1) / (3 * (w : K) ^ 3) := by
    rw [key, tri_sum_two w hw]
    field_simp
  refine ⟨s1, ?_⟩
  unfold effectiveCount
  rw [s1, s2]
  have : (0 : K) < 2 * (w : K) ^ 2 + 1 := by positivity
  field_simp

/-- `log_average_count` returns the times of `log_average` of data of that length; the values are missing beyond the
data, the first `2*size` of them are the counts themselves, and the later ones are effective counts. -/
theorem C73_log_average (count : List K) (hc : count ≠ []) (h0 : ∀ c ∈ count, 0 < c) (size : Nat) (hs : 1 ≤ size) :
    ∃ x y, logAverageCount count size = .ok (x, y) ∧ x.length = y.length ∧
      (∀ {V : Type} [AddCommGroup V] [Module K V] (data : List V), data.length = count.length →
        ∃ y', logAverage K data size = .ok (x, y')) ∧
      ∀ t v, (t, v) ∈ x.zip y → (v.isSome ↔ t < count.length) ∧ (t < 2 * size → v = count[t]?) ∧
        (2 * size ≤ t → ∃ l j, 1 ≤ l ∧ size ≤ j ∧ j < 2 * size ∧ t = j * 2 ^ l ∧
          (2 ≤ size → t < count.length → v = some (effectiveCount count t (2 ^ l)))) := by
  obtain ⟨L, rows, hL, e, hl, hr⟩ := C73_mean_partial count hc h0 (2 * size) (by omega)
  have hlen : 0 < count.length := List.length_pos_of_ne_nil hc
  have hrows : ∀ r ∈ rows, r.length = 2 * size := by
    intro r hr'
    obtain ⟨l, hl'⟩ := List.mem_iff_getElem?.mp hr'
    exact (hr l r hl').1
  obtain ⟨x, y, e2, h1, h2, h3⟩ := C43_merge_full rows (2 * size) (by omega) (by rintro rfl; simp at hl) hrows
  have es : (size : Int) * 2 = ((2 * size : Nat) : Int) := by push_cast; ring
  refine ⟨x, y, ?_, h1, ?_, ?_⟩
  · unfold logAverageCount
    rw [es, e]
    exact e2
  · intro V _ _ data hd
    obtain ⟨L', rows', hL', e', hl', hr'⟩ := C42_mean K data (2 * size) (by omega) (fun _ => false)
    rw [hd] at hL'
    have hLL : L' = L := isDoublings_unique hL' hL
    rw [hLL] at hl'
    match rows, rows', hl, hl' with
    | r :: rest, r' :: rest', hl, hl' =>
      rw [mergeFull_eq _ _ _ (by omega), Except.ok.injEq, Prod.mk.injEq] at e2
      refine ⟨r' ++ mergeValues (2 * size) rest', ?_⟩
      unfold logAverage
      rw [if_neg (by omega), es, e']
      show mergeMultilevel (r' :: rest') ((2 * size : Nat) : Int).toNat "full" = _
      rw [Int.toNat_natCast, mergeFull_eq _ _ _ (by omega), ← e2.1,
        mergeTimes_length_congr (2 * size) 1 rest' rest (by simp at hl hl'; omega)]
  · intro t v htv
    obtain ⟨l, row, j, g1, g2, rfl, g4⟩ := (h3 t v).mp htv
    obtain ⟨hrl, hrj⟩ := hr l row g1
    have hj : j < 2 * size := by
      rw [← hrl]; by_contra hc
      rw [List.getElem?_eq_none (by omega)] at g2; cases g2
    obtain ⟨c, k1, k2, k3⟩ := hrj j hj
    rw [g2, Option.some.injEq] at k1
    subst k1
    have hlL : l < rows.length := (List.getElem?_eq_some_iff.mp g1).1
    refine ⟨k2, fun ht => ?_, fun ht => ?_⟩
    · by_cases hl0 : l = 0
      · subst hl0
        simp only [pow_zero, mul_one] at *
        by_cases hjN : j < count.length
        · rw [k3 hjN (by omega), C73_level_zero count j hjN h0]
        · rw [List.getElem?_eq_none (by omega)]
          cases v with
          | none => rfl
          | some w => simp at k2; omega
      · exfalso
        have hj2 : size ≤ j := by omega
        have : 2 ^ 1 ≤ 2 ^ l := Nat.pow_le_pow_right (by omega) (by omega)
        nlinarith
    · have hl0 : l ≠ 0 := by rintro rfl; simp at ht; omega
      refine ⟨l, j, by omega, by omega, hj, rfl, fun hs2 hw => k3 hw ?_⟩
      obtain ⟨l, rfl⟩ := Nat.exists_eq_add_of_le' (Nat.pos_of_ne_zero hl0)
      have := hL.2 l (by omega)
      have h4 : 4 * 2 ^ l ≤ 2 * size * 2 ^ l := Nat.mul_le_mul_right _ (by omega)
      rw [pow_succ]; omega

omit [LinearOrder K] [IsStrictOrderedRing K] in
/-- Level sizes below 2 are refused, and so is an empty array of counts. -/
theorem C73_rejects [DecidableEq K] (h2 : (2 : K) ≠ 0) (count : List K) (size binning : Int) (h : size < 2 ∨ count = []) :
    multilevelCount count size binning = .error .valueError := by
  unfold multilevelCount
  by_cases hs : size < 2
  · rw [if_pos hs]
  · rw [if_neg hs]
    obtain rfl : count = [] := by tauto
    have e : countRow ([] : List K) size.toNat binning 0 = .error .valueError := by
      unfold countRow
      rw [triangularKernel_eq K h2]
      by_cases hb : binning = 1
      · rw [if_pos hb]; simp [npConvolveSame]
      · rw [if_neg hb]; simp [npConvolveSame]
    rw [List.range_succ_eq_map, List.mapM_cons, e]
    rfl

end

/-- The condition on the width is needed: for 5 counts in levels of 2 the kernel of level 2 is longer than the data,
and `np.convolve` then centres it differently. -/
theorem C73_wide_refuted : ∃ rows row, multilevelCount [(5 : ℚ), 4, 3, 2, 1] 2 1 = .ok rows ∧ rows[2]? = some row ∧
    row = [some (2197 / 596), some (1331 / 144)] ∧ effectiveCount [(5 : ℚ), 4, 3, 2, 1] (0 * 2 ^ 2) (2 ^ 2) = 500 / 73 := by
  obtain ⟨L, rows, hL, e, hl, hr⟩ := multilevelCount_rows (two_ne_zero (α := ℚ)) [(5 : ℚ), 4, 3, 2, 1] (by simp) 2
    (by decide) 1
  have hL2 : L = 2 := isDoublings_unique hL ⟨by decide, by decide⟩
  subst hL2
  have h2 : 2 < rows.length := by omega
  refine ⟨rows, rows[2], e, List.getElem?_eq_getElem h2, ?_, by decide +kernel⟩
  have := (hr 2 rows[2] (List.getElem?_eq_getElem h2)).2
  have e' : countRow [(5 : ℚ), 4, 3, 2, 1] 2 1 2 = .ok [some (2197 / 596), some (1331 / 144)] := by decide +kernel
  rw [this, Except.ok.injEq] at e'
  exact e'

/-- Non-vacuity: twenty counts in levels of 4. -/
example : ∃ L rows, IsDoublings 4 20 L ∧ multilevelCount ((List.range 20).map fun (i : Nat) => (20 - i : ℚ)) 4 1 = .ok rows ∧
    rows.length = L + 1 := by
  obtain ⟨L, rows, h1, h2, h3, -⟩ := C73_mean ((List.range 20).map fun (i : Nat) => (20 - i : ℚ)) (by simp) (by
    intro c hc
    rw [List.mem_map] at hc
    obtain ⟨i, hi, rfl⟩ := hc
    rw [List.mem_range] at hi
    have : (i : ℚ) < 20 := by exact_mod_cast hi
    linarith) 4 (by decide)
  exact ⟨L, rows, by simpa using h1, h2, h3⟩

/-- The effective count of the second cell of level 1 of the counts 5, 4, 3, 2, 1. -/
example : effectiveCount [(5 : ℚ), 4, 3, 2, 1] 2 2 = 54 / 7 := by decide +kernel

example : effectiveCount [(4 : ℚ), 4, 4] 1 2 = 4 * (3 * 2 ^ 3 / (2 * 2 ^ 2 + 1)) := by decide +kernel

end Cddm
