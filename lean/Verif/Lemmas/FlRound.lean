import Verif.Spec.Rounding
import Mathlib.Tactic.Linarith
import Mathlib.Tactic.FieldSimp
import Mathlib.Tactic.Positivity
import Mathlib.Tactic.NormNum
import Mathlib.Algebra.Order.Field.Power

/-! # Rounding to the nearest number with `p` binary digits -/

namespace Cddm
open Spec

theorem flRound_rounds (p : ℕ) : Rounds (flRound p) ((2 : ℝ) ^ (-(p : ℤ))) := by
  refine ⟨by positivity, fun x => ?_⟩
  unfold flRound
  set e := Int.log 2 |x| + 1 - p with he
  have hp : (0 : ℝ) < (2 : ℝ) ^ e := by positivity
  have h1 : |(round (x / (2 : ℝ) ^ e) : ℝ) * (2 : ℝ) ^ e - x|
      = |x / (2 : ℝ) ^ e - round (x / (2 : ℝ) ^ e)| * (2 : ℝ) ^ e := by
    rw [← abs_of_pos hp, ← abs_mul, abs_of_pos hp, abs_sub_comm]
    congr 1
    field_simp
  rw [h1]
  rcases eq_or_ne x 0 with rfl | hx
  · simp
  have h2 := abs_sub_round (x / (2 : ℝ) ^ e)
  have h3 : (2 : ℝ) ^ (Int.log 2 |x|) ≤ |x| := by
    have := Int.zpow_log_le_self (b := 2) (r := |x|) (by norm_num) (abs_pos.mpr hx)
    exact_mod_cast this
  have h4 : (2 : ℝ) ^ e = (2 : ℝ) ^ (-(p : ℤ)) * (2 : ℝ) ^ (Int.log 2 |x|) * 2 := by
    rw [← zpow_add₀ (by norm_num), ← zpow_add_one₀ (by norm_num)]
    congr 1
    omega
  have h5 : (0 : ℝ) < (2 : ℝ) ^ (-(p : ℤ)) := by positivity
  calc |x / (2 : ℝ) ^ e - round (x / (2 : ℝ) ^ e)| * (2 : ℝ) ^ e ≤ 1 / 2 * (2 : ℝ) ^ e :=
        mul_le_mul_of_nonneg_right h2 hp.le
    _ = (2 : ℝ) ^ (-(p : ℤ)) * (2 : ℝ) ^ (Int.log 2 |x|) := by rw [h4]; ring
    _ ≤ _ := mul_le_mul_of_nonneg_left h3 h5.le

/-- Numbers with `p` binary digits are kept. -/
theorem flRound_exact {p : ℕ} (hp : 1 ≤ p) (m j : ℤ) (hm : |(m : ℝ)| ≤ (2 : ℝ) ^ p) :
    flRound p ((m : ℝ) * (2 : ℝ) ^ j) = (m : ℝ) * (2 : ℝ) ^ j := by
  have key : ∀ (e l : ℤ), (m : ℝ) * (2 : ℝ) ^ j / (2 : ℝ) ^ e = l →
      (round ((m : ℝ) * (2 : ℝ) ^ j / (2 : ℝ) ^ e) : ℝ) * (2 : ℝ) ^ e = (m : ℝ) * (2 : ℝ) ^ j := by
    intro e l h
    rw [h, round_intCast, ← h]
    field_simp
  rcases eq_or_ne m 0 with rfl | hm0
  · simp [flRound]
  unfold flRound
  set x := (m : ℝ) * (2 : ℝ) ^ j with hx
  have hx0 : x ≠ 0 := mul_ne_zero (by exact_mod_cast hm0) (by positivity)
  set e := Int.log 2 |x| + 1 - p with he
  have h3 : (2 : ℝ) ^ (Int.log 2 |x|) ≤ |x| := by
    have := Int.zpow_log_le_self (b := 2) (r := |x|) (by norm_num) (abs_pos.mpr hx0)
    exact_mod_cast this
  have habs : |x| = |(m : ℝ)| * (2 : ℝ) ^ j := by
    rw [hx, abs_mul, abs_of_pos (show (0 : ℝ) < (2 : ℝ) ^ j by positivity)]
  by_cases hej : e ≤ j
  · apply key e (m * 2 ^ (j - e).toNat)
    push_cast
    rw [hx, mul_div_assoc, ← zpow_sub₀ (by norm_num), ← zpow_natCast, Int.toNat_of_nonneg (by omega)]
  · -- then `|m| = 2^p`
    have h4 : (2 : ℝ) ^ (j + p) ≤ |x| := le_trans (zpow_le_zpow_right₀ (by norm_num) (by omega)) h3
    have h5 : (2 : ℝ) ^ p ≤ |(m : ℝ)| := by
      rw [habs, zpow_add₀ (by norm_num), zpow_natCast, mul_comm] at h4
      exact le_of_mul_le_mul_right h4 (by positivity)
    have h6 : |(m : ℝ)| = (2 : ℝ) ^ p := le_antisymm hm h5
    have h7 : |m| = 2 ^ p := by exact_mod_cast h6
    have h8 : |x| = (2 : ℝ) ^ (p + j : ℤ) := by
      rw [habs, h6, zpow_add₀ (by norm_num), zpow_natCast]
    have h9 : Int.log 2 |x| = p + j := by
      rw [h8]
      have := Int.log_zpow (R := ℝ) (b := 2) (by norm_num) (p + j : ℤ)
      exact_mod_cast this
    have h10 : e = j + 1 := by omega
    obtain ⟨q, rfl⟩ : ∃ q, p = q + 1 := ⟨p - 1, by omega⟩
    rcases abs_eq (by positivity) |>.mp h7 with h | h
    · apply key e (2 ^ q)
      rw [hx, h, h10, zpow_add_one₀ (by norm_num)]
      push_cast
      rw [pow_succ]
      field_simp
    · apply key e (-2 ^ q)
      rw [hx, h, h10, zpow_add_one₀ (by norm_num)]
      push_cast
      rw [pow_succ]
      field_simp

theorem flRound_integers {p : ℕ} (hp : 1 ≤ p) : KeepsIntegers (flRound p) ((2 : ℝ) ^ p) := by
  intro z hz
  have := flRound_exact hp z 0 hz
  simpa using this

end Cddm
