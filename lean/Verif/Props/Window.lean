import Verif.Model.Window
import Verif.Spec.Window

/-!
# C65: window functions
-/

namespace Cddm
open Spec

theorem winR_eq {scale : ℝ} (hs : 0 < scale) (h w i j : Nat) :
    winR scale h w i j = Real.sqrt (ellipse h w i j) / scale := by
  unfold winR ellipse winAxis
  rw [← Real.sqrt_sq hs.le, ← Real.sqrt_div' _ (sq_nonneg scale), Real.sqrt_sq hs.le]
  congr 1
  rw [← div_div, ← div_div, div_pow, div_pow _ scale, ← add_div]
  congr 1
  ring

theorem winR_one (h w i j : Nat) : winR 1 h w i j = Real.sqrt (ellipse h w i j) := by
  rw [winR_eq one_pos, div_one]

theorem ellipse_nonneg (h w i j : Nat) : 0 ≤ ellipse h w i j := add_nonneg (sq_nonneg _) (sq_nonneg _)

theorem ellipse_flip_rows {h i : Nat} (hi : i < h) (w j : Nat) : ellipse h w (h - 1 - i) j = ellipse h w i j := by
  unfold ellipse
  have : ((h - 1 - i : Nat) : ℝ) = h - 1 - i := by
    rw [Nat.cast_sub (by omega), Nat.cast_sub (by omega)]
    simp
  rw [this]
  ring

theorem ellipse_flip_columns {w j : Nat} (hj : j < w) (h i : Nat) : ellipse h w i (w - 1 - j) = ellipse h w i j := by
  unfold ellipse
  have : ((w - 1 - j : Nat) : ℝ) = w - 1 - j := by
    rw [Nat.cast_sub (by omega), Nat.cast_sub (by omega)]
    simp
  rw [this]
  ring

/-- A decreasing function of the radius with values in [0, 1] is a window. -/
theorem isWindow_of {g : ℝ → ℝ} (h w : Nat) (h0 : ∀ r, 0 ≤ r → 0 ≤ g r) (h1 : ∀ r, 0 ≤ r → g r ≤ 1)
    (hd : ∀ r r', 0 ≤ r → r ≤ r' → g r' ≤ g r) : IsWindow h w fun i j => g (Real.sqrt (ellipse h w i j)) where
  nonneg i j _ _ := h0 _ (Real.sqrt_nonneg _)
  le_one i j _ _ := h1 _ (Real.sqrt_nonneg _)
  flip_rows i j hi _ := by
    rw [ellipse_flip_rows hi]
  flip_columns i j _ hj := by
    rw [ellipse_flip_columns hj]
  decreasing i j i' j' _ _ _ _ hle := hd _ _ (Real.sqrt_nonneg _) (Real.sqrt_le_sqrt hle)

theorem blackmanOf_eq {r : ℝ} (hr : r < 1) :
    blackmanOf r = 34 / 100 + 1 / 2 * Real.cos (Real.pi * r) + 16 / 100 * Real.cos (Real.pi * r) ^ 2 := by
  unfold blackmanOf
  rw [if_neg (not_le.mpr hr), show 2 * Real.pi * r = 2 * (Real.pi * r) by ring, Real.cos_two_mul, one_mul]
  ring

theorem blackmanOf_bounds (r : ℝ) : 0 ≤ blackmanOf r ∧ blackmanOf r ≤ 1 := by
  by_cases hr : 1 ≤ r
  · unfold blackmanOf
    rw [if_pos hr]
    exact ⟨le_refl _, zero_le_one⟩
  · rw [blackmanOf_eq (not_le.mp hr)]
    have a := Real.neg_one_le_cos (Real.pi * r)
    have b := Real.cos_le_one (Real.pi * r)
    constructor <;> nlinarith

theorem blackmanOf_anti {r r' : ℝ} (h0 : 0 ≤ r) (h : r ≤ r') : blackmanOf r' ≤ blackmanOf r := by
  by_cases hr : 1 ≤ r'
  · have : blackmanOf r' = 0 := by
      unfold blackmanOf
      rw [if_pos hr]
    rw [this]
    exact (blackmanOf_bounds r).1
  · have hr' := not_le.mp hr
    rw [blackmanOf_eq hr', blackmanOf_eq (lt_of_le_of_lt h hr')]
    have hc : Real.cos (Real.pi * r') ≤ Real.cos (Real.pi * r) := by
      apply Real.cos_le_cos_of_nonneg_of_le_pi
      · exact mul_nonneg Real.pi_pos.le h0
      · nlinarith [Real.pi_pos]
      · exact mul_le_mul_of_nonneg_left h Real.pi_pos.le
    have a := Real.neg_one_le_cos (Real.pi * r')
    have b := Real.neg_one_le_cos (Real.pi * r)
    nlinarith

/-- **C65** (`blackman`): a window, zero outside the inscribed ellipse. -/
theorem C65_blackman (h w : Nat) : IsWindow h w (blackman h w) ∧ ZeroOutside h w (blackman h w) := by
  have e : blackman h w = fun i j => blackmanOf (Real.sqrt (ellipse h w i j)) := by
    funext i j
    unfold blackman
    rw [winR_one]
  rw [e]
  refine ⟨isWindow_of h w (fun r _ => (blackmanOf_bounds r).1) (fun r _ => (blackmanOf_bounds r).2)
    fun r r' => blackmanOf_anti, fun i j _ _ h1 => ?_⟩
  dsimp only
  unfold blackmanOf
  rw [if_pos (by rw [Real.one_le_sqrt]; exact h1)]

/-- **C65** (`blackman`, values): the Blackman function of the radius inside the ellipse. -/
theorem C65_blackman_value (h w i j : Nat) (hin : ellipse h w i j < 1) :
    blackman h w i j = 42 / 100 + 1 / 2 * Real.cos (Real.pi * Real.sqrt (ellipse h w i j)) +
      8 / 100 * Real.cos (2 * (Real.pi * Real.sqrt (ellipse h w i j))) := by
  unfold blackman
  rw [winR_one]
  unfold blackmanOf
  rw [if_neg (by rw [Real.one_le_sqrt]; exact not_le.mpr hin), one_mul, mul_assoc 2]

theorem tukeyOf_bounds (alpha r : ℝ) : 0 ≤ tukeyOf alpha r ∧ tukeyOf alpha r ≤ 1 := by
  unfold tukeyOf
  split_ifs
  · exact ⟨le_refl _, zero_le_one⟩
  · have a := Real.neg_one_le_cos (Real.pi * (r - 1) / alpha)
    have b := Real.cos_le_one (Real.pi * (r - 1) / alpha)
    constructor <;> linarith
  · exact ⟨zero_le_one, le_refl _⟩

theorem tukeyOf_anti {alpha r r' : ℝ} (h : r ≤ r') : tukeyOf alpha r' ≤ tukeyOf alpha r := by
  by_cases h1 : 1 ≤ r'
  · have : tukeyOf alpha r' = 0 := by
      unfold tukeyOf
      rw [if_pos h1]
    rw [this]
    exact (tukeyOf_bounds alpha r).1
  · by_cases h2 : 0 < alpha ∧ 1 - alpha < r
    · have h1' := not_le.mp h1
      have h3 : ¬ 1 ≤ r := not_le.mpr (lt_of_le_of_lt h h1')
      have h4 : 0 < alpha ∧ 1 - alpha < r' := ⟨h2.1, lt_of_lt_of_le h2.2 h⟩
      unfold tukeyOf
      rw [if_neg h1, if_neg h3, if_pos h2, if_pos h4]
      have hc : Real.cos (Real.pi * (r - 1) / alpha) ≤ Real.cos (Real.pi * (r' - 1) / alpha) := by
        rw [← Real.cos_neg (Real.pi * (r - 1) / alpha), ← Real.cos_neg (Real.pi * (r' - 1) / alpha)]
        apply Real.cos_le_cos_of_nonneg_of_le_pi
        · rw [← neg_div, ← mul_neg]
          exact div_nonneg (mul_nonneg Real.pi_pos.le (by linarith)) h2.1.le
        · rw [← neg_div, ← mul_neg, div_le_iff₀ h2.1]
          exact mul_le_mul_of_nonneg_left (by linarith) Real.pi_pos.le
        · rw [neg_le_neg_iff]
          exact div_le_div_of_nonneg_right (mul_le_mul_of_nonneg_left (by linarith) Real.pi_pos.le) h2.1.le
      linarith
    · have h3 : ¬ 1 ≤ r := not_le.mpr (lt_of_le_of_lt h (not_le.mp h1))
      have : tukeyOf alpha r = 1 := by
        unfold tukeyOf
        rw [if_neg h3, if_neg h2]
      rw [this]
      exact (tukeyOf_bounds alpha r').2

/-- **C65** (`tukey`): for every `alpha` between 0 and 1, a window, zero outside the inscribed ellipse and 1 inside
the ellipse of radius `1 - alpha`. -/
theorem C65_tukey (h w : Nat) (alpha : ℝ) (h0 : 0 ≤ alpha) (h1 : alpha ≤ 1) :
    ∃ win, tukey h w alpha = .ok win ∧ IsWindow h w win ∧ ZeroOutside h w win ∧
      ∀ i j, i < h → j < w → ellipse h w i j < 1 → ellipse h w i j ≤ (1 - alpha) ^ 2 → win i j = 1 := by
  refine ⟨fun i j => tukeyOf alpha (winR 1 h w i j), ?_, ?_, ?_, ?_⟩
  · unfold tukey tukeyR
    rw [if_neg (by push Not; exact ⟨h1, h0⟩)]
  · have e : (fun i j => tukeyOf alpha (winR 1 h w i j)) =
        fun i j => tukeyOf alpha (Real.sqrt (ellipse h w i j)) := by
      funext i j
      rw [winR_one]
    rw [e]
    exact isWindow_of h w (fun r _ => (tukeyOf_bounds alpha r).1) (fun r _ => (tukeyOf_bounds alpha r).2)
      fun r r' _ => tukeyOf_anti
  · intro i j _ _ he
    dsimp only
    rw [winR_one]
    unfold tukeyOf
    rw [if_pos (by rw [Real.one_le_sqrt]; exact he)]
  · intro i j _ _ he he'
    dsimp only
    rw [winR_one]
    unfold tukeyOf
    rw [if_neg (by rw [Real.one_le_sqrt]; exact not_le.mpr he), if_neg]
    rintro ⟨-, hlt⟩
    have := Real.sqrt_le_sqrt he'
    rw [Real.sqrt_sq (by linarith)] at this
    linarith

/-- **C65** (`tukey`, values): a cosine edge between the two ellipses, falling from 1 to 0. -/
theorem C65_tukey_edge (h w : Nat) (alpha : ℝ) (h0 : 0 < alpha) (h1 : alpha ≤ 1) (i j : Nat)
    (hin : ellipse h w i j < 1) (hout : (1 - alpha) ^ 2 < ellipse h w i j) :
    ∃ win, tukey h w alpha = .ok win ∧
      win i j = (1 - Real.cos (Real.pi * (1 - Real.sqrt (ellipse h w i j)) / alpha)) / 2 := by
  refine ⟨fun i j => tukeyOf alpha (winR 1 h w i j), ?_, ?_⟩
  · unfold tukey tukeyR
    rw [if_neg (by push Not; exact ⟨h1, h0.le⟩)]
  · dsimp only
    rw [winR_one]
    unfold tukeyOf
    rw [if_neg (by rw [Real.one_le_sqrt]; exact not_le.mpr hin), if_pos ⟨h0, Real.lt_sqrt_of_sq_lt hout⟩,
      ← Real.cos_neg, ← neg_div, ← mul_neg, neg_sub]
    ring

/-- **C65** (`hann`): `tukey` with `alpha = 1`, so a window that is zero outside the ellipse; its values inside. -/
theorem C65_hann (h w : Nat) :
    hann h w = tukey h w 1 ∧ ∃ win, hann h w = .ok win ∧ IsWindow h w win ∧ ZeroOutside h w win ∧
      ∀ i j, i < h → j < w → ellipse h w i j < 1 →
        win i j = (1 + Real.cos (Real.pi * Real.sqrt (ellipse h w i j))) / 2 := by
  refine ⟨rfl, ?_⟩
  obtain ⟨win, e, a, b, c⟩ := C65_tukey h w 1 zero_le_one (le_refl _)
  refine ⟨win, e, a, b, fun i j hi hj hin => ?_⟩
  rcases eq_or_lt_of_le (ellipse_nonneg h w i j) with h0 | h0
  · rw [c i j hi hj hin (by rw [← h0]; norm_num), ← h0]
    norm_num
  · obtain ⟨win', e', hv⟩ := C65_tukey_edge h w 1 one_pos (le_refl _) i j hin (by simpa using h0)
    rw [e] at e'
    cases e'
    rw [hv, div_one, mul_sub, mul_one, Real.cos_pi_sub]
    ring

/-- **C65** (`gaussian`): for every positive `sigma`, a window with positive values, the Gaussian of the radius. -/
theorem C65_gaussian (h w : Nat) (sigma : ℝ) (hs : 0 < sigma) :
    ∃ win, gaussian h w sigma = .ok win ∧ IsWindow h w win ∧ ∀ i j, 0 < win i j ∧
      win i j = Real.exp (-(ellipse h w i j) / (2 * sigma ^ 2)) := by
  have hs2 : 0 < sigma * Real.sqrt 2 := mul_pos hs (Real.sqrt_pos.mpr (by norm_num))
  have hv : ∀ i j, Real.exp (-(winR (sigma * Real.sqrt 2) h w i j) ^ 2) =
      Real.exp (-(ellipse h w i j) / (2 * sigma ^ 2)) := by
    intro i j
    rw [winR_eq hs2, div_pow, Real.sq_sqrt (ellipse_nonneg h w i j), mul_pow, Real.sq_sqrt (by norm_num), neg_div,
      mul_comm (sigma ^ 2)]
  refine ⟨fun i j => Real.exp (-(winR (sigma * Real.sqrt 2) h w i j) ^ 2), ?_, ?_, fun i j => ⟨Real.exp_pos _, hv i j⟩⟩
  · unfold gaussian
    rw [if_neg (not_le.mpr hs)]
  · have e : (fun i j => Real.exp (-(winR (sigma * Real.sqrt 2) h w i j) ^ 2)) =
        fun i j => (fun r => Real.exp (-r ^ 2 / (2 * sigma ^ 2))) (Real.sqrt (ellipse h w i j)) := by
      funext i j
      rw [hv]
      dsimp only
      rw [Real.sq_sqrt (ellipse_nonneg h w i j)]
    rw [e]
    have hp : 0 < 2 * sigma ^ 2 := by positivity
    refine isWindow_of (g := fun r => Real.exp (-r ^ 2 / (2 * sigma ^ 2))) h w (fun r _ => (Real.exp_pos _).le) (fun r _ => ?_) fun r r' h0 hle => ?_
    · rw [Real.exp_le_one_iff]
      exact div_nonpos_of_nonpos_of_nonneg (neg_nonpos.mpr (sq_nonneg r)) hp.le
    · rw [Real.exp_le_exp]
      apply div_le_div_of_nonneg_right _ hp.le
      rw [neg_le_neg_iff]
      exact pow_le_pow_left₀ h0 hle 2

/-- **C65** (invalid parameters): `ValueError` exactly for `sigma ≤ 0` and for `alpha` outside [0, 1]. -/
theorem C65_invalid (h w : Nat) (sigma alpha : ℝ) :
    (gaussian h w sigma = .error .valueError ↔ sigma ≤ 0) ∧
    (tukey h w alpha = .error .valueError ↔ alpha < 0 ∨ 1 < alpha) := by
  constructor
  · unfold gaussian
    split_ifs with c <;> simp [c]
  · unfold tukey tukeyR
    split_ifs with c
    · simp [or_comm] at c ⊢
      exact c
    · simp
      push Not at c
      exact ⟨c.2, c.1⟩

/-- A pixel of a 4 × 6 image: the radius is that of its centre. -/
example : ellipse 4 6 0 1 = 13 / 16 := by
  norm_num [ellipse]

/-- It lies on the cosine edge of a Tukey window, and the corner pixel outside. -/
example : ∃ win, tukey 4 6 (1 / 2) = .ok win ∧ win 0 1 = (1 - Real.cos (Real.pi * (1 - Real.sqrt (13 / 16)) / (1 / 2))) / 2 := by
  have e : ellipse 4 6 0 1 = 13 / 16 := by norm_num [ellipse]
  have := C65_tukey_edge 4 6 (1 / 2) (by norm_num) (by norm_num) 0 1 (by rw [e]; norm_num) (by rw [e]; norm_num)
  rwa [e] at this

/-- The corner of the same image is outside. -/
example : blackman 4 6 0 0 = 0 := (C65_blackman 4 6).2 0 0 (by decide) (by decide) (by norm_num [ellipse])

end Cddm
