import Verif.Lemmas.NormModes
import Verif.Props.Filters

/-!
# C25-C27: weights and error estimates
-/

namespace Cddm
open Spec

/-! ### C25 -/

theorem weight_den_pos (g : Cx ℝ) (δ : ℝ) : 0 < g.re ^ 2 + g.im ^ 2 + 1 + δ ^ 2 := by positivity

/-- Completing the square: the radicand at any weight, and at the weight `2 Re g / (|g|² + 1 + δ²)`. -/
theorem sigmaArg_eq (w : ℝ) (g : Cx ℝ) (δ : ℝ) :
    sigmaArg w g δ = sigmaArg (weightFromGC g δ).re g δ
      + (1 / 2) * (g.re ^ 2 + g.im ^ 2 + 1 + δ ^ 2) * (w - (weightFromGC g δ).re) ^ 2 := by
  have h := (weight_den_pos g δ).ne'
  simp only [sigmaArg, weightFromGC, Cx.smul_re]
  field_simp
  ring

theorem weightFromG_ofR (g δ : ℝ) : weightFromG g δ = (weightFromGC (Cx.ofR g) δ).re := by
  simp [weightFromG, weightFromGC]
  ring

/-- The weight for a real `g` is the only minimum of the radicand of the error estimate. -/
theorem C25_optimal (g δ w : ℝ) :
    sigmaArg (weightFromG g δ) (Cx.ofR g) δ ≤ sigmaArg w (Cx.ofR g) δ ∧
      (w ≠ weightFromG g δ → sigmaArg (weightFromG g δ) (Cx.ofR g) δ < sigmaArg w (Cx.ofR g) δ) := by
  have hp := weight_den_pos (Cx.ofR g) δ
  rw [weightFromG_ofR, sigmaArg_eq w]
  constructor
  · have : 0 ≤ (1 / 2) * ((Cx.ofR g).re ^ 2 + (Cx.ofR g).im ^ 2 + 1 + δ ^ 2)
      * (w - (weightFromGC (Cx.ofR g) δ).re) ^ 2 := by positivity
    linarith
  · intro hw
    have hw' : 0 < (w - (weightFromGC (Cx.ofR g) δ).re) ^ 2 := by
      have := sub_ne_zero.mpr hw
      positivity
    have : 0 < (1 / 2) * ((Cx.ofR g).re ^ 2 + (Cx.ofR g).im ^ 2 + 1 + δ ^ 2)
      * (w - (weightFromGC (Cx.ofR g) δ).re) ^ 2 := by positivity
    linarith

/-- For complex `g` the real part of the (complex) weight is the only minimum. -/
theorem C25_optimal_complex (g : Cx ℝ) (δ w : ℝ) :
    sigmaArg (weightFromGC g δ).re g δ ≤ sigmaArg w g δ ∧
      (w ≠ (weightFromGC g δ).re → sigmaArg (weightFromGC g δ).re g δ < sigmaArg w g δ) := by
  have hp := weight_den_pos g δ
  rw [sigmaArg_eq w]
  constructor
  · have : 0 ≤ (1 / 2) * (g.re ^ 2 + g.im ^ 2 + 1 + δ ^ 2) * (w - (weightFromGC g δ).re) ^ 2 := by
      positivity
    linarith
  · intro hw
    have hw' : 0 < (w - (weightFromGC g δ).re) ^ 2 := by
      have := sub_ne_zero.mpr hw
      positivity
    have : 0 < (1 / 2) * (g.re ^ 2 + g.im ^ 2 + 1 + δ ^ 2) * (w - (weightFromGC g δ).re) ^ 2 := by
      positivity
    linarith

/-- In terms of the error estimate itself: where it is a number at the returned weight it is a number
at every weight, and not smaller; equal only at the same weight. -/
theorem C25_sigma (g δ w s : ℝ) (h : sigmaWeighted (weightFromG g δ) (Cx.ofR g) δ = some s) :
    ∃ s', sigmaWeighted w (Cx.ofR g) δ = some s' ∧ s ≤ s' ∧ (w ≠ weightFromG g δ → s < s') := by
  obtain ⟨h1, h2⟩ := C25_optimal g δ w
  unfold sigmaWeighted at h ⊢
  split at h
  · simp at h
  · next h0 =>
    push Not at h0
    obtain rfl := Option.some.inj h
    rw [if_neg (by linarith)]
    exact ⟨_, rfl, Real.sqrt_le_sqrt h1, fun hw => Real.sqrt_lt_sqrt h0 (h2 hw)⟩

example : sigmaWeighted (weightFromG (1 / 2) 0) (Cx.ofR (1 / 2)) 0 = some (Real.sqrt (9 / 40)) := by
  have : sigmaArg (weightFromG (1 / 2) 0) (Cx.ofR (1 / 2)) 0 = 9 / 40 := by
    simp [sigmaArg, weightFromG]; norm_num
  rw [sigmaWeighted, this, if_neg (by norm_num)]

/-- The weight lies in [-1, 1], and in [0, 1] for `g ≥ 0`. -/
theorem C25_range (g δ : ℝ) :
    -1 ≤ weightFromG g δ ∧ weightFromG g δ ≤ 1 ∧ (0 ≤ g → 0 ≤ weightFromG g δ) := by
  have hp : 0 < g ^ 2 + 0 ^ 2 + 1 + δ ^ 2 := by positivity
  simp only [weightFromG]
  refine ⟨?_, ?_, fun h => by positivity⟩
  · rw [le_div_iff₀ hp]
    nlinarith [sq_nonneg (g + 1), sq_nonneg δ]
  · rw [div_le_one hp]
    nlinarith [sq_nonneg (g - 1), sq_nonneg δ]

/-- Complex `g`: the modulus of the weight is at most 1, its parts have the signs of those of `g`. -/
theorem C25_range_complex (g : Cx ℝ) (δ : ℝ) :
    (weightFromGC g δ).abs2 ≤ 1 ∧ (0 ≤ g.re → 0 ≤ (weightFromGC g δ).re) ∧
      (0 ≤ g.im → 0 ≤ (weightFromGC g δ).im) := by
  have hp := weight_den_pos g δ
  simp only [weightFromGC, Cx.abs2, Cx.smul_re, Cx.smul_im]
  refine ⟨?_, fun h => by positivity, fun h => by positivity⟩
  have e : 1 / (g.re ^ 2 + g.im ^ 2 + 1 + δ ^ 2) * (2 * g.re)
        * (1 / (g.re ^ 2 + g.im ^ 2 + 1 + δ ^ 2) * (2 * g.re))
      + 1 / (g.re ^ 2 + g.im ^ 2 + 1 + δ ^ 2) * (2 * g.im)
        * (1 / (g.re ^ 2 + g.im ^ 2 + 1 + δ ^ 2) * (2 * g.im))
      = 4 * (g.re ^ 2 + g.im ^ 2) / (g.re ^ 2 + g.im ^ 2 + 1 + δ ^ 2) ^ 2 := by
    field_simp
    ring
  rw [e, div_le_one (by positivity)]
  nlinarith [sq_nonneg (g.re ^ 2 + g.im ^ 2 - 1), sq_nonneg δ, sq_nonneg g.re, sq_nonneg g.im,
    mul_nonneg (sq_nonneg δ) (add_nonneg (sq_nonneg g.re) (sq_nonneg g.im))]

/-- The second derivative of the radicand of `sigma_prime_weighted`. -/
noncomputable def primeDen (g : Cx ℝ) (δ : ℝ) (b1 b2 : Cx ℝ) : ℝ :=
  g.re ^ 2 + g.im ^ 2 + 1 + δ ^ 2 + b1.abs2 + b2.abs2 + (b2.abs2 - b1.abs2) * δ
    + 2 * (b1.re * b2.re + b1.im * b2.im) * g.re + 2 * (b2.re * b1.im - b2.im * b1.re) * g.im

theorem sigmaPrimeArg_eq (w : ℝ) (g : Cx ℝ) (δ : ℝ) (b1 b2 : Cx ℝ) (w0 : ℝ)
    (h : weightPrimeFromG g δ b1 b2 = some w0) :
    sigmaPrimeArg w g δ b1 b2 = sigmaPrimeArg w0 g δ b1 b2
      + (1 / 2) * primeDen g δ b1 b2 * (w - w0) ^ 2 := by
  simp only [weightPrimeFromG, fdiv] at h
  split at h
  · simp at h
  · next hd =>
    have h' := Option.some.inj h
    rw [div_eq_iff hd] at h'
    simp only [sigmaPrimeArg, primeDen, Cx.abs2]
    linear_combination (w0 - w) * h'

/-- Physical data: `|g|² ≤ 1 - δ²` (Cauchy-Schwarz, see C27). -/
theorem primeDen_pos (g : Cx ℝ) (δ : ℝ) (b1 b2 : Cx ℝ) (h : g.re ^ 2 + g.im ^ 2 ≤ 1 - δ ^ 2) :
    0 < primeDen g δ b1 b2 := by
  have hd : δ ^ 2 ≤ 1 := by nlinarith [sq_nonneg g.re, sq_nonneg g.im]
  have hd1 : δ ≤ 1 := by nlinarith
  have hd2 : -1 ≤ δ := by nlinarith
  -- twice the product term, times `1 + δ`, against a square
  unfold primeDen Cx.abs2
  rcases eq_or_lt_of_le hd2 with h1 | h1
  · subst h1
    have e1 : g.re = 0 := by nlinarith [sq_nonneg g.re, sq_nonneg g.im]
    have e2 : g.im = 0 := by nlinarith [sq_nonneg g.re, sq_nonneg g.im]
    rw [e1, e2]
    nlinarith [mul_self_nonneg b1.re, mul_self_nonneg b1.im]
  · have hp : 0 < 1 + δ := by linarith
    have key : 0 ≤ (b1.re * b1.re + b1.im * b1.im) * (1 - δ)
        + (b2.re * b2.re + b2.im * b2.im) * (1 + δ)
        + 2 * (b1.re * b2.re + b1.im * b2.im) * g.re
        + 2 * (b2.re * b1.im - b2.im * b1.re) * g.im := by
      have e : (1 + δ) * ((b1.re * b1.re + b1.im * b1.im) * (1 - δ)
        + (b2.re * b2.re + b2.im * b2.im) * (1 + δ)
        + 2 * (b1.re * b2.re + b1.im * b2.im) * g.re
        + 2 * (b2.re * b1.im - b2.im * b1.re) * g.im)
        = ((1 + δ) * b2.re + (b1.re * g.re + b1.im * g.im)) ^ 2
          + ((1 + δ) * b2.im + (b1.im * g.re - b1.re * g.im)) ^ 2
          + (b1.re ^ 2 + b1.im ^ 2) * (1 - δ ^ 2 - (g.re ^ 2 + g.im ^ 2)) := by ring
      have h3 : 0 ≤ (1 + δ) * ((b1.re * b1.re + b1.im * b1.im) * (1 - δ)
        + (b2.re * b2.re + b2.im * b2.im) * (1 + δ)
        + 2 * (b1.re * b2.re + b1.im * b2.im) * g.re
        + 2 * (b2.re * b1.im - b2.im * b1.re) * g.im) := by
        rw [e]
        have : 0 ≤ 1 - δ ^ 2 - (g.re ^ 2 + g.im ^ 2) := by linarith
        positivity
      exact nonneg_of_mul_nonneg_right h3 hp
    nlinarith [sq_nonneg g.re, sq_nonneg g.im, sq_nonneg δ]

/-- `weight_prime_from_g` returns the only minimum of `sigma_prime_weighted` for physical data.
Missing: data violating `|g|² ≤ 1 - δ²`, for which this fails (`C25_prime_refuted`). -/
theorem C25_prime_partial (g : Cx ℝ) (δ : ℝ) (b1 b2 : Cx ℝ)
    (h : g.re ^ 2 + g.im ^ 2 ≤ 1 - δ ^ 2) :
    ∃ w0, weightPrimeFromG g δ b1 b2 = some w0 ∧ ∀ w,
      sigmaPrimeArg w0 g δ b1 b2 ≤ sigmaPrimeArg w g δ b1 b2 ∧
      (w ≠ w0 → sigmaPrimeArg w0 g δ b1 b2 < sigmaPrimeArg w g δ b1 b2) := by
  have hp := primeDen_pos g δ b1 b2 h
  have hd : ∃ w0, weightPrimeFromG g δ b1 b2 = some w0 := by
    simp only [weightPrimeFromG, fdiv]
    rw [if_neg]
    · exact ⟨_, rfl⟩
    · unfold primeDen Cx.abs2 at hp
      exact hp.ne'
  obtain ⟨w0, hw0⟩ := hd
  refine ⟨w0, hw0, fun w => ?_⟩
  rw [sigmaPrimeArg_eq w g δ b1 b2 w0 hw0]
  constructor
  · have : 0 ≤ (1 / 2) * primeDen g δ b1 b2 * (w - w0) ^ 2 := by positivity
    linarith
  · intro hw
    have hw' : 0 < (w - w0) ^ 2 := by
      have := sub_ne_zero.mpr hw
      positivity
    have : 0 < (1 / 2) * primeDen g δ b1 b2 * (w - w0) ^ 2 := by positivity
    linarith

example : (⟨3 / 5, 0⟩ : Cx ℝ).re ^ 2 + (⟨3 / 5, 0⟩ : Cx ℝ).im ^ 2 ≤ 1 - (1 / 2 : ℝ) ^ 2 := by norm_num

/-- For `g = 3` and opposite backgrounds ±2 the returned weight is the maximum: weight 0 is better. -/
theorem C25_prime_refuted :
    ∃ w0, weightPrimeFromG ⟨3, 0⟩ 0 ⟨2, 0⟩ ⟨-2, 0⟩ = some w0 ∧
      sigmaPrimeArg 0 ⟨3, 0⟩ 0 ⟨2, 0⟩ ⟨-2, 0⟩ < sigmaPrimeArg w0 ⟨3, 0⟩ 0 ⟨2, 0⟩ ⟨-2, 0⟩ := by
  refine ⟨-11 / 3, ?_, ?_⟩
  · simp only [weightPrimeFromG, fdiv]
    norm_num
  · simp only [sigmaPrimeArg]
    norm_num

/-! ### C26 -/

/-- For a weight in [0, 1] the weighted sum lies between its terms. -/
theorem C26_between (x y w : ℝ) (h0 : 0 ≤ w) (h1 : w ≤ 1) :
    min x y ≤ weightedSumR x y w ∧ weightedSumR x y w ≤ max x y := by
  unfold weightedSumR
  rcases le_total x y with h | h
  · rw [min_eq_left h, max_eq_right h]
    constructor <;> nlinarith
  · rw [min_eq_right h, max_eq_left h]
    constructor <;> nlinarith

/-- Weight 1 selects the first, weight 0 the second term; equal terms are kept by any weight. -/
theorem C26_ends (x y w : ℝ) :
    weightedSumR x y 1 = x ∧ weightedSumR x y 0 = y ∧ weightedSumR x x w = x := by
  unfold weightedSumR
  refine ⟨by ring, by ring, by ring⟩

/-- Complex data: real parts are combined with the real part of the weight, imaginary parts with
its imaginary part. -/
theorem C26_complex (x y w : Cx ℝ) :
    (weightedSumC x y w).re = weightedSumR x.re y.re w.re ∧
      (weightedSumC x y w).im = weightedSumR x.im y.im w.im := ⟨rfl, rfl⟩

/-! ### C27 -/

/-- The radicand at the optimal weight. -/
theorem sigmaArg_min (g : Cx ℝ) (δ : ℝ) :
    sigmaArg (weightFromGC g δ).re g δ
      = (1 - g.re ^ 2 - g.im ^ 2 - δ ^ 2) * (1 - g.re ^ 2 + g.im ^ 2 + δ ^ 2)
        / (2 * (g.re ^ 2 + g.im ^ 2 + 1 + δ ^ 2)) := by
  have h := (weight_den_pos g δ).ne'
  simp only [sigmaArg, weightFromGC, Cx.smul_re]
  field_simp
  ring

theorem sigmaArg_nonneg (g : Cx ℝ) (δ : ℝ) (h : g.re ^ 2 + g.im ^ 2 ≤ 1 - δ ^ 2) :
    0 ≤ sigmaArg (weightFromGC g δ).re g δ := by
  have hp := weight_den_pos g δ
  rw [sigmaArg_min]
  apply div_nonneg
  · apply mul_nonneg
    · linarith
    · nlinarith [sq_nonneg g.im, sq_nonneg δ]
  · linarith

/-- The scaled quantities satisfy the same inequality. -/
theorem scaled_bound (cov : Cx ℝ) (v1 v2 : ℝ) (hp : 0 < v1 + v2) (hc : cov.abs2 ≤ v1 * v2) :
    ((1 / ((v1 + v2) / 2)) • cov).re ^ 2 + ((1 / ((v1 + v2) / 2)) • cov).im ^ 2
      ≤ 1 - ((v2 - v1) / (v1 + v2)) ^ 2 := by
  unfold Cx.abs2 at hc
  simp only [Cx.smul_re, Cx.smul_im]
  have e1 : (1 / ((v1 + v2) / 2) * cov.re) ^ 2 + (1 / ((v1 + v2) / 2) * cov.im) ^ 2
      = 4 * (cov.re * cov.re + cov.im * cov.im) / (v1 + v2) ^ 2 := by
    field_simp
    ring
  have e2 : 1 - ((v2 - v1) / (v1 + v2)) ^ 2 = 4 * (v1 * v2) / (v1 + v2) ^ 2 := by
    field_simp
    ring
  rw [e1, e2]
  exact div_le_div_of_nonneg_right (by linarith) (by positivity)

/-- Physical data: covariance and variances satisfying the Cauchy-Schwarz inequality.  With the
scale factor and the noise parameter computed from the variances the error estimate is a real
number at the returned weight, hence at every weight. -/
theorem C27_real (cov : Cx ℝ) (v1 v2 : ℝ) (hp : 0 < v1 + v2) (hc : cov.abs2 ≤ v1 * v2) :
    ∃ s δ, scaleFactor (some (.two v1 v2)) = .ok s ∧ noiseDelta (.two v1 v2) true = some δ ∧
      (∃ σ, sigmaWeighted (weightFromGC ((1 / s) • cov) δ).re ((1 / s) • cov) δ = some σ) ∧
      ∀ w, ∃ σ, sigmaWeighted w ((1 / s) • cov) δ = some σ := by
  have h0 := sigmaArg_nonneg _ _ (scaled_bound cov v1 v2 hp hc)
  refine ⟨(v1 + v2) / 2, (v2 - v1) / (v1 + v2), rfl, ?_, ?_, fun w => ?_⟩
  · simp [noiseDelta, fdiv, hp.ne']
  · rw [sigmaWeighted, if_neg (by linarith)]
    exact ⟨_, rfl⟩
  · have := (C25_optimal_complex ((1 / ((v1 + v2) / 2)) • cov) ((v2 - v1) / (v1 + v2)) w).1
    rw [sigmaWeighted, if_neg (by linarith)]
    exact ⟨_, rfl⟩

/-- The same for real data and the real weight. -/
theorem C27_real_data (cov v1 v2 : ℝ) (hp : 0 < v1 + v2) (hc : cov ^ 2 ≤ v1 * v2) :
    ∃ s δ, scaleFactor (some (.two v1 v2)) = .ok s ∧ noiseDelta (.two v1 v2) true = some δ ∧
      ∃ σ, sigmaWeighted (weightFromG (cov / s) δ) (Cx.ofR (cov / s)) δ = some σ := by
  obtain ⟨s, δ, hs, hδ, -, h⟩ := C27_real (Cx.ofR cov) v1 v2 hp (by simp [Cx.abs2]; nlinarith)
  refine ⟨s, δ, hs, hδ, ?_⟩
  have e : (1 / s) • Cx.ofR cov = Cx.ofR (cov / s) := by
    ext <;> simp; ring
  rw [e] at h
  exact h _

/-- One variance: `|cov| ≤ v`. -/
theorem C27_one_variance (cov : Cx ℝ) (v : ℝ) (hp : 0 < v) (hc : cov.abs2 ≤ v ^ 2) :
    ∃ s δ, scaleFactor (some (.one v)) = .ok s ∧ noiseDelta (.one v) true = some δ ∧
      ∃ σ, sigmaWeighted (weightFromGC ((1 / s) • cov) δ).re ((1 / s) • cov) δ = some σ := by
  obtain ⟨s, δ, hs, hδ, h, -⟩ := C27_real cov v v (by linarith) (by nlinarith)
  have e1 : s = v := by
    have := Except.ok.inj hs
    linarith
  have e2 : δ = 0 := by
    simp [noiseDelta, fdiv] at hδ
    exact hδ.2.symm
  exact ⟨v, 0, rfl, rfl, by rw [e1, e2] at h; exact h⟩

example : (⟨1, -1⟩ : Cx ℝ).abs2 ≤ 1 * 2 := by norm_num [Cx.abs2]

end Cddm
