import Verif.Spec.Gauss
import Verif.Lemmas.ProcessM
import Mathlib.Probability.Distributions.Gaussian.Real
import Mathlib.Probability.Distributions.Gaussian.HasGaussianLaw.Basic
import Mathlib.Tactic.LinearCombination
import Mathlib.Tactic.FinCases

/-! # Moments of Gaussian random variables -/

namespace Cddm
open Spec MeasureTheory ProbabilityTheory
open scoped BigOperators NNReal ENNReal

/-! ### Third and fourth moment -/

/-- Derivative of a polynomial times a Gaussian. -/
theorem deriv_poly_gauss (v a b c d : ℝ) :
    deriv (fun t : ℝ => (a + b * t + c * t ^ 2 + d * t ^ 3) * Real.exp (v * t ^ 2 / 2)) =
      fun t => (b + (2 * c + v * a) * t + (3 * d + v * b) * t ^ 2 + v * c * t ^ 3 + v * d * t ^ 4) *
        Real.exp (v * t ^ 2 / 2) := by
  funext t
  have h1 : HasDerivAt (fun t : ℝ => a + b * t + c * t ^ 2 + d * t ^ 3) (b + c * (2 * t) + d * (3 * t ^ 2)) t := by
    have e1 := ((hasDerivAt_id t).const_mul b).const_add a
    have e2 := (hasDerivAt_pow 2 t).const_mul c
    have e3 := (hasDerivAt_pow 3 t).const_mul d
    have := (e1.fun_add e2).fun_add e3
    refine this.congr_deriv ?_
    norm_num
  have h2 : HasDerivAt (fun t : ℝ => Real.exp (v * t ^ 2 / 2)) (Real.exp (v * t ^ 2 / 2) * (v * t)) t := by
    have e := (((hasDerivAt_pow 2 t).const_mul v).div_const 2).exp
    have e3 : v * (((2 : ℕ) : ℝ) * t ^ (2 - 1)) / 2 = v * t := by norm_num; ring
    rw [e3] at e
    exact e
  rw [(h1.fun_mul h2).deriv]
  ring

theorem moments_gaussianReal (v : ℝ≥0) :
    ∫ x, x ^ 3 ∂(gaussianReal 0 v) = 0 ∧ ∫ x, x ^ 4 ∂(gaussianReal 0 v) = 3 * (v : ℝ) ^ 2 := by
  have hm : mgf (fun x ↦ x) (gaussianReal 0 v) = fun t : ℝ => Real.exp ((v : ℝ) * t ^ 2 / 2) := by
    rw [mgf_fun_id_gaussianReal]
    funext t
    rw [zero_mul, zero_add]
  have d1 : deriv (fun t : ℝ => Real.exp ((v : ℝ) * t ^ 2 / 2)) = fun t => (0 + v * t + 0 * t ^ 2 + 0 * t ^ 3) * Real.exp ((v : ℝ) * t ^ 2 / 2) := by
    have := deriv_poly_gauss v 1 0 0 0
    simp only [zero_mul, add_zero, one_mul, mul_zero, mul_one, zero_add] at this
    rw [this]
    funext t
    ring
  have d2 := deriv_poly_gauss v 0 v 0 0
  simp only [mul_zero, add_zero, zero_add, zero_mul] at d2 d1
  have d2' : deriv (fun t : ℝ => (v : ℝ) * t * Real.exp ((v : ℝ) * t ^ 2 / 2)) =
      fun t => ((v : ℝ) + 0 * t + (v : ℝ) * v * t ^ 2 + 0 * t ^ 3) * Real.exp ((v : ℝ) * t ^ 2 / 2) := by
    rw [d2]; funext t; ring
  have d3 := deriv_poly_gauss v v 0 (v * v) 0
  have d3' : deriv (fun t : ℝ => ((v : ℝ) + 0 * t + (v : ℝ) * v * t ^ 2 + 0 * t ^ 3) * Real.exp ((v : ℝ) * t ^ 2 / 2)) =
      fun t => (0 + 3 * (v : ℝ) ^ 2 * t + 0 * t ^ 2 + (v : ℝ) ^ 3 * t ^ 3) * Real.exp ((v : ℝ) * t ^ 2 / 2) := by
    rw [d3]; funext t; ring
  have d4 := deriv_poly_gauss v 0 (3 * (v : ℝ) ^ 2) 0 ((v : ℝ) ^ 3)
  have i3 : iteratedDeriv 3 (mgf (fun x ↦ x) (gaussianReal 0 v)) =
      fun t => (0 + 3 * (v : ℝ) ^ 2 * t + 0 * t ^ 2 + (v : ℝ) ^ 3 * t ^ 3) * Real.exp ((v : ℝ) * t ^ 2 / 2) := by
    rw [iteratedDeriv_succ, iteratedDeriv_succ, iteratedDeriv_one, hm, d1, d2', d3']
  constructor
  · have := iteratedDeriv_mgf_zero (X := fun x : ℝ ↦ x) (μ := gaussianReal 0 v) (by simp) 3
    rw [i3] at this
    simpa using this.symm
  · have := iteratedDeriv_mgf_zero (X := fun x : ℝ ↦ x) (μ := gaussianReal 0 v) (by simp) 4
    rw [iteratedDeriv_succ, i3, d4] at this
    simpa using this.symm

section
variable {Ω : Type} [MeasurableSpace Ω] {μ : Measure Ω}

/-- A centred Gaussian random variable: all its moments up to the fourth. -/
theorem gauss_moments {f : Ω → ℝ} (h : HasGaussianLaw f μ) (h0 : ∫ ω, f ω ∂μ = 0) :
    Integrable (fun ω => f ω ^ 2) μ ∧ HasMean μ (fun ω => f ω ^ 3) 0 ∧
      HasMean μ (fun ω => f ω ^ 4) (3 * (∫ ω, f ω ^ 2 ∂μ) ^ 2) := by
  have hP := h.isProbabilityMeasure
  have hm := h.aemeasurable
  have hl := h.map_eq_gaussianReal
  have hv : Var[f; μ] = ∫ ω, f ω ^ 2 ∂μ := by
    rw [variance_eq_integral hm, h0]
    simp
  rw [h0, hv] at hl
  have hnn : 0 ≤ ∫ ω, f ω ^ 2 ∂μ := integral_nonneg fun ω => sq_nonneg _
  have hi : ∀ n : ℕ, Integrable (fun ω => f ω ^ n) μ := by
    intro n
    have h1 : MemLp (id : ℝ → ℝ) n (gaussianReal 0 (∫ ω, f ω ^ 2 ∂μ).toNNReal) := memLp_id_gaussianReal n
    have h2 : Integrable (fun x : ℝ => x ^ n) (μ.map f) := by
      rw [hl]
      by_cases hn : n = 0
      · subst hn; simp
      · have := h1.integrable_norm_pow hn
        refine (this.congr' (by fun_prop) ?_)
        exact Filter.Eventually.of_forall fun x => by simp
    exact h2.comp_aemeasurable hm
  have e : ∀ n : ℕ, ∫ ω, f ω ^ n ∂μ = ∫ x, x ^ n ∂(gaussianReal 0 (∫ ω, f ω ^ 2 ∂μ).toNNReal) := by
    intro n
    rw [← hl, integral_map hm (by fun_prop)]
  obtain ⟨m3, m4⟩ := moments_gaussianReal (∫ ω, f ω ^ 2 ∂μ).toNNReal
  rw [Real.coe_toNNReal _ hnn] at m4
  exact ⟨hi 2, ⟨hi 3, (e 3).trans m3⟩, ⟨hi 4, (e 4).trans m4⟩⟩

/-- Random variables all of whose linear combinations are centred and Gaussian. -/
def CentredGauss (μ : Measure Ω) (U : Fin 4 → Ω → ℝ) : Prop :=
  ∀ x : Fin 4 → ℝ, HasGaussianLaw (fun ω => ∑ i, x i * U i ω) μ ∧ ∫ ω, ∑ i, x i * U i ω ∂μ = 0

variable {U : Fin 4 → Ω → ℝ}

/-- Linear combinations of any four of them. -/
theorem centred_four (h : CentredGauss μ U) (i j k l : Fin 4) (x y z w : ℝ) :
    HasGaussianLaw (fun ω => x * U i ω + y * U j ω + z * U k ω + w * U l ω) μ ∧
      ∫ ω, (x * U i ω + y * U j ω + z * U k ω + w * U l ω) ∂μ = 0 := by
  have e : (fun ω => x * U i ω + y * U j ω + z * U k ω + w * U l ω) =
      fun ω => ∑ m, ((if m = i then x else 0) + (if m = j then y else 0) + (if m = k then z else 0) + (if m = l then w else 0)) *
        U m ω := by
    funext ω
    simp only [add_mul, Finset.sum_add_distrib, ite_mul, zero_mul, Finset.sum_ite_eq', Finset.mem_univ, if_true]
  have := h fun m => ((if m = i then x else 0) + (if m = j then y else 0) + (if m = k then z else 0) + (if m = l then w else 0))
  rw [← e] at this
  exact this

theorem centred_two (h : CentredGauss μ U) (i j : Fin 4) :
    HasMean μ (fun ω => U i ω * U j ω) (∫ ω, U i ω * U j ω ∂μ) := by
  refine ⟨?_, rfl⟩
  obtain ⟨a1, a2⟩ := centred_four h i j i j (1 / 2) (1 / 2) 0 0
  obtain ⟨b1, b2⟩ := centred_four h i j i j (1 / 2) (-(1 / 2)) 0 0
  have := (gauss_moments a1 a2).1.sub (gauss_moments b1 b2).1
  refine this.congr (Filter.Eventually.of_forall fun ω => ?_)
  simp only [Pi.sub_apply]
  ring

/-- The second moment of a linear combination. -/
theorem centred_square (h : CentredGauss μ U) (i j k l : Fin 4) (x y z w : ℝ) :
    ∫ ω, (x * U i ω + y * U j ω + z * U k ω + w * U l ω) ^ 2 ∂μ =
      x ^ 2 * (∫ ω, U i ω * U i ω ∂μ) + y ^ 2 * (∫ ω, U j ω * U j ω ∂μ) + z ^ 2 * (∫ ω, U k ω * U k ω ∂μ) +
      w ^ 2 * (∫ ω, U l ω * U l ω ∂μ) + 2 * x * y * (∫ ω, U i ω * U j ω ∂μ) + 2 * x * z * (∫ ω, U i ω * U k ω ∂μ) +
      2 * x * w * (∫ ω, U i ω * U l ω ∂μ) + 2 * y * z * (∫ ω, U j ω * U k ω ∂μ) + 2 * y * w * (∫ ω, U j ω * U l ω ∂μ) +
      2 * z * w * (∫ ω, U k ω * U l ω ∂μ) := by
  have c := fun i j => centred_two h i j
  refine (hasMean_congr (hasMean_add (hasMean_add (hasMean_add (hasMean_add (hasMean_add (hasMean_add (hasMean_add (hasMean_add
    (hasMean_add (hasMean_mul (x ^ 2) (c i i)) (hasMean_mul (y ^ 2) (c j j))) (hasMean_mul (z ^ 2) (c k k)))
    (hasMean_mul (w ^ 2) (c l l))) (hasMean_mul (2 * x * y) (c i j))) (hasMean_mul (2 * x * z) (c i k)))
    (hasMean_mul (2 * x * w) (c i l))) (hasMean_mul (2 * y * z) (c j k))) (hasMean_mul (2 * y * w) (c j l)))
    (hasMean_mul (2 * z * w) (c k l))) (fun ω => ?_) rfl).2
  ring

/-- The fourth moments (Isserlis): the sum over the three ways to pair the four factors. -/
theorem isserlis_four (h : CentredGauss μ U) (i j k l : Fin 4) :
    HasMean μ (fun ω => U i ω * U j ω * U k ω * U l ω)
      ((∫ ω, U i ω * U j ω ∂μ) * (∫ ω, U k ω * U l ω ∂μ) + (∫ ω, U i ω * U k ω ∂μ) * (∫ ω, U j ω * U l ω ∂μ) +
        (∫ ω, U i ω * U l ω ∂μ) * (∫ ω, U j ω * U k ω ∂μ)) := by
  have m : ∀ x y z w : ℝ, HasMean μ (fun ω => (x * U i ω + y * U j ω + z * U k ω + w * U l ω) ^ 4)
      (3 * (∫ ω, (x * U i ω + y * U j ω + z * U k ω + w * U l ω) ^ 2 ∂μ) ^ 2) := fun x y z w =>
    (gauss_moments (centred_four h i j k l x y z w).1 (centred_four h i j k l x y z w).2).2.2
  simp only [centred_square h] at m
  refine hasMean_congr (hasMean_mul (1 / 192) (hasMean_sub (hasMean_sub (hasMean_sub (hasMean_add (hasMean_add (hasMean_add
    (hasMean_sub (m 1 1 1 1) (m 1 (-1) 1 1)) (m 1 (-1) (-1) 1)) (m 1 (-1) 1 (-1))) (m 1 1 (-1) (-1)))
    (m 1 1 (-1) 1)) (m 1 1 1 (-1))) (m 1 (-1) (-1) (-1)))) (fun ω => ?_) ?_
  · ring
  · ring

/-- The third moments vanish. -/
theorem isserlis_three (h : CentredGauss μ U) (i j k : Fin 4) : HasMean μ (fun ω => U i ω * U j ω * U k ω) 0 := by
  have m : ∀ x y z : ℝ, HasMean μ (fun ω => (x * U i ω + y * U j ω + z * U k ω + 0 * U k ω) ^ 3) 0 := fun x y z =>
    (gauss_moments (centred_four h i j k k x y z 0).1 (centred_four h i j k k x y z 0).2).2.1
  refine hasMean_congr (hasMean_mul (1 / 24) (hasMean_add (hasMean_sub (hasMean_sub (m 1 1 1) (m 1 (-1) 1)) (m 1 1 (-1)))
    (m 1 (-1) (-1)))) (fun ω => ?_) ?_
  · ring
  · ring

/-- The first moments vanish. -/
theorem isserlis_one (h : CentredGauss μ U) (i : Fin 4) : HasMean μ (fun ω => U i ω) 0 := by
  obtain ⟨a, b⟩ := centred_four h i i i i 1 0 0 0
  simp only [one_mul, zero_mul, add_zero] at a b
  have := a.isProbabilityMeasure
  exact ⟨a.integrable, b⟩

end

end Cddm
