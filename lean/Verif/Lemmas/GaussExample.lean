import Verif.Lemmas.GaussPair
import Mathlib.Probability.Distributions.Gaussian.HasGaussianLaw.Independence
import Mathlib.Probability.Independence.InfinitePi

/-! # Circular pairs made of independent normal random variables -/

namespace Cddm
open Spec MeasureTheory ProbabilityTheory
open scoped BigOperators NNReal ENNReal

section
variable {Ω : Type} [MeasurableSpace Ω] {μ : Measure Ω} {n : Nat} {U : Fin n → Ω → ℝ}

/-- A linear combination of random numbers. -/
def linComb (A : Fin n → Cx ℝ) (U : Fin n → Ω → ℝ) (ω : Ω) : Cx ℝ :=
  ⟨∑ i, (A i).re * U i ω, ∑ i, (A i).im * U i ω⟩

theorem normals_moments (hI : iIndepFun U μ) (hL : ∀ i, HasLaw (U i) (gaussianReal 0 1) μ) :
    (∀ i, HasMean μ (U i) 0) ∧ ∀ i j, HasMean μ (fun ω => U i ω * U j ω) (if i = j then 1 else 0) := by
  have hP := hI.isProbabilityMeasure
  have m1 : ∀ i, MemLp (U i) 2 μ := fun i => (hL i).hasGaussianLaw.memLp (by simp)
  have m0 : ∀ i, ∫ ω, U i ω ∂μ = 0 := fun i => by
    rw [(hL i).integral_eq, integral_id_gaussianReal]
  refine ⟨fun i => ⟨(m1 i).integrable one_le_two, m0 i⟩, fun i j => ⟨(m1 i).integrable_mul (m1 j), ?_⟩⟩
  by_cases h : i = j
  · subst h
    rw [if_pos rfl]
    have := variance_of_integral_eq_zero (m1 i).aestronglyMeasurable.aemeasurable (m0 i)
    rw [(hL i).variance_eq, variance_id_gaussianReal] at this
    simp only [pow_two] at this
    rw [← this]; simp
  · rw [if_neg h]
    have := (hI.indepFun h).integral_mul_eq_mul_integral (m1 i).aestronglyMeasurable (m1 j).aestronglyMeasurable
    rw [m0, zero_mul] at this
    exact this

theorem hasMean_finSum {ι : Type} (s : Finset ι) (f : Ω → ι → ℝ) (y : ι → ℝ) (h : ∀ i ∈ s, HasMean μ (fun ω => f ω i) (y i)) :
    HasMean μ (fun ω => ∑ i ∈ s, f ω i) (∑ i ∈ s, y i) :=
  ⟨integrable_finsetSum _ fun i hi => (h i hi).1, by
    rw [integral_finsetSum _ fun i hi => (h i hi).1]; exact Finset.sum_congr rfl fun i hi => (h i hi).2⟩

/-- Products of two linear combinations. -/
theorem linComb_prod (hI : iIndepFun U μ) (hL : ∀ i, HasLaw (U i) (gaussianReal 0 1) μ) (p q : Fin n → ℝ) :
    HasMean μ (fun ω => (∑ i, p i * U i ω) * ∑ i, q i * U i ω) (∑ i, p i * q i) := by
  refine hasMean_congr (hasMean_finSum Finset.univ (fun ω i => ∑ j, (p i * q j) * (U i ω * U j ω))
    (fun i => ∑ j, (p i * q j) * if i = j then 1 else 0) fun i _ => hasMean_finSum Finset.univ _ _ fun j _ =>
      hasMean_mul _ ((normals_moments hI hL).2 i j)) (fun ω => ?_) ?_
  · rw [Finset.sum_mul_sum]
    exact Finset.sum_congr rfl fun i _ => Finset.sum_congr rfl fun j _ => by ring
  · exact Finset.sum_congr rfl fun i _ => by simp

/-- Two linear combinations of independent normal random numbers, with coefficients whose plain products cancel. -/
theorem linComb_circular (hI : iIndepFun U μ) (hL : ∀ i, HasLaw (U i) (gaussianReal 0 1) μ) (m1 m2 : Cx ℝ)
    (A B : Fin n → Cx ℝ) (hA : ∑ i, A i * A i = 0) (hB : ∑ i, B i * B i = 0) (hAB : ∑ i, A i * B i = 0) :
    CircularPair μ (fun ω => m1 + linComb A U ω) (fun ω => m2 + linComb B U ω) m1 m2 (∑ i, (A i).abs2) (∑ i, (B i).abs2)
      (∑ i, cxProd (A i) (B i)) := by
  have hP := hI.isProbabilityMeasure
  have sr : ∀ f : Fin n → Cx ℝ, (∑ i, f i).re = ∑ i, (f i).re := fun f => by
    induction (Finset.univ : Finset (Fin n)) using Finset.cons_induction with
    | empty => rfl
    | cons a s h ih => rw [Finset.sum_cons, Finset.sum_cons, ← ih]; rfl
  have si : ∀ f : Fin n → Cx ℝ, (∑ i, f i).im = ∑ i, (f i).im := fun f => by
    induction (Finset.univ : Finset (Fin n)) using Finset.cons_induction with
    | empty => rfl
    | cons a s h ih => rw [Finset.sum_cons, Finset.sum_cons, ← ih]; rfl
  have P := linComb_prod hI hL
  have L : ∀ (m : ℝ) (p : Fin n → ℝ), HasMean μ (fun ω => m + ∑ i, p i * U i ω) m := fun m p =>
    hasMean_congr (hasMean_add (hasMean_const m) (hasMean_finSum Finset.univ (fun ω i => p i * U i ω) (fun i => p i * 0) fun i _ =>
      hasMean_mul _ ((normals_moments hI hL).1 i))) (fun _ => rfl) (by simp)
  have d : ∀ (m : Cx ℝ) (A : Fin n → Cx ℝ) ω, m + linComb A U ω - m = linComb A U ω := fun m A ω => by
    ext <;> simp
  refine ⟨?_, Cx.ext (L _ _).2 (L _ _).2, Cx.ext (L _ _).2 (L _ _).2, ?_, ?_, ?_, ?_, ?_, ?_⟩
  · have g := iIndepFun.hasGaussianLaw (fun i => (hL i).hasGaussianLaw) hI
    let M : (Fin n → ℝ) →ₗ[ℝ] (Fin 4 → ℝ) :=
      { toFun := fun u => ![∑ i, (A i).re * u i, ∑ i, (A i).im * u i, ∑ i, (B i).re * u i, ∑ i, (B i).im * u i]
        map_add' := fun u v => by
          funext k; fin_cases k <;> simp [mul_add, Finset.sum_add_distrib]
        map_smul' := fun c u => by
          funext k; fin_cases k <;> simp [Finset.mul_sum, mul_left_comm] }
    have g2 := g.map_fun (LinearMap.toContinuousLinearMap M)
    have g3 : IsGaussian ((μ.map fun ω => LinearMap.toContinuousLinearMap M fun i => U i ω).map (fun x => x + parts m1 m2)) := by
      have := g2.isGaussian_map
      infer_instance
    rw [AEMeasurable.map_map_of_aemeasurable (by fun_prop) g2.aemeasurable] at g3
    have e : ((fun x => x + parts m1 m2) ∘ fun ω => LinearMap.toContinuousLinearMap M fun i => U i ω) =
        fun ω => parts (m1 + linComb A U ω) (m2 + linComb B U ω) := by
      funext ω k
      fin_cases k <;> simp [M, parts, linComb, add_comm]
    rw [e] at g3
    exact ⟨g3⟩
  · simp only [d]
    refine (hasMean_congr (hasMean_add (P (fun i => (A i).re) fun i => (A i).re) (P (fun i => (A i).im) fun i => (A i).im))
      (fun ω => by simp [linComb, Cx.abs2]) ?_).2
    simp [Cx.abs2, Finset.sum_add_distrib]
  · simp only [d]
    refine (hasMean_congr (hasMean_add (P (fun i => (B i).re) fun i => (B i).re) (P (fun i => (B i).im) fun i => (B i).im))
      (fun ω => by simp [linComb, Cx.abs2]) ?_).2
    simp [Cx.abs2, Finset.sum_add_distrib]
  · simp only [d]
    refine Cx.ext (hasMean_congr (hasMean_add (P (fun i => (A i).re) fun i => (B i).re) (P (fun i => (A i).im) fun i => (B i).im))
      (fun ω => by simp [linComb, cxProd]) ?_).2 (hasMean_congr (hasMean_sub (P (fun i => (A i).re) fun i => (B i).im)
      (P (fun i => (A i).im) fun i => (B i).re)) (fun ω => by simp [linComb, cxProd]; ring) ?_).2
    · rw [sr]; simp [cxProd, Finset.sum_add_distrib]
    · rw [si, ← Finset.sum_sub_distrib]; exact Finset.sum_congr rfl fun i _ => by simp [cxProd]; ring
  all_goals simp only [d]
  · refine Cx.ext (hasMean_congr (hasMean_sub (P (fun i => (A i).re) fun i => (A i).re) (P (fun i => (A i).im) fun i => (A i).im))
      (fun ω => by simp [linComb]) ?_).2 (hasMean_congr (hasMean_add (P (fun i => (A i).re) fun i => (A i).im)
      (P (fun i => (A i).im) fun i => (A i).re)) (fun ω => by simp [linComb]) ?_).2
    · rw [← hA, sr]; simp [Finset.sum_sub_distrib]
    · rw [← hA, si]; simp [Finset.sum_add_distrib]
  · refine Cx.ext (hasMean_congr (hasMean_sub (P (fun i => (B i).re) fun i => (B i).re) (P (fun i => (B i).im) fun i => (B i).im))
      (fun ω => by simp [linComb]) ?_).2 (hasMean_congr (hasMean_add (P (fun i => (B i).re) fun i => (B i).im)
      (P (fun i => (B i).im) fun i => (B i).re)) (fun ω => by simp [linComb]) ?_).2
    · rw [← hB, sr]; simp [Finset.sum_sub_distrib]
    · rw [← hB, si]; simp [Finset.sum_add_distrib]
  · refine Cx.ext (hasMean_congr (hasMean_sub (P (fun i => (A i).re) fun i => (B i).re) (P (fun i => (A i).im) fun i => (B i).im))
      (fun ω => by simp [linComb]) ?_).2 (hasMean_congr (hasMean_add (P (fun i => (A i).re) fun i => (B i).im)
      (P (fun i => (A i).im) fun i => (B i).re)) (fun ω => by simp [linComb]) ?_).2
    · rw [← hAB, sr]; simp [Finset.sum_sub_distrib]
    · rw [← hAB, si]; simp [Finset.sum_add_distrib]

end

/-- Independent standard normal random numbers, one for each natural number. -/
noncomputable def normals : Measure (Nat → ℝ) := Measure.infinitePi fun _ => gaussianReal 0 1

theorem normals_indep : iIndepFun (fun (i : Nat) (ω : Nat → ℝ) => ω i) normals :=
  iIndepFun_infinitePi (X := fun _ x => x) fun _ => measurable_id

theorem normals_law (i : Nat) : HasLaw (fun ω : Nat → ℝ => ω i) (gaussianReal 0 1) normals :=
  ⟨(measurable_pi_apply i).aemeasurable, Measure.infinitePi_map_eval _ i⟩

end Cddm
