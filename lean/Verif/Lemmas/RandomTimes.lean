import Verif.Spec.RandomTimes
import Verif.Lemmas.TimeCount
import Verif.Lemmas.ProcessM
import Mathlib.MeasureTheory.Integral.Prod

/-!
# Means over random times and random signals
-/

namespace Cddm
open Spec MeasureTheory ProbabilityTheory

section
variable {Θ Ω S : Type} [MeasurableSpace Θ] [MeasurableSpace Ω] {ν : Measure Θ} {μ : Measure Ω} [IsProbabilityMeasure ν]
  [IsProbabilityMeasure μ] [Fintype S] [MeasurableSpace S] [MeasurableSingletonClass S]

/-- The mean over a finite number of cases. -/
theorem prod_mean (s : Θ → S) (hs : Measurable s) (occ : S → Prop) (Y : S → Ω → ℝ) (y : ℝ)
    (hyes : ∀ σ, occ σ → HasMean μ (Y σ) y) (hno : ∀ σ, ¬ occ σ → ∀ ω, Y σ ω = 0) :
    HasMean (ν.prod μ) (fun q => Y (s q.1) q.2) (ν.real {θ | occ (s θ)} * y) := by
  classical
  have hm : ∀ σ, MeasurableSet (s ⁻¹' {σ}) := fun σ => hs (measurableSet_singleton σ)
  have hY : ∀ σ, HasMean μ (Y σ) (if occ σ then y else 0) := fun σ => by
    by_cases h : occ σ
    · rw [if_pos h]; exact hyes σ h
    · rw [if_neg h, show Y σ = fun _ => 0 from funext (hno σ h)]
      exact hasMean_const 0
  have e : (fun q : Θ × Ω => Y (s q.1) q.2) = fun q => ∑ σ, (s ⁻¹' {σ}).indicator (fun _ => (1 : ℝ)) q.1 * Y σ q.2 := by
    funext q
    rw [Finset.sum_eq_single (s q.1)]
    · simp
    · intro σ _ hσ
      rw [Set.indicator_of_notMem (by simpa using Ne.symm hσ), zero_mul]
    · intro h
      exact absurd (Finset.mem_univ _) h
  have hi : ∀ σ, Integrable (fun q : Θ × Ω => (s ⁻¹' {σ}).indicator (fun _ => (1 : ℝ)) q.1 * Y σ q.2) (ν.prod μ) := fun σ =>
    Integrable.mul_prod ((integrable_const (1 : ℝ)).indicator (hm σ)) (hY σ).1
  refine ⟨by rw [e]; exact integrable_finsetSum _ fun σ _ => hi σ, ?_⟩
  rw [e, integral_finsetSum _ fun σ _ => hi σ]
  have hv : ∀ σ, ∫ q : Θ × Ω, (s ⁻¹' {σ}).indicator (fun _ => (1 : ℝ)) q.1 * Y σ q.2 ∂(ν.prod μ) =
      ν.real (s ⁻¹' {σ}) * if occ σ then y else 0 := fun σ => by
    rw [integral_prod_mul, (hY σ).2]
    congr 1
    exact integral_indicator_one (hm σ)
  simp only [hv]
  have hp : ν.real {θ | occ (s θ)} = ∑ σ, if occ σ then ν.real (s ⁻¹' {σ}) else 0 := by
    rw [← Finset.sum_filter]
    have : {θ | occ (s θ)} = ⋃ σ ∈ Finset.univ.filter occ, s ⁻¹' {σ} := by
      ext θ; simp
    rw [this, measureReal_biUnion_finset]
    · intro a _ b _ hab
      exact Set.disjoint_left.mpr fun θ h1 h2 => hab (h1.symm.trans h2)
    · exact fun σ _ => hm σ
  rw [hp, Finset.sum_mul]
  refine Finset.sum_congr rfl fun σ _ => ?_
  split_ifs <;> simp

/-- The probability of an event of the times alone. -/
theorem prod_prob (s : Θ → S) (occ : S → Prop) :
    (ν.prod μ).real {q : Θ × Ω | occ (s q.1)} = ν.real {θ | occ (s θ)} := by
  have : {q : Θ × Ω | occ (s q.1)} = {θ | occ (s θ)} ×ˢ Set.univ := by
    ext q; simp
  rw [this, measureReal_prod_prod]
  simp

theorem meanWhenFinite (s : Θ → S) (hs : Measurable s) (occ : S → Prop) (call : S → Ω → Py (List (Option ℝ))) (k : Nat) (y : ℝ)
    (hyes : ∀ σ, occ σ → ExpectedIn μ (call σ) k y)
    (hno : ∀ σ, ¬ occ σ → ∀ ω, ∃ out, call σ ω = .ok out ∧ out[k]? = some none) :
    MeanWhenFinite (ν.prod μ) (fun q => call (s q.1) q.2) k (ν.real {θ | occ (s θ)}) y := by
  classical
  choose! r hr using hyes
  refine ⟨fun q => if occ (s q.1) then some (r (s q.1) q.2) else none, fun q => ?_, ?_, ?_⟩
  · beta_reduce
    by_cases h : occ (s q.1)
    · rw [if_pos h]
      exact (hr _ h).1 q.2
    · rw [if_neg h]
      exact hno _ h q.2
  · rw [← prod_prob (μ := μ) s occ]
    congr 1
    ext q
    by_cases h : occ (s q.1) <;> simp [h]
  · have := prod_mean (ν := ν) (μ := μ) s hs occ (fun σ ω => if occ σ then r σ ω else 0) y
      (fun σ h => by simp only [h, if_true]; exact ⟨(hr σ h).2.1, (hr σ h).2.2⟩) (fun σ h ω => by simp [h])
    refine hasMean_congr this (fun q => ?_) rfl
    dsimp only
    by_cases h : occ (s q.1) <;> simp [h]

theorem meanWhenFiniteC (s : Θ → S) (hs : Measurable s) (occ : S → Prop) (call : S → Ω → Py (List (Option (Cx ℝ)))) (k : Nat)
    (y : Cx ℝ) (hyes : ∀ σ, occ σ → ExpectedInC μ (call σ) k y)
    (hno : ∀ σ, ¬ occ σ → ∀ ω, ∃ out, call σ ω = .ok out ∧ out[k]? = some none) :
    MeanWhenFiniteC (ν.prod μ) (fun q => call (s q.1) q.2) k (ν.real {θ | occ (s θ)}) y := by
  classical
  choose! r hr using hyes
  have hre := prod_mean (ν := ν) (μ := μ) s hs occ (fun σ ω => if occ σ then (r σ ω).re else 0) y.re
      (fun σ h => by
        simp only [h, if_true]
        exact ⟨(hr σ h).2.1, congrArg Cx.re (hr σ h).2.2.2⟩) (fun σ h ω => by simp [h])
  have him := prod_mean (ν := ν) (μ := μ) s hs occ (fun σ ω => if occ σ then (r σ ω).im else 0) y.im
      (fun σ h => by
        simp only [h, if_true]
        exact ⟨(hr σ h).2.2.1, congrArg Cx.im (hr σ h).2.2.2⟩) (fun σ h ω => by simp [h])
  have ere : ∀ q : Θ × Ω, (if occ (s q.1) then (r (s q.1) q.2).re else 0) =
      ((if occ (s q.1) then some (r (s q.1) q.2) else none : Option (Cx ℝ)).getD 0).re := fun q => by
    by_cases h : occ (s q.1) <;> simp [h]
  have eim : ∀ q : Θ × Ω, (if occ (s q.1) then (r (s q.1) q.2).im else 0) =
      ((if occ (s q.1) then some (r (s q.1) q.2) else none : Option (Cx ℝ)).getD 0).im := fun q => by
    by_cases h : occ (s q.1) <;> simp [h]
  simp only [ere] at hre
  simp only [eim] at him
  refine ⟨fun q => if occ (s q.1) then some (r (s q.1) q.2) else none, fun q => ?_, ?_, hre.1, him.1, Cx.ext hre.2 him.2⟩
  · beta_reduce
    by_cases h : occ (s q.1)
    · rw [if_pos h]
      exact (hr _ h).1 q.2
    · rw [if_neg h]
      exact hno _ h q.2
  · rw [← prod_prob (μ := μ) s occ]
    congr 1
    ext q
    by_cases h : occ (s q.1) <;> simp [h]

end

end Cddm
