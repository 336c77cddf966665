import Verif.Lemmas.SimWalk
import Mathlib.Probability.Independence.CharacteristicFunction
import Mathlib.Analysis.SpecialFunctions.Integrals.Basic

/-!
# Lemmas: mean fields scattered by random walkers
-/

namespace Cddm
open Spec
open scoped BigOperators
open MeasureTheory ProbabilityTheory

/-- The mean of a phase that is linear in independent random numbers. -/
theorem integral_phase {Ω ι : Type} [MeasurableSpace Ω] {μ : Measure Ω} (X : ι → Ω → ℝ) (hm : ∀ d, Measurable (X d))
    (hX : iIndepFun X μ) (S : Finset ι) (a : ι → ℝ) :
    ∫ ω, Complex.exp (Complex.I * ((∑ d ∈ S, a d * X d ω : ℝ) : ℂ)) ∂μ = ∏ d ∈ S, charFun (μ.map (X d)) (a d) := by
  have hY : iIndepFun (fun d ω => a d * X d ω) μ :=
    hX.comp (fun d x => a d * x) (fun d => measurable_const_mul (a d))
  have h := (hY.restrict S).charFun_map_fun_finsetSum_eq_prod (fun d _ => ((hm d).const_mul (a d)).aemeasurable)
  have h' := congrFun h 1
  rw [charFun_apply_real, integral_map] at h'
  · rw [show (fun ω => Complex.exp (Complex.I * ((∑ d ∈ S, a d * X d ω : ℝ) : ℂ))) =
      fun ω => Complex.exp (((1 : ℝ) : ℂ) * ((∑ d ∈ S, a d * X d ω : ℝ) : ℂ) * Complex.I) by
        funext ω; congr 1; push_cast; ring, h', Finset.prod_apply]
    refine Finset.prod_congr rfl fun d _ => ?_
    rw [charFun_map_mul_comp (hm d).aemeasurable, mul_one]
  · exact (Finset.measurable_sum S fun d _ => (hm d).const_mul (a d)).aemeasurable
  · exact (Measurable.cexp (by fun_prop)).aestronglyMeasurable

theorem charFun_normal (t : ℝ) : charFun (gaussianReal 0 1) t = Complex.exp ((-(t ^ 2 / 2) : ℝ) : ℂ) := by
  rw [charFun_gaussianReal]
  congr 1
  push_cast
  simp

theorem charFun_uniform (n : ℤ) :
    charFun (volume.restrict (Set.Ico (0 : ℝ) 1)) (2 * Real.pi * n) = if n = 0 then 1 else 0 := by
  rw [charFun_apply_real, MeasureTheory.integral_Ico_eq_integral_Ioc,
    ← intervalIntegral.integral_of_le zero_le_one]
  split
  · rename_i h
    simp [h]
  · rename_i h
    have hc : (2 * Real.pi * n : ℂ) * Complex.I ≠ 0 := by
      refine mul_ne_zero (mul_ne_zero (mul_ne_zero two_ne_zero ?_) ?_) Complex.I_ne_zero
      · exact_mod_cast Real.pi_ne_zero
      · exact_mod_cast h
    have e : (fun x : ℝ => Complex.exp (((2 * Real.pi * n : ℝ) : ℂ) * x * Complex.I)) =
        fun x : ℝ => Complex.exp ((2 * Real.pi * n : ℂ) * Complex.I * x) := by
      funext x
      congr 1
      push_cast
      ring
    rw [e, integral_exp_mul_complex hc]
    have : Complex.exp ((2 * Real.pi * n : ℂ) * Complex.I * ((1 : ℝ) : ℂ)) = 1 := by
      rw [Complex.exp_eq_one_iff]
      exact ⟨n, by push_cast; ring⟩
    rw [this]
    simp

theorem randomNumbers_normal {Ω : Type} [MeasurableSpace Ω] {μ : Measure Ω} {r : Ω → Nat → ℝ × ℝ}
    {g : Ω → Nat → Nat → ℝ × ℝ} (h : RandomNumbers μ r g) : NormalNumbers μ g :=
  ⟨fun i p a => h.measurable (.inr (i, p, a)), h.independent.precomp Sum.inr_injective, h.normal⟩

/-- The mean over the steps `T` of one particle. -/
theorem normal_phase {Ω : Type} [MeasurableSpace Ω] {μ : Measure Ω} {g : Ω → Nat → Nat → ℝ × ℝ}
    (h : NormalNumbers μ g) (p : Nat) (T : Finset Nat) (a b : ℝ) :
    ∫ ω, Complex.exp (Complex.I * ((a * ∑ s ∈ T, (g ω s p).1 + b * ∑ s ∈ T, (g ω s p).2 : ℝ) : ℂ)) ∂μ =
      Complex.exp ((-(T.card * (a ^ 2 + b ^ 2) / 2) : ℝ) : ℂ) := by
  have hi : iIndepFun (fun (d : Nat × Bool) ω => axis d.2 (g ω d.1 p)) μ :=
    h.independent.precomp (g := fun d : Nat × Bool => (d.1, p, d.2)) (fun x y e => by
      simp only [Prod.mk.injEq, true_and] at e
      exact Prod.ext e.1 e.2)
  have key := integral_phase (fun (d : Nat × Bool) ω => axis d.2 (g ω d.1 p)) (fun d => h.measurable d.1 p d.2) hi
    (T ×ˢ Finset.univ) (fun d => if d.2 then b else a)
  have e : ∀ ω, (∑ d ∈ T ×ˢ (Finset.univ : Finset Bool), (if d.2 then b else a) * axis d.2 (g ω d.1 p)) =
      a * ∑ s ∈ T, (g ω s p).1 + b * ∑ s ∈ T, (g ω s p).2 := by
    intro ω
    rw [Finset.sum_product, Finset.mul_sum, Finset.mul_sum, ← Finset.sum_add_distrib]
    refine Finset.sum_congr rfl fun s _ => ?_
    simp [axis]
    ring
  simp only [e] at key
  rw [key]
  simp only [h.normal, charFun_normal]
  rw [← Complex.exp_sum, ← Complex.ofReal_sum]
  congr 2
  rw [Finset.sum_product]
  simp
  ring

theorem scattered_samePlace {shape : Nat × Nat} (h1 : 0 < shape.1) (h2 : 0 < shape.2) (k l : ℤ) {x y : ℝ × ℝ}
    (h : SamePlace shape x y) : scattered (waveVector shape k l) x = scattered (waveVector shape k l) y := by
  obtain ⟨⟨m, e1⟩, n, e2⟩ := h
  have n1 : (shape.1 : ℝ) ≠ 0 := by exact_mod_cast h1.ne'
  have n2 : (shape.2 : ℝ) ≠ 0 := by exact_mod_cast h2.ne'
  unfold scattered
  rw [Complex.exp_eq_exp_iff_exists_int]
  refine ⟨-(k * m + l * n), ?_⟩
  have : (waveVector shape k l).1 * x.1 + (waveVector shape k l).2 * x.2 =
      (waveVector shape k l).1 * y.1 + (waveVector shape k l).2 * y.2 + 2 * Real.pi * (k * m + l * n) := by
    simp only [waveVector, e1, e2]
    field_simp
    ring
  rw [this]
  push_cast
  ring

theorem scattered_mul_conj (q x y : ℝ × ℝ) : scattered q x * (starRingEnd ℂ) (scattered q y) =
    Complex.exp (Complex.I * ((-(q.1 * (x.1 - y.1) + q.2 * (x.2 - y.2)) : ℝ) : ℂ)) := by
  unfold scattered
  rw [← Complex.exp_conj, ← Complex.exp_add]
  congr 1
  simp only [map_neg, map_mul, Complex.conj_I, Complex.conj_ofReal]
  push_cast
  ring

/-- One particle, two times: the mean product of the scattered fields. -/
theorem integral_scattered {Ω : Type} [MeasurableSpace Ω] {μ : Measure Ω} {g : Ω → Nat → Nat → ℝ × ℝ}
    (h : NormalNumbers μ g) (q : ℝ × ℝ) (dt : ℝ) (hdt : 0 ≤ dt) (δ : ℝ) (v : Nat → ℝ × ℝ) (p j m : Nat)
    (x0 : Ω → ℝ × ℝ) :
    ∫ ω, scattered q (freeWalk dt (fun _ => (δ, δ)) v (g ω) (j + m) p (x0 ω)) *
      (starRingEnd ℂ) (scattered q (freeWalk dt (fun _ => (δ, δ)) v (g ω) j p (x0 ω))) ∂μ =
    brownianF q (v p) (δ ^ 2 / 2) (m * dt) := by
  have e : ∀ ω, scattered q (freeWalk dt (fun _ => (δ, δ)) v (g ω) (j + m) p (x0 ω)) *
      (starRingEnd ℂ) (scattered q (freeWalk dt (fun _ => (δ, δ)) v (g ω) j p (x0 ω))) =
      Complex.exp (-(Complex.I * (((q.1 * (v p).1 + q.2 * (v p).2) * (m * dt) : ℝ) : ℂ))) *
      Complex.exp (Complex.I * ((-(q.1 * (δ * Real.sqrt dt)) * ∑ s ∈ Finset.Ico j (j + m), (g ω s p).1 +
        -(q.2 * (δ * Real.sqrt dt)) * ∑ s ∈ Finset.Ico j (j + m), (g ω s p).2 : ℝ) : ℂ)) := by
    intro ω
    rw [scattered_mul_conj, ← Complex.exp_add]
    congr 1
    have s1 := Finset.sum_range_add_sum_Ico (fun s => (g ω s p).1) (show j ≤ j + m by omega)
    have s2 := Finset.sum_range_add_sum_Ico (fun s => (g ω s p).2) (show j ≤ j + m by omega)
    simp only [freeWalk]
    rw [← s1, ← s2]
    push_cast
    ring
  simp only [e]
  rw [integral_const_mul, normal_phase h, ← Complex.exp_add]
  unfold brownianF
  have hs : Real.sqrt dt ^ 2 = dt := Real.sq_sqrt hdt
  have : (-(((Finset.Ico j (j + m)).card : ℝ) * ((-(q.1 * (δ * Real.sqrt dt))) ^ 2 + (-(q.2 * (δ * Real.sqrt dt))) ^ 2) / 2)) =
      -(δ ^ 2 / 2 * (q.1 ^ 2 + q.2 ^ 2) * (m * dt)) := by
    rw [Nat.card_Ico]
    simp only [add_tsub_cancel_left, neg_sq, mul_pow, hs]
    ring
  rw [this]
  congr 1
  ring

end Cddm
