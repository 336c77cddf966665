import Verif.Lemmas.Scatter

/-!
# Lemmas: mean field scattered by all particles
-/

namespace Cddm
open Spec
open scoped BigOperators
open MeasureTheory ProbabilityTheory

/-- The coefficients of the random numbers in the phase of particle `p` at step `i`. -/
noncomputable def phaseCoef (k l : ℤ) (a b : ℝ) (i p : Nat) : (Nat × Bool) ⊕ (Nat × Nat × Bool) → ℝ
  | .inl d => if d.1 = p then 2 * Real.pi * ((if d.2 then l else k : ℤ) : ℝ) else 0
  | .inr d => if d.2.1 = p ∧ d.1 < i then (if d.2.2 then b else a) else 0

/-- The random numbers of `N` particles and `M` steps. -/
def drawSet (N M : Nat) : Finset ((Nat × Bool) ⊕ (Nat × Nat × Bool)) :=
  (Finset.range N ×ˢ Finset.univ).disjSum (Finset.range M ×ˢ Finset.range N ×ˢ Finset.univ)

theorem phaseCoef_sum (k l : ℤ) (a b : ℝ) {N M i p : Nat} (hp : p < N) (hi : i ≤ M) (r : Nat → ℝ × ℝ)
    (g : Nat → Nat → ℝ × ℝ) :
    ∑ d ∈ drawSet N M, phaseCoef k l a b i p d * drawn r g d =
      2 * Real.pi * k * (r p).1 + 2 * Real.pi * l * (r p).2 +
        (a * ∑ s ∈ Finset.range i, (g s p).1 + b * ∑ s ∈ Finset.range i, (g s p).2) := by
  unfold drawSet
  rw [Finset.sum_disjSum]
  congr 1
  · rw [Finset.sum_product, Finset.sum_eq_single p]
    · simp [phaseCoef, drawn, axis]
      ring
    · intro p' _ h
      simp [phaseCoef, h]
    · intro h
      exact absurd (Finset.mem_range.mpr hp) h
  · rw [Finset.sum_product]
    have e : ∀ s ∈ Finset.range M, ∑ x ∈ Finset.range N ×ˢ (Finset.univ : Finset Bool),
        phaseCoef k l a b i p (.inr (s, x)) * drawn r g (.inr (s, x)) =
        if s < i then a * (g s p).1 + b * (g s p).2 else 0 := by
      intro s _
      rw [Finset.sum_product, Finset.sum_eq_single p]
      · by_cases h : s < i
        · simp [phaseCoef, drawn, axis, h]
          ring
        · simp [phaseCoef, h]
      · intro p' _ h
        simp [phaseCoef, h]
      · intro h
        exact absurd (Finset.mem_range.mpr hp) h
    rw [Finset.sum_congr rfl e, ← Finset.sum_filter, Finset.mul_sum, Finset.mul_sum, ← Finset.sum_add_distrib]
    refine Finset.sum_congr ?_ fun _ _ => rfl
    ext s
    simp only [Finset.mem_filter, Finset.mem_range]
    omega

/-- The position after a random start. -/
noncomputable def walker (shape : Nat × Nat) (dt δ : ℝ) (v : ℝ × ℝ) (r : Nat → ℝ × ℝ) (g : Nat → Nat → ℝ × ℝ) (i p : Nat) : ℝ × ℝ :=
  freeWalk dt (fun _ => (δ, δ)) (fun _ => v) g i p ((r p).1 * shape.1, (r p).2 * shape.2)

theorem scattered_walker {shape : Nat × Nat} (h1 : 0 < shape.1) (h2 : 0 < shape.2) (k l : ℤ) (dt δ : ℝ) (v : ℝ × ℝ)
    {N M i p : Nat} (hp : p < N) (hi : i ≤ M) (r : Nat → ℝ × ℝ) (g : Nat → Nat → ℝ × ℝ) :
    scattered (waveVector shape k l) (walker shape dt δ v r g i p) =
      Complex.exp (Complex.I * ((-((waveVector shape k l).1 * v.1 + (waveVector shape k l).2 * v.2) * (i * dt) : ℝ) : ℂ)) *
      Complex.exp (Complex.I * ((∑ d ∈ drawSet N M, -phaseCoef k l ((waveVector shape k l).1 * (δ * Real.sqrt dt))
        ((waveVector shape k l).2 * (δ * Real.sqrt dt)) i p d * drawn r g d : ℝ) : ℂ)) := by
  have n1 : (shape.1 : ℝ) ≠ 0 := by exact_mod_cast h1.ne'
  have n2 : (shape.2 : ℝ) ≠ 0 := by exact_mod_cast h2.ne'
  unfold scattered
  rw [← Complex.exp_add]
  congr 1
  have e : ∑ d ∈ drawSet N M, -phaseCoef k l ((waveVector shape k l).1 * (δ * Real.sqrt dt))
        ((waveVector shape k l).2 * (δ * Real.sqrt dt)) i p d * drawn r g d =
      -(2 * Real.pi * k * (r p).1 + 2 * Real.pi * l * (r p).2 +
        ((waveVector shape k l).1 * (δ * Real.sqrt dt) * ∑ s ∈ Finset.range i, (g s p).1 +
        (waveVector shape k l).2 * (δ * Real.sqrt dt) * ∑ s ∈ Finset.range i, (g s p).2)) := by
    rw [← phaseCoef_sum k l _ _ hp hi, ← Finset.sum_neg_distrib]
    exact Finset.sum_congr rfl fun d _ => by ring
  rw [e]
  have w1 : 2 * Real.pi * k * (r p).1 = (waveVector shape k l).1 * ((r p).1 * shape.1) := by
    simp only [waveVector]
    field_simp
  have w2 : 2 * Real.pi * l * (r p).2 = (waveVector shape k l).2 * ((r p).2 * shape.2) := by
    simp only [waveVector]
    field_simp
  rw [w1, w2]
  simp only [walker, freeWalk]
  push_cast
  ring

section
variable {Ω : Type} [MeasurableSpace Ω] {μ : Measure Ω} {r : Ω → Nat → ℝ × ℝ} {g : Ω → Nat → Nat → ℝ × ℝ}

theorem measurable_walker (h : RandomNumbers μ r g) {shape : Nat × Nat} (h1 : 0 < shape.1) (h2 : 0 < shape.2) (k l : ℤ)
    (dt δ : ℝ) (v : ℝ × ℝ) (i p : Nat) :
    Measurable fun ω => scattered (waveVector shape k l) (walker shape dt δ v (r ω) (g ω) i p) := by
  simp only [scattered_walker h1 h2 k l dt δ v (Nat.lt_succ_self p) (le_refl i)]
  refine Measurable.const_mul ?_ _
  refine Measurable.cexp (Measurable.const_mul ?_ _)
  refine Complex.measurable_ofReal.comp ?_
  exact Finset.measurable_sum _ fun d _ => (h.measurable d).const_mul _

theorem norm_scattered (q x : ℝ × ℝ) : ‖scattered q x‖ = 1 := by
  unfold scattered
  rw [show -(Complex.I * ((q.1 * x.1 + q.2 * x.2 : ℝ) : ℂ)) = ((-(q.1 * x.1 + q.2 * x.2) : ℝ) : ℂ) * Complex.I by
    push_cast; ring]
  exact Complex.norm_exp_ofReal_mul_I _

/-- A phase in which the start of some particle has a coefficient has mean zero. -/
theorem integral_phase_zero (h : RandomNumbers μ r g) (S : Finset ((Nat × Bool) ⊕ (Nat × Nat × Bool)))
    (c : (Nat × Bool) ⊕ (Nat × Nat × Bool) → ℝ) (p : Nat) (a : Bool) (hS : Sum.inl (p, a) ∈ S) (n : ℤ) (hn : n ≠ 0)
    (hc : c (.inl (p, a)) = 2 * Real.pi * n) :
    ∫ ω, Complex.exp (Complex.I * ((∑ d ∈ S, c d * drawn (r ω) (g ω) d : ℝ) : ℂ)) ∂μ = 0 := by
  rw [integral_phase (fun d ω => drawn (r ω) (g ω) d) h.measurable h.independent]
  refine Finset.prod_eq_zero hS ?_
  rw [hc]
  have : μ.map (fun ω => drawn (r ω) (g ω) (.inl (p, a))) = volume.restrict (Set.Ico 0 1) := h.uniform p a
  rw [this, charFun_uniform, if_neg hn]

theorem mem_drawSet {N M p : Nat} (hp : p < N) (a : Bool) : Sum.inl (p, a) ∈ drawSet N M := by
  unfold drawSet
  simp [hp]

theorem coef_ne {k l : ℤ} (hkl : k ≠ 0 ∨ l ≠ 0) : ∃ a : Bool, (if a then l else k) ≠ 0 := by
  rcases hkl with h | h
  · exact ⟨false, by simpa using h⟩
  · exact ⟨true, by simpa using h⟩

/-- One particle scatters with mean zero. -/
theorem integral_walker (h : RandomNumbers μ r g) {shape : Nat × Nat} (h1 : 0 < shape.1) (h2 : 0 < shape.2) (k l : ℤ)
    (hkl : k ≠ 0 ∨ l ≠ 0) (dt δ : ℝ) (v : ℝ × ℝ) (i p : Nat) :
    ∫ ω, scattered (waveVector shape k l) (walker shape dt δ v (r ω) (g ω) i p) ∂μ = 0 := by
  obtain ⟨a, ha⟩ := coef_ne hkl
  simp only [scattered_walker h1 h2 k l dt δ v (Nat.lt_succ_self p) (le_refl i)]
  rw [integral_const_mul, integral_phase_zero h _ _ p a (mem_drawSet (Nat.lt_succ_self p) a)
    (-(if a then l else k)) (by simpa using ha), mul_zero]
  simp only [phaseCoef, if_true]
  push_cast
  ring

/-- Different particles scatter independently. -/
theorem integral_walkers (h : RandomNumbers μ r g) {shape : Nat × Nat} (h1 : 0 < shape.1) (h2 : 0 < shape.2) (k l : ℤ)
    (hkl : k ≠ 0 ∨ l ≠ 0) (dt δ : ℝ) (v : ℝ × ℝ) (i j p p' : Nat) (hp : p ≠ p') :
    ∫ ω, scattered (waveVector shape k l) (walker shape dt δ v (r ω) (g ω) i p) *
      (starRingEnd ℂ) (scattered (waveVector shape k l) (walker shape dt δ v (r ω) (g ω) j p')) ∂μ = 0 := by
  obtain ⟨a, ha⟩ := coef_ne hkl
  have l1 : p < max p p' + 1 := by omega
  have l2 : p' < max p p' + 1 := by omega
  simp only [scattered_walker h1 h2 k l dt δ v l1 (le_max_left i j), scattered_walker h1 h2 k l dt δ v l2 (le_max_right i j)]
  set A := (waveVector shape k l).1 * (δ * Real.sqrt dt)
  set B := (waveVector shape k l).2 * (δ * Real.sqrt dt)
  set c1 := Complex.exp (Complex.I * ((-((waveVector shape k l).1 * v.1 + (waveVector shape k l).2 * v.2) * (i * dt) : ℝ) : ℂ))
  set c2 := Complex.exp (Complex.I * ((-((waveVector shape k l).1 * v.1 + (waveVector shape k l).2 * v.2) * (j * dt) : ℝ) : ℂ))
  set S := drawSet (max p p' + 1) (max i j)
  have e : ∀ ω, c1 * Complex.exp (Complex.I * ((∑ d ∈ S, -phaseCoef k l A B i p d * drawn (r ω) (g ω) d : ℝ) : ℂ)) *
      (starRingEnd ℂ) (c2 * Complex.exp (Complex.I * ((∑ d ∈ S, -phaseCoef k l A B j p' d * drawn (r ω) (g ω) d : ℝ) : ℂ))) =
      (c1 * (starRingEnd ℂ) c2) * Complex.exp (Complex.I * ((∑ d ∈ S,
        (-phaseCoef k l A B i p d + phaseCoef k l A B j p' d) * drawn (r ω) (g ω) d : ℝ) : ℂ)) := by
    intro ω
    rw [map_mul, mul_mul_mul_comm]
    congr 1
    rw [← Complex.exp_conj, ← Complex.exp_add]
    congr 1
    rw [map_mul, Complex.conj_I, Complex.conj_ofReal, neg_mul, ← sub_eq_add_neg, ← mul_sub, ← Complex.ofReal_sub,
      ← Finset.sum_sub_distrib]
    congr 2
    exact Finset.sum_congr rfl fun d _ => by ring
  simp only [e]
  rw [integral_const_mul, integral_phase_zero h S _ p a (mem_drawSet l1 a) (-(if a then l else k)) (by simpa using ha), mul_zero]
  simp only [phaseCoef, if_true, if_neg hp]
  push_cast
  ring

/-- The fields scattered by all particles at two times. -/
theorem integral_density (h : RandomNumbers μ r g) {shape : Nat × Nat} (h1 : 0 < shape.1) (h2 : 0 < shape.2) (k l : ℤ)
    (hkl : k ≠ 0 ∨ l ≠ 0) (dt δ : ℝ) (hdt : 0 ≤ dt) (v : ℝ × ℝ) (N j m : Nat) :
    ∫ ω, (∑ p ∈ Finset.range N, scattered (waveVector shape k l) (walker shape dt δ v (r ω) (g ω) (j + m) p)) *
      (starRingEnd ℂ) (∑ p ∈ Finset.range N, scattered (waveVector shape k l) (walker shape dt δ v (r ω) (g ω) j p)) ∂μ =
      N * brownianF (waveVector shape k l) v (δ ^ 2 / 2) (m * dt) := by
  have hprob : IsProbabilityMeasure μ := h.independent.isProbabilityMeasure
  simp only [map_sum, Finset.sum_mul_sum]
  have hint : ∀ p p', Integrable (fun ω => scattered (waveVector shape k l) (walker shape dt δ v (r ω) (g ω) (j + m) p) *
      (starRingEnd ℂ) (scattered (waveVector shape k l) (walker shape dt δ v (r ω) (g ω) j p'))) μ := by
    intro p p'
    refine Integrable.of_bound (C := 1) ?_ ?_
    · refine Measurable.aestronglyMeasurable (Measurable.mul (measurable_walker h h1 h2 k l dt δ v _ _) ?_)
      exact Complex.continuous_conj.measurable.comp (measurable_walker h h1 h2 k l dt δ v _ _)
    · refine Filter.Eventually.of_forall fun ω => ?_
      rw [norm_mul, RCLike.norm_conj, norm_scattered, norm_scattered, mul_one]
  rw [integral_finsetSum _ fun p _ => integrable_finsetSum _ fun p' _ => hint p p']
  have e : ∀ p ∈ Finset.range N, ∫ ω, ∑ p' ∈ Finset.range N,
      scattered (waveVector shape k l) (walker shape dt δ v (r ω) (g ω) (j + m) p) *
      (starRingEnd ℂ) (scattered (waveVector shape k l) (walker shape dt δ v (r ω) (g ω) j p')) ∂μ =
      brownianF (waveVector shape k l) v (δ ^ 2 / 2) (m * dt) := by
    intro p hp
    rw [integral_finsetSum _ fun p' _ => hint p p', Finset.sum_eq_single p]
    · exact integral_scattered (randomNumbers_normal h) _ dt hdt δ (fun _ => v) p j m _
    · intro p' _ hp'
      exact integral_walkers h h1 h2 k l hkl dt δ v _ _ p p' hp'.symm
    · intro h'
      exact absurd hp h'
  rw [Finset.sum_congr rfl e]
  simp

end

end Cddm
