import Verif.Lemmas.Gauss

/-! # The variance of quadratic expressions in a circular Gaussian pair -/

namespace Cddm
open Spec MeasureTheory ProbabilityTheory
open scoped BigOperators

section
variable {Ω : Type} [MeasurableSpace Ω] {μ : Measure Ω}

theorem hasMean_listProd {ι κ : Type} (l : List ι) (l' : List κ) (f : Ω → ι → ℝ) (g : Ω → κ → ℝ) (y : ι → κ → ℝ)
    (h : ∀ i ∈ l, ∀ j ∈ l', HasMean μ (fun ω => f ω i * g ω j) (y i j)) :
    HasMean μ (fun ω => (l.map (f ω)).sum * (l'.map (g ω)).sum) (l.map fun i => (l'.map fun j => y i j).sum).sum := by
  refine hasMean_congr (hasMean_listSum l (fun ω i => (l'.map fun j => f ω i * g ω j).sum)
    (fun i => (l'.map fun j => y i j).sum) fun i hi => ?_) (fun ω => ?_) rfl
  · exact hasMean_listSum l' (fun ω j => f ω i * g ω j) (fun j => y i j) fun j hj => h i hi j hj
  · simp only [List.sum_map_mul_left]
    rw [← List.sum_map_mul_right]

variable {a b : Ω → Cx ℝ} {m1 m2 : Cx ℝ} {v1 v2 : ℝ} {c : Cx ℝ}

/-- The deviations of the four parts. -/
def devParts (a b : Ω → Cx ℝ) (m1 m2 : Cx ℝ) (i : Fin 4) (ω : Ω) : ℝ := parts (a ω) (b ω) i - parts m1 m2 i

theorem circular_memLp (h : CircularPair μ a b m1 m2 v1 v2 c) (i : Fin 4) :
    MemLp (fun ω => parts (a ω) (b ω) i) 2 μ := by
  have := (h.gauss.eval i).memLp_two
  exact this

theorem circular_mean (h : CircularPair μ a b m1 m2 v1 v2 c) (i : Fin 4) :
    ∫ ω, parts (a ω) (b ω) i ∂μ = parts m1 m2 i := by
  fin_cases i
  · exact congrArg Cx.re h.mean1
  · exact congrArg Cx.im h.mean1
  · exact congrArg Cx.re h.mean2
  · exact congrArg Cx.im h.mean2

theorem circular_centred (h : CircularPair μ a b m1 m2 v1 v2 c) : CentredGauss μ (devParts a b m1 m2) := by
  intro x
  have hP := h.gauss.isProbabilityMeasure
  have hi : ∀ i, Integrable (fun ω => parts (a ω) (b ω) i) μ := fun i =>
    (circular_memLp h i).integrable one_le_two
  have hg : HasGaussianLaw (fun ω => ∑ i, x i * parts (a ω) (b ω) i) μ := by
    have := h.gauss.map_fun (∑ i, x i • (ContinuousLinearMap.proj i : (Fin 4 → ℝ) →L[ℝ] ℝ))
    simpa using this
  have e : (fun ω => ∑ i, x i * devParts a b m1 m2 i ω) =
      fun ω => (∑ i, x i * parts (a ω) (b ω) i) - ∑ i, x i * parts m1 m2 i := by
    funext ω
    simp only [devParts, mul_sub, Finset.sum_sub_distrib]
  constructor
  · rw [e]
    have hl := hg.map_eq_gaussianReal
    have hlaw : HasLaw (fun ω => ∑ i, x i * parts (a ω) (b ω) i) (gaussianReal _ _) μ := ⟨hg.aemeasurable, hl⟩
    exact (gaussianReal_sub_const hlaw _).hasGaussianLaw
  · rw [e, integral_sub, integral_finsetSum]
    · simp only [integral_const_mul, circular_mean h, integral_const, probReal_univ, one_smul, sub_self]
    · exact fun i _ => (hi i).const_mul _
    · exact integrable_finsetSum _ fun i _ => (hi i).const_mul _
    · exact integrable_const _

/-- The covariances of the four parts. -/
theorem circular_second (h : CircularPair μ a b m1 m2 v1 v2 c) :
    let C := fun i j => ∫ ω, devParts a b m1 m2 i ω * devParts a b m1 m2 j ω ∂μ
    (C 0 0 = v1 / 2 ∧ C 1 1 = v1 / 2 ∧ C 0 1 = 0) ∧ (C 2 2 = v2 / 2 ∧ C 3 3 = v2 / 2 ∧ C 2 3 = 0) ∧
      (C 0 2 = c.re / 2 ∧ C 1 3 = c.re / 2 ∧ C 0 3 = c.im / 2 ∧ C 1 2 = -(c.im / 2)) ∧ ∀ i j, C i j = C j i := by
  intro C
  have g := circular_centred h
  have m : ∀ i j, HasMean μ (fun ω => devParts a b m1 m2 i ω * devParts a b m1 m2 j ω) (C i j) := centred_two g
  have r0 : ∀ ω, (a ω - m1).re = devParts a b m1 m2 0 ω := fun ω => by simp [devParts, parts]
  have r1 : ∀ ω, (a ω - m1).im = devParts a b m1 m2 1 ω := fun ω => by simp [devParts, parts]
  have r2 : ∀ ω, (b ω - m2).re = devParts a b m1 m2 2 ω := fun ω => by simp [devParts, parts]
  have r3 : ∀ ω, (b ω - m2).im = devParts a b m1 m2 3 ω := fun ω => by simp [devParts, parts]
  have e1 : C 0 0 + C 1 1 = v1 := by
    rw [← h.var1, ← (hasMean_add (m 0 0) (m 1 1)).2]
    refine integral_congr_ae (Filter.Eventually.of_forall fun ω => ?_)
    simp only [Cx.abs2, r0, r1]
  have e2 : C 2 2 + C 3 3 = v2 := by
    rw [← h.var2, ← (hasMean_add (m 2 2) (m 3 3)).2]
    refine integral_congr_ae (Filter.Eventually.of_forall fun ω => ?_)
    simp only [Cx.abs2, r2, r3]
  have e3 : C 0 0 - C 1 1 = 0 := by
    rw [← (hasMean_sub (m 0 0) (m 1 1)).2]
    have := congrArg Cx.re h.circ1
    simpa [integralC, Cx.mul_re, ← r0, ← r1] using this
  have e4 : C 0 1 + C 1 0 = 0 := by
    rw [← (hasMean_add (m 0 1) (m 1 0)).2]
    have := congrArg Cx.im h.circ1
    simpa [integralC, Cx.mul_im, ← r0, ← r1] using this
  have e5 : C 2 2 - C 3 3 = 0 := by
    rw [← (hasMean_sub (m 2 2) (m 3 3)).2]
    have := congrArg Cx.re h.circ2
    simpa [integralC, Cx.mul_re, ← r2, ← r3] using this
  have e6 : C 2 3 + C 3 2 = 0 := by
    rw [← (hasMean_add (m 2 3) (m 3 2)).2]
    have := congrArg Cx.im h.circ2
    simpa [integralC, Cx.mul_im, ← r2, ← r3] using this
  have e7 : C 0 2 - C 1 3 = 0 := by
    rw [← (hasMean_sub (m 0 2) (m 1 3)).2]
    have := congrArg Cx.re h.circ12
    simpa [integralC, Cx.mul_re, ← r0, ← r1, ← r2, ← r3] using this
  have e8 : C 0 3 + C 1 2 = 0 := by
    rw [← (hasMean_add (m 0 3) (m 1 2)).2]
    have := congrArg Cx.im h.circ12
    simpa [integralC, Cx.mul_im, ← r0, ← r1, ← r2, ← r3] using this
  have e9 : C 0 2 + C 1 3 = c.re := by
    rw [← (hasMean_add (m 0 2) (m 1 3)).2]
    have := congrArg Cx.re h.cov
    rw [← this]
    simp only [integralC, cxProd, Cx.mul_re, Cx.conj_re, Cx.conj_im, ← r0, ← r1, ← r2, ← r3]
    refine integral_congr_ae (Filter.Eventually.of_forall fun ω => ?_)
    ring
  have e10 : C 0 3 - C 1 2 = c.im := by
    rw [← (hasMean_sub (m 0 3) (m 1 2)).2]
    have := congrArg Cx.im h.cov
    rw [← this]
    simp only [integralC, cxProd, Cx.mul_im, Cx.conj_re, Cx.conj_im, ← r0, ← r1, ← r2, ← r3]
    refine integral_congr_ae (Filter.Eventually.of_forall fun ω => ?_)
    ring
  have sym : ∀ i j, C i j = C j i := fun i j => by
    refine integral_congr_ae (Filter.Eventually.of_forall fun ω => ?_)
    exact mul_comm _ _
  have s1 := sym 0 1
  have s2 := sym 2 3
  exact ⟨⟨by linarith, by linarith, by linarith⟩, ⟨by linarith, by linarith, by linarith⟩,
    ⟨by linarith, by linarith, by linarith, by linarith⟩, sym⟩

theorem circular_cauchy (h : CircularPair μ a b m1 m2 v1 v2 c) (hv : 0 < v1 + v2) : c.abs2 ≤ v1 * v2 := by
  have g := circular_centred h
  have m : ∀ i j, HasMean μ (fun ω => devParts a b m1 m2 i ω * devParts a b m1 m2 j ω) _ := centred_two g
  obtain ⟨⟨a1, a2, a3⟩, ⟨b1, b2, b3⟩, ⟨c1, c2, c3, c4⟩, hs⟩ := circular_second h
  have hpos : ∀ p q r s : ℝ, 0 ≤ (p ^ 2 + q ^ 2) * (v1 / 2) + (r ^ 2 + s ^ 2) * (v2 / 2) + (p * r + q * s) * c.re +
      (p * s - q * r) * c.im := by
    intro p q r s
    have e : HasMean μ (fun ω => (p * devParts a b m1 m2 0 ω + q * devParts a b m1 m2 1 ω + r * devParts a b m1 m2 2 ω
        + s * devParts a b m1 m2 3 ω) ^ 2) _ := hasMean_congr (hasMean_add (hasMean_add (hasMean_add (hasMean_mul (p ^ 2) (m 0 0)) (hasMean_mul (q ^ 2) (m 1 1)))
      (hasMean_add (hasMean_mul (r ^ 2) (m 2 2)) (hasMean_mul (s ^ 2) (m 3 3))))
      (hasMean_add (hasMean_add (hasMean_add (hasMean_mul (2 * p * q) (m 0 1)) (hasMean_mul (2 * r * s) (m 2 3)))
        (hasMean_add (hasMean_mul (2 * p * r) (m 0 2)) (hasMean_mul (2 * q * s) (m 1 3))))
        (hasMean_add (hasMean_mul (2 * p * s) (m 0 3)) (hasMean_mul (2 * q * r) (m 1 2)))))
      (fun ω => by ring) rfl
    have h0 : 0 ≤ ∫ ω, (p * devParts a b m1 m2 0 ω + q * devParts a b m1 m2 1 ω + r * devParts a b m1 m2 2 ω
        + s * devParts a b m1 m2 3 ω) ^ 2 ∂μ := integral_nonneg fun ω => sq_nonneg _
    beta_reduce at a1 a2 a3 b1 b2 b3 c1 c2 c3 c4
    rw [e.2, a1, a2, a3, b1, b2, b3, c1, c2, c3, c4] at h0
    nlinarith
  have p1 := hpos 1 0 0 0
  have p2 := hpos 0 0 1 0
  unfold Cx.abs2
  rcases lt_or_ge 0 v1 with h1 | h1
  · have := hpos (-c.re) c.im v1 0
    have : 0 ≤ v1 * (v1 * v2 - (c.re * c.re + c.im * c.im)) := by nlinarith
    have := nonneg_of_mul_nonneg_right this h1
    linarith
  · have h2 : 0 < v2 := by linarith
    have := hpos v2 0 (-c.re) (-c.im)
    have : 0 ≤ v2 * (v1 * v2 - (c.re * c.re + c.im * c.im)) := by nlinarith
    have := nonneg_of_mul_nonneg_right this h2
    linarith

/-- A quadratic expression in two complex numbers. -/
noncomputable def quadForm (α β γ : ℝ) (l1 l2 : Cx ℝ) (z1 z2 : Cx ℝ) : ℝ :=
  α * z1.abs2 + β * z2.abs2 + γ * reProd z1 z2 + reProd l1 z1 + reProd l2 z2

/-- Its mean and the mean of its square at the deviations of a circular pair. -/
theorem quadForm_moments (h : CircularPair μ a b m1 m2 v1 v2 c) (α β γ : ℝ) (l1 l2 : Cx ℝ) :
    HasMean μ (fun ω => quadForm α β γ l1 l2 (a ω - m1) (b ω - m2)) (α * v1 + β * v2 + γ * c.re) ∧
    HasMean μ (fun ω => quadForm α β γ l1 l2 (a ω - m1) (b ω - m2) ^ 2)
      ((α * v1 + β * v2 + γ * c.re) ^ 2 + α ^ 2 * v1 ^ 2 + β ^ 2 * v2 ^ 2 + 2 * α * β * c.abs2 + 2 * α * γ * v1 * c.re +
        2 * β * γ * v2 * c.re + γ ^ 2 * ((v1 * v2 + c.re ^ 2 - c.im ^ 2) / 2) +
        (l1.abs2 * v1 + l2.abs2 * v2) / 2 + (reProd l1 l2 * c.re + (cxProd l1 l2).im * c.im)) := by
  have g := circular_centred h
  obtain ⟨U, hU⟩ : ∃ U, U = devParts a b m1 m2 := ⟨_, rfl⟩
  obtain ⟨⟨c00, c11, c01⟩, ⟨c22, c33, c23⟩, ⟨c02, c13, c03, c12⟩, sym⟩ := circular_second h
  rw [← hU] at g c00 c11 c01 c22 c33 c23 c02 c13 c03 c12 sym
  have c10 := (sym 1 0).trans c01
  have c32 := (sym 3 2).trans c23
  have c20 := (sym 2 0).trans c02
  have c31 := (sym 3 1).trans c13
  have c30 := (sym 3 0).trans c03
  have c21 := (sym 2 1).trans c12
  obtain ⟨quad, hq⟩ : ∃ quad : List (ℝ × Fin 4 × Fin 4),
    quad = [(α, 0, 0), (α, 1, 1), (β, 2, 2), (β, 3, 3), (γ, 0, 2), (γ, 1, 3)] := ⟨_, rfl⟩
  obtain ⟨lin, hl⟩ : ∃ lin : List (ℝ × Fin 4),
    lin = [(l1.re, 0), (l1.im, 1), (l2.re, 2), (l2.im, 3)] := ⟨_, rfl⟩
  have eT : ∀ ω, quadForm α β γ l1 l2 (a ω - m1) (b ω - m2) =
      (quad.map fun q => q.1 * (U q.2.1 ω * U q.2.2 ω)).sum + (lin.map fun q => q.1 * U q.2 ω).sum := by
    intro ω
    have r0 : (a ω - m1).re = U 0 ω := by simp [hU, devParts, parts]
    have r1 : (a ω - m1).im = U 1 ω := by simp [hU, devParts, parts]
    have r2 : (b ω - m2).re = U 2 ω := by simp [hU, devParts, parts]
    have r3 : (b ω - m2).im = U 3 ω := by simp [hU, devParts, parts]
    simp only [quadForm, reProd, Cx.abs2, Cx.mul_re, Cx.conj_re, Cx.conj_im, r0, r1, r2, r3, hq, hl, List.map_cons,
      List.map_nil, List.sum_cons, List.sum_nil]
    ring
  have Q1 : HasMean μ (fun ω => (quad.map fun q => q.1 * (U q.2.1 ω * U q.2.2 ω)).sum)
      (quad.map fun q => q.1 * ∫ ω, U q.2.1 ω * U q.2.2 ω ∂μ).sum :=
    hasMean_listSum quad (fun ω q => q.1 * (U q.2.1 ω * U q.2.2 ω)) _ fun q _ => hasMean_mul _ (centred_two g _ _)
  have L1 : HasMean μ (fun ω => (lin.map fun q => q.1 * U q.2 ω).sum) (lin.map fun q => q.1 * 0).sum :=
    hasMean_listSum lin (fun ω q => q.1 * U q.2 ω) _ fun q _ => hasMean_mul _ (isserlis_one g _)
  have Q2 := hasMean_listProd quad quad (fun ω q => q.1 * (U q.2.1 ω * U q.2.2 ω))
    (fun ω q => q.1 * (U q.2.1 ω * U q.2.2 ω)) _ fun p _ q _ => hasMean_congr
      (hasMean_mul (p.1 * q.1) (isserlis_four g p.2.1 p.2.2 q.2.1 q.2.2)) (fun ω => by ring) rfl
  have QL := hasMean_listProd quad lin (fun ω q => q.1 * (U q.2.1 ω * U q.2.2 ω))
    (fun ω q => q.1 * U q.2 ω) _ fun p _ q _ => hasMean_congr
      (hasMean_mul (p.1 * q.1) (isserlis_three g p.2.1 p.2.2 q.2)) (fun ω => by ring) rfl
  have L2 := hasMean_listProd lin lin (fun ω q => q.1 * U q.2 ω)
    (fun ω q => q.1 * U q.2 ω) _ fun p _ q _ => hasMean_congr
      (hasMean_mul (p.1 * q.1) (centred_two g p.2 q.2)) (fun ω => by ring) rfl
  constructor
  · refine hasMean_congr (hasMean_add Q1 L1) eT ?_
    simp only [hq, hl, List.map_cons, List.map_nil, List.sum_cons, List.sum_nil, c00, c11, c22, c33, c02, c13]
    ring
  · refine hasMean_congr (hasMean_add (hasMean_add Q2 (hasMean_mul 2 QL)) L2) (fun ω => ?_) ?_
    · rw [eT]; ring
    · simp only [hq, hl, List.map_cons, List.map_nil, List.sum_cons, List.sum_nil, c00, c11, c22, c33, c02, c13, c01, c23,
        c03, c12, c10, c32, c20, c31, c30, c21, Cx.abs2, reProd, cxProd, Cx.mul_re, Cx.mul_im, Cx.conj_re, Cx.conj_im]
      ring

/-- Its variance. -/
theorem quadForm_variance (h : CircularPair μ a b m1 m2 v1 v2 c) (α β γ κ : ℝ) (l1 l2 : Cx ℝ) (T : Ω → ℝ)
    (hT : ∀ ω, T ω = κ + quadForm α β γ l1 l2 (a ω - m1) (b ω - m2)) :
    MemLp T 2 μ ∧ ∫ ω, T ω ∂μ = κ + (α * v1 + β * v2 + γ * c.re) ∧
      Var[T; μ] = α ^ 2 * v1 ^ 2 + β ^ 2 * v2 ^ 2 + 2 * α * β * c.abs2 + 2 * α * γ * v1 * c.re +
        2 * β * γ * v2 * c.re + γ ^ 2 * ((v1 * v2 + c.re ^ 2 - c.im ^ 2) / 2) +
        (l1.abs2 * v1 + l2.abs2 * v2) / 2 + (reProd l1 l2 * c.re + (cxProd l1 l2).im * c.im) := by
  have hP := h.gauss.isProbabilityMeasure
  obtain ⟨q1, q2⟩ := quadForm_moments h α β γ l1 l2
  have t1 : HasMean μ T (κ + (α * v1 + β * v2 + γ * c.re)) := hasMean_congr (hasMean_add (hasMean_const κ) q1) hT rfl
  have t2 := hasMean_congr (hasMean_add (hasMean_add (hasMean_const (κ ^ 2)) (hasMean_mul (2 * κ) q1)) q2)
    (g := fun ω => T ω ^ 2) (fun ω => by rw [hT]; ring) rfl
  have hm : MemLp T 2 μ := (memLp_two_iff_integrable_sq t1.1.aestronglyMeasurable).mpr t2.1
  refine ⟨hm, t1.2, ?_⟩
  rw [variance_eq_sub hm, t1.2]
  have : ∫ ω, (T ^ 2) ω ∂μ = ∫ ω, T ω ^ 2 ∂μ := rfl
  rw [this, t2.2]
  ring

end

end Cddm
