import Verif.Props.RandomTimes
import Mathlib.Probability.Independence.InfinitePi
import Mathlib.Probability.UniformOn

/-!
# The hypotheses of C96 are met by independent draws; concrete cases
-/

namespace Cddm
open Spec MeasureTheory ProbabilityTheory

/-- The draws of one frame: below 3 and below 2. -/
abbrev FrameDraw : Type := Fin 3 × Fin 2

instance frameUniform3 : IsProbabilityMeasure (uniformOn Set.univ : Measure (Fin 3)) :=
  isProbabilityMeasure_uniformOn Set.finite_univ Set.univ_nonempty

instance frameUniform2 : IsProbabilityMeasure (uniformOn Set.univ : Measure (Fin 2)) :=
  isProbabilityMeasure_uniformOn Set.finite_univ Set.univ_nonempty

/-- Both uniform and independent. -/
noncomputable abbrev frameLaw : Measure FrameDraw := (uniformOn Set.univ : Measure (Fin 3)).prod (uniformOn Set.univ : Measure (Fin 2))

/-- The draws of all frames, independent. -/
noncomputable abbrev framesLaw : Measure (Nat → FrameDraw) := Measure.infinitePi fun _ => frameLaw

theorem framesLaw_eval (i : Nat) : MeasurePreserving (fun ω : Nat → FrameDraw => ω i) framesLaw frameLaw :=
  ⟨measurable_pi_apply i, Measure.infinitePi_map_eval _ i⟩

theorem uniform_prob (m : Nat) [NeZero m] (a : Fin m) : (uniformOn Set.univ : Measure (Fin m)) {a} = 1 / m := by
  rw [uniformOn_univ, Measure.count_singleton, Fintype.card_fin]

/-- A trigger draw below 3 and a camera draw below 2 for each frame. -/
theorem frame_draws : FrameDraws framesLaw 3 (fun i ω => (ω i).1.val) (fun i ω => (ω i).2.val) := by
  have h1 : ∀ (i : Nat) (s : Set (Fin 3)), framesLaw {ω | (ω i).1 ∈ s} = (uniformOn Set.univ : Measure (Fin 3)) s := by
    intro i s
    have := (framesLaw_eval i).measure_preimage (s := s ×ˢ Set.univ) (Set.toFinite _).measurableSet.nullMeasurableSet
    rw [Measure.prod_prod, measure_univ, mul_one] at this
    rw [← this]
    congr 1
    ext ω
    simp
  have h2 : ∀ (i : Nat) (s : Set (Fin 2)), framesLaw {ω | (ω i).2 ∈ s} = (uniformOn Set.univ : Measure (Fin 2)) s := by
    intro i s
    have := (framesLaw_eval i).measure_preimage (s := Set.univ ×ˢ s) (Set.toFinite _).measurableSet.nullMeasurableSet
    rw [Measure.prod_prod, measure_univ, one_mul] at this
    rw [← this]
    congr 1
    ext ω
    simp
  refine ⟨fun i => ⟨?_, fun ω => (ω i).1.isLt, fun a ha => ?_⟩, fun i => ⟨?_, fun ω => (ω i).2.isLt, fun a ha => ?_⟩, fun i => ?_, ?_⟩
  · exact (measurable_of_finite (fun x : FrameDraw => x.1.val)).comp (measurable_pi_apply i)
  · have := h1 i {⟨a, ha⟩}
    rw [uniform_prob] at this
    rw [measureReal_def, show {ω : Nat → FrameDraw | (ω i).1.val = a} = {ω | (ω i).1 ∈ ({⟨a, ha⟩} : Set (Fin 3))} by
      ext ω; simp [Fin.ext_iff], this]
    simp
  · exact (measurable_of_finite (fun x : FrameDraw => x.2.val)).comp (measurable_pi_apply i)
  · have := h2 i {⟨a, ha⟩}
    rw [uniform_prob] at this
    rw [measureReal_def, show {ω : Nat → FrameDraw | (ω i).2.val = a} = {ω | (ω i).2 ∈ ({⟨a, ha⟩} : Set (Fin 2))} by
      ext ω; simp [Fin.ext_iff], this]
    simp
  · rw [indepFun_iff_measure_inter_preimage_eq_mul]
    intro s t _ _
    have e1 := h1 i (Fin.val ⁻¹' s)
    have e2 := h2 i (Fin.val ⁻¹' t)
    have := (framesLaw_eval i).measure_preimage (s := (Fin.val ⁻¹' s) ×ˢ (Fin.val ⁻¹' t))
      (Set.toFinite _).measurableSet.nullMeasurableSet
    rw [Measure.prod_prod, ← e1, ← e2] at this
    exact this
  · exact iIndepFun_infinitePi (X := fun (_ : Nat) (x : FrameDraw) => (x.1.val, x.2.val)) fun _ => measurable_of_finite _

/-- Ten particles on 8 × 8 pixels, 20 frames at random times of period 6: delay 2 is missing with probability `(2/3)^20`, and the
mean over the other cases is the scattering function. -/
example : ∃ (Ω : Type) (_ : MeasurableSpace Ω) (μ : Measure Ω) (r : Ω → Nat → ℝ × ℝ) (g : Ω → Nat → Nat → ℝ × ℝ)
    (xs : Ω → List (List (ℝ × ℝ))),
    (∀ ω, brownianParticles 120 [8, 8] 10 (.const (.scalar 1)) 1 (.const (.scalar 0)) none (r ω) (g ω) = (xs ω, .ok ())) ∧
    MeanWhenFinite (framesLaw.prod μ) (fun q => Except.bind (createRandomTimes1 20 3 (fun i => (q.1 i).1.val) (fun i => (q.1 i).2.val))
      fun t => ccorrNormalized (t.1.map (fieldAt (waveVector (8, 8) 1 0) (xs q.2))) (t.2.map (fieldAt (waveVector (8, 8) 1 0) (xs q.2)))
        (some t.1) (some t.2) (some 3) none (some "corr") true (.one 0) (some (.one 10)) 6 "corr" false) 2
      (1 - (2 / 3) ^ 20) (10 * Real.exp (-((Real.pi / 4) ^ 2))) := by
  obtain ⟨Ω, i, μ, r, g, hg, -⟩ := randomNumbers_exist
  obtain ⟨xs, e, hx⟩ := C96_particles frame_draws 20 (by decide) (by decide) hg 8 8 10 1 1 (.scalar 0) (0, 0) (by decide) (by decide)
    (by norm_num) (fun _ _ => rfl) 3 none (some "corr") true (by simp [effMethod]) (by simp [SupportedNorm, effNorm]) 6 (by simp [GivenNorm])
    (by simp [Prepared, effNorm, WantsSquares, WantsSums])
  refine ⟨Ω, i, μ, r, g, xs, e, ?_⟩
  have := hx 1 0 (by simp) 2 (by decide) (by decide)
  have ev : diffusion (waveVector (8, 8) 1 0) (1 ^ 2 / 2) (((2 : Nat) : ℝ) * 1) *
      Real.cos (drift (waveVector (8, 8) 1 0) (0, 0) (((2 : Nat) : ℝ) * 1)) = Real.exp (-((Real.pi / 4) ^ 2)) := by
    unfold diffusion drift waveVector
    simp only [mul_zero, add_zero, zero_mul, Real.cos_zero, mul_one]
    congr 2
    push_cast
    rw [abs_of_pos (by norm_num)]
    ring
  rw [ev, show (1 : ℝ) - (if 2 = 0 then 1 / (2 * ((3 : Nat) : ℝ)) else 1 / ((3 : Nat) : ℝ)) = 2 / 3 by norm_num] at this
  exact_mod_cast this

/-- Delay -2 of ten particles that drift by one pixel a frame: cell 3 of the five of the complex output, a quarter turn. -/
example : ∃ (Ω : Type) (_ : MeasurableSpace Ω) (μ : Measure Ω) (r : Ω → Nat → ℝ × ℝ) (g : Ω → Nat → Nat → ℝ × ℝ)
    (xs : Ω → List (List (ℝ × ℝ))),
    (∀ ω, brownianParticles 120 [8, 8] 10 (.const (.scalar 0)) 1 (.const (.scalar 1)) none (r ω) (g ω) = (xs ω, .ok ())) ∧
    MeanWhenFiniteC (framesLaw.prod μ) (fun q => Except.bind (createRandomTimes1 20 3 (fun i => (q.1 i).1.val) (fun i => (q.1 i).2.val))
      fun t => ccorrNormalizedC (t.1.map (fieldAt (waveVector (8, 8) 1 0) (xs q.2))) (t.2.map (fieldAt (waveVector (8, 8) 1 0) (xs q.2)))
        (some t.1) (some t.2) (some 3) none (some "corr") true (.one 0) (some (.one 10)) 6 "corr" false) 3
      (1 - (5 / 6) ^ 20) ⟨0, 10⟩ := by
  obtain ⟨Ω, i, μ, r, g, hg, -⟩ := randomNumbers_exist
  obtain ⟨xs, e, hx⟩ := C96_particles_complex frame_draws 20 (by decide) (by decide) hg 8 8 10 0 1 (.scalar 1) (1, 1) (by decide)
    (by decide) (by norm_num) (fun _ _ => rfl) 3 none (some "corr") true (by simp [effMethod]) (by simp [SupportedNorm, effNorm]) 6
    (by simp [GivenNorm]) (by simp [Prepared, effNorm, WantsSquares, WantsSums])
  refine ⟨Ω, i, μ, r, g, xs, e, ?_⟩
  have := hx 1 0 (by simp) 3 (by decide) (-2) (by decide) (by decide) (by decide)
  have e1 : diffusion (waveVector (8, 8) 1 0) (0 ^ 2 / 2) (((-2 : Int) : ℝ) * 1) = 1 := by
    simp [diffusion]
  have e2 : drift (waveVector (8, 8) 1 0) (1, 1) (((-2 : Int) : ℝ) * 1) = -(Real.pi / 2) := by
    simp [drift, waveVector]
    ring
  rw [e1, e2, Real.cos_neg, Real.sin_neg, Real.cos_pi_div_two, Real.sin_pi_div_two,
    show (1 : ℝ) - 1 / (2 * ((3 : Nat) : ℝ)) = 5 / 6 by norm_num] at this
  norm_num at this ⊢
  exact this

end Cddm
