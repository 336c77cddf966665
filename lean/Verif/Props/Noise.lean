import Verif.Spec.Noise
import Verif.Model.Noise
import Verif.Props.Norm
import Verif.Props.Fft2
import Verif.Props.Filters

/-!
# C80: camera noise (`noise_level`, `noise_mean`)
-/

namespace Cddm
open Spec
open scoped BigOperators

/-- A sum over all pixels as one sum. -/
theorem fourierAt_pixels (x : Arr2 (Cx ℝ)) (a b : Int) :
    fourierAt x a b = ∑ i ∈ Finset.range x.h ×ˢ Finset.range x.w, x.get i.1 i.2 * planeWave x.h x.w a b i.1 i.2 := by
  unfold fourierAt
  rw [Finset.sum_product]

theorem re_sum {ι : Type} (s : Finset ι) (f : ι → Cx ℝ) : (∑ i ∈ s, f i).re = ∑ i ∈ s, (f i).re := by
  classical
  induction s using Finset.induction_on with
  | empty => simp
  | insert a s ha ih => rw [Finset.sum_insert ha, Finset.sum_insert ha, Cx.add_re, ih]

theorem im_sum {ι : Type} (s : Finset ι) (f : ι → Cx ℝ) : (∑ i ∈ s, f i).im = ∑ i ∈ s, (f i).im := by
  classical
  induction s using Finset.induction_on with
  | empty => simp
  | insert a s ha ih => rw [Finset.sum_insert ha, Finset.sum_insert ha, Cx.add_im, ih]

theorem abs2_smul_sum {ι : Type} (s : Finset ι) (d : ι → ℝ) (c : ι → Cx ℝ) :
    (∑ i ∈ s, d i • c i).abs2 = ∑ i ∈ s, ∑ j ∈ s, (d i * d j) * ((c i).re * (c j).re + (c i).im * (c j).im) := by
  unfold Cx.abs2
  rw [re_sum, im_sum, Finset.sum_mul_sum, Finset.sum_mul_sum, ← Finset.sum_add_distrib]
  refine Finset.sum_congr rfl fun i _ => ?_
  rw [← Finset.sum_add_distrib]
  refine Finset.sum_congr rfl fun j _ => ?_
  simp
  ring

/-- The mean square of a sum of uncorrelated terms. -/
theorem expect_abs2 {Ω ι : Type} [Fintype Ω] (p : Ω → ℝ) (s : Finset ι) (d : Ω → ι → ℝ) (c : ι → Cx ℝ) (I : ℝ)
    (hv : ∀ i ∈ s, expect p (fun ω => d ω i * d ω i) = I)
    (hu : ∀ i ∈ s, ∀ j ∈ s, i ≠ j → expect p (fun ω => d ω i * d ω j) = 0) :
    expect p (fun ω => (∑ i ∈ s, d ω i • c i).abs2) = (∑ i ∈ s, (c i).abs2) * I := by
  classical
  unfold expect at *
  simp only [abs2_smul_sum, Finset.mul_sum]
  rw [Finset.sum_comm]
  rw [Finset.sum_mul]
  refine Finset.sum_congr rfl fun i hi => ?_
  rw [Finset.sum_comm]
  have e : ∀ j ∈ s, (∑ ω, p ω * (d ω i * d ω j * ((c i).re * (c j).re + (c i).im * (c j).im)))
      = if i = j then (c i).abs2 * I else 0 := by
    intro j hj
    have : ∀ ω, p ω * (d ω i * d ω j * ((c i).re * (c j).re + (c i).im * (c j).im))
        = (p ω * (d ω i * d ω j)) * ((c i).re * (c j).re + (c i).im * (c j).im) := fun ω => by ring
    simp only [this]
    rw [← Finset.sum_mul]
    by_cases hij : i = j
    · subst hij
      rw [if_pos rfl, hv i hi]
      unfold Cx.abs2
      ring
    · rw [if_neg hij, hu i hi j hj hij, zero_mul]
  rw [Finset.sum_congr rfl e, Finset.sum_ite_eq, if_pos hi]

theorem planeWave_abs2 (h w : Nat) (a b p q : Int) : (planeWave h w a b p q).abs2 = 1 := by
  unfold planeWave Cx.abs2
  have := Real.sin_sq_add_cos_sq (2 * Real.pi * ((a : ℝ) * p / h + (b : ℝ) * q / w))
  dsimp only
  linear_combination this

theorem abs2_mul' (x y : Cx ℝ) : (x * y).abs2 = x.abs2 * y.abs2 := by
  unfold Cx.abs2
  simp
  ring

/-- C80: `noise_level(window, I)` is the mean square fluctuation of every Fourier component of the windowed frames, if
the camera noise is photon noise of intensity `I`. -/
theorem C80_level {Ω : Type} [Fintype Ω] (p : Ω → ℝ) (window : Arr2 (Cx ℝ)) (X : Ω → Nat → Nat → ℝ)
    (μ : Nat → Nat → ℝ) (I : ℝ) (hX : PhotonNoise p window.h window.w X μ I) (a b : Int) :
    expect p (fun ω => (fourierAt (windowed window (X ω)) a b - fourierAt (windowed window μ) a b).abs2)
      = noiseLevel window I := by
  have e : ∀ ω, fourierAt (windowed window (X ω)) a b - fourierAt (windowed window μ) a b
      = ∑ i ∈ Finset.range window.h ×ˢ Finset.range window.w, (X ω i.1 i.2 - μ i.1 i.2) •
          (window.get i.1 i.2 * planeWave window.h window.w a b i.1 i.2) := by
    intro ω
    rw [fourierAt_pixels, fourierAt_pixels]
    simp only [windowed]
    rw [← Finset.sum_sub_distrib]
    refine Finset.sum_congr rfl fun i _ => ?_
    ext <;> simp <;> ring
  simp only [e]
  rw [expect_abs2 p _ (fun ω (i : Nat × Nat) => X ω i.1 i.2 - μ i.1 i.2) _ I]
  · unfold noiseLevel
    rw [Finset.sum_product]
    congr 1
    refine Finset.sum_congr rfl fun i _ => Finset.sum_congr rfl fun j _ => ?_
    rw [abs2_mul', planeWave_abs2, mul_one]
  · rintro ⟨i, j⟩ hi
    simp only [Finset.mem_product, Finset.mem_range] at hi
    exact hX.variance i hi.1 j hi.2
  · rintro ⟨i, j⟩ hi ⟨i', j'⟩ hi' hne
    simp only [Finset.mem_product, Finset.mem_range] at hi hi'
    exact hX.uncorrelated i hi.1 j hi.2 i' hi'.1 j' hi'.2 hne

/-- Non-trivial case: two pixels, each dimmer or brighter by 3 with equal chances. -/
example : PhotonNoise (fun _ : Bool × Bool => (1 / 4 : ℝ)) 1 2
    (fun ω _ j => 9 + (if (if j = 0 then ω.1 else ω.2) then 3 else -3)) (fun _ _ => 9) 9 := by
  constructor
  · intro i hi j hj
    interval_cases j <;> simp [expect, Fintype.sum_prod_type] <;> norm_num
  · intro i hi j hj
    interval_cases j <;> simp [expect, Fintype.sum_prod_type] <;> norm_num
  · intro i hi j hj i' hi' j' hj' hne
    have hi0 : i = 0 := by omega
    have hi0' : i' = 0 := by omega
    subst hi0 hi0'
    interval_cases j <;> interval_cases j' <;> simp [expect, Fintype.sum_prod_type] at hne ⊢

/-- C80: multiplying the images (here: the window) by a constant multiplies the noise level by its square; more light
multiplies it by the first power. -/
theorem C80_level_scale (window : Arr2 (Cx ℝ)) (I : ℝ) (c : Cx ℝ) (t : ℝ) :
    noiseLevel ⟨window.h, window.w, fun i j => c * window.get i j⟩ I = c.abs2 * noiseLevel window I ∧
    noiseLevel window (t * I) = t * noiseLevel window I := by
  constructor
  · unfold noiseLevel
    dsimp only
    simp only [abs2_mul', ← Finset.mul_sum]
    ring
  · unfold noiseLevel
    ring

/-- C80: no window: pixels times intensity (the example of the documentation: 512 × 512 pixels, intensity 200). -/
theorem C80_level_flat (h w : Nat) (I : ℝ) : noiseLevel ⟨h, w, fun _ _ => 1⟩ I = h * w * I := by
  unfold noiseLevel
  simp [Cx.abs2]

example : noiseLevel ⟨512, 512, fun _ _ => 1⟩ 200 = 52428800 := by rw [C80_level_flat]; norm_num

/-! ### Mean noise -/

/-- C80: the mean noise is the number of `[0, 1]` nearest to `1 - g(0)`. -/
theorem C80_mean_corr (x : ℝ) (rest : List ℝ) (scale : ℝ) (hs : scale ≠ 0) :
    ∃ y, noiseMean (x :: rest) scale "corr" = .ok y ∧ 0 ≤ y ∧ y ≤ 1 ∧
      ∀ z, 0 ≤ z → z ≤ 1 → |y - (1 - x / scale)| ≤ |z - (1 - x / scale)| := by
  refine ⟨npClip 0 1 (1 - x / scale), by simp [noiseMean, hs], ?_, ?_, ?_⟩
  · exact le_min (le_max_right _ _) zero_le_one
  · exact min_le_right _ _
  · intro z h0 h1
    unfold npClip
    generalize 1 - x / scale = g
    rcases le_total g 0 with h | h
    · rw [max_eq_right h, min_eq_left zero_le_one, abs_of_nonneg (by linarith), abs_of_nonneg (by linarith)]
      linarith
    · rw [max_eq_left h]
      rcases le_total g 1 with h' | h'
      · rw [min_eq_left h', sub_self, abs_zero]
        exact abs_nonneg _
      · rw [min_eq_right h', abs_of_nonpos (by linarith), abs_of_nonpos (by linarith)]
        linarith

/-- C80: the difference representation of the same data gives the same mean noise. -/
theorem C80_mean_modes (x scale : ℝ) (corr rest : List ℝ) :
    noiseMean ((2 * (scale - x)) :: rest) scale "diff" = noiseMean (x :: corr) scale "corr" := by
  by_cases hs : scale = 0
  · simp [noiseMean, hs]
  · simp only [noiseMean, hs, if_false, List.map_cons, if_true]
    rw [if_neg (by decide)]
    congr 2
    field_simp

/-- C80: so normalised data give the same mean noise in both modes. -/
theorem C80_mean_normalized (data : NormData ℝ) (bg : Option Background) (v : Variance) (z : Int)
    (hz : z ≠ 3 ∧ z ≠ 7 ∧ z ≠ 11 ∧ z ≠ 15) (c : List ℝ) (hc : c ≠ [])
    (h : normalize normOpsR data bg (some v) (some z) "corr" false none = .ok (c.map some, none)) :
    ∃ d, normalize normOpsR data bg (some v) (some z) "diff" false none = .ok (d.map some, none) ∧
      noiseMean d v.offset "diff" = noiseMean c v.offset "corr" := by
  refine ⟨c.map fun x => 2 * (v.offset - x), ?_, ?_⟩
  · rw [C23_modes (hz := hz), h]
    simp [Except.map]
  · obtain ⟨x, c, rfl⟩ := List.exists_cons_of_ne_nil hc
    exact C80_mean_modes _ _ _ _

/-- C80: no data: IndexError; another mode: ValueError. -/
theorem C80_mean_rejects (corr : List ℝ) (scale : ℝ) (mode : String) (hs : scale ≠ 0) :
    (mode = "corr" ∨ mode = "diff" → noiseMean [] scale mode = .error .indexError) ∧
    (mode ≠ "corr" → mode ≠ "diff" → noiseMean corr scale mode = .error .valueError) := by
  constructor
  · rintro (rfl | rfl) <;> simp [noiseMean, hs]
  · intro h1 h2
    simp [noiseMean, hs, h1, h2]

end Cddm
