import Verif.Props.GaussSigma

/-!
# C93: concrete cases and refutations

Two signals made of independent normal random numbers: the sample of the second signal at time `t` is made of the same
numbers as that of the first at time `t - d`.
-/

namespace Cddm
open Spec MeasureTheory ProbabilityTheory
open scoped BigOperators

/-- A signal with mean `m`: two random numbers with factors `A0` and `A1` for each time, delayed by `d`. -/
noncomputable def noiseSignal (m A0 A1 : Cx ℝ) (d : Int) (ω : Nat → ℝ) (t : Int) : Cx ℝ :=
  m + linComb ![A0, A1] (fun i (ω : Nat → ℝ) => ω (2 * (t - d).toNat + i)) ω

theorem noise_circular (m1 m2 A0 A1 B0 B1 : Cx ℝ) (d a : Int) (hA : A0 * A0 + A1 * A1 = 0) (hB : B0 * B0 + B1 * B1 = 0)
    (hAB : A0 * B0 + A1 * B1 = 0) :
    CircularPair normals (fun ω => noiseSignal m1 A0 A1 0 ω a) (fun ω => noiseSignal m2 B0 B1 d ω (a + d)) m1 m2
      (A0.abs2 + A1.abs2) (B0.abs2 + B1.abs2) (cxProd A0 B0 + cxProd A1 B1) := by
  have hI : iIndepFun (fun (i : Fin 2) (ω : Nat → ℝ) => ω (2 * a.toNat + i)) normals :=
    normals_indep.precomp (g := fun i : Fin 2 => 2 * a.toNat + (i : Nat)) (fun i j h => by
      apply Fin.ext; dsimp only at h; omega)
  have := linComb_circular hI (fun i => normals_law _) m1 m2 ![A0, A1] ![B0, B1] (by simpa [Fin.sum_univ_two] using hA)
    (by simpa [Fin.sum_univ_two] using hB) (by simpa [Fin.sum_univ_two] using hAB)
  simpa [Fin.sum_univ_two, noiseSignal] using this

theorem noise_indep (m1 m2 A0 A1 B0 B1 : Cx ℝ) (d a a' : Int) (h : a.toNat ≠ a'.toNat) :
    IndepFun (fun ω => parts (noiseSignal m1 A0 A1 0 ω a) (noiseSignal m2 B0 B1 d ω (a + d)))
      (fun ω => parts (noiseSignal m1 A0 A1 0 ω a') (noiseSignal m2 B0 B1 d ω (a' + d))) normals := by
  have hd : Disjoint ({2 * a.toNat, 2 * a.toNat + 1} : Finset Nat) {2 * a'.toNat, 2 * a'.toNat + 1} := by
    rw [Finset.disjoint_left]
    intro x hx hx'
    simp only [Finset.mem_insert, Finset.mem_singleton] at hx hx'
    omega
  have hind := normals_indep.indepFun_finset _ _ hd (fun i => measurable_pi_apply i)
  let F : ∀ j : Nat, (({2 * j, 2 * j + 1} : Finset Nat) → ℝ) → (Fin 4 → ℝ) := fun j u =>
    parts (m1 + linComb ![A0, A1] (fun i (u : ({2 * j, 2 * j + 1} : Finset Nat) → ℝ) => u ⟨2 * j + i, by
        fin_cases i <;> simp⟩) u)
      (m2 + linComb ![B0, B1] (fun i (u : ({2 * j, 2 * j + 1} : Finset Nat) → ℝ) => u ⟨2 * j + i, by
        fin_cases i <;> simp⟩) u)
  have hF : ∀ j, Measurable (F j) := by
    intro j
    rw [measurable_pi_iff]
    intro k
    fin_cases k <;> simp only [F, parts, linComb, Fin.sum_univ_two] <;> simp <;> fun_prop
  have := hind.comp (hF a.toNat) (hF a'.toNat)
  simpa [F, noiseSignal, linComb, Function.comp_def] using this

/-! ### Three independent pairs: `x1 = Z`, `x2 = 3 + 2 Z` one frame later -/

noncomputable def plainNoise : (Nat → ℝ) → Int → Cx ℝ := noiseSignal 0 1 ⟨0, 1⟩ 0
noncomputable def laterNoise : (Nat → ℝ) → Int → Cx ℝ := noiseSignal ⟨3, 0⟩ ⟨2, 0⟩ ⟨0, 2⟩ 1

theorem laterNoise_pairs : pairsAt false (stream (frameTimes 0 (some [4, 0, 1])) (some [4, 0, 1]))
    (stream (frameTimes 0 (some [1, 5, 2])) (some [1, 5, 2])) 6 1 = [((4 : Int), (5 : Int)), (0, 1), (1, 2)] := by decide

theorem laterNoise_circular : ∀ a ∈ frameTimes 0 (some [4, 0, 1]), ∀ b ∈ frameTimes 0 (some [1, 5, 2]), |b - a| = ((1 : Nat) : Int) →
    CircularPair normals (fun ω => plainNoise ω a) (fun ω => laterNoise ω b) 0 ⟨3, 0⟩ 2 8 ⟨4, 0⟩ := by
  intro a ha b hb h
  have e : b = a + 1 := by
    simp only [frameTimes, List.mem_cons, List.not_mem_nil, or_false] at ha hb
    rcases ha with rfl | rfl | rfl <;> rcases hb with rfl | rfl | rfl <;> first | rfl | (exact absurd h (by decide))
  subst e
  have := noise_circular 0 ⟨3, 0⟩ 1 ⟨0, 1⟩ ⟨2, 0⟩ ⟨0, 2⟩ 1 a (by ext <;> simp) (by ext <;> simp) (by ext <;> simp)
  have e1 : (1 : Cx ℝ).abs2 + (⟨0, 1⟩ : Cx ℝ).abs2 = 2 := by norm_num [Cx.abs2]
  have e2 : (⟨2, 0⟩ : Cx ℝ).abs2 + (⟨0, 2⟩ : Cx ℝ).abs2 = 8 := by norm_num [Cx.abs2]
  have e3 : cxProd (1 : Cx ℝ) ⟨2, 0⟩ + cxProd (⟨0, 1⟩ : Cx ℝ) ⟨0, 2⟩ = ⟨4, 0⟩ := by ext <;> norm_num [cxProd]
  rw [e1, e2, e3] at this
  exact this

theorem laterNoise_indep : IndependentPairs normals plainNoise laterNoise
    (pairsAt false (stream (frameTimes 0 (some [4, 0, 1])) (some [4, 0, 1]))
      (stream (frameTimes 0 (some [1, 5, 2])) (some [1, 5, 2])) 6 1) := by
  rw [laterNoise_pairs]
  unfold IndependentPairs
  simp only [List.pairwise_cons, List.mem_cons, List.not_mem_nil, or_false, forall_eq_or_imp, forall_eq, IsEmpty.forall_iff,
    implies_true, List.Pairwise.nil, and_true]
  exact ⟨⟨noise_indep _ _ _ _ _ _ 1 4 0 (by decide), noise_indep _ _ _ _ _ _ 1 4 1 (by decide)⟩,
    noise_indep _ _ _ _ _ _ 1 0 1 (by decide)⟩

theorem laterNoise_prepared (z : Int) : Prepared (effNorm none (effMethod none none) true) z := by
  simp [Prepared, effNorm, effMethod, WantsSquares, WantsSums]

/-- Norm 7 with weight 1/2 at all delays, scaled, at delay 1: mean 4/5, variance (3/10)² / 3. -/
example : SpreadIn normals (fun ω => ccorrWeighted ([4, 0, 1].map (plainNoise ω)) ([1, 5, 2].map (laterNoise ω))
    (some [4, 0, 1]) (some [1, 5, 2]) none none none true (.two 0 ⟨3, 0⟩) (some (.two 2 8)) 7 "corr" true
    (List.replicate 6 (1 / 2))) 1 (4 / 5) (3 / 100) := by
  obtain ⟨s, δ, σ, h1, h2, h3, h4, -⟩ := C93_subtracted (some [4, 0, 1]) (some [1, 5, 2]) 0 0 none none none true 6
    (.two 0 ⟨3, 0⟩) (crossCall_example false) (by simp [effMethod]) 7 rfl rfl (by norm_num) 1
    ⟨0, by simp [frameTimes], 1, by simp [frameTimes], by decide⟩ laterNoise_circular laterNoise_indep (.inl rfl)
    (laterNoise_prepared _) (List.replicate 6 (1 / 2)) (by simp) (1 / 2) (by simp)
  have hs : s = 5 := by
    have := Except.ok.inj h1
    norm_num at this
    exact this.symm
  have hδ : δ = 3 / 5 := by
    norm_num [noiseDelta, fdiv] at h2
    exact h2.symm
  subst hs hδ
  have hσ : σ = 3 / 10 := by
    have e : sigmaArg (1 / 2) ((1 / 5 : ℝ) • (⟨4, 0⟩ : Cx ℝ)) (3 / 5) = (3 / 10) ^ 2 := by
      simp only [sigmaArg, Cx.smul_re, Cx.smul_im]; norm_num
    rw [sigmaWeighted, e, if_neg (by norm_num), Real.sqrt_sq (by norm_num)] at h3
    exact (Option.some.inj h3).symm
  subst hσ
  rw [laterNoise_pairs] at h4
  norm_num at h4
  simpa [frameTimes] using h4

/-- The plain norms, at the same delay: norm 5 has the variance `5² sigma² / 3` with `sigma² = 16/25`. -/
example : SpreadIn normals (fun ω => ccorrNormalized ([4, 0, 1].map (plainNoise ω)) ([1, 5, 2].map (laterNoise ω))
    (some [4, 0, 1]) (some [1, 5, 2]) none none none true (.two 0 ⟨3, 0⟩) (some (.two 2 8)) 5 "corr" false) 1 4 (16 / 3) := by
  obtain ⟨s, δ, σ, h1, h2, h3, h4⟩ := C93_plain (some [4, 0, 1]) (some [1, 5, 2]) 0 0 none none none true 6
    (.two 0 ⟨3, 0⟩) (crossCall_example false) (by simp [effMethod]) 5 rfl rfl (by norm_num) 1
    ⟨0, by simp [frameTimes], 1, by simp [frameTimes], by decide⟩ laterNoise_circular laterNoise_indep (.inl rfl)
    (laterNoise_prepared _) (by decide)
  have hs : s = 5 := by
    have := Except.ok.inj h1
    norm_num at this
    exact this.symm
  have hδ : δ = 3 / 5 := by
    norm_num [noiseDelta, fdiv] at h2
    exact h2.symm
  subst hs hδ
  have hσ : σ = 4 / 5 := by
    have e : sigmaArg 0 ((1 / 5 : ℝ) • (⟨4, 0⟩ : Cx ℝ)) (3 / 5) = (4 / 5) ^ 2 := by
      simp only [sigmaArg, Cx.smul_re, Cx.smul_im]; norm_num
    rw [if_pos (.inl rfl), sigmaWeighted, e, if_neg (by norm_num), Real.sqrt_sq (by norm_num)] at h3
    exact (Option.some.inj h3).symm
  subst hσ
  rw [laterNoise_pairs] at h4
  norm_num at h4
  simpa [frameTimes] using h4

/-- The radicand for norm 3 at delay 1. -/
theorem laterNoise_radicand (w : ℝ) : pairArg 1 w 0 ⟨3, 0⟩ 2 8 ⟨4, 0⟩ = (122 / 25 * w ^ 2 - 152 / 25 * w + 2) / 2 := by
  have h5 : Real.sqrt 5 * Real.sqrt 5 = 5 := Real.mul_self_sqrt (by norm_num)
  have hi : (Real.sqrt 5)⁻¹ * 3 * ((Real.sqrt 5)⁻¹ * 3) = 9 / 5 := by
    have hne : Real.sqrt 5 ≠ 0 := by positivity
    field_simp
    nlinarith
  rw [pairArg, if_pos rfl]
  norm_num [sigmaPrimeArg, hi]
  ring

/-- **The weight that ignores the background is not the best one.**  Norm 3 uses `weight_from_g`, here 4/5 (the call of
`weight_prime_from_g` is commented out in `normalize`, see C81): another weight gives a smaller variance. -/
theorem C93_background_weight_refuted : ∃ u u',
    weightFromG (4 / 5) (3 / 5) = 4 / 5 ∧
    SpreadIn normals (fun ω => ccorrWeighted ([4, 0, 1].map (plainNoise ω)) ([1, 5, 2].map (laterNoise ω))
      (some [4, 0, 1]) (some [1, 5, 2]) none none none true (.two 0 ⟨3, 0⟩) (some (.two 2 8)) 3 "corr" true
      (List.replicate 6 (4 / 5))) 1 (4 / 5) u ∧
    SpreadIn normals (fun ω => ccorrWeighted ([4, 0, 1].map (plainNoise ω)) ([1, 5, 2].map (laterNoise ω))
      (some [4, 0, 1]) (some [1, 5, 2]) none none none true (.two 0 ⟨3, 0⟩) (some (.two 2 8)) 3 "corr" true
      (List.replicate 6 (3 / 5))) 1 (4 / 5) u' ∧ u' < u := by
  have S : ∀ w : ℝ, SpreadIn normals (fun ω => ccorrWeighted ([4, 0, 1].map (plainNoise ω)) ([1, 5, 2].map (laterNoise ω))
      (some [4, 0, 1]) (some [1, 5, 2]) none none none true (.two 0 ⟨3, 0⟩) (some (.two 2 8)) 3 "corr" true
      (List.replicate 6 w)) 1 (4 / 5) ((122 / 25 * w ^ 2 - 152 / 25 * w + 2) / 2 / 3) := by
    intro w
    have := spread_weighted (some [4, 0, 1]) (some [1, 5, 2]) 0 0 none none none true 6
      (.two 0 ⟨3, 0⟩) (crossCall_example false) (by simp [effMethod]) 3 rfl rfl (by norm_num) 1
      ⟨0, by simp [frameTimes], 1, by simp [frameTimes], by decide⟩ laterNoise_circular laterNoise_indep (.inl rfl)
      (laterNoise_prepared _) (List.replicate 6 w) (by simp) w (by simp) true
    simp only [Background.fst, Background.snd] at this
    rw [laterNoise_pairs, show (3 : Int) - 2 = 1 by decide, laterNoise_radicand] at this
    simp only [if_true, frameTimes] at this
    rw [show (⟨4, 0⟩ : Cx ℝ).re / ((2 + 8) / 2) = 4 / 5 by norm_num] at this
    rw [show ∀ y : ℝ, ((2 + 8 : ℝ) / 2) ^ 2 * y / (([((4 : Int), (5 : Int)), (0, 1), (1, 2)].length : Nat) : ℝ) / ((2 + 8) / 2) ^ 2
      = y / 3 from fun y => by norm_num; ring] at this
    exact this
  exact ⟨_, _, by norm_num [weightFromG], S _, S _, by norm_num⟩

/-- The hypotheses of the theorems about the best weights hold for these signals: the weights are 4/5 and 38/61. -/
example : scaleFactor (some (.two 2 8)) = .ok 5 ∧ noiseDelta (.two 2 8) true = some (3 / 5) ∧
    (List.replicate 6 (4 / 5 : ℝ))[1]? = some (weightFromGC ((1 / 5 : ℝ) • (⟨4, 0⟩ : Cx ℝ)) (3 / 5)).re ∧
    (List.replicate 6 (38 / 61 : ℝ))[1]? = weightPrimeFromG ((1 / 5 : ℝ) • (⟨4, 0⟩ : Cx ℝ).conj) (3 / 5)
      ((1 / Real.sqrt 5) • 0) ((1 / Real.sqrt 5) • ⟨3, 0⟩) := by
  have hi : (Real.sqrt 5)⁻¹ * 3 * ((Real.sqrt 5)⁻¹ * 3) = 9 / 5 := by
    have h5 : Real.sqrt 5 * Real.sqrt 5 = 5 := Real.mul_self_sqrt (by norm_num)
    have hne : Real.sqrt 5 ≠ 0 := by positivity
    field_simp
    nlinarith
  refine ⟨?_, ?_, ?_, ?_⟩
  · simp only [scaleFactor]; norm_num
  · norm_num [noiseDelta, fdiv]
  · norm_num [weightFromGC]
  · norm_num [weightPrimeFromG, fdiv, hi]

example : ∃ w0 u0 u, (List.replicate 6 (38 / 61 : ℝ))[1]? = some w0 ∧
    SpreadIn normals (fun ω => ccorrWeighted ([4, 0, 1].map (plainNoise ω)) ([1, 5, 2].map (laterNoise ω))
      (some [4, 0, 1]) (some [1, 5, 2]) none none none true (.two 0 ⟨3, 0⟩) (some (.two 2 8)) 3 "corr" false
      (List.replicate 6 (38 / 61))) 1 4 u0 ∧
    SpreadIn normals (fun ω => ccorrWeighted ([4, 0, 1].map (plainNoise ω)) ([1, 5, 2].map (laterNoise ω))
      (some [4, 0, 1]) (some [1, 5, 2]) none none none true (.two 0 ⟨3, 0⟩) (some (.two 2 8)) 3 "corr" false
      (List.replicate 6 0)) 1 4 u ∧ u0 ≤ u ∧ (0 ≠ w0 → u0 < u) := by
  have hi : (Real.sqrt 5)⁻¹ * 3 * ((Real.sqrt 5)⁻¹ * 3) = 9 / 5 := by
    have h5 : Real.sqrt 5 * Real.sqrt 5 = 5 := Real.mul_self_sqrt (by norm_num)
    have hne : Real.sqrt 5 ≠ 0 := by positivity
    field_simp
    nlinarith
  have := C93_optimal_baseline_partial (some [4, 0, 1]) (some [1, 5, 2]) 0 0 none none none true 6
    (.two 0 ⟨3, 0⟩) (crossCall_example false) (by simp [effMethod]) rfl rfl (by norm_num) 1
    ⟨0, by simp [frameTimes], 1, by simp [frameTimes], by decide⟩ laterNoise_circular laterNoise_indep
    (laterNoise_prepared _) (List.replicate 6 (38 / 61)) (List.replicate 6 0) (by simp) (by simp) 5 (3 / 5) 0
    (by simp only [scaleFactor]; norm_num) (by norm_num [noiseDelta, fdiv]) (by simp)
    (by norm_num [weightPrimeFromG, fdiv, hi, Background.fst, Background.snd])
  simpa [frameTimes] using this

/-! ### One pair: `x1 = √2 + Z`, `x2 = i x1` -/

noncomputable def baseNoise : (Nat → ℝ) → Int → Cx ℝ := noiseSignal ⟨Real.sqrt 2, 0⟩ 1 ⟨0, 1⟩ 0
noncomputable def turnedNoise : (Nat → ℝ) → Int → Cx ℝ := noiseSignal ⟨0, Real.sqrt 2⟩ ⟨0, 1⟩ ⟨-1, 0⟩ 0

theorem turnedNoise_pairs : pairsAt false (stream (frameTimes 0 (some [4, 0, 1])) (some [4, 0, 1]))
    (stream (frameTimes 0 (some [1, 5, 2])) (some [1, 5, 2])) 6 0 = [((1 : Int), (1 : Int))] := by decide

theorem turnedNoise_circular (a : Int) :
    CircularPair normals (fun ω => baseNoise ω a) (fun ω => turnedNoise ω a) ⟨Real.sqrt 2, 0⟩ ⟨0, Real.sqrt 2⟩ 2 2 ⟨0, 2⟩ := by
  have := noise_circular ⟨Real.sqrt 2, 0⟩ ⟨0, Real.sqrt 2⟩ 1 ⟨0, 1⟩ ⟨0, 1⟩ ⟨-1, 0⟩ 0 a (by ext <;> simp) (by ext <;> simp)
    (by ext <;> simp)
  have e1 : (1 : Cx ℝ).abs2 + (⟨0, 1⟩ : Cx ℝ).abs2 = 2 := by norm_num [Cx.abs2]
  have e2 : (⟨0, 1⟩ : Cx ℝ).abs2 + (⟨-1, 0⟩ : Cx ℝ).abs2 = 2 := by norm_num [Cx.abs2]
  have e3 : cxProd (1 : Cx ℝ) ⟨0, 1⟩ + cxProd (⟨0, 1⟩ : Cx ℝ) ⟨-1, 0⟩ = ⟨0, 2⟩ := by ext <;> norm_num [cxProd]
  rw [e1, e2, e3, add_zero] at this
  exact this

/-- **`sigma_prime_weighted` of the correlation itself is wrong.**  With the convention of cddm (the first signal is
conjugated) and a correlation that is not real, the formula needs the conjugate: here the estimate has no spread at all, but
the formula with the correlation `i` gives another value than zero. -/
theorem C93_conjugate_refuted : ∃ (x1 x2 : (Nat → ℝ) → Int → Cx ℝ) (m1 m2 c : Cx ℝ),
    CircularPair normals (fun ω => x1 ω 1) (fun ω => x2 ω 1) m1 m2 2 2 c ∧
    SpreadIn normals (fun ω => ccorrNormalized ([4, 0, 1].map (x1 ω)) ([1, 5, 2].map (x2 ω))
      (some [4, 0, 1]) (some [1, 5, 2]) none none none true (.two m1 m2) (some (.two 2 2)) 1 "corr" false) 0 c.re 0 ∧
    scaleFactor (some (.two 2 2)) = .ok 2 ∧ noiseDelta (.two 2 2) true = some 0 ∧
    ∃ σ, sigmaPrimeWeighted 0 ((1 / 2 : ℝ) • c) 0 ((1 / Real.sqrt 2) • m1) ((1 / Real.sqrt 2) • m2) = some σ ∧ σ ≠ 0 := by
  have hne : Real.sqrt 2 ≠ 0 := by positivity
  refine ⟨baseNoise, turnedNoise, _, _, _, turnedNoise_circular 1, ?_, ?_, ?_, Real.sqrt 2, ?_, hne⟩
  · obtain ⟨s, δ, σ, h1, h2, h3, h4⟩ := C93_plain_baseline_partial (x1 := baseNoise) (x2 := turnedNoise)
      (some [4, 0, 1]) (some [1, 5, 2]) 0 0 none none none true 6
      (.two ⟨Real.sqrt 2, 0⟩ ⟨0, Real.sqrt 2⟩) (crossCall_example false) (by simp [effMethod]) 1 rfl rfl (v1 := 2) (v2 := 2) (by norm_num) 0
      ⟨1, by simp [frameTimes], 1, by simp [frameTimes], by decide⟩ (fun a _ b _ h => by
        have e : b = a := by
          have := abs_eq_zero.mp h
          omega
        rw [e]; exact turnedNoise_circular a) (by
        rw [turnedNoise_pairs]
        exact List.pairwise_singleton _ _) (.inl rfl) (laterNoise_prepared _) (by decide)
    have hs : s = 2 := by
      have := Except.ok.inj h1
      norm_num at this
      exact this.symm
    have hδ : δ = 0 := by
      norm_num [noiseDelta, fdiv] at h2
      exact h2.symm
    subst hs hδ
    have hσ : σ = 0 := by
      norm_num [sigmaPrimeWeighted, sigmaPrimeArg, hne, Background.fst, Background.snd] at h3
      exact h3.symm
    subst hσ
    rw [turnedNoise_pairs] at h4
    norm_num at h4
    simpa [frameTimes] using h4
  · simp only [scaleFactor]; norm_num
  · norm_num [noiseDelta, fdiv]
  · norm_num [sigmaPrimeWeighted, sigmaPrimeArg, hne]

end Cddm
