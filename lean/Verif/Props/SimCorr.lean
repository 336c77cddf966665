import Verif.Spec.SimCorr
import Verif.Props.SimWalk
import Verif.Props.UnbiasedSpace

/-!
# Property C90: simulated particles, correlated and normalised, give the scattering function

The whole chain: `brownian_particles` yields coordinates, the fields they scatter are taken at the times of the frames
of two cameras, `ccorr` (or `acorr`, or `ccorr_multi`) correlates them and `normalize` normalises the data.
-/

namespace Cddm
open Spec MeasureTheory ProbabilityTheory
open scoped BigOperators

section
variable {Ω : Type} [MeasurableSpace Ω] {μ : Measure Ω} {T1 T2 T1' T2' : Int → Prop} {x1 x2 : Ω → Int → Cx ℝ} {m1 m2 : Cx ℝ}
  {v1 v2 : ℝ} {G : Int → Cx ℝ}

theorem stationaryAt_mono (h : StationaryAt μ T1 T2 x1 x2 m1 m2 v1 v2 G) (h1 : ∀ s, T1' s → T1 s) (h2 : ∀ s, T2' s → T2 s) :
    StationaryAt μ T1' T2' x1 x2 m1 m2 v1 v2 G :=
  ⟨h.prob, fun s hs => h.finite1 s (h1 s hs), fun s hs => h.finite2 s (h2 s hs), fun s hs => h.mean1 s (h1 s hs),
    fun s hs => h.mean2 s (h2 s hs), fun s hs => h.var1 s (h1 s hs), fun s hs => h.var2 s (h2 s hs),
    fun s d hs hd => h.cov s d (h1 s hs) (h2 _ hd)⟩

end

theorem brownianF_re_im (q v : ℝ × ℝ) (D t : ℝ) (ht : 0 ≤ t) :
    (brownianF q v D t).re = diffusion q D t * Real.cos (drift q v t) ∧
    (brownianF q v D t).im = -(diffusion q D t * Real.sin (drift q v t)) := by
  unfold brownianF diffusion drift
  rw [abs_of_nonneg ht]
  generalize -(D * (q.1 ^ 2 + q.2 ^ 2) * t) = a
  generalize (q.1 * v.1 + q.2 * v.2) * t = b
  constructor
  · rw [Complex.exp_re]
    simp
  · rw [Complex.exp_im]
    simp

theorem natCast_mul_parts (n : Nat) (z : ℂ) : ((n : ℂ) * z).re = n * z.re ∧ ((n : ℂ) * z).im = n * z.im := by
  simp

section
variable {Ω : Type} [MeasurableSpace Ω] {μ : Measure Ω} {r : Ω → Nat → ℝ × ℝ} {g : Ω → Nat → Nat → ℝ × ℝ}

theorem particles_stationary (hg : RandomNumbers μ r g) {shape : Nat × Nat} (h1 : 0 < shape.1) (h2 : 0 < shape.2)
    (count num : Nat) (δ dt : ℝ) (hdt : 0 ≤ dt) (v : ℝ × ℝ) (xs : Ω → List (List (ℝ × ℝ)))
    (hxs : ∀ ω i, i < count → ∀ k l : ℤ, scatteredAll (waveVector shape k l) ((xs ω).getD i []) =
        ∑ p ∈ Finset.range num, scattered (waveVector shape k l) (walker shape dt δ v (r ω) (g ω) i p))
    (k l : ℤ) (hkl : k ≠ 0 ∨ l ≠ 0) :
    StationaryAt μ (fun s => 0 ≤ s ∧ s < count) (fun s => 0 ≤ s ∧ s < count)
      (fun ω => fieldAt (waveVector shape k l) (xs ω)) (fun ω => fieldAt (waveVector shape k l) (xs ω)) 0 0 num num
      (fun d => ⟨num * (diffusion (waveVector shape k l) (δ ^ 2 / 2) (d * dt) * Real.cos (drift (waveVector shape k l) v (d * dt))),
        -(num * (diffusion (waveVector shape k l) (δ ^ 2 / 2) (d * dt) * Real.sin (drift (waveVector shape k l) v (d * dt))))⟩) := by
  have hprob : IsProbabilityMeasure μ := hg.independent.isProbabilityMeasure
  set q := waveVector shape k l with hq
  set S : Nat → Ω → ℂ := fun i ω => ∑ p ∈ Finset.range num, scattered q (walker shape dt δ v (r ω) (g ω) i p) with hS
  have hm : ∀ i, Measurable (S i) := fun i => Finset.measurable_sum _ fun p _ => measurable_walker hg h1 h2 k l dt δ v i p
  have hb : ∀ i ω, ‖S i ω‖ ≤ num := by
    intro i ω
    refine (norm_sum_le _ _).trans ?_
    simp [norm_scattered]
  have hre : ∀ i, MemLp (fun ω => (S i ω).re) 2 μ := fun i =>
    MemLp.of_bound (Complex.measurable_re.comp (hm i)).aestronglyMeasurable num
      (Filter.Eventually.of_forall fun ω => (Complex.abs_re_le_norm _).trans (hb i ω))
  have him : ∀ i, MemLp (fun ω => (S i ω).im) 2 μ := fun i =>
    MemLp.of_bound (Complex.measurable_im.comp (hm i)).aestronglyMeasurable num
      (Filter.Eventually.of_forall fun ω => (Complex.abs_im_le_norm _).trans (hb i ω))
  have hint : ∀ i, Integrable (S i) μ := fun i =>
    Integrable.of_bound (hm i).aestronglyMeasurable num (Filter.Eventually.of_forall (hb i))
  have hprod : ∀ i j, Integrable (fun ω => S i ω * (starRingEnd ℂ) (S j ω)) μ := by
    intro i j
    refine Integrable.of_bound (C := num * num) ?_ (Filter.Eventually.of_forall fun ω => ?_)
    · exact ((hm i).mul (Complex.continuous_conj.measurable.comp (hm j))).aestronglyMeasurable
    · rw [norm_mul, RCLike.norm_conj]
      exact mul_le_mul (hb i ω) (hb j ω) (norm_nonneg _) (Nat.cast_nonneg _)
  have hmean : ∀ i, ∫ ω, S i ω ∂μ = 0 := by
    intro i
    simp only [hS]
    rw [integral_finsetSum]
    · exact Finset.sum_eq_zero fun p _ => integral_walker hg h1 h2 k l hkl dt δ v i p
    · intro p _
      refine Integrable.of_bound (C := 1) (measurable_walker hg h1 h2 k l dt δ v i p).aestronglyMeasurable ?_
      exact Filter.Eventually.of_forall fun ω => by rw [norm_scattered]
  have hdens : ∀ j m, ∫ ω, S (j + m) ω * (starRingEnd ℂ) (S j ω) ∂μ = num * brownianF q v (δ ^ 2 / 2) (m * dt) :=
    fun j m => integral_density hg h1 h2 k l hkl dt δ hdt v num j m
  -- the field is the sum over the free walks
  have hf : ∀ (s : Int), 0 ≤ s → s < count → ∀ ω, fieldAt q (xs ω) s = ⟨(S s.toNat ω).re, (S s.toNat ω).im⟩ := by
    intro s h0 h1 ω
    unfold fieldAt
    rw [hxs ω s.toNat (by omega) k l]
  -- means of products, both orders of the times
  have hcov : ∀ i j : Nat,
      (∫ ω, ((S i ω).re * (S j ω).re + (S i ω).im * (S j ω).im) ∂μ =
        num * (diffusion q (δ ^ 2 / 2) (((j : ℤ) - i : ℤ) * dt) * Real.cos (drift q v (((j : ℤ) - i : ℤ) * dt)))) ∧
      (∫ ω, ((S i ω).re * (S j ω).im - (S i ω).im * (S j ω).re) ∂μ =
        -(num * (diffusion q (δ ^ 2 / 2) (((j : ℤ) - i : ℤ) * dt) * Real.sin (drift q v (((j : ℤ) - i : ℤ) * dt))))) := by
    intro i j
    have parts : ∀ a b : Nat, (∫ ω, ((S a ω).re * (S b ω).re + (S a ω).im * (S b ω).im) ∂μ =
          (∫ ω, S b ω * (starRingEnd ℂ) (S a ω) ∂μ).re) ∧
        (∫ ω, ((S a ω).re * (S b ω).im - (S a ω).im * (S b ω).re) ∂μ =
          (∫ ω, S b ω * (starRingEnd ℂ) (S a ω) ∂μ).im) := by
      intro a b
      constructor
      · rw [← Complex.reCLM_apply, ← ContinuousLinearMap.integral_comp_comm _ (hprod b a)]
        congr 1
        funext ω
        simp [Complex.mul_re]
        ring
      · rw [← Complex.imCLM_apply, ← ContinuousLinearMap.integral_comp_comm _ (hprod b a)]
        congr 1
        funext ω
        simp [Complex.mul_im]
        ring
    rcases le_total i j with hij | hij
    · obtain ⟨m, rfl⟩ := Nat.exists_eq_add_of_le hij
      obtain ⟨e1, e2⟩ := parts i (i + m)
      obtain ⟨b1, b2⟩ := brownianF_re_im q v (δ ^ 2 / 2) (m * dt) (by positivity)
      have ez : (((i + m : Nat) : ℤ) - i : ℤ) = (m : ℤ) := by push_cast; ring
      rw [e1, e2, hdens, ez]
      push_cast
      constructor
      · rw [(natCast_mul_parts _ _).1, b1]
      · rw [(natCast_mul_parts _ _).2, b2]
        ring
    · obtain ⟨m, rfl⟩ := Nat.exists_eq_add_of_le hij
      obtain ⟨e1, e2⟩ := parts j (j + m)
      obtain ⟨b1, b2⟩ := brownianF_re_im q v (δ ^ 2 / 2) (m * dt) (by positivity)
      have ez : ((j : ℤ) - ((j + m : Nat) : ℤ) : ℤ) = -(m : ℤ) := by push_cast; ring
      have d1 : diffusion q (δ ^ 2 / 2) (-(m * dt)) = diffusion q (δ ^ 2 / 2) (m * dt) := by
        unfold diffusion
        rw [abs_neg]
      have d2 : drift q v (-(m * dt)) = -drift q v (m * dt) := by
        unfold drift
        ring
      rw [ez]
      push_cast
      rw [neg_mul, d1, d2, Real.cos_neg, Real.sin_neg]
      constructor
      · rw [← b1, ← (natCast_mul_parts _ _).1, ← hdens, ← e1]
        congr 1
        funext ω
        ring
      · rw [show -((num : ℝ) * (diffusion q (δ ^ 2 / 2) (m * dt) * -Real.sin (drift q v (m * dt)))) =
          -((num : ℝ) * -(diffusion q (δ ^ 2 / 2) (m * dt) * Real.sin (drift q v (m * dt)))) by ring, ← b2,
          ← (natCast_mul_parts _ _).2, ← hdens, ← e2, ← integral_neg]
        congr 1
        funext ω
        ring
  have hmeanC : ∀ s : Int, 0 ≤ s ∧ s < count → integralC μ (fun ω => fieldAt q (xs ω) s) = 0 := by
    intro s hs
    simp only [hf s hs.1 hs.2]
    refine Cx.ext ?_ ?_
    · have := ContinuousLinearMap.integral_comp_comm Complex.reCLM (hint s.toNat)
      simp only [Complex.reCLM_apply, hmean, Complex.zero_re] at this
      exact this
    · have := ContinuousLinearMap.integral_comp_comm Complex.imCLM (hint s.toNat)
      simp only [Complex.imCLM_apply, hmean, Complex.zero_im] at this
      exact this
  have hvar : ∀ s : Int, 0 ≤ s ∧ s < count → ∫ ω, (fieldAt q (xs ω) s - 0).abs2 ∂μ = num := by
    intro s hs
    simp only [hf s hs.1 hs.2]
    have := (hcov s.toNat s.toNat).1
    simp only [sub_self, Int.cast_zero, zero_mul, diffusion, drift, abs_zero, mul_zero, neg_zero, Real.exp_zero,
      Real.cos_zero, mul_one] at this
    rw [← this]
    congr 1
    funext ω
    simp [Cx.abs2]
  refine ⟨hprob, ?_, ?_, hmeanC, hmeanC, hvar, hvar, ?_⟩
  · intro s hs
    simp only [hf s hs.1 hs.2]
    exact ⟨hre _, him _⟩
  · intro s hs
    simp only [hf s hs.1 hs.2]
    exact ⟨hre _, him _⟩
  · intro s d hs hd
    simp only [hf s hs.1 hs.2, hf (s + d) hd.1 hd.2]
    have ed : ((s + d).toNat : ℤ) - s.toNat = d := by omega
    have := hcov s.toNat (s + d).toNat
    rw [ed] at this
    refine Cx.ext ?_ ?_
    · rw [← this.1]
      show ∫ ω, _ ∂μ = _
      congr 1
      funext ω
      simp [cxProd]
    · rw [← this.2]
      show ∫ ω, _ ∂μ = _
      congr 1
      funext ω
      simp [cxProd]
      ring

/-- **C90.**  Particles simulated by `brownian_particles` (random start, the same step size `δ` and velocity `v` for all),
two cameras that record at any of the simulated times, correlation by any method except 'diff', normalisation with
background zero and the number of particles as variance.  For every wave vector `q` of the box other than zero and every
delay `m` that occurs between the frames, the mean of the correlation is `N exp(-D q² t) cos(q v t)` at `t = m dt`, with
the diffusion constant `D = δ²/2`. -/
theorem C90_cross (hg : RandomNumbers μ r g) (count h w num : Nat) (δ dt : ℝ) (velocity : StepArr)
    (v : ℝ × ℝ) (hh : 0 < h) (hw : 0 < w) (hdt : 0 ≤ dt) (hv : Gives num velocity fun _ => v)
    (t1 t2 : Option (List Int)) (N1 N2 : Nat) (ht1 : ∀ s ∈ frameTimes N1 t1, 0 ≤ s ∧ s < count)
    (ht2 : ∀ s ∈ frameTimes N2 t2, 0 ≤ s ∧ s < count) (n : Option Nat)
    (norm : Option Int) (method : Option String) (aligned : Bool) (n' : Nat)
    (call : CrossCall false (frameTimes N1 t1).length (frameTimes N2 t2).length t1 t2 n norm method n')
    (hd : effMethod method n ≠ "diff") (z : Int) (hz : GivenNorm z)
    (hp : Prepared (effNorm norm (effMethod method n) true) z) :
    ∃ xs : Ω → List (List (ℝ × ℝ)),
      (∀ ω, brownianParticles count [h, w] num (.const (.scalar δ)) dt (.const velocity) none (r ω) (g ω) =
        (xs ω, .ok ())) ∧
      ∀ (k l : ℤ), (k ≠ 0 ∨ l ≠ 0) → ∀ m < n',
        (∃ a ∈ frameTimes N1 t1, ∃ b ∈ frameTimes N2 t2, |b - a| = (m : Int)) →
        ExpectedIn μ (fun ω => ccorrNormalized ((frameTimes N1 t1).map (fieldAt (waveVector (h, w) k l) (xs ω)))
          ((frameTimes N2 t2).map (fieldAt (waveVector (h, w) k l) (xs ω))) t1 t2 n norm method aligned (.one 0)
          (some (.one num)) z "corr" false) m
          (num * (diffusion (waveVector (h, w) k l) (δ ^ 2 / 2) (m * dt) *
            Real.cos (drift (waveVector (h, w) k l) v (m * dt)))) := by
  obtain ⟨xs, e, hxs⟩ := scatteredAll_walker r g count h w num δ dt velocity v hh hw hdt hv
  refine ⟨xs, e, fun k l hkl m hm hocc => ?_⟩
  have st := stationaryAt_mono (particles_stationary hg (shape := (h, w)) hh hw count num δ dt hdt v xs hxs k l hkl) ht1 ht2
  have := C89_cross t1 t2 N1 N2 st n norm method aligned n' (.one 0) (.one num) call hd z hz hp rfl rfl
    (by simp [Variance.offset]) m hm (by
      simp only [Int.cast_neg, Int.cast_natCast, neg_mul, diffusion, drift, abs_neg, mul_neg, Real.cos_neg]) hocc
  simpa using this

/-- **C90, method 'diff'.**  The same from the mean square differences. -/
theorem C90_difference (hg : RandomNumbers μ r g) (count h w num : Nat) (δ dt : ℝ) (velocity : StepArr)
    (v : ℝ × ℝ) (hh : 0 < h) (hw : 0 < w) (hdt : 0 ≤ dt) (hv : Gives num velocity fun _ => v)
    (t1 t2 : Option (List Int)) (N1 N2 : Nat) (ht1 : ∀ s ∈ frameTimes N1 t1, 0 ≤ s ∧ s < count)
    (ht2 : ∀ s ∈ frameTimes N2 t2, 0 ≤ s ∧ s < count) (n : Option Nat) (norm : Option Int) (aligned : Bool) (n' : Nat)
    (call : CrossCall false (frameTimes N1 t1).length (frameTimes N2 t2).length t1 t2 n norm (some "diff") n')
    (z : Int) (hz : z = 2 ∨ (z = 6 ∧ AskSums norm (some "diff") n true)) :
    ∃ xs : Ω → List (List (ℝ × ℝ)),
      (∀ ω, brownianParticles count [h, w] num (.const (.scalar δ)) dt (.const velocity) none (r ω) (g ω) =
        (xs ω, .ok ())) ∧
      ∀ (k l : ℤ), (k ≠ 0 ∨ l ≠ 0) → ∀ m < n',
        (∃ a ∈ frameTimes N1 t1, ∃ b ∈ frameTimes N2 t2, |b - a| = (m : Int)) →
        ExpectedIn μ (fun ω => ccorrNormalized ((frameTimes N1 t1).map (fieldAt (waveVector (h, w) k l) (xs ω)))
          ((frameTimes N2 t2).map (fieldAt (waveVector (h, w) k l) (xs ω))) t1 t2 n norm (some "diff") aligned (.one 0)
          (some (.one num)) z "corr" false) m
          (num * (diffusion (waveVector (h, w) k l) (δ ^ 2 / 2) (m * dt) *
            Real.cos (drift (waveVector (h, w) k l) v (m * dt)))) := by
  obtain ⟨xs, e, hxs⟩ := scatteredAll_walker r g count h w num δ dt velocity v hh hw hdt hv
  refine ⟨xs, e, fun k l hkl m hm hocc => ?_⟩
  have st := stationaryAt_mono (particles_stationary hg (shape := (h, w)) hh hw count num δ dt hdt v xs hxs k l hkl) ht1 ht2
  have := C89_difference t1 t2 N1 N2 st n norm aligned n' (.one 0) (.one num) call z hz rfl rfl
    (by simp [Variance.offset]) m hm (by
      simp only [Int.cast_neg, Int.cast_natCast, neg_mul, diffusion, drift, abs_neg, mul_neg, Real.cos_neg]) hocc
  simpa using this

/-- **C90, scaled.**  With `scale = True` the number of particles cancels: the mean of the correlation is the intermediate
scattering function itself (its real part), and in mode 'diff' the normalised image structure function. -/
theorem C90_scaled (hg : RandomNumbers μ r g) (count h w num : Nat) (hnum : 0 < num) (δ dt : ℝ) (velocity : StepArr)
    (v : ℝ × ℝ) (hh : 0 < h) (hw : 0 < w) (hdt : 0 ≤ dt) (hv : Gives num velocity fun _ => v)
    (t1 t2 : Option (List Int)) (N1 N2 : Nat) (ht1 : ∀ s ∈ frameTimes N1 t1, 0 ≤ s ∧ s < count)
    (ht2 : ∀ s ∈ frameTimes N2 t2, 0 ≤ s ∧ s < count) (n : Option Nat)
    (norm : Option Int) (method : Option String) (aligned : Bool) (n' : Nat)
    (call : CrossCall false (frameTimes N1 t1).length (frameTimes N2 t2).length t1 t2 n norm method n')
    (hd : effMethod method n ≠ "diff") (z : Int) (hz : GivenNorm z)
    (hp : Prepared (effNorm norm (effMethod method n) true) z) :
    ∃ xs : Ω → List (List (ℝ × ℝ)),
      (∀ ω, brownianParticles count [h, w] num (.const (.scalar δ)) dt (.const velocity) none (r ω) (g ω) =
        (xs ω, .ok ())) ∧
      ∀ (k l : ℤ), (k ≠ 0 ∨ l ≠ 0) → ∀ m < n',
        (∃ a ∈ frameTimes N1 t1, ∃ b ∈ frameTimes N2 t2, |b - a| = (m : Int)) →
        ExpectedIn μ (fun ω => ccorrNormalized ((frameTimes N1 t1).map (fieldAt (waveVector (h, w) k l) (xs ω)))
          ((frameTimes N2 t2).map (fieldAt (waveVector (h, w) k l) (xs ω))) t1 t2 n norm method aligned (.one 0)
          (some (.one num)) z "corr" true) m (brownianF (waveVector (h, w) k l) v (δ ^ 2 / 2) (m * dt)).re ∧
        ExpectedIn μ (fun ω => ccorrNormalized ((frameTimes N1 t1).map (fieldAt (waveVector (h, w) k l) (xs ω)))
          ((frameTimes N2 t2).map (fieldAt (waveVector (h, w) k l) (xs ω))) t1 t2 n norm method aligned (.one 0)
          (some (.one num)) z "diff" true) m
          (2 * (1 - (brownianF (waveVector (h, w) k l) v (δ ^ 2 / 2) (m * dt)).re)) := by
  have hprob : IsProbabilityMeasure μ := hg.independent.isProbabilityMeasure
  obtain ⟨xs, e, hx⟩ := C90_cross hg count h w num δ dt velocity v hh hw hdt hv t1 t2 N1 N2 ht1 ht2 n norm method aligned n'
    call hd z hz hp
  have hn : (num : ℝ) ≠ 0 := by exact_mod_cast hnum.ne'
  refine ⟨xs, e, fun k l hkl m hm hocc => ?_⟩
  have := C89_modes _ _ _ _ _ _ _ _ _ (.one num) _ hz hn _ _ (hx k l hkl m hm hocc)
  simp only [Variance.offset, mul_div_cancel_left₀ _ hn] at this
  rw [(brownianF_re_im _ v (δ ^ 2 / 2) (m * dt) (by positivity)).1]
  exact this.2

/-- **C90, complex output.**  With `complex = True` the data hold the complex scattering function at the signed delays:
`N exp(-D q² |t| - i q v t)`; the sign of the imaginary part tells the direction of the drift. -/
theorem C90_complex (hg : RandomNumbers μ r g) (count h w num : Nat) (δ dt : ℝ) (velocity : StepArr)
    (v : ℝ × ℝ) (hh : 0 < h) (hw : 0 < w) (hdt : 0 ≤ dt) (hv : Gives num velocity fun _ => v)
    (t1 t2 : Option (List Int)) (N1 N2 : Nat) (ht1 : ∀ s ∈ frameTimes N1 t1, 0 ≤ s ∧ s < count)
    (ht2 : ∀ s ∈ frameTimes N2 t2, 0 ≤ s ∧ s < count) (n : Option Nat)
    (norm : Option Int) (method : Option String) (aligned : Bool) (n' : Nat)
    (call : CrossCall true (frameTimes N1 t1).length (frameTimes N2 t2).length t1 t2 n norm method n')
    (z : Int) (hz : GivenNorm z) (hp : Prepared (effNorm norm (effMethod method n) true) z) :
    ∃ xs : Ω → List (List (ℝ × ℝ)),
      (∀ ω, brownianParticles count [h, w] num (.const (.scalar δ)) dt (.const velocity) none (r ω) (g ω) =
        (xs ω, .ok ())) ∧
      ∀ (k l : ℤ), (k ≠ 0 ∨ l ≠ 0) → ∀ m < 2 * n' - 1, ∀ t : ℝ, t = cellDelay (2 * n' - 1) m * dt →
        (∃ a ∈ frameTimes N1 t1, ∃ b ∈ frameTimes N2 t2, b - a = cellDelay (2 * n' - 1) m) →
        ExpectedInC μ (fun ω => ccorrNormalizedC ((frameTimes N1 t1).map (fieldAt (waveVector (h, w) k l) (xs ω)))
          ((frameTimes N2 t2).map (fieldAt (waveVector (h, w) k l) (xs ω))) t1 t2 n norm method aligned (.one 0)
          (some (.one num)) z "corr" false) m
          ⟨num * (diffusion (waveVector (h, w) k l) (δ ^ 2 / 2) t * Real.cos (drift (waveVector (h, w) k l) v t)),
            -(num * (diffusion (waveVector (h, w) k l) (δ ^ 2 / 2) t * Real.sin (drift (waveVector (h, w) k l) v t)))⟩ := by
  obtain ⟨xs, e, hxs⟩ := scatteredAll_walker r g count h w num δ dt velocity v hh hw hdt hv
  refine ⟨xs, e, fun k l hkl m hm t ht hocc => ?_⟩
  have st := stationaryAt_mono (particles_stationary hg (shape := (h, w)) hh hw count num δ dt hdt v xs hxs k l hkl) ht1 ht2
  subst ht
  exact C89_cross_complex t1 t2 N1 N2 st n norm method aligned n' (.one 0) (.one num) call z hz hp rfl rfl
    (by simp [Variance.offset]) m hm hocc

/-- **C90, one camera.** -/
theorem C90_auto (hg : RandomNumbers μ r g) (count h w num : Nat) (δ dt : ℝ) (velocity : StepArr)
    (v : ℝ × ℝ) (hh : 0 < h) (hw : 0 < w) (hdt : 0 ≤ dt) (hv : Gives num velocity fun _ => v)
    (t : Option (List Int)) (N : Nat) (ht : ∀ s ∈ frameTimes N t, 0 ≤ s ∧ s < count) (n : Option Nat)
    (norm : Option Int) (method : Option String) (aligned : Bool) (n' : Nat)
    (call : AutoCall (frameTimes N t).length t n norm method n')
    (hd : effMethod method n ≠ "diff") (z : Int) (hz : GivenNorm z)
    (hp : Prepared (effNorm norm (effMethod method n) false) z) :
    ∃ xs : Ω → List (List (ℝ × ℝ)),
      (∀ ω, brownianParticles count [h, w] num (.const (.scalar δ)) dt (.const velocity) none (r ω) (g ω) =
        (xs ω, .ok ())) ∧
      ∀ (k l : ℤ), (k ≠ 0 ∨ l ≠ 0) → ∀ m < n',
        (∃ a ∈ frameTimes N t, ∃ b ∈ frameTimes N t, |b - a| = (m : Int)) →
        ExpectedIn μ (fun ω => acorrNormalized ((frameTimes N t).map (fieldAt (waveVector (h, w) k l) (xs ω)))
          t n norm method aligned (.one 0) (some (.one num)) z "corr" false) m
          (num * (diffusion (waveVector (h, w) k l) (δ ^ 2 / 2) (m * dt) *
            Real.cos (drift (waveVector (h, w) k l) v (m * dt)))) := by
  obtain ⟨xs, e, hxs⟩ := scatteredAll_walker r g count h w num δ dt velocity v hh hw hdt hv
  refine ⟨xs, e, fun k l hkl m hm hocc => ?_⟩
  have st := stationaryAt_mono (particles_stationary hg (shape := (h, w)) hh hw count num δ dt hdt v xs hxs k l hkl) ht ht
  have := C89_auto t N st n norm method aligned n' call hd z hz hp m hm hocc
  simpa using this

/-- **C90, multiple tau.**  Regular frames: cell `m` of slow level `j` of the multiple tau data is the scattering function
averaged triangularly over `±2^(j+1)` steps around the delay `m 2^(j+1)`. -/
theorem C90_multi (hg : RandomNumbers μ r g) (N h w num : Nat) (δ dt : ℝ) (velocity : StepArr)
    (v : ℝ × ℝ) (hh : 0 < h) (hw : 0 < w) (hdt : 0 ≤ dt) (hv : Gives num velocity fun _ => v)
    (n : Nat) (norm : Option Int) (method : Option String) (period : Nat) (binning : Option Int)
    (al : Nat → Bool) (rn : Nat → ℚ) (m : String) (vn : Int)
    (hm : m = method.getD "corr") (hm' : m = "corr" ∨ m = "fft") (hb : binning.getD 1 = 1)
    (hvn : vn = effNorm norm m true)
    (hargs : CrossArgs m vn N N none none (period * n)) (hn : 5 ≤ n)
    (z : Int) (hz : GivenNorm z) (hp : Prepared vn z) :
    ∃ xs : Ω → List (List (ℝ × ℝ)),
      (∀ ω, brownianParticles N [h, w] num (.const (.scalar δ)) dt (.const velocity) none (r ω) (g ω) =
        (xs ω, .ok ())) ∧
      ∀ (k l : ℤ), (k ≠ 0 ∨ l ≠ 0) → ∀ j : Nat, n ≤ N / 2 ^ (j + 1) → ∀ c < n,
        ExpectedIn μ (fun ω => (ccorrMultiNormalized ((frameTimes N none).map (fieldAt (waveVector (h, w) k l) (xs ω)))
          ((frameTimes N none).map (fieldAt (waveVector (h, w) k l) (xs ω))) none none n norm method period binning none al rn
          (.one 0) (some (.one num)) z "corr" false).map fun o => o.2.getD j []) c
          (smeared (fun d => num * (diffusion (waveVector (h, w) k l) (δ ^ 2 / 2) (d * dt) *
            Real.cos (drift (waveVector (h, w) k l) v (d * dt)))) (2 ^ (j + 1)) c) := by
  obtain ⟨xs, e, hxs⟩ := scatteredAll_walker r g N h w num δ dt velocity v hh hw hdt hv
  refine ⟨xs, e, fun k l hkl j hj c hc => ?_⟩
  have ht : ∀ s ∈ frameTimes N none, 0 ≤ s ∧ s < (N : Int) := by
    intro s hs
    obtain ⟨i, hi, rfl⟩ := List.mem_map.mp hs
    rw [List.mem_range] at hi
    exact ⟨by omega, by exact_mod_cast hi⟩
  have st := stationaryAt_mono (particles_stationary hg (shape := (h, w)) hh hw N num δ dt hdt v xs hxs k l hkl) ht ht
  exact C89_multi N n st (fun d => by
      simp only [Int.cast_neg, neg_mul, diffusion, drift, abs_neg, mul_neg, Real.cos_neg])
    norm method period binning al rn m vn hm hm' hb hvn hargs hn (.one 0) (.one num) z hz hp rfl rfl
    (by simp [Variance.offset]) j hj c hc

end

/-! ### Concrete cases -/

/-- Random numbers exist (C87), so this is a case of C90: ten particles in a box of 8 x 8, steps of size 1, frames of two
cameras at the times 4, 0, 1 and 1, 5, 2.  At delay 3 the scaled correlation for one wave in the box has the mean
`exp(-(π/4)² 3/2)`. -/
example : ∃ (Ω : Type) (_ : MeasurableSpace Ω) (μ : Measure Ω) (r : Ω → Nat → ℝ × ℝ) (g : Ω → Nat → Nat → ℝ × ℝ)
    (xs : Ω → List (List (ℝ × ℝ))),
    (∀ ω, brownianParticles 6 [8, 8] 10 (.const (.scalar 1)) 1 (.const (.scalar 0)) none (r ω) (g ω) = (xs ω, .ok ())) ∧
    ExpectedIn μ (fun ω => ccorrNormalized ([4, 0, 1].map (fieldAt (waveVector (8, 8) 1 0) (xs ω)))
      ([1, 5, 2].map (fieldAt (waveVector (8, 8) 1 0) (xs ω))) (some [4, 0, 1]) (some [1, 5, 2]) none none none true (.one 0)
      (some (.one (10 : Nat))) 6 "corr" true) 3 (Real.exp (-((Real.pi / 4) ^ 2 * 3 / 2))) := by
  obtain ⟨Ω, i, μ, r, g, hg, -⟩ := randomNumbers_exist
  obtain ⟨xs, e, hx⟩ := C90_scaled hg 6 8 8 10 (by decide) 1 1 (.scalar 0) (0, 0) (by decide) (by decide) (by norm_num)
    (fun _ _ => rfl) (some [4, 0, 1]) (some [1, 5, 2]) 0 0 (by simp [frameTimes]) (by simp [frameTimes]) none none none true 6
    (crossCall_example false) (by simp [effMethod]) 6 (by simp [GivenNorm])
    (by simp [Prepared, effNorm, effMethod, WantsSquares, WantsSums])
  refine ⟨Ω, i, μ, r, g, xs, e, ?_⟩
  have := (hx 1 0 (by simp) 3 (by decide) ⟨4, by simp [frameTimes], 1, by simp [frameTimes], by decide⟩).1
  rw [(brownianF_re_im _ _ _ _ (by norm_num)).1] at this
  have ev : diffusion (waveVector (8, 8) 1 0) (1 ^ 2 / 2) (((3 : Nat) : ℝ) * 1) *
      Real.cos (drift (waveVector (8, 8) 1 0) (0, 0) (((3 : Nat) : ℝ) * 1)) = Real.exp (-((Real.pi / 4) ^ 2 * 3 / 2)) := by
    unfold diffusion drift waveVector
    simp only [mul_zero, add_zero, zero_mul, Real.cos_zero, mul_one]
    congr 2
    push_cast
    rw [abs_of_pos (by norm_num)]
    ring
  rw [ev] at this
  simpa [frameTimes] using this

end Cddm
