import Verif.Lemmas.RandomTimes
import Verif.Props.TimeCount
import Verif.Props.SimCorr

/-!
# Property theorems: signals recorded at the random times of cross-DDM (C96)
-/

namespace Cddm
open Spec MeasureTheory ProbabilityTheory

section
variable {Θ Ω : Type} [MeasurableSpace Θ] [MeasurableSpace Ω] {ν : Measure Θ} {μ : Measure Ω} [IsProbabilityMeasure ν]
  {x1 x2 : Ω → Int → Cx ℝ} {m1 m2 : Cx ℝ} {v1 v2 : ℝ} {G : Int → Cx ℝ} {n : Nat} {r1 r2 : Nat → Θ → Nat}

/-- The draws of `N` frames. -/
def drawVector (N n : Nat) (hn : 1 ≤ n) (r1 r2 : Nat → Θ → Nat) (θ : Θ) (i : Fin N) : Fin n × Fin 2 :=
  (⟨r1 i θ % n, Nat.mod_lt _ hn⟩, ⟨r2 i θ % 2, Nat.mod_lt _ (by omega)⟩)

theorem drawVector_measurable (N n : Nat) (hn : 1 ≤ n) (r1 r2 : Nat → Θ → Nat) (h1 : ∀ i, Measurable (r1 i)) (h2 : ∀ i, Measurable (r2 i)) :
    Measurable (drawVector N n hn r1 r2) := by
  refine measurable_pi_lambda _ fun i => Measurable.prodMk ?_ ?_
  · exact (measurable_from_top (f := fun a : Nat => (⟨a % n, Nat.mod_lt _ hn⟩ : Fin n))).comp (h1 i)
  · exact (measurable_from_top (f := fun a : Nat => (⟨a % 2, Nat.mod_lt _ (by omega)⟩ : Fin 2))).comp (h2 i)

/-- The times of the first camera. -/
def firstTimes (N n : Nat) (σ : Fin N → Fin n × Fin 2) : List Int := List.ofFn fun i => 2 * (n : Int) * i.val + (σ i).1.val
/-- The times of the second camera. -/
def secondTimes (N n : Nat) (σ : Fin N → Fin n × Fin 2) : List Int := List.ofFn fun i => 2 * (n : Int) * i.val + n * (σ i).2.val

theorem times1_draws (N : Nat) (hn : 1 ≤ n) (h : FrameDraws ν n r1 r2) (θ : Θ) :
    createRandomTimes1 N n (fun i => r1 i θ) (fun i => r2 i θ) =
      .ok (firstTimes N n (drawVector N n hn r1 r2 θ), secondTimes N n (drawVector N n hn r1 r2 θ)) := by
  have e : ∀ (f : Nat → Int), (List.range N).map f = List.ofFn fun i : Fin N => f i.val := by
    intro f
    refine List.ext_getElem (by simp) fun i _ _ => by simp
  rw [times1_eq _ _ hn, e, e]
  unfold firstTimes secondTimes drawVector
  congr 3
  · funext i
    simp only [Nat.mod_eq_of_lt ((h.first i).range θ)]
  · funext i
    simp only [Nat.mod_eq_of_lt ((h.second i).range θ)]

/-- A delay between -n and n occurs only between frames of the same number. -/
theorem sampled_iff (N : Nat) (σ : Fin N → Fin n × Fin 2) (d : Int) (hd : -(n : Int) < d ∧ d ≤ n) :
    (∃ a ∈ firstTimes N n σ, ∃ b ∈ secondTimes N n σ, b - a = d) ↔ ∃ i, (n : Int) * (σ i).2.val - (σ i).1.val = d := by
  unfold firstTimes secondTimes
  simp only [List.mem_ofFn, Set.mem_range]
  constructor
  · rintro ⟨a, ⟨i, rfl⟩, b, ⟨j, rfl⟩, e⟩
    have hx := (σ i).1.isLt
    have hy := (σ j).2.isLt
    have hy' : (n : Int) * (σ j).2.val = if (σ j).2.val = 0 then 0 else n := by
      rcases Nat.lt_or_ge (σ j).2.val 1 with q | q
      · rw [if_pos (by omega), show (σ j).2.val = 0 by omega]; simp
      · rw [if_neg (by omega), show (σ j).2.val = 1 by omega]; simp
    have hij : i = j := by
      have a1 : 2 * (n : Int) * (j.val - i.val : Int) < 2 * n * 1 := by
        rw [mul_sub]; split_ifs at hy' <;> omega
      have a2 : 2 * (n : Int) * (-1) < 2 * n * (j.val - i.val : Int) := by
        rw [mul_sub]; split_ifs at hy' <;> omega
      have b1 := lt_of_mul_lt_mul_left a1 (by omega)
      have b2 := lt_of_mul_lt_mul_left a2 (by omega)
      exact Fin.ext (by omega)
    subst hij
    exact ⟨i, by omega⟩
  · rintro ⟨i, e⟩
    exact ⟨_, ⟨i, rfl⟩, _, ⟨i, rfl⟩, by omega⟩

theorem frameDraws_two (h : FrameDraws ν n r1 r2) : TwoCameraDraws ν n r1 r2 := by
  refine ⟨h.first, h.second, fun i j => ?_⟩
  by_cases hij : i = j
  · subst hij; exact h.within i
  · exact (h.frames.indepFun hij).comp measurable_fst measurable_snd

/-- The probability that one of `N` independent frames meets a condition on its draws. -/
theorem some_frame (N : Nat) (hn : 1 ≤ n) (h : FrameDraws ν n r1 r2) (B : Nat × Nat → Prop) (p : ℝ)
    (hp : ∀ i, ν.real {θ | B (r1 i θ, r2 i θ)} = p) :
    ν.real {θ | ∃ i : Fin N, B ((drawVector N n hn r1 r2 θ i).1.val, (drawVector N n hn r1 r2 θ i).2.val)} = 1 - (1 - p) ^ N := by
  have hm : ∀ i, MeasurableSet {θ | B (r1 i θ, r2 i θ)} := fun i =>
    ((h.first i).measurable.prodMk (h.second i).measurable) (MeasurableSet.of_discrete (s := {q | B q}))
  have e : {θ | ∃ i : Fin N, B ((drawVector N n hn r1 r2 θ i).1.val, (drawVector N n hn r1 r2 θ i).2.val)} =
      (⋂ i ∈ Finset.range N, (fun θ => (r1 i θ, r2 i θ)) ⁻¹' {q | ¬ B q})ᶜ := by
    ext θ
    simp only [drawVector, Nat.mod_eq_of_lt ((h.first _).range θ), Nat.mod_eq_of_lt ((h.second _).range θ), Set.mem_setOf_eq,
      Set.mem_compl_iff, Set.mem_iInter, Set.mem_preimage, Finset.mem_range, not_forall, not_not]
    constructor
    · rintro ⟨i, hi⟩
      exact ⟨i, i.isLt, hi⟩
    · rintro ⟨i, hi, hB⟩
      exact ⟨⟨i, hi⟩, hB⟩
  have hm' : ∀ i, MeasurableSet ((fun θ => (r1 i θ, r2 i θ)) ⁻¹' {q | ¬ B q}) := fun i =>
    ((h.first i).measurable.prodMk (h.second i).measurable) MeasurableSet.of_discrete
  rw [e, probReal_compl_eq_one_sub (Finset.measurableSet_biInter _ fun i _ => hm' i)]
  congr 1
  have := h.frames.measure_inter_preimage_eq_mul (Finset.range N) (sets := fun _ => {q | ¬ B q}) fun _ _ => MeasurableSet.of_discrete
  rw [measureReal_def, this, ENNReal.toReal_prod]
  have hc : ∀ i, (ν ((fun θ => (r1 i θ, r2 i θ)) ⁻¹' {q | ¬ B q})).toReal = 1 - p := fun i => by
    have : (fun θ => (r1 i θ, r2 i θ)) ⁻¹' {q | ¬ B q} = {θ | B (r1 i θ, r2 i θ)}ᶜ := rfl
    rw [this, ← measureReal_def, probReal_compl_eq_one_sub (hm i), hp]
  simp only [hc, Finset.prod_const, Finset.card_range]

/-- The probability that a signed delay between -n and n is sampled. -/
theorem sampled_prob (N : Nat) (hn : 1 ≤ n) (h : FrameDraws ν n r1 r2) (d : Int) (hd : -(n : Int) < d ∧ d ≤ n) :
    ν.real {θ | ∃ a ∈ firstTimes N n (drawVector N n hn r1 r2 θ), ∃ b ∈ secondTimes N n (drawVector N n hn r1 r2 θ), b - a = d} =
      1 - (1 - 1 / (2 * (n : ℝ))) ^ N := by
  simp only [sampled_iff N _ d hd]
  refine some_frame N hn h (fun q => (n : Int) * q.2 - q.1 = d) _ fun i => ?_
  have := window_prob (d := d) (k := 0) hn (frameDraws_two h) (by simpa using hd) i i
  rw [if_pos (sub_self _)] at this
  rw [← this]
  congr 1
  ext θ
  simp only [Set.mem_setOf_eq]
  constructor <;> intro q <;> linarith

theorem sampled_prob_abs (N : Nat) (hn : 1 ≤ n) (h : FrameDraws ν n r1 r2) (k : Nat) (hk : k < n) :
    ν.real {θ | ∃ a ∈ firstTimes N n (drawVector N n hn r1 r2 θ), ∃ b ∈ secondTimes N n (drawVector N n hn r1 r2 θ), |b - a| = (k : Int)} =
      1 - (1 - (if k = 0 then 1 / (2 * (n : ℝ)) else 1 / n)) ^ N := by
  by_cases h0 : k = 0
  · subst h0
    rw [if_pos rfl, ← sampled_prob N hn h 0 (by omega)]
    simp
  · rw [if_neg h0]
    have e : ∀ σ : Fin N → Fin n × Fin 2, (∃ a ∈ firstTimes N n σ, ∃ b ∈ secondTimes N n σ, |b - a| = (k : Int)) ↔
        ∃ i, (n : Int) * (σ i).2.val - (σ i).1.val = k ∨ (n : Int) * (σ i).2.val - (σ i).1.val = -k := by
      intro σ
      rw [exists_or, ← sampled_iff N σ k (by omega), ← sampled_iff N σ (-k) (by omega)]
      simp only [abs_eq (show (0 : Int) ≤ k by omega)]
      constructor
      · rintro ⟨a, ha, b, hb, q | q⟩
        · exact .inl ⟨a, ha, b, hb, q⟩
        · exact .inr ⟨a, ha, b, hb, q⟩
      · rintro (⟨a, ha, b, hb, q⟩ | ⟨a, ha, b, hb, q⟩)
        · exact ⟨a, ha, b, hb, .inl q⟩
        · exact ⟨a, ha, b, hb, .inr q⟩
    simp only [e]
    refine some_frame N hn h (fun q => (n : Int) * q.2 - q.1 = k ∨ (n : Int) * q.2 - q.1 = -k) _ fun i => ?_
    have w := fun d hd => window_prob (d := d) (k := 0) hn (frameDraws_two h) hd i i
    have w1 := w k (by omega)
    have w2 := w (-k) (by omega)
    rw [if_pos (sub_self _)] at w1 w2
    have hs : {θ | (n : Int) * (r2 i θ) - (r1 i θ) = k ∨ (n : Int) * (r2 i θ) - (r1 i θ) = -k} =
        {θ | (2 * (n : Int) * i + n * r2 i θ) - (2 * (n : Int) * i + r1 i θ) = k} ∪
        {θ | (2 * (n : Int) * i + n * r2 i θ) - (2 * (n : Int) * i + r1 i θ) = -k} := by
      ext θ
      simp only [Set.mem_setOf_eq, Set.mem_union]
      constructor <;> rintro (q | q)
      · left; linarith
      · right; linarith
      · left; linarith
      · right; linarith
    rw [hs, measureReal_union, w1, w2]
    · field_simp; norm_num
    · exact Set.disjoint_left.mpr fun θ q1 q2 => by
        simp only [Set.mem_setOf_eq] at q1 q2
        omega
    · exact measurableSet_pair (h.first i).measurable (h.second i).measurable
        (fun x y => (2 * (n : Int) * i + n * y) - (2 * (n : Int) * i + x) = -k)

/-- The times lie in the `N` periods. -/
theorem times_range (N : Nat) (σ : Fin N → Fin n × Fin 2) :
    (∀ s ∈ firstTimes N n σ, 0 ≤ s ∧ s < 2 * n * N) ∧ ∀ s ∈ secondTimes N n σ, 0 ≤ s ∧ s < 2 * n * N := by
  have key : ∀ (i : Fin N) (x : Int), 0 ≤ x → x < 2 * n → 0 ≤ 2 * (n : Int) * i.val + x ∧ 2 * (n : Int) * i.val + x < 2 * n * N := by
    intro i x h0 h1
    have a := i.isLt
    have : 2 * (n : Int) * (i.val + 1 : Int) ≤ 2 * n * N := mul_le_mul_of_nonneg_left (by omega) (by omega)
    have p : 0 ≤ 2 * (n : Int) * i.val := by positivity
    rw [mul_add] at this
    omega
  unfold firstTimes secondTimes
  simp only [List.mem_ofFn, Set.mem_range]
  constructor
  · rintro s ⟨i, rfl⟩
    have := (σ i).1.isLt
    exact key i _ (by omega) (by omega)
  · rintro s ⟨i, rfl⟩
    have := (σ i).2.isLt
    have hx := (σ i).1.isLt
    rcases Nat.lt_or_ge (σ i).2.val 1 with q | q
    · rw [show (σ i).2.val = 0 by omega]
      exact key i _ (by simp) (by simp; omega)
    · rw [show (σ i).2.val = 1 by omega]
      exact key i _ (by simp) (by simp; omega)

/-- A call of `ccorr` for `n'` delays at the random times, by method 'corr'. -/
theorem random_call (full : Bool) (N : Nat) (hN : 1 ≤ N) (σ : Fin N → Fin n × Fin 2) (n' : Nat) (hn' : 1 ≤ n') (norm : Option Int)
    (method : Option String) (hm : effMethod method (some n') = "corr") (hnorm : SupportedNorm "corr" true (effNorm norm "corr" true)) :
    CrossCall full (frameTimes N (some (firstTimes N n σ))).length (frameTimes N (some (secondTimes N n σ))).length
      (some (firstTimes N n σ)) (some (secondTimes N n σ)) (some n') norm method n' := by
  have l1 : (firstTimes N n σ).length = N := by simp [firstTimes]
  have l2 : (secondTimes N n σ).length = N := by simp [secondTimes]
  refine ⟨rfl, ?_, ?_, fun h => ?_⟩
  · simp only [CcorrRefused, hm, frameTimes, ValidCross, l1, l2]
    simp [hnorm]
    omega
  · rw [hm]
    cases full
    · simp [SafeLen]
    · simp [SafeLen]; omega
  · rw [hm] at h
    exact absurd h (by decide)

/-- Delays without pairs: NaN. -/
theorem ccorr_missing (X1 X2 : Int → Cx ℝ) (t1 t2 : Option (List Int)) (N1 N2 : Nat) (n : Option Nat)
    (norm : Option Int) (method : Option String) (aligned : Bool) (n' : Nat) (bg : Background) (v : Variance)
    (call : CrossCall false (frameTimes N1 t1).length (frameTimes N2 t2).length t1 t2 n norm method n')
    (hd : effMethod method n ≠ "diff") (z : Int) (hz : GivenNorm z)
    (hp : Prepared (effNorm norm (effMethod method n) true) z) (k : Nat) (hk : k < n')
    (hno : ¬ ∃ a ∈ frameTimes N1 t1, ∃ b ∈ frameTimes N2 t2, |b - a| = (k : Int)) :
    ∃ out, ccorrNormalized ((frameTimes N1 t1).map X1) ((frameTimes N2 t2).map X2) t1 t2
      n norm method aligned bg (some v) z "corr" false = .ok out ∧ out[k]? = some none := by
  obtain ⟨out, e, hc⟩ := ccorr_formula ((frameTimes N1 t1).map X1) ((frameTimes N2 t2).map X2) t1 t2 n norm
    method aligned n' bg v (by simpa using call) hd z hz hp
  refine ⟨out, e, (hc.2 k hk).1 ?_⟩
  rw [pairsAt_stream_map]
  by_contra hne
  obtain ⟨q, hq⟩ := List.exists_mem_of_ne_nil _ (fun h => hne (by rw [h]; rfl) :
    pairsAt false (stream (frameTimes N1 t1) t1) (stream (frameTimes N2 t2) t2) n' k ≠ [])
  have h1 := pairsAt_times_mem false N1 N2 t1 t2 n' k q hq
  have h2 := mem_pairsAt_times false N1 N2 t1 t2 n' k q hq
  exact hno ⟨q.1, h1.1, q.2, h1.2, by simpa using h2⟩

theorem ccorr_missing_complex (X1 X2 : Int → Cx ℝ) (t1 t2 : Option (List Int)) (N1 N2 : Nat) (n : Option Nat)
    (norm : Option Int) (method : Option String) (aligned : Bool) (n' : Nat) (bg : Background) (v : Variance)
    (call : CrossCall true (frameTimes N1 t1).length (frameTimes N2 t2).length t1 t2 n norm method n')
    (z : Int) (hz : GivenNorm z)
    (hp : Prepared (effNorm norm (effMethod method n) true) z) (k : Nat) (hk : k < 2 * n' - 1)
    (hno : ¬ ∃ a ∈ frameTimes N1 t1, ∃ b ∈ frameTimes N2 t2, b - a = cellDelay (2 * n' - 1) k) :
    ∃ out, ccorrNormalizedC ((frameTimes N1 t1).map X1) ((frameTimes N2 t2).map X2) t1 t2
      n norm method aligned bg (some v) z "corr" false = .ok out ∧ out[k]? = some none := by
  have main : (∃ (F : List (Cx ℝ × Cx ℝ) → Cx ℝ), ∃ out, ccorrNormalizedC ((frameTimes N1 t1).map X1) ((frameTimes N2 t2).map X2) t1 t2
      n norm method aligned bg (some v) z "corr" false = .ok out ∧
        IsCurve (2 * n' - 1) (pairsAt true (stream ((frameTimes N1 t1).map X1) t1)
          (stream ((frameTimes N2 t2).map X2) t2) (2 * n' - 1)) F out) →
      ∃ out, ccorrNormalizedC ((frameTimes N1 t1).map X1) ((frameTimes N2 t2).map X2) t1 t2
        n norm method aligned bg (some v) z "corr" false = .ok out ∧ out[k]? = some none := by
    rintro ⟨F, out, e, hc⟩
    refine ⟨out, e, (hc.2 k hk).1 ?_⟩
    rw [pairsAt_stream_map]
    by_contra hne
    obtain ⟨q, hq⟩ := List.exists_mem_of_ne_nil _ (fun h => hne (by rw [h]; rfl) :
      pairsAt true (stream (frameTimes N1 t1) t1) (stream (frameTimes N2 t2) t2) (2 * n' - 1) k ≠ [])
    have h1 := pairsAt_times_mem true N1 N2 t1 t2 (2 * n' - 1) k q hq
    have h2 := mem_pairsAt_times true N1 N2 t1 t2 (2 * n' - 1) k q hq
    exact hno ⟨q.1, h1.1, q.2, h1.2, by simpa using h2⟩
  have call' : CrossCall true ((frameTimes N1 t1).map X1).length ((frameTimes N2 t2).map X2).length t1 t2
      n norm method n' := by simpa using call
  simp only [GivenNorm, List.mem_cons, List.not_mem_nil, or_false] at hz
  rcases hz with rfl | rfl | rfl | rfl | rfl | rfl
  · exact main ⟨_, C21_standard_complex _ _ t1 t2 n norm method aligned n' bg (some v) call' _ rfl⟩
  · exact main ⟨_, C22_cross_complex _ _ t1 t2 n norm method aligned n' bg v call' _ rfl (hp.1 (by decide))⟩
  · exact main ⟨_, C21_cross_complex _ _ t1 t2 n norm method aligned n' bg (some v) call' _ rfl
      (hp.2 (by decide) (by decide)) 5 (by decide)⟩
  · exact main ⟨_, C21_cross_complex _ _ t1 t2 n norm method aligned n' bg (some v) call' _ rfl
      (hp.2 (by decide) (by decide)) 13 (by decide)⟩
  · exact main ⟨_, C22_cross_complex_subtracted _ _ t1 t2 n norm method aligned n' bg v call' _ rfl
      (hp.1 (by decide)) (hp.2 (by decide) (by decide)) 6 (by decide)⟩
  · exact main ⟨_, C22_cross_complex_subtracted _ _ t1 t2 n norm method aligned n' bg v call' _ rfl
      (hp.1 (by decide)) (hp.2 (by decide) (by decide)) 14 (by decide)⟩

/-- **C96.** Two stationary signals, recorded at the random times of Eq.7 (drawn independently of the signals), correlated and
normalised with the true backgrounds and variances: the value at a delay `k < n` is a number with probability
`1 - (1 - 1/n)^N` (`1 - (1 - 1/(2n))^N` at the delay 0), and its mean is then the covariance at the delay `k`. -/
theorem C96_random_times (hr : FrameDraws ν n r1 r2) (N : Nat) (hN : 1 ≤ N) (hn : 1 ≤ n)
    (h : StationaryAt μ (fun s => 0 ≤ s ∧ s < 2 * n * N) (fun s => 0 ≤ s ∧ s < 2 * n * N) x1 x2 m1 m2 v1 v2 G)
    (n' : Nat) (norm : Option Int) (method : Option String) (aligned : Bool) (bg : Background) (v : Variance)
    (hm : effMethod method (some n') = "corr") (hnorm : SupportedNorm "corr" true (effNorm norm "corr" true))
    (z : Int) (hz : GivenNorm z) (hp : Prepared (effNorm norm "corr" true) z)
    (hb1 : bg.fst = m1) (hb2 : bg.snd = m2) (hv : v.offset = (v1 + v2) / 2)
    (k : Nat) (hk : k < n') (hkn : k < n) (hs : (G (-k)).re = (G k).re) :
    MeanWhenFinite (ν.prod μ) (fun q => Except.bind (createRandomTimes1 N n (fun i => r1 i q.1) (fun i => r2 i q.1)) fun t =>
        ccorrNormalized (t.1.map (x1 q.2)) (t.2.map (x2 q.2)) (some t.1) (some t.2) (some n') norm method aligned bg (some v) z
          "corr" false) k
      (1 - (1 - (if k = 0 then 1 / (2 * (n : ℝ)) else 1 / n)) ^ N) (G k).re := by
  have hprob := h.prob
  have e : (fun q : Θ × Ω => Except.bind (createRandomTimes1 N n (fun i => r1 i q.1) (fun i => r2 i q.1)) fun t =>
        ccorrNormalized (t.1.map (x1 q.2)) (t.2.map (x2 q.2)) (some t.1) (some t.2) (some n') norm method aligned bg (some v) z
          "corr" false) = fun q => (fun σ ω => ccorrNormalized ((firstTimes N n σ).map (x1 ω)) ((secondTimes N n σ).map (x2 ω))
            (some (firstTimes N n σ)) (some (secondTimes N n σ)) (some n') norm method aligned bg (some v) z "corr" false)
              (drawVector N n hn r1 r2 q.1) q.2 := by
    funext q
    rw [times1_draws N hn hr]
    rfl
  rw [e, ← sampled_prob_abs N hn hr k hkn]
  have hd : effMethod method (some n') ≠ "diff" := by rw [hm]; decide
  have hp' : Prepared (effNorm norm (effMethod method (some n')) true) z := by rw [hm]; exact hp
  refine meanWhenFinite (ν := ν) (μ := μ) (drawVector N n hn r1 r2) (drawVector_measurable N n hn r1 r2 (fun i => (hr.first i).measurable)
    fun i => (hr.second i).measurable)
    (fun σ => ∃ a ∈ firstTimes N n σ, ∃ b ∈ secondTimes N n σ, |b - a| = (k : Int))
    (fun σ ω => ccorrNormalized ((firstTimes N n σ).map (x1 ω)) ((secondTimes N n σ).map (x2 ω))
      (some (firstTimes N n σ)) (some (secondTimes N n σ)) (some n') norm method aligned bg (some v) z "corr" false) k _ (fun σ hocc => ?_) fun σ hno ω => ?_
  · exact C89_cross (some (firstTimes N n σ)) (some (secondTimes N n σ)) N N
      (stationaryAt_mono h (times_range N σ).1 (times_range N σ).2) (some n') norm method aligned n' bg v
      (random_call false N hN σ n' (by omega) norm method hm hnorm) hd z hz hp' hb1 hb2 hv k hk hs hocc
  · exact ccorr_missing (x1 ω) (x2 ω) (some (firstTimes N n σ)) (some (secondTimes N n σ)) N N (some n') norm method aligned n' bg v
      (random_call false N hN σ n' (by omega) norm method hm hnorm) hd z hz hp' k hk hno

/-- **C96, complex output.** Every signed delay `-n < d ≤ n` is sampled with the probability `1 - (1 - 1/(2n))^N`; the mean of
the value is then the complex covariance. -/
theorem C96_random_times_complex (hr : FrameDraws ν n r1 r2) (N : Nat) (hN : 1 ≤ N) (hn : 1 ≤ n)
    (h : StationaryAt μ (fun s => 0 ≤ s ∧ s < 2 * n * N) (fun s => 0 ≤ s ∧ s < 2 * n * N) x1 x2 m1 m2 v1 v2 G)
    (n' : Nat) (norm : Option Int) (method : Option String) (aligned : Bool) (bg : Background) (v : Variance)
    (hm : effMethod method (some n') = "corr") (hnorm : SupportedNorm "corr" true (effNorm norm "corr" true))
    (z : Int) (hz : GivenNorm z) (hp : Prepared (effNorm norm "corr" true) z)
    (hb1 : bg.fst = m1) (hb2 : bg.snd = m2) (hv : v.offset = (v1 + v2) / 2)
    (k : Nat) (hk : k < 2 * n' - 1) (d : Int) (hd : d = cellDelay (2 * n' - 1) k) (hdn : -(n : Int) < d) (hdn' : d ≤ n) :
    MeanWhenFiniteC (ν.prod μ) (fun q => Except.bind (createRandomTimes1 N n (fun i => r1 i q.1) (fun i => r2 i q.1)) fun t =>
        ccorrNormalizedC (t.1.map (x1 q.2)) (t.2.map (x2 q.2)) (some t.1) (some t.2) (some n') norm method aligned bg (some v) z
          "corr" false) k
      (1 - (1 - 1 / (2 * (n : ℝ))) ^ N) (G d) := by
  have hprob := h.prob
  have e : (fun q : Θ × Ω => Except.bind (createRandomTimes1 N n (fun i => r1 i q.1) (fun i => r2 i q.1)) fun t =>
        ccorrNormalizedC (t.1.map (x1 q.2)) (t.2.map (x2 q.2)) (some t.1) (some t.2) (some n') norm method aligned bg (some v) z
          "corr" false) = fun q => (fun σ ω => ccorrNormalizedC ((firstTimes N n σ).map (x1 ω)) ((secondTimes N n σ).map (x2 ω))
            (some (firstTimes N n σ)) (some (secondTimes N n σ)) (some n') norm method aligned bg (some v) z "corr" false)
              (drawVector N n hn r1 r2 q.1) q.2 := by
    funext q
    rw [times1_draws N hn hr]
    rfl
  rw [e, ← sampled_prob N hn hr d ⟨hdn, hdn'⟩]
  subst hd
  have hp' : Prepared (effNorm norm (effMethod method (some n')) true) z := by rw [hm]; exact hp
  refine meanWhenFiniteC (ν := ν) (μ := μ) (drawVector N n hn r1 r2) (drawVector_measurable N n hn r1 r2 (fun i => (hr.first i).measurable)
    fun i => (hr.second i).measurable)
    (fun σ => ∃ a ∈ firstTimes N n σ, ∃ b ∈ secondTimes N n σ, b - a = cellDelay (2 * n' - 1) k)
    (fun σ ω => ccorrNormalizedC ((firstTimes N n σ).map (x1 ω)) ((secondTimes N n σ).map (x2 ω))
      (some (firstTimes N n σ)) (some (secondTimes N n σ)) (some n') norm method aligned bg (some v) z "corr" false) k _ (fun σ hocc => ?_)
    fun σ hno ω => ?_
  · exact C89_cross_complex (some (firstTimes N n σ)) (some (secondTimes N n σ)) N N
      (stationaryAt_mono h (times_range N σ).1 (times_range N σ).2) (some n') norm method aligned n' bg v
      (random_call true N hN σ n' (by omega) norm method hm hnorm) z hz hp' hb1 hb2 hv k hk hocc
  · exact ccorr_missing_complex (x1 ω) (x2 ω) (some (firstTimes N n σ)) (some (secondTimes N n σ)) N N (some n') norm method aligned
      n' bg v (random_call true N hN σ n' (by omega) norm method hm hnorm) z hz hp' k hk hno

/-- **C96, simulated particles.** The fields scattered by simulated particles, recorded by two cameras at the random times. -/
theorem C96_particles (hr : FrameDraws ν n r1 r2) (N : Nat) (hN : 1 ≤ N) (hn : 1 ≤ n)
    {r : Ω → Nat → ℝ × ℝ} {g : Ω → Nat → Nat → ℝ × ℝ} (hg : RandomNumbers μ r g) (h w num : Nat) (δ dt : ℝ) (velocity : StepArr)
    (v : ℝ × ℝ) (hh : 0 < h) (hw : 0 < w) (hdt : 0 ≤ dt) (hv : Gives num velocity fun _ => v)
    (n' : Nat) (norm : Option Int) (method : Option String) (aligned : Bool)
    (hm : effMethod method (some n') = "corr") (hnorm : SupportedNorm "corr" true (effNorm norm "corr" true))
    (z : Int) (hz : GivenNorm z) (hp : Prepared (effNorm norm "corr" true) z) :
    ∃ xs : Ω → List (List (ℝ × ℝ)),
      (∀ ω, brownianParticles (2 * n * N) [h, w] num (.const (.scalar δ)) dt (.const velocity) none (r ω) (g ω) = (xs ω, .ok ())) ∧
      ∀ (k l : ℤ), (k ≠ 0 ∨ l ≠ 0) → ∀ m < n', m < n →
        MeanWhenFinite (ν.prod μ) (fun q => Except.bind (createRandomTimes1 N n (fun i => r1 i q.1) (fun i => r2 i q.1)) fun t =>
            ccorrNormalized (t.1.map (fieldAt (waveVector (h, w) k l) (xs q.2))) (t.2.map (fieldAt (waveVector (h, w) k l) (xs q.2)))
              (some t.1) (some t.2) (some n') norm method aligned (.one 0) (some (.one num)) z "corr" false) m
          (1 - (1 - (if m = 0 then 1 / (2 * (n : ℝ)) else 1 / n)) ^ N)
          (num * (diffusion (waveVector (h, w) k l) (δ ^ 2 / 2) (m * dt) * Real.cos (drift (waveVector (h, w) k l) v (m * dt)))) := by
  obtain ⟨xs, e, hxs⟩ := scatteredAll_walker r g (2 * n * N) h w num δ dt velocity v hh hw hdt hv
  refine ⟨xs, e, fun k l hkl m hm1 hm2 => ?_⟩
  have st := particles_stationary hg (shape := (h, w)) hh hw (2 * n * N) num δ dt hdt v xs hxs k l hkl
  push_cast at st
  have := C96_random_times hr N hN hn st n' norm method aligned (.one 0) (.one num) hm hnorm z hz hp rfl rfl
    (by simp [Variance.offset]) m hm1 hm2 (by
      simp only [Int.cast_neg, Int.cast_natCast, neg_mul, diffusion, drift, abs_neg, mul_neg, Real.cos_neg])
  simpa using this

/-- **C96, simulated particles, complex output.** The phase of the mean shows the drift, with its sign. -/
theorem C96_particles_complex (hr : FrameDraws ν n r1 r2) (N : Nat) (hN : 1 ≤ N) (hn : 1 ≤ n)
    {r : Ω → Nat → ℝ × ℝ} {g : Ω → Nat → Nat → ℝ × ℝ} (hg : RandomNumbers μ r g) (h w num : Nat) (δ dt : ℝ) (velocity : StepArr)
    (v : ℝ × ℝ) (hh : 0 < h) (hw : 0 < w) (hdt : 0 ≤ dt) (hv : Gives num velocity fun _ => v)
    (n' : Nat) (norm : Option Int) (method : Option String) (aligned : Bool)
    (hm : effMethod method (some n') = "corr") (hnorm : SupportedNorm "corr" true (effNorm norm "corr" true))
    (z : Int) (hz : GivenNorm z) (hp : Prepared (effNorm norm "corr" true) z) :
    ∃ xs : Ω → List (List (ℝ × ℝ)),
      (∀ ω, brownianParticles (2 * n * N) [h, w] num (.const (.scalar δ)) dt (.const velocity) none (r ω) (g ω) = (xs ω, .ok ())) ∧
      ∀ (k l : ℤ), (k ≠ 0 ∨ l ≠ 0) → ∀ m < 2 * n' - 1, ∀ d : Int, d = cellDelay (2 * n' - 1) m → -(n : Int) < d → d ≤ n →
        MeanWhenFiniteC (ν.prod μ) (fun q => Except.bind (createRandomTimes1 N n (fun i => r1 i q.1) (fun i => r2 i q.1)) fun t =>
            ccorrNormalizedC (t.1.map (fieldAt (waveVector (h, w) k l) (xs q.2))) (t.2.map (fieldAt (waveVector (h, w) k l) (xs q.2)))
              (some t.1) (some t.2) (some n') norm method aligned (.one 0) (some (.one num)) z "corr" false) m
          (1 - (1 - 1 / (2 * (n : ℝ))) ^ N)
          ⟨num * (diffusion (waveVector (h, w) k l) (δ ^ 2 / 2) (d * dt) * Real.cos (drift (waveVector (h, w) k l) v (d * dt))),
            -(num * (diffusion (waveVector (h, w) k l) (δ ^ 2 / 2) (d * dt) * Real.sin (drift (waveVector (h, w) k l) v (d * dt))))⟩ := by
  obtain ⟨xs, e, hxs⟩ := scatteredAll_walker r g (2 * n * N) h w num δ dt velocity v hh hw hdt hv
  refine ⟨xs, e, fun k l hkl m hm1 d hd h1 h2 => ?_⟩
  have st := particles_stationary hg (shape := (h, w)) hh hw (2 * n * N) num δ dt hdt v xs hxs k l hkl
  push_cast at st
  exact C96_random_times_complex hr N hN hn st n' norm method aligned (.one 0) (.one num) hm hnorm z hz hp rfl rfl
    (by simp [Variance.offset]) m hm1 d hd h1 h2

end

end Cddm
