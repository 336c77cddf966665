import Verif.Lemmas.GaussEst
import Verif.Lemmas.GaussExample
import Verif.Props.WeightedNorm

/-!
# C93: `sigma_weighted` and `sigma_prime_weighted` are the true standard deviations of the estimates

For signals whose samples are jointly Gaussian and circular, and pairs of samples that are independent of each other.
-/

namespace Cddm
open Spec MeasureTheory ProbabilityTheory
open scoped BigOperators

theorem normalize_plain_weight {C : Type} [AddCommGroup C] [Module ℝ C] (ops : NormOps C) (data : NormData C)
    (bg : Option Background) (var : Option Variance) (z : Int) (hz : z ≠ 3 ∧ z ≠ 7 ∧ z ≠ 11 ∧ z ≠ 15) (mode : String)
    (scale : Bool) (w : Option (List C)) (o : List (Option C) × Option (List C))
    (h : normalize ops data bg var (some z) mode scale w = .ok o) : o.2 = w := by
  rw [normalize_plain _ _ _ _ z hz] at h
  cases h1 : inspectMode mode with
  | error => simp [h1, bind, Except.bind] at h
  | ok m =>
    cases h2 : normOf data (some z) with
    | error => simp [h1, h2, bind, Except.bind] at h
    | ok x =>
      cases h3 : (if scale then (scaleFactor var).map some else .ok none : Py (Option ℝ)) with
      | error => simp only [h1, h2, h3, bind, Except.bind] at h; cases h
      | ok y =>
        cases h4 : normalizePlain ops data bg var x mode scale with
        | error => simp only [h1, h2, h3, h4, bind, Except.bind] at h; cases h
        | ok r => simp only [h1, h2, h3, h4, bind, Except.bind] at h; cases h; rfl

/-- The value of a correlation normalised with given weights, at a delay that occurs. -/
theorem ccorr_weighted_value (X1 X2 : Int → Cx ℝ) (t1 t2 : Option (List Int)) (N1 N2 : Nat) (n : Option Nat)
    (norm : Option Int) (method : Option String) (aligned : Bool) (n' : Nat) (bg : Background) (v : Variance)
    (call : CrossCall false (frameTimes N1 t1).length (frameTimes N2 t2).length t1 t2 n norm method n')
    (hd : effMethod method n ≠ "diff") (z : Int) (hz : z = 3 ∨ z = 7 ∨ z = 15)
    (hp : Prepared (effNorm norm (effMethod method n) true) (z - 1)) (scale : Bool) (hv : v.offset ≠ 0)
    (weight : List ℝ) (hw : weight.length = n') (k : Nat) (w : ℝ) (hk : weight[k]? = some w)
    (hne : pairsAt false (stream (frameTimes N1 t1) t1) (stream (frameTimes N2 t2) t2) n' k ≠ []) :
    ∃ out, ccorrWeighted ((frameTimes N1 t1).map X1) ((frameTimes N2 t2).map X2) t1 t2
      n norm method aligned bg (some v) z "corr" scale weight = .ok out ∧
      out[k]? = some (some ((w * crossFormula bg v.offset (z - 1) ((pairsAt false (stream (frameTimes N1 t1) t1)
        (stream (frameTimes N2 t2) t2) n' k).map (Prod.map X1 X2)) + (1 - w) * crossFormula bg v.offset (z - 2)
          ((pairsAt false (stream (frameTimes N1 t1) t1) (stream (frameTimes N2 t2) t2) n' k).map (Prod.map X1 X2)))
            / if scale then v.offset else 1)) := by
  have hkn : k < n' := by rw [← hw]; exact (List.getElem?_eq_some_iff.mp hk).1
  have main : ∀ y : Int, GivenNorm y → Prepared (effNorm norm (effMethod method n) true) y →
      ∃ out, ccorrNormalized ((frameTimes N1 t1).map X1) ((frameTimes N2 t2).map X2) t1 t2
        n norm method aligned bg (some v) y "corr" scale = .ok out ∧ out.length = n' ∧
        out[k]? = some (some (crossFormula bg v.offset y ((pairsAt false (stream (frameTimes N1 t1) t1)
          (stream (frameTimes N2 t2) t2) n' k).map (Prod.map X1 X2)) / if scale then v.offset else 1)) := by
    intro y hy hpy
    obtain ⟨out, e, hl, hc⟩ := ccorr_formula ((frameTimes N1 t1).map X1) ((frameTimes N2 t2).map X2) t1 t2 n norm
      method aligned n' bg v (by simpa using call) hd y hy hpy
    have hc := (hc k hkn).2
    rw [pairsAt_stream_map] at hc
    have hc := hc (by simpa using hne)
    cases scale with
    | false => exact ⟨out, e, hl, by simpa using hc⟩
    | true =>
      rw [ccorrNormalized_scale _ _ _ _ _ _ _ _ _ _ _ hy _ hv, e]
      exact ⟨_, rfl, by simpa using hl, by simp [hc]⟩
  have g1 : GivenNorm (z - 1) := by rcases hz with rfl | rfl | rfl <;> simp [GivenNorm]
  have g2 : GivenNorm (z - 2) := by rcases hz with rfl | rfl | rfl <;> simp [GivenNorm]
  have p2 : Prepared (effNorm norm (effMethod method n) true) (z - 2) := by
    refine ⟨fun h => ?_, fun _ _ => hp.2 (by omega) (by omega)⟩
    omega
  obtain ⟨s, hs, ls, cs⟩ := main _ g1 hp
  obtain ⟨b, hb, lb, cb⟩ := main _ g2 p2
  unfold ccorrNormalized at hs hb
  unfold ccorrWeighted
  cases hr : ccorr ((frameTimes N1 t1).map X1) ((frameTimes N2 t2).map X2) t1 t2 n norm method aligned none none {} with
  | error => rw [hr] at hs; simp [bind, Except.bind] at hs
  | ok r =>
    rw [hr] at hs hb
    simp only [bind, Except.bind]
    have un : ∀ (y : Int), GivenNorm y → ∀ x, ((normalize normOpsR (r.toData (effMethod method n)) (some bg) (some v)
        (some y) "corr" scale none).bind fun o => .ok o.1) = .ok x →
        normalize normOpsR (r.toData (effMethod method n)) (some bg) (some v) (some y) "corr" scale none = .ok (x, none) := by
      intro y hy x hx
      cases ho : normalize normOpsR (r.toData (effMethod method n)) (some bg) (some v) (some y) "corr" scale none with
      | error => rw [ho] at hx; cases hx
      | ok o =>
        rw [ho] at hx
        have := normalize_plain_weight normOpsR _ _ _ y (given_not_weighted hy) _ _ _ o ho
        obtain ⟨o1, o2⟩ := o
        cases hx
        dsimp only at this
        rw [this]
    have hs := un _ g1 _ hs
    have hb := un _ g2 _ hb
    rw [normalize_given_weight normOpsR _ _ _ z (by omega) _ _ weight s b hs hb rfl, weightedCurve, if_pos ⟨by omega, by omega⟩]
    refine ⟨_, rfl, ?_⟩
    have := (weightedCurve_cells normOpsR s b weight _ (by rw [weightedCurve, if_pos ⟨by omega, by omega⟩])).2.2.2.2 k _ _ _ cs cb hk
    rw [this]
    simp only [normOpsR, weightedSumR]
    congr 2
    ring

section
variable {Ω : Type} [MeasurableSpace Ω] {μ : Measure Ω} {x1 x2 : Ω → Int → Cx ℝ} {m1 m2 : Cx ℝ} {v1 v2 : ℝ} {c : Cx ℝ}

theorem spread_of_value {call : Ω → Py (List (Option ℝ))} {k : Nat} {Q : List (Int × Int)} (hQ : Q ≠ [])
    (hC : ∀ q ∈ Q, CircularPair μ (fun ω => x1 ω q.1) (fun ω => x2 ω q.2) m1 m2 v1 v2 c)
    (hI : IndependentPairs μ x1 x2 Q) (hv : 0 < v1 + v2) (base : Int) (w d : ℝ)
    (h : ∀ ω, ∃ out, call ω = .ok out ∧ out[k]? = some (some
      (mean (pairEst base w ((v1 + v2) / 2) m1 m2) (Q.map (Prod.map (x1 ω) (x2 ω))) / d))) :
    SpreadIn μ call k (c.re / d) (((v1 + v2) / 2) ^ 2 * pairArg base w m1 m2 v1 v2 c / Q.length / d ^ 2) := by
  obtain ⟨h1, h2, h3⟩ := pairEst_mean_variance Q hQ hC hI hv base w ((v1 + v2) / 2)
  refine ⟨_, h, ?_, ?_, ?_⟩
  · have := h1.const_mul d⁻¹
    simpa only [div_eq_inv_mul] using this
  · simp only [div_eq_inv_mul _ d]
    rw [integral_const_mul, h2]
    ring
  · simp only [div_eq_inv_mul _ d]
    rw [variance_const_mul, h3]
    field_simp

theorem pairArg_nonneg {a b : Ω → Cx ℝ} (h : CircularPair μ a b m1 m2 v1 v2 c) (hv : 0 < v1 + v2) (base : Int) (w : ℝ) :
    0 ≤ pairArg base w m1 m2 v1 v2 c := by
  have h3 := (pairEst_variance h hv base w 0).2.2
  have h0 := variance_nonneg (fun ω => pairEst base w 0 m1 m2 (a ω) (b ω)) μ
  rw [h3] at h0
  by_contra hn
  push Not at hn
  have : ((v1 + v2) / 2) ^ 2 * pairArg base w m1 m2 v1 v2 c < 0 := mul_neg_of_pos_of_neg (by positivity) hn
  linarith

theorem two_div_eq (v1 v2 : ℝ) : 2 / (v1 + v2) = 1 / ((v1 + v2) / 2) := by rw [one_div_div]

/-- The radicand of `sigma_weighted` for the scaled curve. -/
theorem sigma_of_pairArg {a b : Ω → Cx ℝ} (h : CircularPair μ a b m1 m2 v1 v2 c) (hv : 0 < v1 + v2) (base : Int)
    (hb : base ≠ 1) (w : ℝ) :
    ∃ σ, sigmaWeighted w ((1 / ((v1 + v2) / 2)) • c) ((v2 - v1) / (v1 + v2)) = some σ ∧
      σ ^ 2 = pairArg base w m1 m2 v1 v2 c := by
  have h0 := pairArg_nonneg h hv base w
  rw [pairArg, if_neg hb, two_div_eq] at h0 ⊢
  exact ⟨_, by rw [sigmaWeighted, if_neg (by linarith)], Real.sq_sqrt h0⟩

/-- The radicand of `sigma_prime_weighted` for the scaled curve. -/
theorem sigmaPrime_of_pairArg {a b : Ω → Cx ℝ} (h : CircularPair μ a b m1 m2 v1 v2 c) (hv : 0 < v1 + v2) (w : ℝ) :
    ∃ σ, sigmaPrimeWeighted w ((1 / ((v1 + v2) / 2)) • c.conj) ((v2 - v1) / (v1 + v2))
      ((1 / Real.sqrt ((v1 + v2) / 2)) • m1) ((1 / Real.sqrt ((v1 + v2) / 2)) • m2) = some σ ∧
      σ ^ 2 = pairArg 1 w m1 m2 v1 v2 c := by
  have h0 := pairArg_nonneg h hv 1 w
  rw [pairArg, if_pos rfl, two_div_eq] at h0 ⊢
  exact ⟨_, by rw [sigmaPrimeWeighted, if_neg (by linarith)], Real.sq_sqrt h0⟩

theorem noiseDelta_two (hv : 0 < v1 + v2) : noiseDelta (.two v1 v2) true = some ((v2 - v1) / (v1 + v2)) := by
  simp [noiseDelta, fdiv, hv.ne']

section cross
variable (t1 t2 : Option (List Int)) (N1 N2 : Nat) (n : Option Nat) (norm : Option Int) (method : Option String)
  (aligned : Bool) (n' : Nat) (bg : Background)
  (call : CrossCall false (frameTimes N1 t1).length (frameTimes N2 t2).length t1 t2 n norm method n')
  (hd : effMethod method n ≠ "diff") (z : Int)
  (hb1 : bg.fst = m1) (hb2 : bg.snd = m2) (hv : 0 < v1 + v2)
  (k : Nat) (hocc : ∃ a ∈ frameTimes N1 t1, ∃ b ∈ frameTimes N2 t2, |b - a| = (k : Int))
  (hC : ∀ a ∈ frameTimes N1 t1, ∀ b ∈ frameTimes N2 t2, |b - a| = (k : Int) →
    CircularPair μ (fun ω => x1 ω a) (fun ω => x2 ω b) m1 m2 v1 v2 c)
  (hI : IndependentPairs μ x1 x2 (pairsAt false (stream (frameTimes N1 t1) t1) (stream (frameTimes N2 t2) t2) n' k))
include call hd hb1 hb2 hv hocc hC hI

theorem spread_weighted (hz : z = 3 ∨ z = 7 ∨ z = 15)
    (hp : Prepared (effNorm norm (effMethod method n) true) (z - 1))
    (weight : List ℝ) (hw : weight.length = n') (w : ℝ) (hk : weight[k]? = some w) (scale : Bool) :
    SpreadIn μ (fun ω => ccorrWeighted ((frameTimes N1 t1).map (x1 ω)) ((frameTimes N2 t2).map (x2 ω)) t1 t2
      n norm method aligned bg (some (.two v1 v2)) z "corr" scale weight) k (c.re / if scale then (v1 + v2) / 2 else 1)
      (((v1 + v2) / 2) ^ 2 * pairArg (z - 2) w m1 m2 v1 v2 c /
        (pairsAt false (stream (frameTimes N1 t1) t1) (stream (frameTimes N2 t2) t2) n' k).length
          / (if scale then (v1 + v2) / 2 else 1) ^ 2) := by
  obtain ⟨a, ha, b, hb, hab⟩ := hocc
  have hne := pairsAt_times_ne false N1 N2 t1 t2 n' k a b ha hb (by simpa using hab)
  have ho : (Variance.two v1 v2).offset = (v1 + v2) / 2 := rfl
  refine spread_of_value hne (fun q hq => ?_) hI hv (z - 2) w _ fun ω => ?_
  · obtain ⟨q1, q2⟩ := pairsAt_times_mem false N1 N2 t1 t2 n' k q hq
    exact hC _ q1 _ q2 (by simpa using mem_pairsAt_times false N1 N2 t1 t2 n' k q hq)
  · obtain ⟨out, e, h⟩ := ccorr_weighted_value (x1 ω) (x2 ω) t1 t2 N1 N2 n norm method aligned n' bg (.two v1 v2) call hd z hz hp
      scale (by rw [ho]; linarith) weight hw k w hk hne
    refine ⟨out, e, ?_⟩
    rw [h]
    simp only [crossFormula, hb1, hb2, ho]
    rw [← formula_pairEst m1 m2 _ _ _ _ ((v1 + v2) / 2) w (z - 2) (by omega) _ (by simpa using hne),
      show z - 2 + 1 = z - 1 by ring]

/-- **C93, background subtracted.**  Norms 7 and 15 with any weights: the curve is unbiased, and its value at delay `k` has
the standard deviation `sigma_weighted` of the weight, the scaled correlation and the noise parameter, divided by the square
root of the number of pairs; without scaling times the mean variance. -/
theorem C93_subtracted (hz : z = 7 ∨ z = 15) (hp : Prepared (effNorm norm (effMethod method n) true) (z - 1))
    (weight : List ℝ) (hw : weight.length = n') (w : ℝ) (hk : weight[k]? = some w) :
    ∃ s δ σ, scaleFactor (some (.two v1 v2)) = .ok s ∧ noiseDelta (.two v1 v2) true = some δ ∧
      sigmaWeighted w ((1 / s) • c) δ = some σ ∧
      SpreadIn μ (fun ω => ccorrWeighted ((frameTimes N1 t1).map (x1 ω)) ((frameTimes N2 t2).map (x2 ω)) t1 t2
        n norm method aligned bg (some (.two v1 v2)) z "corr" true weight) k (c.re / s)
        (σ ^ 2 / (pairsAt false (stream (frameTimes N1 t1) t1) (stream (frameTimes N2 t2) t2) n' k).length) ∧
      SpreadIn μ (fun ω => ccorrWeighted ((frameTimes N1 t1).map (x1 ω)) ((frameTimes N2 t2).map (x2 ω)) t1 t2
        n norm method aligned bg (some (.two v1 v2)) z "corr" false weight) k c.re
        ((s * σ) ^ 2 / (pairsAt false (stream (frameTimes N1 t1) t1) (stream (frameTimes N2 t2) t2) n' k).length) := by
  obtain ⟨a, ha, b, hb, hab⟩ := id hocc
  obtain ⟨σ, h1, h2⟩ := sigma_of_pairArg (hC a ha b hb hab) hv (z - 2) (by omega) w
  have S := spread_weighted t1 t2 N1 N2 n norm method aligned n' bg call hd z hb1 hb2 hv k hocc hC hI (by omega) hp weight hw w hk
  refine ⟨_, _, σ, rfl, noiseDelta_two hv, h1, ?_, ?_⟩
  · have := S true
    simp only [if_true] at this
    rw [← h2, show ∀ L : ℝ, ((v1 + v2) / 2) ^ 2 * σ ^ 2 / L / ((v1 + v2) / 2) ^ 2 = σ ^ 2 / L from fun L => by field_simp] at this
    exact this
  · have := S false
    simp only [Bool.false_eq_true, if_false, div_one, one_pow] at this
    rw [← h2, ← mul_pow] at this
    exact this

/-- **C93, background not subtracted.**  Norm 3 with any weights: likewise with `sigma_prime_weighted`, of the conjugate of
the correlation and the backgrounds divided by the root of the mean variance. -/
theorem C93_baseline_partial (hp : Prepared (effNorm norm (effMethod method n) true) 2)
    (weight : List ℝ) (hw : weight.length = n') (w : ℝ) (hk : weight[k]? = some w) :
    ∃ s δ σ, scaleFactor (some (.two v1 v2)) = .ok s ∧ noiseDelta (.two v1 v2) true = some δ ∧
      sigmaPrimeWeighted w ((1 / s) • c.conj) δ ((1 / Real.sqrt s) • m1) ((1 / Real.sqrt s) • m2) = some σ ∧
      SpreadIn μ (fun ω => ccorrWeighted ((frameTimes N1 t1).map (x1 ω)) ((frameTimes N2 t2).map (x2 ω)) t1 t2
        n norm method aligned bg (some (.two v1 v2)) 3 "corr" true weight) k (c.re / s)
        (σ ^ 2 / (pairsAt false (stream (frameTimes N1 t1) t1) (stream (frameTimes N2 t2) t2) n' k).length) ∧
      SpreadIn μ (fun ω => ccorrWeighted ((frameTimes N1 t1).map (x1 ω)) ((frameTimes N2 t2).map (x2 ω)) t1 t2
        n norm method aligned bg (some (.two v1 v2)) 3 "corr" false weight) k c.re
        ((s * σ) ^ 2 / (pairsAt false (stream (frameTimes N1 t1) t1) (stream (frameTimes N2 t2) t2) n' k).length) := by
  obtain ⟨a, ha, b, hb, hab⟩ := id hocc
  obtain ⟨σ, h1, h2⟩ := sigmaPrime_of_pairArg (hC a ha b hb hab) hv w
  have S := spread_weighted t1 t2 N1 N2 n norm method aligned n' bg call hd 3 hb1 hb2 hv k hocc hC hI (by omega) hp weight hw w hk
  refine ⟨_, _, σ, rfl, noiseDelta_two hv, h1, ?_, ?_⟩
  · have := S true
    simp only [if_true] at this
    rw [show (3 : Int) - 2 = 1 by decide, ← h2,
      show ∀ L : ℝ, ((v1 + v2) / 2) ^ 2 * σ ^ 2 / L / ((v1 + v2) / 2) ^ 2 = σ ^ 2 / L from fun L => by field_simp] at this
    exact this
  · have := S false
    simp only [Bool.false_eq_true, if_false, div_one, one_pow] at this
    rw [show (3 : Int) - 2 = 1 by decide, ← h2, ← mul_pow] at this
    exact this

theorem spread_plain (hz : GivenNorm z) (hp : Prepared (effNorm norm (effMethod method n) true) z) (hk : k < n') :
    SpreadIn μ (fun ω => ccorrNormalized ((frameTimes N1 t1).map (x1 ω)) ((frameTimes N2 t2).map (x2 ω)) t1 t2
      n norm method aligned bg (some (.two v1 v2)) z "corr" false) k c.re
      (((v1 + v2) / 2) ^ 2 * pairArg (if z % 2 = 0 then z - 1 else z) (if z % 2 = 0 then 1 else 0) m1 m2 v1 v2 c /
        (pairsAt false (stream (frameTimes N1 t1) t1) (stream (frameTimes N2 t2) t2) n' k).length) := by
  obtain ⟨a, ha, b, hb, hab⟩ := hocc
  have hne := pairsAt_times_ne false N1 N2 t1 t2 n' k a b ha hb (by simpa using hab)
  have ho : (Variance.two v1 v2).offset = (v1 + v2) / 2 := rfl
  have key := spread_of_value (m1 := m1) (m2 := m2) (c := c) (call := fun ω => ccorrNormalized ((frameTimes N1 t1).map (x1 ω)) ((frameTimes N2 t2).map (x2 ω)) t1 t2
      n norm method aligned bg (some (.two v1 v2)) z "corr" false) (k := k) hne (fun q hq => ?_) hI hv (if z % 2 = 0 then z - 1 else z)
      (if z % 2 = 0 then 1 else 0) 1 fun ω => ?_
  · simpa using key
  · obtain ⟨q1, q2⟩ := pairsAt_times_mem false N1 N2 t1 t2 n' k q hq
    exact hC _ q1 _ q2 (by simpa using mem_pairsAt_times false N1 N2 t1 t2 n' k q hq)
  · obtain ⟨out, e, h⟩ := ccorr_value (x1 ω) (x2 ω) t1 t2 N1 N2 n norm method aligned n' bg (.two v1 v2) call hd z hz hp k hk hne
    refine ⟨out, e, ?_⟩
    rw [h]
    simp only [crossFormula, hb1, hb2, ho, div_one]
    simp only [GivenNorm, List.mem_cons, List.not_mem_nil, or_false] at hz
    by_cases hz2 : z % 2 = 0
    · simp only [if_pos hz2]
      rw [← formula_pairEst m1 m2 _ _ 0 0 ((v1 + v2) / 2) 1 (z - 1) (by omega) _ (by simpa using hne),
        show z - 1 + 1 = z by ring, one_mul, sub_self, zero_mul, add_zero]
    · simp only [if_neg hz2]
      rw [← formula_pairEst m1 m2 0 0 _ _ ((v1 + v2) / 2) 0 z (by omega) _ (by simpa using hne), zero_mul, zero_add,
        sub_zero, one_mul]

/-- **C93, plain norms.**  The norms 5 and 13 are the weight 0, the norms 6 and 14 the weight 1. -/
theorem C93_plain (hz : z = 5 ∨ z = 13 ∨ z = 6 ∨ z = 14) (hp : Prepared (effNorm norm (effMethod method n) true) z)
    (hk : k < n') :
    ∃ s δ σ, scaleFactor (some (.two v1 v2)) = .ok s ∧ noiseDelta (.two v1 v2) true = some δ ∧
      sigmaWeighted (if z = 5 ∨ z = 13 then 0 else 1) ((1 / s) • c) δ = some σ ∧
      SpreadIn μ (fun ω => ccorrNormalized ((frameTimes N1 t1).map (x1 ω)) ((frameTimes N2 t2).map (x2 ω)) t1 t2
        n norm method aligned bg (some (.two v1 v2)) z "corr" false) k c.re
        ((s * σ) ^ 2 / (pairsAt false (stream (frameTimes N1 t1) t1) (stream (frameTimes N2 t2) t2) n' k).length) := by
  obtain ⟨a, ha, b, hb, hab⟩ := id hocc
  obtain ⟨σ, h1, h2⟩ := sigma_of_pairArg (hC a ha b hb hab) hv (if z % 2 = 0 then z - 1 else z) (by split <;> omega)
    (if z = 5 ∨ z = 13 then 0 else 1)
  have S := spread_plain t1 t2 N1 N2 n norm method aligned n' bg call hd z hb1 hb2 hv k hocc hC hI
    (by rcases hz with rfl | rfl | rfl | rfl <;> simp [GivenNorm]) hp hk
  refine ⟨_, _, σ, rfl, noiseDelta_two hv, h1, ?_⟩
  rw [mul_pow, h2]
  rcases hz with rfl | rfl | rfl | rfl
  all_goals norm_num at S ⊢; exact S

/-- **C93, plain norms 1 and 2**: the weights 0 and 1 of `sigma_prime_weighted`. -/
theorem C93_plain_baseline_partial (hz : z = 1 ∨ z = 2) (hp : Prepared (effNorm norm (effMethod method n) true) z)
    (hk : k < n') :
    ∃ s δ σ, scaleFactor (some (.two v1 v2)) = .ok s ∧ noiseDelta (.two v1 v2) true = some δ ∧
      sigmaPrimeWeighted (if z = 1 then 0 else 1) ((1 / s) • c.conj) δ ((1 / Real.sqrt s) • m1) ((1 / Real.sqrt s) • m2)
        = some σ ∧
      SpreadIn μ (fun ω => ccorrNormalized ((frameTimes N1 t1).map (x1 ω)) ((frameTimes N2 t2).map (x2 ω)) t1 t2
        n norm method aligned bg (some (.two v1 v2)) z "corr" false) k c.re
        ((s * σ) ^ 2 / (pairsAt false (stream (frameTimes N1 t1) t1) (stream (frameTimes N2 t2) t2) n' k).length) := by
  obtain ⟨a, ha, b, hb, hab⟩ := id hocc
  obtain ⟨σ, h1, h2⟩ := sigmaPrime_of_pairArg (hC a ha b hb hab) hv (if z = 1 then 0 else 1)
  have S := spread_plain t1 t2 N1 N2 n norm method aligned n' bg call hd z hb1 hb2 hv k hocc hC hI
    (by rcases hz with rfl | rfl <;> simp [GivenNorm]) hp hk
  refine ⟨_, _, σ, rfl, noiseDelta_two hv, h1, ?_⟩
  rw [mul_pow, h2]
  rcases hz with rfl | rfl
  all_goals norm_num at S ⊢; exact S

/-- **C93, the best weight.**  Norms 7 and 15: no other weight gives a smaller variance than `weight_from_g` of the scaled
correlation (its real part). -/
theorem C93_optimal (hz : z = 7 ∨ z = 15) (hp : Prepared (effNorm norm (effMethod method n) true) (z - 1))
    (weight0 weight : List ℝ) (hw0 : weight0.length = n') (hw : weight.length = n') (s δ w : ℝ)
    (hs : scaleFactor (some (.two v1 v2)) = .ok s) (hδ : noiseDelta (.two v1 v2) true = some δ)
    (hk0 : weight0[k]? = some (weightFromGC ((1 / s) • c) δ).re) (hk : weight[k]? = some w) :
    ∃ u0 u, SpreadIn μ (fun ω => ccorrWeighted ((frameTimes N1 t1).map (x1 ω)) ((frameTimes N2 t2).map (x2 ω)) t1 t2
        n norm method aligned bg (some (.two v1 v2)) z "corr" false weight0) k c.re u0 ∧
      SpreadIn μ (fun ω => ccorrWeighted ((frameTimes N1 t1).map (x1 ω)) ((frameTimes N2 t2).map (x2 ω)) t1 t2
        n norm method aligned bg (some (.two v1 v2)) z "corr" false weight) k c.re u ∧
      u0 ≤ u ∧ (w ≠ (weightFromGC ((1 / s) • c) δ).re → u0 < u) := by
  have hs' := Except.ok.inj hs
  rw [noiseDelta_two hv] at hδ
  have hδ' := Option.some.inj hδ
  have S := spread_weighted t1 t2 N1 N2 n norm method aligned n' bg call hd z hb1 hb2 hv k hocc hC hI (by omega) hp
  have S0 := S weight0 hw0 _ hk0 false
  have S1 := S weight hw _ hk false
  simp only [Bool.false_eq_true, if_false, div_one, one_pow] at S0 S1
  refine ⟨_, _, S0, S1, ?_⟩
  obtain ⟨a, ha, b, hb, hab⟩ := hocc
  have hne := pairsAt_times_ne false N1 N2 t1 t2 n' k a b ha hb (by simpa using hab)
  have hl : (0 : ℝ) < (pairsAt false (stream (frameTimes N1 t1) t1) (stream (frameTimes N2 t2) t2) n' k).length := by
    rw [Nat.cast_pos]; exact List.length_pos_of_ne_nil hne
  have e : ∀ w, pairArg (z - 2) w m1 m2 v1 v2 c = sigmaArg w ((1 / s) • c) δ := fun w => by
    rw [pairArg, if_neg (by omega), two_div_eq, hs', hδ']
  rw [e, e]
  obtain ⟨o1, o2⟩ := C25_optimal_complex ((1 / s) • c) δ w
  have hp2 : 0 < ((v1 + v2) / 2) ^ 2 := by positivity
  refine ⟨?_, fun h => ?_⟩
  · exact div_le_div_of_nonneg_right (mul_le_mul_of_nonneg_left o1 hp2.le) hl.le
  · exact div_lt_div_of_pos_right (mul_lt_mul_of_pos_left (o2 h) hp2) hl

/-- **C93, the best weight with background.**  Norm 3: `weight_prime_from_g` of the conjugate of the scaled correlation and
the scaled backgrounds. -/
theorem C93_optimal_baseline_partial (hp : Prepared (effNorm norm (effMethod method n) true) 2)
    (weight0 weight : List ℝ) (hw0 : weight0.length = n') (hw : weight.length = n') (s δ w : ℝ)
    (hs : scaleFactor (some (.two v1 v2)) = .ok s) (hδ : noiseDelta (.two v1 v2) true = some δ) (hk : weight[k]? = some w)
    (hk0 : weight0[k]? = weightPrimeFromG ((1 / s) • c.conj) δ ((1 / Real.sqrt s) • m1) ((1 / Real.sqrt s) • m2)) :
    ∃ w0 u0 u, weight0[k]? = some w0 ∧
      SpreadIn μ (fun ω => ccorrWeighted ((frameTimes N1 t1).map (x1 ω)) ((frameTimes N2 t2).map (x2 ω)) t1 t2
        n norm method aligned bg (some (.two v1 v2)) 3 "corr" false weight0) k c.re u0 ∧
      SpreadIn μ (fun ω => ccorrWeighted ((frameTimes N1 t1).map (x1 ω)) ((frameTimes N2 t2).map (x2 ω)) t1 t2
        n norm method aligned bg (some (.two v1 v2)) 3 "corr" false weight) k c.re u ∧
      u0 ≤ u ∧ (w ≠ w0 → u0 < u) := by
  obtain ⟨a, ha, b, hb, hab⟩ := id hocc
  have hs' := Except.ok.inj hs
  rw [noiseDelta_two hv] at hδ
  have hδ' := Option.some.inj hδ
  have hcs := circular_cauchy (hC a ha b hb hab) hv
  have hbd := scaled_bound c.conj v1 v2 hv (by simpa [Cx.abs2] using hcs)
  rw [hs', hδ'] at hbd
  obtain ⟨w0, hw0', ho⟩ := C25_prime_partial _ _ ((1 / Real.sqrt s) • m1) ((1 / Real.sqrt s) • m2) hbd
  rw [hw0'] at hk0
  have S := spread_weighted t1 t2 N1 N2 n norm method aligned n' bg call hd 3 hb1 hb2 hv k hocc hC hI (by omega) hp
  have S0 := S weight0 hw0 _ hk0 false
  have S1 := S weight hw _ hk false
  simp only [Bool.false_eq_true, if_false, div_one, one_pow] at S0 S1
  refine ⟨w0, _, _, hk0, S0, S1, ?_⟩
  have hne := pairsAt_times_ne false N1 N2 t1 t2 n' k a b ha hb (by simpa using hab)
  have hl : (0 : ℝ) < (pairsAt false (stream (frameTimes N1 t1) t1) (stream (frameTimes N2 t2) t2) n' k).length := by
    rw [Nat.cast_pos]; exact List.length_pos_of_ne_nil hne
  have e : ∀ w, pairArg (3 - 2) w m1 m2 v1 v2 c =
      sigmaPrimeArg w ((1 / s) • c.conj) δ ((1 / Real.sqrt s) • m1) ((1 / Real.sqrt s) • m2) := fun w => by
    rw [pairArg, if_pos (by decide), two_div_eq, hs', hδ']
  rw [e, e]
  obtain ⟨o1, o2⟩ := ho w
  have hp2 : 0 < ((v1 + v2) / 2) ^ 2 := by positivity
  refine ⟨?_, fun h => ?_⟩
  · exact div_le_div_of_nonneg_right (mul_le_mul_of_nonneg_left o1 hp2.le) hl.le
  · exact div_lt_div_of_pos_right (mul_lt_mul_of_pos_left (o2 h) hp2) hl

end cross

end

end Cddm
