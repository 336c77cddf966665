import Verif.Lemmas.ProcessM
import Verif.Props.UnbiasedMulti

/-!
# C89: normalised correlation data are unbiased estimates, on any probability space

As C82 and C83, for signals with finite second moments on any probability space, that need be stationary only at the
times of the frames.
-/

namespace Cddm
open Spec MeasureTheory
open scoped BigOperators

/-- The value of a normalised correlation at a delay that occurs, for any signals. -/
theorem ccorr_value (X1 X2 : Int → Cx ℝ) (t1 t2 : Option (List Int)) (N1 N2 : Nat) (n : Option Nat)
    (norm : Option Int) (method : Option String) (aligned : Bool) (n' : Nat) (bg : Background) (v : Variance)
    (call : CrossCall false (frameTimes N1 t1).length (frameTimes N2 t2).length t1 t2 n norm method n')
    (hd : effMethod method n ≠ "diff") (z : Int) (hz : GivenNorm z)
    (hp : Prepared (effNorm norm (effMethod method n) true) z) (k : Nat) (hk : k < n')
    (hne : pairsAt false (stream (frameTimes N1 t1) t1) (stream (frameTimes N2 t2) t2) n' k ≠ []) :
    ∃ out, ccorrNormalized ((frameTimes N1 t1).map X1) ((frameTimes N2 t2).map X2) t1 t2
      n norm method aligned bg (some v) z "corr" false = .ok out ∧
      out[k]? = some (some (crossFormula bg v.offset z ((pairsAt false (stream (frameTimes N1 t1) t1)
        (stream (frameTimes N2 t2) t2) n' k).map (Prod.map X1 X2)))) := by
  obtain ⟨out, e, hc⟩ := ccorr_formula ((frameTimes N1 t1).map X1) ((frameTimes N2 t2).map X2) t1 t2 n norm
    method aligned n' bg v (by simpa using call) hd z hz hp
  refine ⟨out, e, ?_⟩
  have := (hc.2 k hk).2
  rw [pairsAt_stream_map] at this
  exact this (by simpa using hne)

theorem blocks_mem {α : Type} {m : Nat} {x A : List α} (h : A ∈ blocks m x) {a : α} (ha : a ∈ A) : a ∈ x := by
  obtain ⟨b, -, rfl⟩ := List.mem_map.mp h
  exact List.mem_of_mem_drop (List.mem_of_mem_take ha)

theorem finePairs_mem {α : Type} {m : Nat} {f1 f2 : List α} {n k : Nat} (q : α × α) (hq : q ∈ finePairs m f1 f2 n k) :
    q.1 ∈ f1 ∧ q.2 ∈ f2 := by
  unfold finePairs at hq
  obtain ⟨p, hp, hq⟩ := List.mem_flatMap.mp hq
  obtain ⟨q1, q2⟩ := List.mem_product.mp hq
  unfold pairsAt at hp
  obtain ⟨r, hr, rfl⟩ := List.mem_map.mp hp
  obtain ⟨r1, r2⟩ := List.mem_product.mp (List.mem_filter.mp hr).1
  have h1 : ∀ (l : List (List α)) (s : Int × List α), s ∈ regular l → s.2 ∈ l := by
    intro l s hs
    simp only [regular, List.mem_mapIdx] at hs
    obtain ⟨i, hi, rfl⟩ := hs
    exact List.getElem_mem hi
  exact ⟨blocks_mem (h1 _ _ r1) q1, blocks_mem (h1 _ _ r2) q2⟩

section
variable {Ω : Type} [MeasurableSpace Ω] {μ : Measure Ω} {T1 T2 : Int → Prop} {x1 x2 : Ω → Int → Cx ℝ} {m1 m2 : Cx ℝ}
  {v1 v2 : ℝ} {G : Int → Cx ℝ}

/-- What a norm makes of pairs of samples has the mean of the covariance, for true backgrounds and variance. -/
theorem hasMean_formula (h : StationaryAt μ T1 T2 x1 x2 m1 m2 v1 v2 G) (c1 c2 : List (Cx ℝ × Cx ℝ) → Cx ℝ)
    (z : Int) (hz : GivenNorm z) (Q : List (Int × Int)) (hQ : Q ≠ []) (hT : ∀ q ∈ Q, T1 q.1 ∧ T2 q.2) :
    HasMean μ (fun ω => normFormula m1 m2 (c1 (Q.map (Prod.map (x1 ω) (x2 ω)))) (c2 (Q.map (Prod.map (x1 ω) (x2 ω))))
      ((v1 + v2) / 2) z (Q.map (Prod.map (x1 ω) (x2 ω)))) (mean (fun a b => (G (b - a)).re) Q) := by
  have hp := h.prob
  have hl : (Q.length : ℝ) ≠ 0 := by
    rw [Nat.cast_ne_zero]; intro h0; exact hQ (List.length_eq_zero_iff.mp h0)
  have lin : ∀ (α β : ℝ), mean (fun a b => α + β * (G (b - a)).re) Q = α + β * mean (fun a b => (G (b - a)).re) Q := by
    intro α β
    unfold mean total
    rw [List.sum_map_add, List.sum_map_mul_left, List.map_const', List.sum_replicate]
    simp only [smul_eq_mul, nsmul_eq_mul]
    field_simp
  have F := fun q hq => stationaryAt_forms h (hT q hq).1 (hT q hq).2
  simp only [GivenNorm, List.mem_cons, List.not_mem_nil, or_false] at hz
  rcases hz with rfl | rfl | rfl | rfl | rfl | rfl
  · simp only [normFormula, if_true, mean_map]
    refine hasMean_congr (hasMean_sub (hasMean_mean (fun ω a b => reProd (x1 ω a) (x2 ω b)) Q
      (fun a b => reProd m1 m2 + 1 * (G (b - a)).re) (fun q hq => ?_)) (hasMean_const (reProd m1 m2))) (fun _ => rfl) ?_
    · rw [one_mul, add_comm]; exact (F q hq).2.1.1
    · rw [lin]; ring
  · simp only [normFormula, mean_map, show ((2 : Int) = 1) = False by decide, if_false, if_true]
    refine hasMean_congr (hasMean_add (hasMean_sub (hasMean_const ((v1 + v2) / 2)) (hasMean_mul (1 / 2) (hasMean_mean
      (fun ω a b => dist2 (x1 ω a) (x2 ω b)) Q (fun a b => (v1 + v2 + dist2 m1 m2) + (-2) * (G (b - a)).re)
      (fun q hq => ?_)))) (hasMean_const (1 / 2 * dist2 m1 m2))) (fun _ => rfl) ?_
    · exact hasMean_congr (F q hq).2.2.2.1 (fun _ => rfl) (by ring)
    · rw [lin]; ring
  · simp only [normFormula, mean_map, show ((5 : Int) = 1) = False by decide, show ((5 : Int) = 2) = False by decide, if_false, true_or, if_true]
    exact hasMean_mean (fun ω a b => reProd (x1 ω a - m1) (x2 ω b - m2)) Q _ fun q hq => (F q hq).1.1
  · simp only [normFormula, mean_map, show ((13 : Int) = 1) = False by decide, show ((13 : Int) = 2) = False by decide, if_false, or_true, if_true]
    exact hasMean_mean (fun ω a b => reProd (x1 ω a - m1) (x2 ω b - m2)) Q _ fun q hq => (F q hq).1.1
  · simp only [normFormula, mean_map, show ((6 : Int) = 1) = False by decide, show ((6 : Int) = 2) = False by decide, show ((6 : Int) = 5) = False by decide, show ((6 : Int) = 13) = False by decide, or_self, if_false, true_or, if_true]
    refine hasMean_congr (hasMean_sub (hasMean_const ((v1 + v2) / 2)) (hasMean_mul (1 / 2) (hasMean_mean
      (fun ω a b => dist2 (x1 ω a - m1) (x2 ω b - m2)) Q (fun a b => (v1 + v2) + (-2) * (G (b - a)).re)
      (fun q hq => ?_)))) (fun _ => rfl) ?_
    · exact hasMean_congr (F q hq).2.2.1.1 (fun _ => rfl) (by ring)
    · rw [lin]; ring
  · simp only [normFormula, mean_map, show ((14 : Int) = 1) = False by decide, show ((14 : Int) = 2) = False by decide, show ((14 : Int) = 5) = False by decide, show ((14 : Int) = 13) = False by decide, show ((14 : Int) = 6) = False by decide, or_self, if_false, or_true, if_true]
    refine hasMean_congr (hasMean_sub (hasMean_const ((v1 + v2) / 2)) (hasMean_mul (1 / 2) (hasMean_mean
      (fun ω a b => dist2 (x1 ω a - m1) (x2 ω b - m2)) Q (fun a b => (v1 + v2) + (-2) * (G (b - a)).re)
      (fun q hq => ?_)))) (fun _ => rfl) ?_
    · exact hasMean_congr (F q hq).2.2.1.1 (fun _ => rfl) (by ring)
    · rw [lin]; ring

theorem stream_times_mem {N : Nat} {t : Option (List Int)} {a : Int × Int} (h : a ∈ stream (frameTimes N t) t) :
    a.2 ∈ frameTimes N t := by
  obtain ⟨e, m⟩ := (mem_stream_times N t a).mp h
  rwa [← e]

theorem pairsAt_times_mem (full : Bool) (N1 N2 : Nat) (t1 t2 : Option (List Int)) (L k : Nat) (q : Int × Int)
    (hq : q ∈ pairsAt full (stream (frameTimes N1 t1) t1) (stream (frameTimes N2 t2) t2) L k) :
    q.1 ∈ frameTimes N1 t1 ∧ q.2 ∈ frameTimes N2 t2 := by
  unfold pairsAt at hq
  obtain ⟨r, hr, rfl⟩ := List.mem_map.mp hq
  have hr1 : r ∈ stream (frameTimes N1 t1) t1 ×ˢ stream (frameTimes N2 t2) t2 := by
    cases full
    · exact (List.mem_filter.mp hr).1
    · exact (List.mem_filter.mp hr).1
  have hr' := List.mem_product.mp hr1
  exact ⟨stream_times_mem (a := r.1) hr'.1, stream_times_mem (a := r.2) hr'.2⟩

/-- **C89.**  Two random signals on any probability space, stationary at the times of the frames; the frames are taken at
any times and correlated by any method except 'diff' (below); backgrounds and variances are the true ones.  Whatever the
norm, the mean of the normalised correlation at every delay that occurs between the frames is the covariance at that delay
(real part, the same for both signs of the delay). -/
theorem C89_cross (t1 t2 : Option (List Int)) (N1 N2 : Nat)
    (h : StationaryAt μ (· ∈ frameTimes N1 t1) (· ∈ frameTimes N2 t2) x1 x2 m1 m2 v1 v2 G) (n : Option Nat)
    (norm : Option Int) (method : Option String) (aligned : Bool) (n' : Nat) (bg : Background) (v : Variance)
    (call : CrossCall false (frameTimes N1 t1).length (frameTimes N2 t2).length t1 t2 n norm method n')
    (hd : effMethod method n ≠ "diff") (z : Int) (hz : GivenNorm z)
    (hp : Prepared (effNorm norm (effMethod method n) true) z)
    (hb1 : bg.fst = m1) (hb2 : bg.snd = m2) (hv : v.offset = (v1 + v2) / 2)
    (k : Nat) (hk : k < n') (hs : (G (-k)).re = (G k).re)
    (hocc : ∃ a ∈ frameTimes N1 t1, ∃ b ∈ frameTimes N2 t2, |b - a| = (k : Int)) :
    ExpectedIn μ (fun ω => ccorrNormalized ((frameTimes N1 t1).map (x1 ω)) ((frameTimes N2 t2).map (x2 ω)) t1 t2
      n norm method aligned bg (some v) z "corr" false) k (G k).re := by
  obtain ⟨a, ha, b, hb, hab⟩ := hocc
  have hne := pairsAt_times_ne false N1 N2 t1 t2 n' k a b ha hb (by simpa using hab)
  refine ⟨fun ω => crossFormula bg v.offset z ((pairsAt false (stream (frameTimes N1 t1) t1) (stream (frameTimes N2 t2) t2)
    n' k).map (Prod.map (x1 ω) (x2 ω))), fun ω => ccorr_value (x1 ω) (x2 ω) t1 t2 N1 N2 n norm method aligned n' bg v call hd
      z hz hp k hk hne, ?_⟩
  simp only [crossFormula, hb1, hb2, hv]
  refine hasMean_congr (hasMean_formula h _ _ z hz _ hne (pairsAt_times_mem false N1 N2 t1 t2 n' k)) (fun _ => rfl)
    (mean_const _ _ hne _ fun q hq => ?_).symm
  have := mem_pairsAt_times false N1 N2 t1 t2 n' k q hq
  simp only [Bool.false_eq_true, if_false] at this
  rcases (abs_eq (by positivity)).mp this with e | e
  · rw [e]
  · rw [e, hs]

/-- **C89, method 'diff'.** -/
theorem C89_difference (t1 t2 : Option (List Int)) (N1 N2 : Nat)
    (h : StationaryAt μ (· ∈ frameTimes N1 t1) (· ∈ frameTimes N2 t2) x1 x2 m1 m2 v1 v2 G) (n : Option Nat)
    (norm : Option Int) (aligned : Bool) (n' : Nat) (bg : Background) (v : Variance)
    (call : CrossCall false (frameTimes N1 t1).length (frameTimes N2 t2).length t1 t2 n norm (some "diff") n')
    (z : Int) (hz : z = 2 ∨ (z = 6 ∧ AskSums norm (some "diff") n true))
    (hb1 : bg.fst = m1) (hb2 : bg.snd = m2) (hv : v.offset = (v1 + v2) / 2)
    (k : Nat) (hk : k < n') (hs : (G (-k)).re = (G k).re)
    (hocc : ∃ a ∈ frameTimes N1 t1, ∃ b ∈ frameTimes N2 t2, |b - a| = (k : Int)) :
    ExpectedIn μ (fun ω => ccorrNormalized ((frameTimes N1 t1).map (x1 ω)) ((frameTimes N2 t2).map (x2 ω)) t1 t2
      n norm (some "diff") aligned bg (some v) z "corr" false) k (G k).re := by
  obtain ⟨a, ha, b, hb, hab⟩ := hocc
  have hne := pairsAt_times_ne false N1 N2 t1 t2 n' k a b ha hb (by simpa using hab)
  refine ⟨fun ω => crossFormula bg v.offset z ((pairsAt false (stream (frameTimes N1 t1) t1) (stream (frameTimes N2 t2) t2)
    n' k).map (Prod.map (x1 ω) (x2 ω))), fun ω => ?_, ?_⟩
  · obtain ⟨out, e, hc⟩ := ccorr_diff_formula ((frameTimes N1 t1).map (x1 ω)) ((frameTimes N2 t2).map (x2 ω)) t1 t2 n norm
      aligned n' bg v (by simpa using call) z hz
    refine ⟨out, e, ?_⟩
    have := (hc.2 k hk).2
    rw [pairsAt_stream_map] at this
    exact this (by simpa using hne)
  · have hg : GivenNorm z := by rcases hz with rfl | ⟨rfl, -⟩ <;> simp [GivenNorm]
    simp only [crossFormula, hb1, hb2, hv]
    refine hasMean_congr (hasMean_formula h _ _ z hg _ hne (pairsAt_times_mem false N1 N2 t1 t2 n' k)) (fun _ => rfl)
      (mean_const _ _ hne _ fun q hq => ?_).symm
    have := mem_pairsAt_times false N1 N2 t1 t2 n' k q hq
    simp only [Bool.false_eq_true, if_false] at this
    rcases (abs_eq (by positivity)).mp this with e | e
    · rw [e]
    · rw [e, hs]

/-- **C89, complex output.**  Cell `k` of the complex data estimates the complex covariance at the signed delay of that
cell, without any symmetry assumption. -/
theorem C89_cross_complex (t1 t2 : Option (List Int)) (N1 N2 : Nat)
    (h : StationaryAt μ (· ∈ frameTimes N1 t1) (· ∈ frameTimes N2 t2) x1 x2 m1 m2 v1 v2 G) (n : Option Nat)
    (norm : Option Int) (method : Option String) (aligned : Bool) (n' : Nat) (bg : Background) (v : Variance)
    (call : CrossCall true (frameTimes N1 t1).length (frameTimes N2 t2).length t1 t2 n norm method n')
    (z : Int) (hz : GivenNorm z)
    (hp : Prepared (effNorm norm (effMethod method n) true) z)
    (hb1 : bg.fst = m1) (hb2 : bg.snd = m2) (hv : v.offset = (v1 + v2) / 2)
    (k : Nat) (hk : k < 2 * n' - 1)
    (hocc : ∃ a ∈ frameTimes N1 t1, ∃ b ∈ frameTimes N2 t2, b - a = cellDelay (2 * n' - 1) k) :
    ExpectedInC μ (fun ω => ccorrNormalizedC ((frameTimes N1 t1).map (x1 ω)) ((frameTimes N2 t2).map (x2 ω)) t1 t2
      n norm method aligned bg (some v) z "corr" false) k (G (cellDelay (2 * n' - 1) k)) := by
  have hprob := h.prob
  obtain ⟨a, ha, b, hb, hab⟩ := hocc
  have hne := pairsAt_times_ne true N1 N2 t1 t2 (2 * n' - 1) k a b ha hb (by simpa using hab)
  have key : ∀ q ∈ pairsAt true (stream (frameTimes N1 t1) t1) (stream (frameTimes N2 t2) t2) (2 * n' - 1) k,
      q.2 - q.1 = cellDelay (2 * n' - 1) k := fun q hq => by
    simpa using mem_pairsAt_times true N1 N2 t1 t2 (2 * n' - 1) k q hq
  have F : ∀ q ∈ pairsAt true (stream (frameTimes N1 t1) t1) (stream (frameTimes N2 t2) t2) (2 * n' - 1) k, _ :=
    fun q hq => stationaryAt_forms h (pairsAt_times_mem true N1 N2 t1 t2 (2 * n' - 1) k q hq).1
      (pairsAt_times_mem true N1 N2 t1 t2 (2 * n' - 1) k q hq).2
  have main : ∀ F : List (Cx ℝ × Cx ℝ) → Cx ℝ,
      (∀ ω, ∃ out, ccorrNormalizedC ((frameTimes N1 t1).map (x1 ω)) ((frameTimes N2 t2).map (x2 ω)) t1 t2
        n norm method aligned bg (some v) z "corr" false = .ok out ∧
        IsCurve (2 * n' - 1) (pairsAt true (stream ((frameTimes N1 t1).map (x1 ω)) t1)
          (stream ((frameTimes N2 t2).map (x2 ω)) t2) (2 * n' - 1)) F out) →
      HasMean μ (fun ω => (F ((pairsAt true (stream (frameTimes N1 t1) t1) (stream (frameTimes N2 t2) t2)
        (2 * n' - 1) k).map (Prod.map (x1 ω) (x2 ω)))).re) (G (cellDelay (2 * n' - 1) k)).re →
      HasMean μ (fun ω => (F ((pairsAt true (stream (frameTimes N1 t1) t1) (stream (frameTimes N2 t2) t2)
        (2 * n' - 1) k).map (Prod.map (x1 ω) (x2 ω)))).im) (G (cellDelay (2 * n' - 1) k)).im →
      ExpectedInC μ (fun ω => ccorrNormalizedC ((frameTimes N1 t1).map (x1 ω)) ((frameTimes N2 t2).map (x2 ω))
        t1 t2 n norm method aligned bg (some v) z "corr" false) k (G (cellDelay (2 * n' - 1) k)) := by
    intro F h1 h2 h3
    refine ⟨_, fun ω => ?_, h2.1, h3.1, ?_⟩
    · obtain ⟨out, e, hc⟩ := h1 ω
      refine ⟨out, e, ?_⟩
      have := (hc.2 k hk).2
      rw [pairsAt_stream_map] at this
      exact this (by simpa using hne)
    · exact Cx.ext h2.2 h3.2
  have call' : ∀ ω, CrossCall true ((frameTimes N1 t1).map (x1 ω)).length ((frameTimes N2 t2).map (x2 ω)).length t1 t2
      n norm method n' := fun ω => by simpa using call
  generalize hP : pairsAt true (stream (frameTimes N1 t1) t1) (stream (frameTimes N2 t2) t2) (2 * n' - 1) k = P at *
  generalize hD : cellDelay (2 * n' - 1) k = d at *
  have M := fun (g : Ω → Int → Int → ℝ) (y : ℝ) (hg : ∀ q ∈ P, HasMean μ (fun ω => g ω q.1 q.2) y) =>
    hasMean_mean_const g P hne y hg
  have f1 := fun q hq => by
    have := F q hq
    rw [key q hq] at this
    exact this
  simp only [GivenNorm, List.mem_cons, List.not_mem_nil, or_false] at hz
  rcases hz with rfl | rfl | rfl | rfl | rfl | rfl
  · refine main _ (fun ω => C21_standard_complex _ _ t1 t2 n norm method aligned n' bg (some v) (call' ω) _ rfl) ?_ ?_
    · simp only [hb1, hb2, mean_map, Cx.sub_re, (mean_re _ _).1]
      exact hasMean_congr (hasMean_sub (M (fun ω a b => (cxProd (x1 ω a) (x2 ω b)).re) _ fun q hq => (f1 q hq).2.1.1)
        (hasMean_const _)) (fun _ => rfl) (add_sub_cancel_right _ _).symm
    · simp only [hb1, hb2, mean_map, Cx.sub_im, (mean_re _ _).2]
      exact hasMean_congr (hasMean_sub (M (fun ω a b => (cxProd (x1 ω a) (x2 ω b)).im) _ fun q hq => (f1 q hq).2.1.2)
        (hasMean_const _)) (fun _ => rfl) (add_sub_cancel_right _ _).symm
  · refine main _ (fun ω => C22_cross_complex _ _ t1 t2 n norm method aligned n' bg v (call' ω) _ rfl (hp.1 (by decide))) ?_ ?_
    · simp only [hb1, hb2, hv, mean_map]
      exact hasMean_congr (hasMean_add (hasMean_sub (hasMean_const _) (hasMean_mul _
        (M (fun ω a b => dist2 (x1 ω a) (x2 ω b)) _ fun q hq => (f1 q hq).2.2.2.1))) (hasMean_const _)) (fun _ => rfl)
        (by ring)
    · simp only [hb1, hb2, hv, mean_map]
      exact hasMean_congr (hasMean_add (hasMean_sub (hasMean_const _) (hasMean_mul _
        (M (fun ω a b => dist2 (Cx.I * x1 ω a) (x2 ω b)) _ fun q hq => (f1 q hq).2.2.2.2))) (hasMean_const _)) (fun _ => rfl)
        (by ring)
  · refine main _ (fun ω => C21_cross_complex _ _ t1 t2 n norm method aligned n' bg (some v) (call' ω) _ rfl
      (hp.2 (by decide) (by decide)) 5 (by decide)) ?_ ?_
    · simp only [hb1, hb2, mean_map, (mean_re _ _).1]
      exact M (fun ω a b => (cxProd (x1 ω a - m1) (x2 ω b - m2)).re) _ fun q hq => (f1 q hq).1.1
    · simp only [hb1, hb2, mean_map, (mean_re _ _).2]
      exact M (fun ω a b => (cxProd (x1 ω a - m1) (x2 ω b - m2)).im) _ fun q hq => (f1 q hq).1.2
  · refine main _ (fun ω => C21_cross_complex _ _ t1 t2 n norm method aligned n' bg (some v) (call' ω) _ rfl
      (hp.2 (by decide) (by decide)) 13 (by decide)) ?_ ?_
    · simp only [hb1, hb2, mean_map, (mean_re _ _).1]
      exact M (fun ω a b => (cxProd (x1 ω a - m1) (x2 ω b - m2)).re) _ fun q hq => (f1 q hq).1.1
    · simp only [hb1, hb2, mean_map, (mean_re _ _).2]
      exact M (fun ω a b => (cxProd (x1 ω a - m1) (x2 ω b - m2)).im) _ fun q hq => (f1 q hq).1.2
  · refine main _ (fun ω => C22_cross_complex_subtracted _ _ t1 t2 n norm method aligned n' bg v (call' ω) _ rfl
      (hp.1 (by decide)) (hp.2 (by decide) (by decide)) 6 (by decide)) ?_ ?_
    · simp only [hb1, hb2, hv, mean_map]
      exact hasMean_congr (hasMean_sub (hasMean_const _) (hasMean_mul _
        (M (fun ω a b => dist2 (x1 ω a - m1) (x2 ω b - m2)) _ fun q hq => (f1 q hq).2.2.1.1))) (fun _ => rfl) (by ring)
    · simp only [hb1, hb2, hv, mean_map]
      exact hasMean_congr (hasMean_sub (hasMean_const _) (hasMean_mul _
        (M (fun ω a b => dist2 (Cx.I * (x1 ω a - m1)) (x2 ω b - m2)) _ fun q hq => (f1 q hq).2.2.1.2))) (fun _ => rfl) (by ring)
  · refine main _ (fun ω => C22_cross_complex_subtracted _ _ t1 t2 n norm method aligned n' bg v (call' ω) _ rfl
      (hp.1 (by decide)) (hp.2 (by decide) (by decide)) 14 (by decide)) ?_ ?_
    · simp only [hb1, hb2, hv, mean_map]
      exact hasMean_congr (hasMean_sub (hasMean_const _) (hasMean_mul _
        (M (fun ω a b => dist2 (x1 ω a - m1) (x2 ω b - m2)) _ fun q hq => (f1 q hq).2.2.1.1))) (fun _ => rfl) (by ring)
    · simp only [hb1, hb2, hv, mean_map]
      exact hasMean_congr (hasMean_sub (hasMean_const _) (hasMean_mul _
        (M (fun ω a b => dist2 (Cx.I * (x1 ω a - m1)) (x2 ω b - m2)) _ fun q hq => (f1 q hq).2.2.1.2))) (fun _ => rfl) (by ring)

/-- **C89, multiple tau.**  Cell `k` of slow level `j` estimates the mean of the covariance over all pairs of times out of
blocks of `2^(j+1)` frames at block distance `k`, at any times. -/
theorem C89_multi_times (t1 t2 : Option (List Int)) (N1 N2 n : Nat)
    (h : StationaryAt μ (· ∈ frameTimes N1 t1) (· ∈ frameTimes N2 t2) x1 x2 m1 m2 v1 v2 G)
    (norm : Option Int) (method : Option String) (period : Nat) (binning : Option Int)
    (al : Nat → Bool) (r : Nat → ℚ) (m : String) (v : Int)
    (hm : m = method.getD "corr") (hm' : m = "corr" ∨ m = "fft") (hb : binning.getD 1 = 1)
    (hv : v = effNorm norm m true)
    (hargs : CrossArgs m v (frameTimes N1 t1).length (frameTimes N2 t2).length t1 t2 (period * n)) (hn : 5 ≤ n)
    (bg : Background) (var : Variance) (z : Int) (hz : GivenNorm z) (hp : Prepared v z)
    (hb1 : bg.fst = m1) (hb2 : bg.snd = m2) (hvar : var.offset = (v1 + v2) / 2)
    (j : Nat) (hj : n ≤ (frameTimes N1 t1).length / 2 ^ (j + 1)) (k : Nat) (hk : k < n)
    (hne : finePairs (2 ^ (j + 1)) (frameTimes N1 t1) (frameTimes N2 t2) n k ≠ []) :
    ExpectedIn μ (fun ω => (ccorrMultiNormalized ((frameTimes N1 t1).map (x1 ω)) ((frameTimes N2 t2).map (x2 ω))
        t1 t2 n norm method period binning none al r bg (some var) z "corr" false).map fun o => o.2.getD j []) k
      (mean (fun a b => (G (b - a)).re) (finePairs (2 ^ (j + 1)) (frameTimes N1 t1) (frameTimes N2 t2) n k)) := by
  refine ⟨fun ω => crossFormula bg var.offset z ((finePairs (2 ^ (j + 1)) (frameTimes N1 t1) (frameTimes N2 t2) n k).map
    (Prod.map (x1 ω) (x2 ω))), fun ω => ?_, ?_⟩
  · obtain ⟨nl, lin, levels, -, h2, e, -, hc⟩ := C79_cross_mean ((frameTimes N1 t1).map (x1 ω))
      ((frameTimes N2 t2).map (x2 ω)) t1 t2 n norm method period binning al r m v hm hm' hb hv (by simpa using hargs) hn
      (by rw [List.length_map]; exact le_trans hj (Nat.div_le_self _ _)) bg var z (given_plain hz) hp
    rw [List.length_map] at h2
    have hjl := level_lt h2 hj
    refine ⟨levels j, ?_, ?_⟩
    · beta_reduce
      rw [e]
      simp [Except.map, List.getD_eq_getElem?_getD, List.getElem?_range hjl]
    · have := ((hc j hjl).2 k hk).2
      rw [finePairs_map] at this
      exact this (by simpa using hne)
  · simp only [crossFormula, hb1, hb2, hvar]
    exact hasMean_formula h _ _ z hz _ hne fun q hq => finePairs_mem q hq

/-- **C89, multiple tau, regular frames.**  The covariance smeared triangularly over `±2^(j+1)`. -/
theorem C89_multi (N n : Nat)
    (h : StationaryAt μ (· ∈ frameTimes N none) (· ∈ frameTimes N none) x1 x2 m1 m2 v1 v2 G)
    (hs : ∀ d, (G (-d)).re = (G d).re)
    (norm : Option Int) (method : Option String) (period : Nat) (binning : Option Int)
    (al : Nat → Bool) (r : Nat → ℚ) (m : String) (v : Int)
    (hm : m = method.getD "corr") (hm' : m = "corr" ∨ m = "fft") (hb : binning.getD 1 = 1)
    (hv : v = effNorm norm m true)
    (hargs : CrossArgs m v N N none none (period * n)) (hn : 5 ≤ n)
    (bg : Background) (var : Variance) (z : Int) (hz : GivenNorm z) (hp : Prepared v z)
    (hb1 : bg.fst = m1) (hb2 : bg.snd = m2) (hvar : var.offset = (v1 + v2) / 2)
    (j : Nat) (hj : n ≤ N / 2 ^ (j + 1)) (k : Nat) (hk : k < n) :
    ExpectedIn μ (fun ω => (ccorrMultiNormalized ((frameTimes N none).map (x1 ω)) ((frameTimes N none).map (x2 ω))
        none none n norm method period binning none al r bg (some var) z "corr" false).map fun o => o.2.getD j []) k
      (smeared (fun d => (G d).re) (2 ^ (j + 1)) k) := by
  have hl : (frameTimes N none).length = N := by simp [frameTimes]
  obtain ⟨e1, e2⟩ := mean_finePairs (fun d => (G d).re) hs N (2 ^ (j + 1)) n k (Nat.two_pow_pos _).ne' (by omega)
  rw [← e1]
  exact C89_multi_times none none N N n h norm method period binning al r m v hm hm' hb hv (by rw [hl]; exact hargs) hn bg
    var z hz hp hb1 hb2 hvar j (by rw [hl]; exact hj) k hk e2

end

section auto
variable {Ω : Type} [MeasurableSpace Ω] {μ : Measure Ω} {T : Int → Prop} {x : Ω → Int → Cx ℝ} {m : Cx ℝ}
  {v0 : ℝ} {G : Int → Cx ℝ}

theorem stationaryAt_even (h : StationaryAt μ T T x x m m v0 v0 G) {a b : Int} (ha : T a) (hb : T b) :
    (G (a - b)).re = (G (b - a)).re := by
  rw [← (stationaryAt_forms h hb ha).1.1.2, ← (stationaryAt_forms h ha hb).1.1.2]
  congr 1
  funext ω
  simp [reProd]; ring

/-- **C89, one signal.** -/
theorem C89_auto (t : Option (List Int)) (N : Nat)
    (h : StationaryAt μ (· ∈ frameTimes N t) (· ∈ frameTimes N t) x x m m v0 v0 G) (n : Option Nat)
    (norm : Option Int) (method : Option String) (aligned : Bool) (n' : Nat)
    (call : AutoCall (frameTimes N t).length t n norm method n')
    (hd : effMethod method n ≠ "diff") (z : Int) (hz : GivenNorm z)
    (hp : Prepared (effNorm norm (effMethod method n) false) z) (k : Nat) (hk : k < n')
    (hocc : ∃ a ∈ frameTimes N t, ∃ b ∈ frameTimes N t, |b - a| = (k : Int)) :
    ExpectedIn μ (fun ω => acorrNormalized ((frameTimes N t).map (x ω)) t n norm method aligned (.one m)
      (some (.one v0)) z "corr" false) k (G k).re := by
  obtain ⟨a, ha, b, hb, hab⟩ := hocc
  have hne := selfPairsAt_times_ne N t k a b ha hb hab
  have hmem : ∀ q ∈ selfPairsAt (stream (frameTimes N t) t) k, q.1 ∈ frameTimes N t ∧ q.2 ∈ frameTimes N t := by
    intro q hq
    unfold selfPairsAt at hq
    obtain ⟨r, hr, rfl⟩ := List.mem_map.mp hq
    obtain ⟨hr1, -⟩ := List.mem_filter.mp hr
    obtain ⟨h1, h2⟩ := selfPairs_mem hr1
    exact ⟨stream_times_mem (a := r.1) h1, stream_times_mem (a := r.2) h2⟩
  refine ⟨fun ω => autoFormula (.one m) v0 z ((selfPairsAt (stream (frameTimes N t) t) k).map (Prod.map (x ω) (x ω))),
    fun ω => ?_, ?_⟩
  · obtain ⟨out, e, hc⟩ := acorr_formula ((frameTimes N t).map (x ω)) t n norm method aligned n' m (.one v0)
      (by simpa using call) hd z hz hp
    refine ⟨out, e, ?_⟩
    have := (hc.2 k hk).2
    rw [selfPairsAt_stream_map] at this
    exact this (by simpa using hne)
  · have e := hasMean_formula h bothMean bothMean z hz _ hne hmem
    rw [show (v0 + v0) / 2 = v0 by ring] at e
    refine hasMean_congr e (fun _ => rfl) (mean_const _ _ hne _ fun q hq => ?_).symm
    rcases (abs_eq (by positivity)).mp (mem_selfPairsAt_times N t k q hq) with e | e
    · rw [e]
    · rw [← stationaryAt_even h (hmem q hq).1 (hmem q hq).2, ← neg_sub, e, neg_neg]

/-- A result that is transformed linearly. -/
theorem expectedIn_affine [IsProbabilityMeasure μ] (α β : ℝ) (φ : ℝ → ℝ) (hφ : ∀ x, φ x = α * x + β)
    {call call' : Ω → Py (List (Option ℝ))} {k : Nat} {y : ℝ}
    (e : ∀ ω, call' ω = (call ω).map (List.map (Option.map φ))) (h : ExpectedIn μ call k y) :
    ExpectedIn μ call' k (φ y) := by
  obtain ⟨r, h1, h2⟩ := h
  refine ⟨fun ω => φ (r ω), fun ω => ?_, ?_⟩
  · obtain ⟨out, h3, h4⟩ := h1 ω
    exact ⟨_, by rw [e, h3]; rfl, by simp [h4]⟩
  · exact hasMean_congr (hasMean_add (hasMean_mul α h2) (hasMean_const β)) (fun ω => hφ _) (hφ _)

/-- **C89, image structure function and scaling.**  Whatever estimates `y` in mode 'corr' estimates `2 (variance - y)` in
mode 'diff', and with `scale = True` the ratio to the variance. -/
theorem C89_modes [IsProbabilityMeasure μ] (f1 f2 : Ω → List (Cx ℝ)) (t1 t2 : Option (List Int)) (n : Option Nat)
    (norm : Option Int) (method : Option String) (aligned : Bool) (bg : Background) (v : Variance) (z : Int)
    (hz : GivenNorm z) (hv : v.offset ≠ 0) (k : Nat) (y : ℝ)
    (h : ExpectedIn μ (fun ω => ccorrNormalized (f1 ω) (f2 ω) t1 t2 n norm method aligned bg (some v) z "corr" false) k y) :
    ExpectedIn μ (fun ω => ccorrNormalized (f1 ω) (f2 ω) t1 t2 n norm method aligned bg (some v) z "diff" false) k
      (2 * (v.offset - y)) ∧
    ExpectedIn μ (fun ω => ccorrNormalized (f1 ω) (f2 ω) t1 t2 n norm method aligned bg (some v) z "corr" true) k
      (y / v.offset) ∧
    ExpectedIn μ (fun ω => ccorrNormalized (f1 ω) (f2 ω) t1 t2 n norm method aligned bg (some v) z "diff" true) k
      (2 * (1 - y / v.offset)) := by
  have h1 := expectedIn_affine (-2) (2 * v.offset) (fun x => 2 * (v.offset - x)) (fun x => by ring)
    (fun ω => ccorrNormalized_mode (f1 ω) (f2 ω) t1 t2 n norm method aligned bg v z hz) h
  refine ⟨h1, expectedIn_affine (1 / v.offset) 0 (fun x => x / v.offset) (fun x => by ring)
    (fun ω => ccorrNormalized_scale _ _ _ _ _ _ _ _ _ _ _ hz _ hv) h, ?_⟩
  have h2 := expectedIn_affine (1 / v.offset) 0 (fun x => x / v.offset) (fun x => by ring)
    (fun ω => ccorrNormalized_scale _ _ _ _ _ _ _ _ _ _ _ hz "diff" hv) h1
  have e : 2 * (v.offset - y) / v.offset = 2 * (1 - y / v.offset) := by field_simp
  rwa [e] at h2

end auto

end Cddm
