import Verif.Lemmas.Process
import Verif.Props.Norm
import Verif.Props.NormMulti
import Verif.Props.Compensated
import Verif.Props.LogAvg

/-!
# C82: normalised correlation data are unbiased estimates

The signals are random and stationary; the frames are taken at any times.
-/

namespace Cddm
open Spec
open scoped BigOperators

section
variable {Ω : Type} [Fintype Ω] {p : Ω → ℝ} {x1 x2 : Ω → Int → Cx ℝ} {m1 m2 : Cx ℝ} {v1 v2 : ℝ} {G : Int → Cx ℝ}

/-- The expected value of what a norm makes of the pairs of samples taken at the pairs of times `Q`, for true backgrounds
and variance. -/
theorem expect_formula (h : Stationary p x1 x2 m1 m2 v1 v2 G) (c1 c2 : List (Cx ℝ × Cx ℝ) → Cx ℝ)
    (z : Int) (hz : GivenNorm z) (Q : List (Int × Int)) (hQ : Q ≠ []) :
    expect p (fun ω => normFormula m1 m2 (c1 (Q.map (Prod.map (x1 ω) (x2 ω)))) (c2 (Q.map (Prod.map (x1 ω) (x2 ω))))
      ((v1 + v2) / 2) z (Q.map (Prod.map (x1 ω) (x2 ω)))) = mean (fun a b => (G (b - a)).re) Q := by
  have hl : (Q.length : ℝ) ≠ 0 := by
    rw [Nat.cast_ne_zero]; intro h0; exact hQ (List.length_eq_zero_iff.mp h0)
  have lin : ∀ (α β : ℝ), mean (fun a b => α + β * (G (b - a)).re) Q = α + β * mean (fun a b => (G (b - a)).re) Q := by
    intro α β
    unfold mean total
    rw [List.sum_map_add, List.sum_map_mul_left, List.map_const', List.sum_replicate]
    simp only [smul_eq_mul, nsmul_eq_mul]
    field_simp
  simp only [GivenNorm, List.mem_cons, List.not_mem_nil, or_false] at hz
  rcases hz with rfl | rfl | rfl | rfl | rfl | rfl
  · simp only [normFormula, if_true, mean_map]
    rw [expect_sub, expect_const h.prob, expect_mean (fun ω a b => reProd (x1 ω a) (x2 ω b))]
    simp only [h.raw_re]
    have := lin (reProd m1 m2) 1
    simp only [one_mul] at this
    simp only [add_comm _ (reProd m1 m2), this]
    ring
  · simp only [normFormula, mean_map, show ((2 : Int) = 1) = False by decide, if_false, if_true]
    rw [expect_add, expect_sub, expect_const h.prob, expect_const h.prob, expect_mul,
      expect_mean (fun ω a b => dist2 (x1 ω a) (x2 ω b))]
    simp only [h.raw_dist]
    have := lin (v1 + v2 + dist2 m1 m2) (-2)
    rw [mean_congr' (fun a b => v1 + v2 - 2 * (G (b - a)).re + dist2 m1 m2) (fun a b => v1 + v2 + dist2 m1 m2 + (-2) * (G (b - a)).re) Q (fun q _ => by ring), this]
    ring
  · simp only [normFormula, mean_map, show ((5 : Int) = 1) = False by decide, show ((5 : Int) = 2) = False by decide, if_false, true_or, if_true]
    rw [expect_mean (fun ω a b => reProd (x1 ω a - m1) (x2 ω b - m2))]
    simp only [h.re]
  · simp only [normFormula, mean_map, show ((13 : Int) = 1) = False by decide, show ((13 : Int) = 2) = False by decide, if_false, or_true, if_true]
    rw [expect_mean (fun ω a b => reProd (x1 ω a - m1) (x2 ω b - m2))]
    simp only [h.re]
  · simp only [normFormula, mean_map, show ((6 : Int) = 1) = False by decide, show ((6 : Int) = 2) = False by decide, show ((6 : Int) = 5) = False by decide, show ((6 : Int) = 13) = False by decide, or_self, if_false, true_or, if_true]
    rw [expect_sub, expect_const h.prob, expect_mul, expect_mean (fun ω a b => dist2 (x1 ω a - m1) (x2 ω b - m2))]
    simp only [h.dist]
    rw [mean_congr' (fun a b => v1 + v2 - 2 * (G (b - a)).re) (fun a b => v1 + v2 + (-2) * (G (b - a)).re) Q (fun q _ => by ring), lin]
    ring
  · simp only [normFormula, mean_map, show ((14 : Int) = 1) = False by decide, show ((14 : Int) = 2) = False by decide, show ((14 : Int) = 5) = False by decide, show ((14 : Int) = 13) = False by decide, show ((14 : Int) = 6) = False by decide, or_self, if_false, or_true, if_true]
    rw [expect_sub, expect_const h.prob, expect_mul, expect_mean (fun ω a b => dist2 (x1 ω a - m1) (x2 ω b - m2))]
    simp only [h.dist]
    rw [mean_congr' (fun a b => v1 + v2 - 2 * (G (b - a)).re) (fun a b => v1 + v2 + (-2) * (G (b - a)).re) Q (fun q _ => by ring), lin]
    ring

/-- The curve of one call as formula, for all norms with given background. -/
theorem ccorr_formula (f1 f2 : List (Cx ℝ)) (t1 t2 : Option (List Int)) (n : Option Nat) (norm : Option Int)
    (method : Option String) (aligned : Bool) (n' : Nat) (bg : Background) (v : Variance)
    (call : CrossCall false f1.length f2.length t1 t2 n norm method n') (hd : effMethod method n ≠ "diff") (z : Int)
    (hz : GivenNorm z) (hp : Prepared (effNorm norm (effMethod method n) true) z) :
    ∃ out, ccorrNormalized f1 f2 t1 t2 n norm method aligned bg (some v) z "corr" false = .ok out ∧
      IsCurve n' (pairsAt false (stream f1 t1) (stream f2 t2) n') (crossFormula bg v.offset z) out := by
  simp only [GivenNorm, List.mem_cons, List.not_mem_nil, or_false] at hz
  rcases hz with rfl | rfl | rfl | rfl | rfl | rfl
  · exact C21_standard f1 f2 t1 t2 n norm method aligned n' bg (some v) call hd
  · exact C22_cross f1 f2 t1 t2 n norm method aligned n' bg v call hd (hp.1 (by decide))
  · exact C21_cross f1 f2 t1 t2 n norm method aligned n' bg (some v) call hd (hp.2 (by decide) (by decide)) 5 (by decide)
  · exact C21_cross f1 f2 t1 t2 n norm method aligned n' bg (some v) call hd (hp.2 (by decide) (by decide)) 13 (by decide)
  · exact C22_cross_subtracted f1 f2 t1 t2 n norm method aligned n' bg v call hd (hp.1 (by decide))
      (hp.2 (by decide) (by decide)) 6 (by decide)
  · exact C22_cross_subtracted f1 f2 t1 t2 n norm method aligned n' bg v call hd (hp.1 (by decide))
      (hp.2 (by decide) (by decide)) 14 (by decide)

theorem mem_pairsAt_times (full : Bool) (N1 N2 : Nat) (t1 t2 : Option (List Int)) (L k : Nat) (q : Int × Int)
    (hq : q ∈ pairsAt full (stream (frameTimes N1 t1) t1) (stream (frameTimes N2 t2) t2) L k) :
    if full then q.2 - q.1 = cellDelay L k else |q.2 - q.1| = (k : Int) := by
  have hs : ∀ N t, ∀ a ∈ stream (frameTimes N t) t, a.1 = a.2 := by
    intro N t a ha
    cases t with
    | none =>
      simp only [stream, regular, frameTimes, List.mem_mapIdx] at ha
      obtain ⟨i, hi, rfl⟩ := ha
      simp
    | some t =>
      simp only [stream, frameTimes] at ha
      obtain ⟨i, hi, rfl⟩ := List.mem_iff_getElem.mp ha
      simp
  unfold pairsAt at hq
  obtain ⟨r, hr, rfl⟩ := List.mem_map.mp hq
  cases full with
  | true =>
    simp only [if_true, List.mem_filter] at hr ⊢
    have hr' := List.mem_product.mp hr.1
    rw [← hs _ _ _ hr'.1, ← hs _ _ _ hr'.2]
    exact of_decide_eq_true hr.2
  | false =>
    simp only [Bool.false_eq_true, if_false, List.mem_filter] at hr ⊢
    have hr' := List.mem_product.mp hr.1
    rw [← hs _ _ _ hr'.1, ← hs _ _ _ hr'.2]
    exact of_decide_eq_true hr.2

/-- There are pairs of times for a cell exactly if two frames have that distance. -/
theorem pairsAt_times_ne (full : Bool) (N1 N2 : Nat) (t1 t2 : Option (List Int)) (L k : Nat) (a b : Int)
    (ha : a ∈ frameTimes N1 t1) (hb : b ∈ frameTimes N2 t2)
    (h : if full then b - a = cellDelay L k else |b - a| = (k : Int)) :
    pairsAt full (stream (frameTimes N1 t1) t1) (stream (frameTimes N2 t2) t2) L k ≠ [] := by
  have hs : ∀ N t, ∀ a ∈ frameTimes N t, (a, a) ∈ stream (frameTimes N t) t := by
    intro N t a ha
    cases t with
    | none =>
      simp only [stream, regular, frameTimes, List.mem_mapIdx] at ha ⊢
      obtain ⟨i, hi, rfl⟩ := List.mem_map.mp ha
      rw [List.mem_range] at hi
      exact ⟨i, by simpa using hi, by simp⟩
    | some t =>
      simp only [stream, frameTimes] at ha ⊢
      obtain ⟨i, hi, rfl⟩ := List.mem_iff_getElem.mp ha
      exact List.mem_iff_getElem.mpr ⟨i, by simpa using hi, by simp⟩
  have hm : ((a, a), (b, b)) ∈ stream (frameTimes N1 t1) t1 ×ˢ stream (frameTimes N2 t2) t2 :=
    List.mem_product.mpr ⟨hs _ _ _ ha, hs _ _ _ hb⟩
  refine List.ne_nil_of_mem (a := (a, b)) ?_
  unfold pairsAt
  refine List.mem_map.mpr ⟨((a, a), (b, b)), ?_, rfl⟩
  cases full with
  | true => exact List.mem_filter.mpr ⟨hm, decide_eq_true (by simpa [delay] using h)⟩
  | false => exact List.mem_filter.mpr ⟨hm, decide_eq_true (by simpa [delay] using h)⟩

/-- **C82.** Two stationary random signals, recorded at any times and correlated by any method; backgrounds and variances
are the true ones.  Whatever the norm, the expected value of the normalised correlation at every delay that occurs between
the frames is the covariance of the signals at that delay (real part, the same for both signs of the delay). -/
theorem C82_cross (h : Stationary p x1 x2 m1 m2 v1 v2 G) (t1 t2 : Option (List Int)) (N1 N2 : Nat) (n : Option Nat)
    (norm : Option Int) (method : Option String) (aligned : Bool) (n' : Nat) (bg : Background) (v : Variance)
    (call : CrossCall false (frameTimes N1 t1).length (frameTimes N2 t2).length t1 t2 n norm method n')
    (hd : effMethod method n ≠ "diff") (z : Int) (hz : GivenNorm z)
    (hp : Prepared (effNorm norm (effMethod method n) true) z)
    (hb1 : bg.fst = m1) (hb2 : bg.snd = m2) (hv : v.offset = (v1 + v2) / 2)
    (k : Nat) (hk : k < n') (hs : (G (-k)).re = (G k).re)
    (hocc : ∃ a ∈ frameTimes N1 t1, ∃ b ∈ frameTimes N2 t2, |b - a| = (k : Int)) :
    ExpectedAt (expect p) (fun ω => ccorrNormalized ((frameTimes N1 t1).map (x1 ω)) ((frameTimes N2 t2).map (x2 ω)) t1 t2
      n norm method aligned bg (some v) z "corr" false) k (G k).re := by
  obtain ⟨a, ha, b, hb, hab⟩ := hocc
  have hne := pairsAt_times_ne false N1 N2 t1 t2 n' k a b ha hb (by simpa using hab)
  refine ⟨fun ω => crossFormula bg v.offset z ((pairsAt false (stream (frameTimes N1 t1) t1) (stream (frameTimes N2 t2) t2)
    n' k).map (Prod.map (x1 ω) (x2 ω))), fun ω => ?_, ?_⟩
  · obtain ⟨out, e, hc⟩ := ccorr_formula ((frameTimes N1 t1).map (x1 ω)) ((frameTimes N2 t2).map (x2 ω)) t1 t2 n norm
      method aligned n' bg v (by simpa using call) hd z hz hp
    refine ⟨out, e, ?_⟩
    have := (hc.2 k hk).2
    rw [pairsAt_stream_map] at this
    exact this (by simpa using hne)
  · simp only [crossFormula, hb1, hb2, hv]
    rw [expect_formula h _ _ z hz _ hne]
    refine mean_const _ _ hne _ fun q hq => ?_
    have := mem_pairsAt_times false N1 N2 t1 t2 n' k q hq
    simp only [Bool.false_eq_true, if_false] at this
    rcases (abs_eq (by positivity)).mp this with e | e
    · rw [e]
    · rw [e, hs]

/-- **C82, complex output.**  Cell `k` of the complex data estimates the complex covariance at the signed delay of that
cell, without any symmetry assumption. -/
theorem C82_cross_complex (h : Stationary p x1 x2 m1 m2 v1 v2 G) (t1 t2 : Option (List Int)) (N1 N2 : Nat) (n : Option Nat)
    (norm : Option Int) (method : Option String) (aligned : Bool) (n' : Nat) (bg : Background) (v : Variance)
    (call : CrossCall true (frameTimes N1 t1).length (frameTimes N2 t2).length t1 t2 n norm method n')
    (z : Int) (hz : GivenNorm z)
    (hp : Prepared (effNorm norm (effMethod method n) true) z)
    (hb1 : bg.fst = m1) (hb2 : bg.snd = m2) (hv : v.offset = (v1 + v2) / 2)
    (k : Nat) (hk : k < 2 * n' - 1)
    (hocc : ∃ a ∈ frameTimes N1 t1, ∃ b ∈ frameTimes N2 t2, b - a = cellDelay (2 * n' - 1) k) :
    ExpectedAt (expectC p) (fun ω => ccorrNormalizedC ((frameTimes N1 t1).map (x1 ω)) ((frameTimes N2 t2).map (x2 ω)) t1 t2
      n norm method aligned bg (some v) z "corr" false) k (G (cellDelay (2 * n' - 1) k)) := by
  obtain ⟨a, ha, b, hb, hab⟩ := hocc
  have hne := pairsAt_times_ne true N1 N2 t1 t2 (2 * n' - 1) k a b ha hb (by simpa using hab)
  have key : ∀ q ∈ pairsAt true (stream (frameTimes N1 t1) t1) (stream (frameTimes N2 t2) t2) (2 * n' - 1) k,
      q.2 - q.1 = cellDelay (2 * n' - 1) k := fun q hq => by
    simpa using mem_pairsAt_times true N1 N2 t1 t2 (2 * n' - 1) k q hq
  have main : ∀ F : List (Cx ℝ × Cx ℝ) → Cx ℝ,
      (∀ ω, ∃ out, ccorrNormalizedC ((frameTimes N1 t1).map (x1 ω)) ((frameTimes N2 t2).map (x2 ω)) t1 t2
        n norm method aligned bg (some v) z "corr" false = .ok out ∧
        IsCurve (2 * n' - 1) (pairsAt true (stream ((frameTimes N1 t1).map (x1 ω)) t1)
          (stream ((frameTimes N2 t2).map (x2 ω)) t2) (2 * n' - 1)) F out) →
      expectC p (fun ω => F ((pairsAt true (stream (frameTimes N1 t1) t1) (stream (frameTimes N2 t2) t2)
        (2 * n' - 1) k).map (Prod.map (x1 ω) (x2 ω)))) = G (cellDelay (2 * n' - 1) k) →
      ExpectedAt (expectC p) (fun ω => ccorrNormalizedC ((frameTimes N1 t1).map (x1 ω)) ((frameTimes N2 t2).map (x2 ω))
        t1 t2 n norm method aligned bg (some v) z "corr" false) k (G (cellDelay (2 * n' - 1) k)) := by
    intro F h1 h2
    refine ⟨_, fun ω => ?_, h2⟩
    obtain ⟨out, e, hc⟩ := h1 ω
    refine ⟨out, e, ?_⟩
    have := (hc.2 k hk).2
    rw [pairsAt_stream_map] at this
    exact this (by simpa using hne)
  have call' : ∀ ω, CrossCall true ((frameTimes N1 t1).map (x1 ω)).length ((frameTimes N2 t2).map (x2 ω)).length t1 t2
      n norm method n' := fun ω => by simpa using call
  generalize hP : pairsAt true (stream (frameTimes N1 t1) t1) (stream (frameTimes N2 t2) t2) (2 * n' - 1) k = P at *
  have half : ∀ x y : ℝ, (v1 + v2) / 2 - 1 / 2 * (v1 + v2 - 2 * x + y) + 1 / 2 * y = x := fun x y => by ring
  have half' : ∀ x : ℝ, (v1 + v2) / 2 - 1 / 2 * (v1 + v2 - 2 * x) = x := fun x => by ring
  simp only [GivenNorm, List.mem_cons, List.not_mem_nil, or_false] at hz
  have sub : ∀ z : Int, z = 5 ∨ z = 13 → expectC p (fun ω => mean (fun a b => cxProd (a - bg.fst) (b - bg.snd))
      (P.map (Prod.map (x1 ω) (x2 ω)))) = G (cellDelay (2 * n' - 1) k) := by
    intro z _
    rw [hb1, hb2]
    simp only [mean_map]
    ext
    · simp only [expectC, (mean_re _ _).1]
      rw [expect_mean (fun ω a b => (cxProd (x1 ω a - m1) (x2 ω b - m2)).re)]
      exact mean_const _ _ hne _ fun q hq => by rw [← key q hq]; exact h.re _ _
    · simp only [expectC, (mean_re _ _).2]
      rw [expect_mean (fun ω a b => (cxProd (x1 ω a - m1) (x2 ω b - m2)).im)]
      exact mean_const _ _ hne _ fun q hq => by rw [← key q hq]; exact h.im _ _
  have ssub : ∀ z : Int, z = 6 ∨ z = 14 → expectC p (fun ω =>
      (⟨v.offset - (1 / 2) * mean (fun a b => dist2 (a - bg.fst) (b - bg.snd)) (P.map (Prod.map (x1 ω) (x2 ω))),
          v.offset - (1 / 2) * mean (fun a b => dist2 (Cx.I * (a - bg.fst)) (b - bg.snd))
            (P.map (Prod.map (x1 ω) (x2 ω)))⟩ : Cx ℝ)) = G (cellDelay (2 * n' - 1) k) := by
    intro z _
    rw [hb1, hb2, hv]
    simp only [mean_map]
    ext
    · simp only [expectC]
      rw [expect_sub, expect_const h.prob, expect_mul, expect_mean (fun ω a b => dist2 (x1 ω a - m1) (x2 ω b - m2)),
        mean_const _ _ hne (v1 + v2 - 2 * (G (cellDelay (2 * n' - 1) k)).re) fun q hq => by
          rw [← key q hq]; exact h.dist _ _]
      exact half' _
    · simp only [expectC]
      rw [expect_sub, expect_const h.prob, expect_mul,
        expect_mean (fun ω a b => dist2 (Cx.I * (x1 ω a - m1)) (x2 ω b - m2)),
        mean_const _ _ hne (v1 + v2 - 2 * (G (cellDelay (2 * n' - 1) k)).im) fun q hq => by
          rw [← key q hq]; exact h.dist_im _ _]
      exact half' _
  rcases hz with rfl | rfl | rfl | rfl | rfl | rfl
  · refine main _ (fun ω => C21_standard_complex _ _ t1 t2 n norm method aligned n' bg (some v) (call' ω) _ rfl) ?_
    rw [hb1, hb2]
    simp only [mean_map]
    ext
    · simp only [expectC, Cx.sub_re, (mean_re _ _).1]
      rw [expect_sub, expect_const h.prob, expect_mean (fun ω a b => (cxProd (x1 ω a) (x2 ω b)).re),
        mean_const _ _ hne ((G (cellDelay (2 * n' - 1) k)).re + reProd m1 m2) fun q hq => by
          rw [← key q hq]; exact h.raw_re _ _]
      exact add_sub_cancel_right _ _
    · simp only [expectC, Cx.sub_im, (mean_re _ _).2]
      rw [expect_sub, expect_const h.prob, expect_mean (fun ω a b => (cxProd (x1 ω a) (x2 ω b)).im),
        mean_const _ _ hne ((G (cellDelay (2 * n' - 1) k)).im + (cxProd m1 m2).im) fun q hq => by
          rw [← key q hq]; exact h.raw_im _ _]
      exact add_sub_cancel_right _ _
  · refine main _ (fun ω => C22_cross_complex _ _ t1 t2 n norm method aligned n' bg v (call' ω) _ rfl (hp.1 (by decide))) ?_
    rw [hb1, hb2, hv]
    simp only [mean_map]
    ext
    · simp only [expectC]
      rw [expect_add, expect_sub, expect_const h.prob, expect_const h.prob, expect_mul,
        expect_mean (fun ω a b => dist2 (x1 ω a) (x2 ω b)),
        mean_const _ _ hne (v1 + v2 - 2 * (G (cellDelay (2 * n' - 1) k)).re + dist2 m1 m2) fun q hq => by
          rw [← key q hq]; exact h.raw_dist _ _]
      exact half _ _
    · simp only [expectC]
      rw [expect_add, expect_sub, expect_const h.prob, expect_const h.prob, expect_mul,
        expect_mean (fun ω a b => dist2 (Cx.I * x1 ω a) (x2 ω b)),
        mean_const _ _ hne (v1 + v2 - 2 * (G (cellDelay (2 * n' - 1) k)).im + dist2 (Cx.I * m1) m2) fun q hq => by
          rw [← key q hq]; exact h.raw_dist_im _ _]
      exact half _ _
  · exact main _ (fun ω => C21_cross_complex _ _ t1 t2 n norm method aligned n' bg (some v) (call' ω) _ rfl
      (hp.2 (by decide) (by decide)) 5 (by decide)) (sub 5 (by decide))
  · exact main _ (fun ω => C21_cross_complex _ _ t1 t2 n norm method aligned n' bg (some v) (call' ω) _ rfl
      (hp.2 (by decide) (by decide)) 13 (by decide)) (sub 13 (by decide))
  · exact main _ (fun ω => C22_cross_complex_subtracted _ _ t1 t2 n norm method aligned n' bg v (call' ω) _ rfl
      (hp.1 (by decide)) (hp.2 (by decide) (by decide)) 6 (by decide)) (ssub 6 (by decide))
  · exact main _ (fun ω => C22_cross_complex_subtracted _ _ t1 t2 n norm method aligned n' bg v (call' ω) _ rfl
      (hp.1 (by decide)) (hp.2 (by decide) (by decide)) 14 (by decide)) (ssub 14 (by decide))

end

/-! ### One signal -/

section auto
variable {Ω : Type} [Fintype Ω] {p : Ω → ℝ} {x : Ω → Int → Cx ℝ} {m : Cx ℝ} {v0 : ℝ} {G : Int → Cx ℝ}

/-- The covariance of one signal with itself is the same for both signs of the delay, in the real part. -/
theorem Spec.Stationary.even (h : Stationary p x x m m v0 v0 G) (d : Int) : (G (-d)).re = (G d).re := by
  have h1 := h.re d 0
  have h2 := h.re 0 d
  rw [zero_sub] at h1
  rw [sub_zero] at h2
  rw [← h1, ← h2]
  congr 1
  funext ω
  simp [reProd]; ring

theorem acorr_formula (f : List (Cx ℝ)) (t : Option (List Int)) (n : Option Nat) (norm : Option Int)
    (method : Option String) (aligned : Bool) (n' : Nat) (b : Cx ℝ) (v : Variance)
    (call : AutoCall f.length t n norm method n') (hd : effMethod method n ≠ "diff") (z : Int)
    (hz : GivenNorm z) (hp : Prepared (effNorm norm (effMethod method n) false) z) :
    ∃ out, acorrNormalized f t n norm method aligned (.one b) (some v) z "corr" false = .ok out ∧
      IsCurve n' (selfPairsAt (stream f t)) (autoFormula (.one b) v.offset z) out := by
  simp only [GivenNorm, List.mem_cons, List.not_mem_nil, or_false] at hz
  rcases hz with rfl | rfl | rfl | rfl | rfl | rfl
  · exact C21_auto_standard f t n norm method aligned n' (.one b) (some v) call hd
  · exact C22_auto f t n norm method aligned n' (.one b) v call hd (hp.1 (by decide))
  · exact C21_auto f t n norm method aligned n' (some v) b call hd (hp.2 (by decide) (by decide)) 5 (by decide)
  · exact C21_auto f t n norm method aligned n' (some v) b call hd (hp.2 (by decide) (by decide)) 13 (by decide)
  · exact C22_auto_subtracted f t n norm method aligned n' v b call hd (hp.1 (by decide))
      (hp.2 (by decide) (by decide)) 6 (by decide)
  · exact C22_auto_subtracted f t n norm method aligned n' v b call hd (hp.1 (by decide))
      (hp.2 (by decide) (by decide)) 14 (by decide)

theorem selfPairs_either {α : Type} {s : List α} {a b : α} (ha : a ∈ s) (hb : b ∈ s) :
    (a, b) ∈ selfPairs s ∨ (b, a) ∈ selfPairs s := by
  induction s with
  | nil => simp at ha
  | cons c s ih =>
    simp only [selfPairs, List.mem_append, List.mem_map, Prod.mk.injEq]
    rcases List.mem_cons.mp ha with rfl | ha'
    · exact .inl (.inl ⟨b, hb, rfl, rfl⟩)
    · rcases List.mem_cons.mp hb with rfl | hb'
      · exact .inr (.inl ⟨a, ha, rfl, rfl⟩)
      · rcases ih ha' hb' with h | h
        · exact .inl (.inr h)
        · exact .inr (.inr h)

theorem mem_stream_times (N : Nat) (t : Option (List Int)) (a : Int × Int) :
    a ∈ stream (frameTimes N t) t ↔ a.1 = a.2 ∧ a.1 ∈ frameTimes N t := by
  cases t with
  | none =>
    simp only [stream, regular, frameTimes, List.mem_mapIdx, List.mem_map, List.mem_range]
    constructor
    · rintro ⟨i, hi, rfl⟩
      simp only [List.length_map, List.length_range] at hi
      exact ⟨by simp, i, hi, rfl⟩
    · rintro ⟨h1, i, hi, h2⟩
      refine ⟨i, by simpa using hi, ?_⟩
      rw [List.getElem_map, List.getElem_range]
      exact Prod.ext h2 (by rw [← h1]; exact h2)
  | some t =>
    simp only [stream, frameTimes]
    constructor
    · intro ha
      obtain ⟨i, hi, rfl⟩ := List.mem_iff_getElem.mp ha
      simp
    · rintro ⟨h1, ha⟩
      obtain ⟨i, hi, h2⟩ := List.mem_iff_getElem.mp ha
      refine List.mem_iff_getElem.mpr ⟨i, by simpa using hi, ?_⟩
      rw [List.getElem_zip, h2]
      exact Prod.ext rfl h1

theorem mem_selfPairsAt_times (N : Nat) (t : Option (List Int)) (k : Nat) (q : Int × Int)
    (hq : q ∈ selfPairsAt (stream (frameTimes N t) t) k) : |q.2 - q.1| = (k : Int) := by
  unfold selfPairsAt at hq
  obtain ⟨r, hr, rfl⟩ := List.mem_map.mp hq
  obtain ⟨hr1, hr2⟩ := List.mem_filter.mp hr
  obtain ⟨h1, h2⟩ := selfPairs_mem hr1
  have := of_decide_eq_true hr2
  rw [delay, ((mem_stream_times N t _).mp h1).1, ((mem_stream_times N t _).mp h2).1] at this
  exact this

theorem selfPairsAt_times_ne (N : Nat) (t : Option (List Int)) (k : Nat) (a b : Int) (ha : a ∈ frameTimes N t)
    (hb : b ∈ frameTimes N t) (h : |b - a| = (k : Int)) : selfPairsAt (stream (frameTimes N t) t) k ≠ [] := by
  rcases selfPairs_either ((mem_stream_times N t (a, a)).mpr ⟨rfl, ha⟩) ((mem_stream_times N t (b, b)).mpr ⟨rfl, hb⟩) with e | e
  · exact List.ne_nil_of_mem (a := (a, b)) (List.mem_map.mpr ⟨_, List.mem_filter.mpr ⟨e, decide_eq_true h⟩, rfl⟩)
  · exact List.ne_nil_of_mem (a := (b, a)) (List.mem_map.mpr ⟨_, List.mem_filter.mpr ⟨e, decide_eq_true (by
      rw [← h]; exact abs_sub_comm _ _)⟩, rfl⟩)

/-- **C82, one signal.**  The normalised auto-correlation at every delay that occurs between frames estimates the
covariance of the signal at that delay. -/
theorem C82_auto (h : Stationary p x x m m v0 v0 G) (t : Option (List Int)) (N : Nat) (n : Option Nat)
    (norm : Option Int) (method : Option String) (aligned : Bool) (n' : Nat)
    (call : AutoCall (frameTimes N t).length t n norm method n')
    (hd : effMethod method n ≠ "diff") (z : Int) (hz : GivenNorm z)
    (hp : Prepared (effNorm norm (effMethod method n) false) z) (k : Nat) (hk : k < n')
    (hocc : ∃ a ∈ frameTimes N t, ∃ b ∈ frameTimes N t, |b - a| = (k : Int)) :
    ExpectedAt (expect p) (fun ω => acorrNormalized ((frameTimes N t).map (x ω)) t n norm method aligned (.one m)
      (some (.one v0)) z "corr" false) k (G k).re := by
  obtain ⟨a, ha, b, hb, hab⟩ := hocc
  have hne := selfPairsAt_times_ne N t k a b ha hb hab
  refine ⟨fun ω => autoFormula (.one m) v0 z ((selfPairsAt (stream (frameTimes N t) t) k).map (Prod.map (x ω) (x ω))),
    fun ω => ?_, ?_⟩
  · obtain ⟨out, e, hc⟩ := acorr_formula ((frameTimes N t).map (x ω)) t n norm method aligned n' m (.one v0)
      (by simpa using call) hd z hz hp
    refine ⟨out, e, ?_⟩
    have := (hc.2 k hk).2
    rw [selfPairsAt_stream_map] at this
    exact this (by simpa using hne)
  · have e := expect_formula h bothMean bothMean z hz _ hne
    rw [show (v0 + v0) / 2 = v0 by ring] at e
    refine Eq.trans e (mean_const _ _ hne _ fun q hq => ?_)
    rcases (abs_eq (by positivity)).mp (mem_selfPairsAt_times N t k q hq) with e | e
    · rw [e]
    · rw [e, h.even]

end auto

/-! ### Method 'diff', structure functions, scaled data -/

/-- The curve of one call with method 'diff'. -/
theorem ccorr_diff_formula (f1 f2 : List (Cx ℝ)) (t1 t2 : Option (List Int)) (n : Option Nat) (norm : Option Int)
    (aligned : Bool) (n' : Nat) (bg : Background) (v : Variance)
    (call : CrossCall false f1.length f2.length t1 t2 n norm (some "diff") n') (z : Int)
    (hz : z = 2 ∨ (z = 6 ∧ AskSums norm (some "diff") n true)) :
    ∃ out, ccorrNormalized f1 f2 t1 t2 n norm (some "diff") aligned bg (some v) z "corr" false = .ok out ∧
      IsCurve n' (pairsAt false (stream f1 t1) (stream f2 t2) n') (crossFormula bg v.offset z) out := by
  obtain ⟨u1, u2, eD, hsD⟩ := ccorrNormalized_diff_eq f1 f2 t1 t2 n norm aligned n' call
  rw [eD]
  rcases hz with rfl | ⟨rfl, hs⟩
  · rw [normalize_diff_corr]
    refine ⟨_, rfl, isCurve_of _ _ _ _ (fun k _ h => ?_) (fun k _ h => ?_)⟩
    · simp [cdiff1, h, divCount]
    · rw [cell_cdiff1 h, Option.map_some, diff2corr_R]
      simp only [crossFormula, normFormula, show ((2 : Int) = 1) = False by decide, if_false, if_true]
      congr 1
      ring
  · obtain ⟨rfl, rfl⟩ := hsD hs
    rw [normalize_diffSubtracted_corr]
    refine ⟨_, rfl, isCurve_of _ _ _ _ (fun k _ h => ?_) (fun k _ h => ?_)⟩
    · simp [cdiff3, h, divCount]
    · rw [cell_cdiff3 h, Option.map_some, diff2corr_R]
      simp [crossFormula, normFormula]

section
variable {Ω : Type} [Fintype Ω] {p : Ω → ℝ} {x1 x2 : Ω → Int → Cx ℝ} {m1 m2 : Cx ℝ} {v1 v2 : ℝ} {G : Int → Cx ℝ}

/-- **C82, method 'diff'.**  The mean square differences, normalised with the structured norm or the structured and
subtracted norm, estimate the same covariance. -/
theorem C82_difference (h : Stationary p x1 x2 m1 m2 v1 v2 G) (t1 t2 : Option (List Int)) (N1 N2 : Nat) (n : Option Nat)
    (norm : Option Int) (aligned : Bool) (n' : Nat) (bg : Background) (v : Variance)
    (call : CrossCall false (frameTimes N1 t1).length (frameTimes N2 t2).length t1 t2 n norm (some "diff") n')
    (z : Int) (hz : z = 2 ∨ (z = 6 ∧ AskSums norm (some "diff") n true))
    (hb1 : bg.fst = m1) (hb2 : bg.snd = m2) (hv : v.offset = (v1 + v2) / 2)
    (k : Nat) (hk : k < n') (hs : (G (-k)).re = (G k).re)
    (hocc : ∃ a ∈ frameTimes N1 t1, ∃ b ∈ frameTimes N2 t2, |b - a| = (k : Int)) :
    ExpectedAt (expect p) (fun ω => ccorrNormalized ((frameTimes N1 t1).map (x1 ω)) ((frameTimes N2 t2).map (x2 ω)) t1 t2
      n norm (some "diff") aligned bg (some v) z "corr" false) k (G k).re := by
  obtain ⟨a, ha, b, hb, hab⟩ := hocc
  have hne := pairsAt_times_ne false N1 N2 t1 t2 n' k a b ha hb (by simpa using hab)
  refine ⟨fun ω => crossFormula bg v.offset z ((pairsAt false (stream (frameTimes N1 t1) t1) (stream (frameTimes N2 t2) t2)
    n' k).map (Prod.map (x1 ω) (x2 ω))), fun ω => ?_, ?_⟩
  · obtain ⟨out, e, hc⟩ := ccorr_diff_formula ((frameTimes N1 t1).map (x1 ω)) ((frameTimes N2 t2).map (x2 ω)) t1 t2 n norm
      aligned n' bg v (by simpa using call) z hz
    refine ⟨out, e, ?_⟩
    have := (hc.2 k hk).2
    rw [pairsAt_stream_map] at this
    exact this (by simpa using hne)
  · have hg : GivenNorm z := by rcases hz with rfl | ⟨rfl, -⟩ <;> simp [GivenNorm]
    simp only [crossFormula, hb1, hb2, hv]
    rw [expect_formula h _ _ z hg _ hne]
    refine mean_const _ _ hne _ fun q hq => ?_
    have := mem_pairsAt_times false N1 N2 t1 t2 n' k q hq
    simp only [Bool.false_eq_true, if_false] at this
    rcases (abs_eq (by positivity)).mp this with e | e
    · rw [e]
    · rw [e, hs]

/-- An estimate that is transformed linearly. -/
theorem expected_affine (hp : ∑ ω, p ω = 1) (α β : ℝ) (φ : ℝ → ℝ) (hφ : ∀ x, φ x = α * x + β)
    {call call' : Ω → Py (List (Option ℝ))} {k : Nat} {y : ℝ}
    (e : ∀ ω, call' ω = (call ω).map (List.map (Option.map φ))) (h : ExpectedAt (expect p) call k y) :
    ExpectedAt (expect p) call' k (φ y) := by
  obtain ⟨r, h1, h2⟩ := h
  refine ⟨fun ω => φ (r ω), fun ω => ?_, ?_⟩
  · obtain ⟨out, h3, h4⟩ := h1 ω
    exact ⟨_, by rw [e, h3]; rfl, by simp [h4]⟩
  · simp only [hφ, expect_add, expect_mul, expect_const hp, h2]

/-- Any norm with given backgrounds is not a weighted one. -/
theorem given_not_weighted {z : Int} (hz : GivenNorm z) : z ≠ 3 ∧ z ≠ 7 ∧ z ≠ 11 ∧ z ≠ 15 := by
  simp only [GivenNorm, List.mem_cons, List.not_mem_nil, or_false] at hz
  omega

theorem ccorrNormalized_mode (f1 f2 : List (Cx ℝ)) (t1 t2 : Option (List Int)) (n : Option Nat) (norm : Option Int)
    (method : Option String) (aligned : Bool) (bg : Background) (v : Variance) (z : Int) (hz : GivenNorm z) :
    ccorrNormalized f1 f2 t1 t2 n norm method aligned bg (some v) z "diff" false
      = (ccorrNormalized f1 f2 t1 t2 n norm method aligned bg (some v) z "corr" false).map
          (List.map (Option.map fun x => 2 * (v.offset - x))) := by
  simp only [ccorrNormalized, bind, Except.bind]
  cases ccorr f1 f2 t1 t2 n norm method aligned none none {} with
  | error => rfl
  | ok r =>
    simp only
    rw [C23_modes (some bg) v z (given_not_weighted hz)]
    cases normalize normOpsR (r.toData (effMethod method n)) (some bg) (some v) (some z) "corr" false none <;> rfl

theorem ccorrNormalized_scale (f1 f2 : List (Cx ℝ)) (t1 t2 : Option (List Int)) (n : Option Nat) (norm : Option Int)
    (method : Option String) (aligned : Bool) (bg : Background) (v : Variance) (z : Int) (hz : GivenNorm z)
    (mode : String) (hv : v.offset ≠ 0) :
    ccorrNormalized f1 f2 t1 t2 n norm method aligned bg (some v) z mode true
      = (ccorrNormalized f1 f2 t1 t2 n norm method aligned bg (some v) z mode false).map
          (List.map (Option.map fun x => x / v.offset)) := by
  simp only [ccorrNormalized, bind, Except.bind]
  cases ccorr f1 f2 t1 t2 n norm method aligned none none {} with
  | error => rfl
  | ok r =>
    simp only
    rw [C23_scale (some bg) v z (given_not_weighted hz)]
    cases normalize normOpsR (r.toData (effMethod method n)) (some bg) (some v) (some z) mode false none with
    | error => rfl
    | ok o =>
      simp only [Except.map, if_neg hv]
      congr 2
      funext x
      cases x <;> rfl

/-- **C82, mode 'diff'.**  The image structure function: whatever is an estimate of `y` in mode 'corr' is in mode 'diff' an
estimate of `2 (variance - y)`. -/
theorem C82_structure_function (hp : ∑ ω, p ω = 1) (f1 f2 : Ω → List (Cx ℝ)) (t1 t2 : Option (List Int)) (n : Option Nat)
    (norm : Option Int) (method : Option String) (aligned : Bool) (bg : Background) (v : Variance) (z : Int)
    (hz : GivenNorm z) (k : Nat) (y : ℝ)
    (h : ExpectedAt (expect p) (fun ω => ccorrNormalized (f1 ω) (f2 ω) t1 t2 n norm method aligned bg (some v) z "corr" false) k y) :
    ExpectedAt (expect p) (fun ω => ccorrNormalized (f1 ω) (f2 ω) t1 t2 n norm method aligned bg (some v) z "diff" false) k
      (2 * (v.offset - y)) :=
  expected_affine hp (-2) (2 * v.offset) (fun x => 2 * (v.offset - x)) (fun x => by ring)
    (fun ω => ccorrNormalized_mode _ _ _ _ _ _ _ _ _ _ _ hz) h

/-- **C82, scaled.**  With `scale = True` and a variance that is not zero it is an estimate of the ratio to the variance. -/
theorem C82_scaled (hp : ∑ ω, p ω = 1) (f1 f2 : Ω → List (Cx ℝ)) (t1 t2 : Option (List Int)) (n : Option Nat)
    (norm : Option Int) (method : Option String) (aligned : Bool) (bg : Background) (v : Variance) (z : Int)
    (hz : GivenNorm z) (mode : String) (hv : v.offset ≠ 0) (k : Nat) (y : ℝ)
    (h : ExpectedAt (expect p) (fun ω => ccorrNormalized (f1 ω) (f2 ω) t1 t2 n norm method aligned bg (some v) z mode false) k y) :
    ExpectedAt (expect p) (fun ω => ccorrNormalized (f1 ω) (f2 ω) t1 t2 n norm method aligned bg (some v) z mode true) k
      (y / v.offset) :=
  expected_affine hp (1 / v.offset) 0 (fun x => x / v.offset) (fun x => by ring)
    (fun ω => ccorrNormalized_scale _ _ _ _ _ _ _ _ _ _ _ hz mode hv) h

end

/-! ### Concrete cases -/

/-- A coin thrown once decides about the sign of an alternating signal around 3. -/
noncomputable def coinSignal (ω : Bool) (s : Int) : Cx ℝ := ⟨3 + (if ω then 1 else -1) * (if s % 2 = 0 then 1 else -1), 0⟩

theorem coin_stationary : Stationary (fun _ : Bool => (1 / 2 : ℝ)) coinSignal coinSignal ⟨3, 0⟩ ⟨3, 0⟩ 1 1
    (fun d => ⟨if d % 2 = 0 then 1 else -1, 0⟩) := by
  refine ⟨?_, ?_, ?_, ?_, ?_, ?_⟩
  · simp
  · intro s
    ext
    · simp only [expectC, expect, coinSignal, Fintype.sum_bool]
      by_cases h : s % 2 = 0 <;> simp only [h, if_true, if_false, Bool.false_eq_true] <;> norm_num
    · simp [expectC, expect, coinSignal]
  · intro s
    ext
    · simp only [expectC, expect, coinSignal, Fintype.sum_bool]
      by_cases h : s % 2 = 0 <;> simp only [h, if_true, if_false, Bool.false_eq_true] <;> norm_num
    · simp [expectC, expect, coinSignal]
  · intro s
    simp only [expect, coinSignal, Fintype.sum_bool, Cx.abs2, Cx.sub_re, Cx.sub_im]
    by_cases h : s % 2 = 0 <;> simp only [h, if_true, if_false, Bool.false_eq_true] <;> norm_num
  · intro s
    simp only [expect, coinSignal, Fintype.sum_bool, Cx.abs2, Cx.sub_re, Cx.sub_im]
    by_cases h : s % 2 = 0 <;> simp only [h, if_true, if_false, Bool.false_eq_true] <;> norm_num
  · intro s d
    ext
    · simp only [expectC, expect, coinSignal, Fintype.sum_bool, cxProd, Cx.sub_re, Cx.sub_im]
      by_cases h1 : s % 2 = 0 <;> by_cases h2 : d % 2 = 0
      · have h3 : (s + d) % 2 = 0 := by omega
        simp only [h1, h2, h3, if_true, if_false, Bool.false_eq_true]; norm_num
      · have h3 : ¬ (s + d) % 2 = 0 := by omega
        simp only [h1, h2, h3, if_true, if_false, Bool.false_eq_true]; norm_num
      · have h3 : ¬ (s + d) % 2 = 0 := by omega
        simp only [h1, h2, h3, if_true, if_false, Bool.false_eq_true]; norm_num
      · have h3 : (s + d) % 2 = 0 := by omega
        simp only [h1, h2, h3, if_true, if_false, Bool.false_eq_true]; norm_num
    · simp [expectC, expect, coinSignal, cxProd]

/-- Irregular frames: at delay 3 the expected value is -1, with every norm that uses the given background. -/
example (z : Int) (hz : GivenNorm z) :
    ExpectedAt (expect fun _ : Bool => (1 / 2 : ℝ)) (fun ω => ccorrNormalized ([4, 0, 1].map (coinSignal ω))
      ([1, 5, 2].map (coinSignal ω)) (some [4, 0, 1]) (some [1, 5, 2]) none none none true (.one ⟨3, 0⟩) (some (.one 1)) z
      "corr" false) 3 (-1) := by
  have := C82_cross coin_stationary (some [4, 0, 1]) (some [1, 5, 2]) 0 0 none none none true 6 (.one ⟨3, 0⟩) (.one 1)
    (crossCall_example false) (by simp [effMethod]) z hz
    (by simp [Prepared, effNorm, effMethod, WantsSquares, WantsSums]) rfl rfl (by norm_num [Variance.offset]) 3 (by decide)
    (by norm_num) ⟨4, by simp [frameTimes], 1, by simp [frameTimes], by decide⟩
  simpa [frameTimes] using this

example : ExpectedAt (expectC fun _ : Bool => (1 / 2 : ℝ)) (fun ω => ccorrNormalizedC ([4, 0, 1].map (coinSignal ω))
      ([1, 5, 2].map (coinSignal ω)) (some [4, 0, 1]) (some [1, 5, 2]) none none none true (.one ⟨3, 0⟩) (some (.one 1)) 6
      "corr" false) 2 ⟨1, 0⟩ := by
  have := C82_cross_complex coin_stationary (some [4, 0, 1]) (some [1, 5, 2]) 0 0 none none none true 6 (.one ⟨3, 0⟩) (.one 1)
    (crossCall_example true) 6 (by simp [GivenNorm])
    (by simp [Prepared, effNorm, effMethod, WantsSquares, WantsSums]) rfl rfl (by norm_num [Variance.offset]) 2 (by decide)
    ⟨0, by simp [frameTimes], 2, by simp [frameTimes], by decide⟩
  simpa [frameTimes, show cellDelay (2 * 6 - 1) 2 = 2 by decide] using this

example : ExpectedAt (expect fun _ : Bool => (1 / 2 : ℝ)) (fun ω => acorrNormalized ([0, 1, 2].map (coinSignal ω)) none
      (some 2) none (some "corr") true (.one ⟨3, 0⟩) (some (.one 1)) 5 "corr" false) 1 (-1) := by
  have := C82_auto coin_stationary none 3 (some 2) none (some "corr") true 2 (autoCall_example _ (by simp [frameTimes]))
    (by simp [effMethod]) 5 (by simp [GivenNorm]) (by simp [Prepared, effNorm, effMethod, WantsSquares, WantsSums]) 1
    (by decide) ⟨0, by simp [frameTimes], 1, by simp [frameTimes], by decide⟩
  simpa [frameTimes, List.range, List.range.loop] using this

example : ExpectedAt (expect fun _ : Bool => (1 / 2 : ℝ)) (fun ω => ccorrNormalized ([4, 0, 1].map (coinSignal ω))
      ([1, 5, 2].map (coinSignal ω)) (some [4, 0, 1]) (some [1, 5, 2]) none none (some "diff") true (.one ⟨3, 0⟩)
      (some (.one 1)) 6 "diff" true) 3 4 := by
  have hD : defaultN 3 (some [4, 0, 1]) (some [1, 5, 2]) = 6 := by decide
  have := C82_difference coin_stationary (some [4, 0, 1]) (some [1, 5, 2]) 0 0 none none true 6 (.one ⟨3, 0⟩) (.one 1)
    ⟨by simp [frameTimes, hD], by simp [frameTimes, CcorrRefused, effMethod, effNorm, SupportedNorm, ValidCross],
      by simp [SafeLen, effMethod], by simp [effMethod]⟩
    6 (.inr ⟨rfl, by simp [AskSums, effMethod, effNorm, WantsSums]⟩) rfl rfl (by norm_num [Variance.offset]) 3 (by decide)
    (by norm_num) ⟨4, by simp [frameTimes], 1, by simp [frameTimes], by decide⟩
  have h2 := C82_scaled coin_stationary.prob _ _ _ _ _ _ _ _ _ _ _ (by simp [GivenNorm]) "diff" (by norm_num [Variance.offset]) _ _
    (C82_structure_function coin_stationary.prob _ _ _ _ _ _ _ _ _ _ _ (by simp [GivenNorm]) _ _ this)
  simp only [frameTimes, Variance.offset] at h2
  norm_num at h2
  simpa using h2

/-! ### The compensated norm is biased -/

/-- A coin thrown once: the signal is constant in time. -/
noncomputable def coinLevel (ω : Bool) (_ : Int) : Cx ℝ := ⟨if ω then 1 else -1, 0⟩

theorem coinLevel_stationary : Stationary (fun _ : Bool => (1 / 2 : ℝ)) coinLevel coinLevel 0 0 1 1 (fun _ => ⟨1, 0⟩) := by
  refine ⟨by simp, fun s => ?_, fun s => ?_, fun s => ?_, fun s => ?_, fun s d => ?_⟩
  · ext <;> simp [expectC, expect, coinLevel]
  · ext <;> simp [expectC, expect, coinLevel]
  · simp [expect, coinLevel, Cx.abs2]; norm_num
  · simp [expect, coinLevel, Cx.abs2]; norm_num
  · ext
    · simp [expectC, expect, coinLevel, cxProd]; norm_num
    · simp [expectC, expect, coinLevel, cxProd]

/-- With the compensated norm (the background is estimated from the same pairs) the expected value need not be the
covariance: here it is 0 at every delay, the covariance is 1. -/
theorem C82_compensated_refuted (N : Nat) (hN : 2 ≤ N) (k : Nat) (hk : k < 2) :
    ExpectedAt (expect fun _ : Bool => (1 / 2 : ℝ)) (fun ω => acorrNormalized ((frameTimes N none).map (coinLevel ω)) none
      (some 2) none (some "corr") true (.one 0) (some (.one 1)) 9 "corr" false) k 0 := by
  have hl : (frameTimes N none).length = N := by simp [frameTimes]
  have hne := selfPairsAt_times_ne N none k 0 (k : Int) (by simp [frameTimes]; omega)
    (by simp [frameTimes]; omega) (by simp)
  refine ⟨fun _ => 0, fun ω => ?_, by simp [expect]⟩
  obtain ⟨out, e, hc⟩ := C24_auto ((frameTimes N none).map (coinLevel ω)) none (some 2) none (some "corr") true 2 (.one 0)
    (some (.one 1)) (by rw [List.length_map, hl]; exact autoCall_example N (by omega)) (by simp [effMethod])
    (by simp [AskSums, effMethod, effNorm, WantsSums])
  refine ⟨out, e, ?_⟩
  have := (hc.2 k hk).2
  rw [selfPairsAt_stream_map] at this
  rw [this (by simpa using hne)]
  have hp : pooled ((selfPairsAt (stream (frameTimes N none) none) k).map (Prod.map (coinLevel ω) (coinLevel ω)))
      = ⟨if ω then 1 else -1, 0⟩ := by
    unfold pooled
    ext
    · rw [(mean_re _ _).1]
      refine mean_const _ _ (by simpa using hne) _ fun q hq => ?_
      obtain ⟨r, -, rfl⟩ := List.mem_map.mp hq
      cases ω <;> simp [coinLevel] <;> norm_num
    · rw [(mean_re _ _).2]
      refine mean_const _ _ (by simpa using hne) _ fun q hq => ?_
      obtain ⟨r, -, rfl⟩ := List.mem_map.mp hq
      simp [coinLevel]
  beta_reduce
  rw [hp]
  congr 2
  refine mean_const _ _ (by simpa using hne) _ fun q hq => ?_
  obtain ⟨r, -, rfl⟩ := List.mem_map.mp hq
  simp [coinLevel, reProd]

end Cddm
