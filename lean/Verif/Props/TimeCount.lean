import Verif.Lemmas.TimeCount
import Verif.Model.TimeCount
import Verif.Model.Sim
import Verif.Props.Correlation

/-!
# Property theorems: how often random triggering samples each delay (C94, C95)
-/

namespace Cddm
open Spec MeasureTheory ProbabilityTheory

section
variable {Ω : Type} [MeasurableSpace Ω] {μ : Measure Ω} [IsProbabilityMeasure μ]

/-- The two terms of the window `-n < e ≤ n`. -/
theorem card_window (n : Nat) (e : Int) :
    ∑ x ∈ Finset.range n, ∑ y ∈ Finset.range 2, (if (n : Int) * y - x = e then 1 else 0) =
      if -(n : Int) < e ∧ e ≤ n then 1 else 0 := by
  have inner : ∀ x ∈ Finset.range n, ∑ y ∈ Finset.range 2, (if (n : Int) * y - x = e then 1 else 0) =
      if (x : Int) = (if e ≤ 0 then -e else n - e) then 1 else 0 := by
    intro x hx
    rw [Finset.mem_range] at hx
    rw [Finset.sum_range_succ, Finset.sum_range_one]
    simp only [Nat.cast_zero, Nat.cast_one, mul_zero, mul_one]
    split_ifs <;> omega
  rw [Finset.sum_congr rfl inner]
  by_cases h : -(n : Int) < e ∧ e ≤ n
  · rw [if_pos h, Finset.sum_eq_single (if e ≤ 0 then -e else n - e).toNat]
    · rw [if_pos (by split_ifs <;> omega)]
    · intro j _ hj
      rw [if_neg (by omega)]
    · intro hj
      refine absurd (Finset.mem_range.mpr ?_) hj
      split_ifs <;> omega
  · rw [if_neg h]
    refine Finset.sum_eq_zero fun j hj => ?_
    rw [Finset.mem_range] at hj
    rw [if_neg]
    split_ifs <;> omega

theorem times1_eq (N n : Nat) (hn : 1 ≤ n) (r1 r2 : Nat → Nat) :
    createRandomTimes1 N n r1 r2 = .ok ((List.range N).map fun (i : Nat) => 2 * (n : Int) * i + r1 i,
      (List.range N).map fun (j : Nat) => 2 * (n : Int) * j + n * r2 j) := by
  unfold createRandomTimes1
  rw [if_neg (by omega)]
  dsimp only
  rw [show n * 2 / (2 * n) = 1 by rw [Nat.mul_comm]; exact Nat.div_self (by omega), show n * 2 / 2 = n by omega]
  congr 2
  · refine List.map_congr_left fun i _ => ?_
    push_cast; ring
  · refine List.map_congr_left fun i _ => ?_
    push_cast; ring

/-- One window of delays for each pair of periods. -/
theorem window_prob {n : Nat} {r1 r2 : Nat → Ω → Nat} (hn : 1 ≤ n) (h : TwoCameraDraws μ n r1 r2) {d k : Int}
    (hk : -(n : Int) < d - 2 * n * k ∧ d - 2 * n * k ≤ n) (i j : Nat) :
    μ.real {ω | (2 * (n : Int) * j + n * r2 j ω) - (2 * (n : Int) * i + r1 i ω) = d} =
      if (j : Int) - i = k then 1 / (2 * (n : ℝ)) else 0 := by
  have e := prob_pair (h.first i) (h.second j) (h.indep i j)
    (fun x y => (2 * (n : Int) * j + n * y) - (2 * (n : Int) * i + x) = d)
  rw [e]
  have : ∀ x y : Nat, ((2 * (n : Int) * j + n * y) - (2 * (n : Int) * i + x) = d) ↔
      (n : Int) * y - x = d - 2 * n * ((j : Int) - i) := by
    intro x y
    constructor <;> intro q <;> linarith
  simp only [this]
  rw [card_window]
  by_cases hjk : (j : Int) - i = k
  · rw [if_pos hjk, hjk, if_pos hk]
    simp only [Nat.cast_one, Nat.cast_ofNat]
    rw [mul_comm (n : ℝ)]
  · rw [if_neg hjk, if_neg]
    · simp
    · rintro ⟨q1, q2⟩
      apply hjk
      have hn' : (0 : Int) < n := by omega
      have a1 : 2 * (n : Int) * (((j : Int) - i) - k) < 2 * n * 1 := by nlinarith
      have a2 : 2 * (n : Int) * (-1) < 2 * n * (((j : Int) - i) - k) := by nlinarith
      have b1 := lt_of_mul_lt_mul_left a1 (by omega)
      have b2 := lt_of_mul_lt_mul_left a2 (by omega)
      omega

/-- The pairs of times of the two cameras. -/
def timePairs (N : Nat) (a b : Nat → Ω → Int) (ω : Ω) : List (Int × Int) :=
  ((List.range N).map fun (i : Nat) => a i ω) ×ˢ ((List.range N).map fun (j : Nat) => b j ω)

open Classical in
theorem timePairs_count (N : Nat) (a b : Nat → Ω → Int) (d : Int) (ω : Ω) :
    ((timePairs N a b ω).filter fun p => p.2 - p.1 = d).length =
      ∑ i ∈ Finset.range N, ∑ j ∈ Finset.range N, if ω ∈ {ω | b j ω - a i ω = d} then 1 else 0 := by
  unfold timePairs
  rw [count_product]
  refine Finset.sum_congr rfl fun i _ => Finset.sum_congr rfl fun j _ => ?_
  congr

/-- The expected number of pairs per signed delay, if a pair has the probability `P (j - i)`. -/
theorem timePairs_expected (N : Nat) (a b : Nat → Ω → Int) (d : Int)
    (hm : ∀ i j, MeasurableSet {ω | b j ω - a i ω = d}) :
    ∫ ω, (((timePairs N a b ω).filter fun p => p.2 - p.1 = d).length : ℝ) ∂μ =
      ∑ i ∈ Finset.range N, ∑ j ∈ Finset.range N, μ.real {ω | b j ω - a i ω = d} := by
  classical
  exact expected_count N (fun i j => {ω | b j ω - a i ω = d}) hm _ (timePairs_count N a b d)

theorem timePairs_integrable (N : Nat) (a b : Nat → Ω → Int) (d : Int)
    (hm : ∀ i j, MeasurableSet {ω | b j ω - a i ω = d}) :
    Integrable (fun ω => (((timePairs N a b ω).filter fun p => p.2 - p.1 = d).length : ℝ)) μ := by
  classical
  exact integrable_count N (fun i j => {ω | b j ω - a i ω = d}) hm _ (timePairs_count N a b d)

/-- One value for the pairs of periods at distance `k`. -/
theorem sum_diff (N : Nat) (k : Int) (q : ℝ) :
    ∑ i ∈ Finset.range N, ∑ j ∈ Finset.range N, (if (j : Int) - i = k then q else 0) = ((N - k.natAbs : Nat) : ℝ) * q := by
  rw [← card_diff N k]
  push_cast
  rw [Finset.sum_mul]
  refine Finset.sum_congr rfl fun i _ => ?_
  rw [Finset.sum_mul]
  refine Finset.sum_congr rfl fun j _ => ?_
  split_ifs <;> simp

/-- The expected number of pairs per signed delay. -/
theorem times1_expected {n : Nat} {r1 r2 : Nat → Ω → Nat} (N : Nat) (hn : 1 ≤ n) (h : TwoCameraDraws μ n r1 r2) {d k : Int}
    (hk : -(n : Int) < d - 2 * n * k ∧ d - 2 * n * k ≤ n) :
    ∫ ω, (((timePairs N (fun i ω => 2 * (n : Int) * i + r1 i ω) (fun j ω => 2 * (n : Int) * j + n * r2 j ω) ω).filter
      fun p => p.2 - p.1 = d).length : ℝ) ∂μ = ((N - k.natAbs : Nat) : ℝ) / (2 * n) := by
  rw [timePairs_expected]
  · simp only [window_prob hn h hk]
    rw [sum_diff, mul_one_div]
  · exact fun i j => measurableSet_pair (h.first i).measurable (h.second j).measurable
      (fun x y => (2 * (n : Int) * j + n * y) - (2 * (n : Int) * i + x) = d)

/-- The counts per signed delay. -/
theorem pairs_complex (N : Nat) (a b : Nat → Ω → Int) (m : Nat) (hm : 1 ≤ m) :
    ∃ cnt : Ω → List Nat,
      (∀ ω, crossCount (.array ((List.range N).map fun (i : Nat) => a i ω))
        (some (.array ((List.range N).map fun (j : Nat) => b j ω))) (some m) true none = .ok (cnt ω)) ∧
      ∀ d : Int, |d| < m → ∀ ω, pyGet (cnt ω) d = some ((timePairs N a b ω).filter fun p => p.2 - p.1 = d).length := by
  have key := fun ω => C06_cross_count_complex (.array ((List.range N).map fun (i : Nat) => a i ω))
    (some (.array ((List.range N).map fun (j : Nat) => b j ω))) m hm none (by simp)
  choose cnt h1 _ h3 using key
  refine ⟨cnt, h1, fun d hd ω => ?_⟩
  obtain ⟨q, -, hq⟩ := h3 ω d hd
  rw [hq]
  simp only [start, Nat.zero_add]
  rfl

/-- The counts per unsigned delay. -/
theorem pairs_abs (N : Nat) (a b : Nat → Ω → Int) (m : Nat) :
    ∃ cnt : Ω → List Nat,
      (∀ ω, crossCount (.array ((List.range N).map fun (i : Nat) => a i ω))
        (some (.array ((List.range N).map fun (j : Nat) => b j ω))) (some m) false none = .ok (cnt ω)) ∧
      ∀ d < m, ∀ ω, (cnt ω)[d]? = some ((timePairs N a b ω).filter fun p => (p.2 - p.1).natAbs = d).length := by
  have key := fun ω => C06_cross_count (.array ((List.range N).map fun (i : Nat) => a i ω))
    (some (.array ((List.range N).map fun (j : Nat) => b j ω))) (some m) none (by simp)
  choose cnt h1 h2 h3 using key
  refine ⟨cnt, h1, fun d hd ω => ?_⟩
  have hk : d < (cnt ω).length := by rw [h2 ω]; exact hd
  rw [List.getElem?_eq_getElem hk, h3 ω d hk]
  simp only [start, Nat.zero_add]
  rfl

theorem absCount_zero (P : Ω → List (Int × Int)) :
    (fun ω => (((P ω).filter fun p => (p.2 - p.1).natAbs = 0).length : ℝ)) =
      fun ω => (((P ω).filter fun p => p.2 - p.1 = 0).length : ℝ) := by
  funext ω
  congr 2
  refine List.filter_congr fun p _ => ?_
  simp

/-- **C94.** Trigger times of Eq.7: every signed delay `d` of the window `-n < d - 2nk ≤ n` is sampled the same number of times
on average, `(N - |k|)/(2n)`: `cross_count(complex=True)` of the random times, in the mean. -/
theorem C94_uniform {n : Nat} {r1 r2 : Nat → Ω → Nat} (N : Nat) (hn : 1 ≤ n) (h : TwoCameraDraws μ n r1 r2) (m : Nat) (hm : 1 ≤ m) :
    ∃ cnt : Ω → List Nat,
      (∀ ω, Except.bind (createRandomTimes1 N n (fun i => r1 i ω) (fun i => r2 i ω)) (fun t =>
        crossCount (.array t.1) (some (.array t.2)) (some m) true none) = .ok (cnt ω)) ∧
      ∀ d : Int, |d| < m → ∃ c : Ω → Nat, (∀ ω, pyGet (cnt ω) d = some (c ω)) ∧
        ∀ k : Int, -(n : Int) < d - 2 * n * k → d - 2 * n * k ≤ n → ∫ ω, (c ω : ℝ) ∂μ = ((N - k.natAbs : Nat) : ℝ) / (2 * n) := by
  obtain ⟨cnt, h1, h2⟩ := pairs_complex N (fun i ω => 2 * (n : Int) * i + r1 i ω) (fun j ω => 2 * (n : Int) * j + n * r2 j ω) m hm
  refine ⟨cnt, fun ω => ?_, fun d hd => ⟨_, h2 d hd, fun k ha hb => times1_expected N hn h ⟨ha, hb⟩⟩⟩
  rw [times1_eq _ _ hn]
  exact h1 ω

/-- **C94.** The same for `cross_count` over unsigned delays. -/
theorem C94_uniform_abs {n : Nat} {r1 r2 : Nat → Ω → Nat} (N : Nat) (hn : 1 ≤ n) (h : TwoCameraDraws μ n r1 r2) (m : Nat) :
    ∃ cnt : Ω → List Nat,
      (∀ ω, Except.bind (createRandomTimes1 N n (fun i => r1 i ω) (fun i => r2 i ω)) (fun t =>
        crossCount (.array t.1) (some (.array t.2)) (some m) false none) = .ok (cnt ω)) ∧
      ∀ d < m, ∃ c : Ω → Nat, (∀ ω, (cnt ω)[d]? = some (c ω)) ∧
        (d = 0 → ∫ ω, (c ω : ℝ) ∂μ = (N : ℝ) / (2 * n)) ∧
        (∀ k : Nat, 0 < d → 2 * n * k < d + n → d < 2 * n * k + n → ∫ ω, (c ω : ℝ) ∂μ = ((N - k : Nat) : ℝ) / n) ∧
        (∀ k : Nat, d = (2 * k + 1) * n →
          ∫ ω, (c ω : ℝ) ∂μ = (((N - k : Nat) : ℝ) + ((N - (k + 1) : Nat) : ℝ)) / (2 * n)) := by
  have hn' : (0 : ℝ) < n := by exact_mod_cast hn
  obtain ⟨cnt, h1, h2⟩ := pairs_abs N (fun i ω => 2 * (n : Int) * i + r1 i ω) (fun j ω => 2 * (n : Int) * j + n * r2 j ω) m
  have hI := fun e : Int => timePairs_integrable (μ := μ) N (fun i ω => 2 * (n : Int) * i + r1 i ω)
    (fun j ω => 2 * (n : Int) * j + n * r2 j ω) e (fun i j => measurableSet_pair (h.first i).measurable (h.second j).measurable
          (fun x y => (2 * (n : Int) * j + n * y) - (2 * (n : Int) * i + x) = e))
  refine ⟨cnt, fun ω => ?_, fun d hd => ⟨_, h2 d hd, ?_, ?_, ?_⟩⟩
  · rw [times1_eq _ _ hn]
    exact h1 ω
  · rintro rfl
    rw [absCount_zero, times1_expected (k := 0) (d := 0) N hn h (by omega)]
    simp
  · intro k h0 ha hb
    have hkn : (2 * n * k : Nat) = 2 * (n : Int) * k := by push_cast; ring
    rw [integral_abs_split _ d h0 hI, times1_expected (k := k) N hn h (by omega),
      times1_expected (k := -(k : Int)) N hn h (by rw [mul_neg]; omega)]
    rw [Int.natAbs_neg, Int.natAbs_natCast]
    field_simp
    ring
  · intro k hk
    have hkn : ((d : Nat) : Int) = 2 * (n : Int) * k + n := by rw [hk]; push_cast; ring
    have h0 : 0 < d := by rw [hk]; positivity
    rw [integral_abs_split _ d h0 hI, times1_expected (k := k) N hn h (by omega),
      times1_expected (k := -((k : Int) + 1)) N hn h (by rw [mul_neg, mul_add]; omega)]
    rw [Int.natAbs_neg, Int.natAbs_natCast, show ((k : Int) + 1).natAbs = k + 1 by omega]
    rw [add_div]

/-! ### Eq.8: some frames are taken simultaneously -/

/-- The expected fraction of the pairs of periods at distance `k` which have the delay `d`. -/
noncomputable def pairFraction (n : Nat) (d k : Int) : ℝ :=
  (1 - 1 / (2 * (n : ℝ))) * (1 / (2 * n)) +
    1 / (2 * (n : ℝ)) * (if k = 0 then (if d = 0 then 1 else 0) else ((n - (d - 2 * n * k).natAbs : Nat) : ℝ) / (n * n))

theorem times2_eq (N n : Nat) (hn : 1 ≤ n) (r1 r2 r3 : Nat → Nat) :
    createRandomTimes2 N n r1 r2 r3 = .ok ((List.range N).map fun (i : Nat) => 2 * (n : Int) * i + r1 i,
      (List.range N).map fun (j : Nat) => 2 * (n : Int) * j + if r3 j = 0 then (r1 j : Int) else n * r2 j) := by
  unfold createRandomTimes2
  rw [if_neg (by omega)]
  dsimp only
  rw [show n * 2 / (2 * n) = 1 by rw [Nat.mul_comm]; exact Nat.div_self (by omega), show n * 2 / 2 = n by omega]
  congr 2
  · refine List.map_congr_left fun i _ => ?_
    push_cast; ring
  · refine List.map_congr_left fun i _ => ?_
    split_ifs <;> (push_cast; ring)

theorem threeDraws_two {n : Nat} {r1 r2 r3 : Nat → Ω → Nat} (h : ThreeDraws μ n r1 r2 r3) : TwoCameraDraws μ n r1 r2 :=
  ⟨h.first, h.second, fun i j => h.indep.indepFun (i := (0, i)) (j := (1, j)) (by simp)⟩

theorem threeDraws_meas {n : Nat} {r1 r2 r3 : Nat → Ω → Nat} (h : ThreeDraws μ n r1 r2 r3) (q : Fin 3 × Nat) :
    Measurable ((![r1, r2, r3] q.1) q.2) := by
  obtain ⟨q, i⟩ := q
  fin_cases q
  · exact (h.first i).measurable
  · exact (h.second i).measurable
  · exact (h.third i).measurable

/-- An event of two draws, given a third one. -/
theorem prob_given {X : Ω → Nat × Nat} {Z : Ω → Nat} (hi : IndepFun X Z μ) (A : Set (Nat × Nat)) (B : Set Nat) :
    μ.real (X ⁻¹' A ∩ Z ⁻¹' B) = μ.real (X ⁻¹' A) * μ.real (Z ⁻¹' B) := by
  have := hi.measure_inter_preimage_eq_mul A B (MeasurableSet.of_discrete) (MeasurableSet.of_discrete)
  rw [measureReal_def, measureReal_def, measureReal_def, ← ENNReal.toReal_mul]
  exact congrArg ENNReal.toReal this

/-- The times of one camera, in different periods. -/
theorem same_prob {n : Nat} {r1 : Nat → Ω → Nat} (hn : 1 ≤ n) (h1 : ∀ i, UniformDraw μ n (r1 i))
    (hi : ∀ i j, i ≠ j → IndepFun (r1 i) (r1 j) μ) {d k : Int}
    (hk : -(n : Int) < d - 2 * n * k ∧ d - 2 * n * k ≤ n) (i j : Nat) :
    μ.real {ω | (2 * (n : Int) * j + r1 j ω) - (2 * (n : Int) * i + r1 i ω) = d} =
      if (j : Int) - i = k then (if k = 0 then (if d = 0 then 1 else 0) else ((n - (d - 2 * n * k).natAbs : Nat) : ℝ) / (n * n))
      else 0 := by
  have hn' : (0 : Int) < n := by omega
  by_cases hij : i = j
  · subst hij
    rw [show {ω | (2 * (n : Int) * i + r1 i ω) - (2 * (n : Int) * i + r1 i ω) = d} = {_ω | d = 0} by
      ext ω; simp [eq_comm]]
    by_cases h0 : d = 0
    · have k0 : k = 0 := by
        rw [h0] at hk
        have a1 : 2 * (n : Int) * k < 2 * n * 1 := by nlinarith
        have a2 : 2 * (n : Int) * (-1) < 2 * n * k := by nlinarith
        have b1 := lt_of_mul_lt_mul_left a1 (by omega)
        have b2 := lt_of_mul_lt_mul_left a2 (by omega)
        omega
      simp [h0, k0]
    · simp only [h0, Set.setOf_false, measureReal_empty, if_false]
      by_cases k0 : k = 0
      · simp [k0]
      · rw [if_neg (by omega)]
  · have e := prob_pair (h1 i) (h1 j) (hi i j hij)
      (fun x y => (2 * (n : Int) * j + y) - (2 * (n : Int) * i + x) = d)
    rw [e]
    have : ∀ x y : Nat, ((2 * (n : Int) * j + y) - (2 * (n : Int) * i + x) = d) ↔
        (y : Int) - x = d - 2 * n * ((j : Int) - i) := by
      intro x y
      constructor <;> intro q <;> linarith
    simp only [this]
    rw [card_diff]
    by_cases hjk : (j : Int) - i = k
    · rw [if_pos hjk, if_neg (by omega), hjk]
    · rw [if_neg hjk]
      have : n - (d - 2 * n * ((j : Int) - i)).natAbs = 0 := by
        have : (n : Int) ≤ |d - 2 * n * ((j : Int) - i)| := by
          rcases lt_or_gt_of_ne hjk with q | q
          · have : 2 * (n : Int) * ((j : Int) - i) ≤ 2 * n * (k - 1) := by
              exact mul_le_mul_of_nonneg_left (by omega) (by omega)
            exact le_trans (by linarith [mul_sub (2 * (n : Int)) k 1]) (le_abs_self _)
          · have : 2 * (n : Int) * (k + 1) ≤ 2 * n * ((j : Int) - i) := by
              exact mul_le_mul_of_nonneg_left (by omega) (by omega)
            exact le_trans (by linarith [mul_add (2 * (n : Int)) k 1]) (neg_le_abs _)
        rw [Int.abs_eq_natAbs] at this
        omega
      rw [this]
      simp

theorem times2_prob {n : Nat} {r1 r2 r3 : Nat → Ω → Nat} (hn : 1 ≤ n) (h : ThreeDraws μ n r1 r2 r3) {d k : Int}
    (hk : -(n : Int) < d - 2 * n * k ∧ d - 2 * n * k ≤ n) (i j : Nat) :
    MeasurableSet {ω | (2 * (n : Int) * j + if r3 j ω = 0 then (r1 j ω : Int) else n * r2 j ω) - (2 * (n : Int) * i + r1 i ω) = d} ∧
    μ.real {ω | (2 * (n : Int) * j + if r3 j ω = 0 then (r1 j ω : Int) else n * r2 j ω) - (2 * (n : Int) * i + r1 i ω) = d} =
      if (j : Int) - i = k then pairFraction n d k else 0 := by
  have hS : {ω | (2 * (n : Int) * j + if r3 j ω = 0 then (r1 j ω : Int) else n * r2 j ω) - (2 * (n : Int) * i + r1 i ω) = d} =
      ((fun ω => (r1 i ω, r1 j ω)) ⁻¹' {q | (2 * (n : Int) * j + q.2) - (2 * (n : Int) * i + q.1) = d} ∩ r3 j ⁻¹' {0}) ∪
      ((fun ω => (r1 i ω, r2 j ω)) ⁻¹' {q | (2 * (n : Int) * j + n * q.2) - (2 * (n : Int) * i + q.1) = d} ∩ r3 j ⁻¹' {0}ᶜ) := by
    ext ω
    simp only [Set.mem_setOf_eq, Set.mem_union, Set.mem_inter_iff, Set.mem_preimage, Set.mem_singleton_iff, Set.mem_compl_iff]
    by_cases z : r3 j ω = 0 <;> simp [z]
  have m1 : MeasurableSet ((fun ω => (r1 i ω, r1 j ω)) ⁻¹' {q | (2 * (n : Int) * j + q.2) - (2 * (n : Int) * i + q.1) = d} ∩
      r3 j ⁻¹' {0}) :=
    (((h.first i).measurable.prodMk (h.first j).measurable) MeasurableSet.of_discrete).inter
      ((h.third j).measurable MeasurableSet.of_discrete)
  have m2 : MeasurableSet ((fun ω => (r1 i ω, r2 j ω)) ⁻¹' {q | (2 * (n : Int) * j + n * q.2) - (2 * (n : Int) * i + q.1) = d} ∩
      r3 j ⁻¹' {0}ᶜ) :=
    (((h.first i).measurable.prodMk (h.second j).measurable) MeasurableSet.of_discrete).inter
      ((h.third j).measurable MeasurableSet.of_discrete)
  refine ⟨by rw [hS]; exact m1.union m2, ?_⟩
  rw [hS, measureReal_union _ m2]
  · have i1 : IndepFun (fun ω => (r1 i ω, r1 j ω)) (r3 j) μ :=
      h.indep.indepFun_prodMk (threeDraws_meas h) (0, i) (0, j) (2, j) (by simp) (by simp)
    have i2 : IndepFun (fun ω => (r1 i ω, r2 j ω)) (r3 j) μ :=
      h.indep.indepFun_prodMk (threeDraws_meas h) (0, i) (1, j) (2, j) (by simp) (by simp)
    rw [prob_given i1, prob_given i2]
    have p0 : μ.real (r3 j ⁻¹' {0}) = 1 / (2 * (n : ℝ)) := by
      have := (h.third j).uniform 0 (by omega)
      push_cast at this
      exact this
    have p1 : μ.real (r3 j ⁻¹' {0}ᶜ) = 1 - 1 / (2 * (n : ℝ)) := by
      rw [Set.preimage_compl, probReal_compl_eq_one_sub ((h.third j).measurable (measurableSet_singleton 0)), p0]
    rw [p0, p1]
    have q1 := same_prob hn h.first (fun i j hij => h.indep.indepFun (i := (0, i)) (j := (0, j)) (by simpa using hij)) hk i j
    have q2 := window_prob hn (threeDraws_two h) hk i j
    change μ.real {ω | (2 * (n : Int) * j + r1 j ω) - (2 * (n : Int) * i + r1 i ω) = d} * _ +
      μ.real {ω | (2 * (n : Int) * j + n * r2 j ω) - (2 * (n : Int) * i + r1 i ω) = d} * _ = _
    rw [q1, q2]
    unfold pairFraction
    split_ifs <;> ring
  · refine Set.disjoint_left.mpr ?_
    rintro ω ⟨-, h1⟩ ⟨-, h2⟩
    exact h2 h1

theorem times2_expected {n : Nat} {r1 r2 r3 : Nat → Ω → Nat} (N : Nat) (hn : 1 ≤ n) (h : ThreeDraws μ n r1 r2 r3) {d k : Int}
    (hk : -(n : Int) < d - 2 * n * k ∧ d - 2 * n * k ≤ n) :
    ∫ ω, (((timePairs N (fun i ω => 2 * (n : Int) * i + r1 i ω)
      (fun j ω => 2 * (n : Int) * j + if r3 j ω = 0 then (r1 j ω : Int) else n * r2 j ω) ω).filter
      fun p => p.2 - p.1 = d).length : ℝ) ∂μ = ((N - k.natAbs : Nat) : ℝ) * pairFraction n d k := by
  rw [timePairs_expected _ _ _ _ fun i j => (times2_prob hn h hk i j).1]
  simp only [(times2_prob hn h hk _ _).2]
  rw [sum_diff]

/-- **C94.** Trigger times of Eq.8, where each frame is with probability `1/(2n)` taken simultaneously by both cameras: the
expected number of pairs per signed delay. -/
theorem C94_simultaneous {n : Nat} {r1 r2 r3 : Nat → Ω → Nat} (N : Nat) (hn : 1 ≤ n) (h : ThreeDraws μ n r1 r2 r3) (m : Nat)
    (hm : 1 ≤ m) :
    ∃ cnt : Ω → List Nat,
      (∀ ω, Except.bind (createRandomTimes2 N n (fun i => r1 i ω) (fun i => r2 i ω) (fun i => r3 i ω)) (fun t =>
        crossCount (.array t.1) (some (.array t.2)) (some m) true none) = .ok (cnt ω)) ∧
      ∀ d : Int, |d| < m → ∃ c : Ω → Nat, (∀ ω, pyGet (cnt ω) d = some (c ω)) ∧
        (d = 0 → ∫ ω, (c ω : ℝ) ∂μ = N * ((1 - 1 / (2 * (n : ℝ))) * (1 / (2 * n)) + 1 / (2 * n))) ∧
        (d ≠ 0 → -(n : Int) < d → d ≤ n → ∫ ω, (c ω : ℝ) ∂μ = N * ((1 - 1 / (2 * (n : ℝ))) * (1 / (2 * n)))) ∧
        ∀ k : Int, k ≠ 0 → -(n : Int) < d - 2 * n * k → d - 2 * n * k ≤ n → ∫ ω, (c ω : ℝ) ∂μ =
          ((N - k.natAbs : Nat) : ℝ) * ((1 - 1 / (2 * (n : ℝ))) * (1 / (2 * n)) +
            1 / (2 * n) * ((n - |d - 2 * n * k| : Int) / (n * n))) := by
  obtain ⟨cnt, h1, h2⟩ := pairs_complex N (fun i ω => 2 * (n : Int) * i + r1 i ω)
    (fun j ω => 2 * (n : Int) * j + if r3 j ω = 0 then (r1 j ω : Int) else n * r2 j ω) m hm
  refine ⟨cnt, fun ω => ?_, fun d hd => ⟨_, h2 d hd, fun h0 => ?_, fun h0 ha hb => ?_, fun k h0 ha hb => ?_⟩⟩
  · rw [times2_eq _ _ hn]
    exact h1 ω
  · subst h0
    rw [times2_expected (k := 0) N hn h (by omega)]
    simp [pairFraction]
  · rw [times2_expected (k := 0) N hn h (by omega)]
    simp [pairFraction, h0]
  · rw [times2_expected (k := k) N hn h ⟨ha, hb⟩]
    unfold pairFraction
    rw [if_neg h0]
    congr 4
    have : (n : Int) - |d - 2 * n * k| = ((n - (d - 2 * n * k).natAbs : Nat) : Int) := by
      rw [Int.abs_eq_natAbs]
      omega
    rw [this]
    simp

/-- **C94.** Over unsigned delays, the scheme of Eq.8 samples the delay 0 nearly as often as the delays below `n`; with Eq.7
it is half as often (`C94_uniform_abs`). -/
theorem C94_simultaneous_abs {n : Nat} {r1 r2 r3 : Nat → Ω → Nat} (N : Nat) (hn : 1 ≤ n) (h : ThreeDraws μ n r1 r2 r3) (m : Nat) :
    ∃ cnt : Ω → List Nat,
      (∀ ω, Except.bind (createRandomTimes2 N n (fun i => r1 i ω) (fun i => r2 i ω) (fun i => r3 i ω)) (fun t =>
        crossCount (.array t.1) (some (.array t.2)) (some m) false none) = .ok (cnt ω)) ∧
      ∀ d < m, ∃ c : Ω → Nat, (∀ ω, (cnt ω)[d]? = some (c ω)) ∧
        (d = 0 → ∫ ω, (c ω : ℝ) ∂μ = (N : ℝ) / n * (1 - 1 / (4 * n))) ∧
        (0 < d → d < n → ∫ ω, (c ω : ℝ) ∂μ = (N : ℝ) / n * (1 - 1 / (2 * n))) := by
  have hn' : (0 : ℝ) < n := by exact_mod_cast hn
  obtain ⟨cnt, h1, h2⟩ := pairs_abs N (fun i ω => 2 * (n : Int) * i + r1 i ω)
    (fun j ω => 2 * (n : Int) * j + if r3 j ω = 0 then (r1 j ω : Int) else n * r2 j ω) m
  have hw : ∀ e : Int, ∃ k : Int, -(n : Int) < e - 2 * n * k ∧ e - 2 * n * k ≤ n := fun e => by
    refine ⟨(e + n - 1) / (2 * n), ?_⟩
    have a := Int.mul_ediv_add_emod (e + n - 1) (2 * n)
    have b := Int.emod_nonneg (e + n - 1) (show (2 * n : Int) ≠ 0 by omega)
    have c := Int.emod_lt_of_pos (e + n - 1) (show (0 : Int) < 2 * n by omega)
    omega
  have hI := fun e : Int => timePairs_integrable (μ := μ) N (fun i ω => 2 * (n : Int) * i + r1 i ω)
    (fun j ω => 2 * (n : Int) * j + if r3 j ω = 0 then (r1 j ω : Int) else n * r2 j ω) e
      (fun i j => (times2_prob hn h (hw e).choose_spec i j).1)
  refine ⟨cnt, fun ω => ?_, fun d hd => ⟨_, h2 d hd, ?_, ?_⟩⟩
  · rw [times2_eq _ _ hn]
    exact h1 ω
  · rintro rfl
    rw [absCount_zero, times2_expected (k := 0) (d := 0) N hn h (by omega)]
    simp only [pairFraction, if_true, Int.natAbs_zero, Nat.sub_zero]
    field_simp
    ring
  · intro h0 hb
    rw [integral_abs_split _ d h0 hI, times2_expected (k := 0) N hn h (by omega), times2_expected (k := 0) N hn h (by omega)]
    simp only [pairFraction, if_true, Int.natAbs_zero, Nat.sub_zero]
    rw [if_neg (by omega), if_neg (by omega)]
    field_simp
    ring

/-! ### The single-camera scheme -/

theorem randomTimeLoop_eq (n : Nat) (dtMin : Int) (hd : dtMin ≤ 1) (rand : Nat → Int → Int → Int) (u : Nat → Nat) (hu : ∀ i, u i < n)
    (hr : ∀ i, rand i 0 n = u i) (N : Nat) : ∀ (i : Nat) (r : Int), r < n →
      randomTimeLoop n dtMin rand N i r = .ok ((List.range' i N).map fun (k : Nat) => (k : Int) * n + u k) := by
  induction N with
  | zero => intro i r _; rfl
  | succ N ih =>
    intro i r hlt
    have hi := hu i
    have low : max 0 (dtMin - n + r) = 0 := by omega
    unfold randomTimeLoop
    dsimp only
    rw [low, hr, randint, if_pos (by omega)]
    dsimp only [bind, Except.bind]
    rw [ih (i + 1) (u i) (by omega)]
    rfl

theorem randomTime_eq (N n : Nat) (hn : 1 ≤ n) (dtMin : Int) (hd : dtMin ≤ 1) (rand : Nat → Int → Int → Int) (u : Nat → Nat)
    (hu : ∀ i, u i < n) (hr : ∀ i, rand i 0 n = u i) :
    createRandomTime N n dtMin rand = .ok ((List.range N).map fun (k : Nat) => (n : Int) * k + u k) := by
  unfold createRandomTime
  rw [randomTimeLoop_eq n dtMin hd rand u hu hr N 0 0 (by omega), List.range_eq_range']
  congr 2
  funext k
  ring

/-- The pairs at `g` periods, over all pairs of periods in order. -/
theorem sum_forward (N : Nat) (f : Int → ℝ) :
    ∑ i ∈ Finset.range N, ∑ j ∈ Finset.range N, (if i < j then f ((j : Int) - i) else 0) =
      ∑ g ∈ Finset.Ico 1 N, ((N - g : Nat) : ℝ) * f g := by
  have e : ∀ i ∈ Finset.range N, ∀ j ∈ Finset.range N, (if i < j then f ((j : Int) - i) else 0) =
      ∑ g ∈ Finset.Ico 1 N, if (j : Int) - i = (g : Nat) then f g else 0 := by
    intro i hi j hj
    rw [Finset.mem_range] at hi hj
    by_cases h : i < j
    · rw [if_pos h, Finset.sum_eq_single (j - i)]
      · rw [if_pos (by omega)]
        congr 1
        omega
      · intro g _ hg
        rw [if_neg (by omega)]
      · intro hg
        exact absurd (Finset.mem_Ico.mpr (by omega)) hg
    · rw [if_neg h]
      symm
      refine Finset.sum_eq_zero fun g hg => ?_
      rw [Finset.mem_Ico] at hg
      rw [if_neg (by omega)]
  rw [Finset.sum_congr rfl fun i hi => Finset.sum_congr rfl (e i hi)]
  rw [Finset.sum_congr rfl fun i _ => Finset.sum_comm, Finset.sum_comm]
  refine Finset.sum_congr rfl fun g _ => ?_
  rw [sum_diff]
  simp

/-- The probability of a delay, given the number `g` of periods. -/
theorem single_prob {n : Nat} {u : Nat → Ω → Nat} (h1 : ∀ i, UniformDraw μ n (u i))
    (hi : ∀ i j, i ≠ j → IndepFun (u i) (u j) μ) (d : Nat) (i j : Nat) (hij : i < j) :
    μ.real {ω | (((n : Int) * j + u j ω) - ((n : Int) * i + u i ω)).natAbs = d} =
      ((n - ((d : Int) - n * ((j : Int) - i)).natAbs : Nat) : ℝ) / (n * n) := by
  have hset : {ω | (((n : Int) * j + u j ω) - ((n : Int) * i + u i ω)).natAbs = d} =
      {ω | ((n : Int) * j + u j ω) - ((n : Int) * i + u i ω) = d} := by
    ext ω
    have a := (h1 i).range ω
    have b : (n : Int) * (i + 1) ≤ n * j := mul_le_mul_of_nonneg_left (by omega) (by omega)
    rw [mul_add] at b
    simp only [Set.mem_setOf_eq]
    omega
  rw [hset, prob_pair (h1 i) (h1 j) (hi i j hij.ne) (fun x y => ((n : Int) * j + y) - ((n : Int) * i + x) = d)]
  have : ∀ x y : Nat, (((n : Int) * j + y) - ((n : Int) * i + x) = d) ↔ (y : Int) - x = d - n * ((j : Int) - i) := by
    intro x y
    constructor <;> intro q <;> linarith
  simp only [this]
  rw [card_diff]

open Classical in
theorem single_expected {n : Nat} {u : Nat → Ω → Nat} (N : Nat) (h1 : ∀ i, UniformDraw μ n (u i))
    (hi : ∀ i j, i ≠ j → IndepFun (u i) (u j) μ) (d : Nat) :
    ∫ ω, (((selfPairs ((List.range N).map fun (k : Nat) => (n : Int) * k + u k ω)).filter
        fun p => (p.2 - p.1).natAbs = d).length : ℝ) ∂μ =
      (if d = 0 then (N : ℝ) else 0) +
        ∑ g ∈ Finset.Ico 1 N, ((N - g : Nat) : ℝ) * (((n - ((d : Int) - n * g).natAbs : Nat) : ℝ) / (n * n)) := by
  have m : ∀ i j, MeasurableSet {ω | i ≤ j ∧ (((n : Int) * j + u j ω) - ((n : Int) * i + u i ω)).natAbs = d} := fun i j =>
    measurableSet_pair (h1 i).measurable (h1 j).measurable
      (fun x y => i ≤ j ∧ (((n : Int) * j + y) - ((n : Int) * i + x)).natAbs = d)
  rw [expected_count N (fun i j => {ω | i ≤ j ∧ (((n : Int) * j + u j ω) - ((n : Int) * i + u i ω)).natAbs = d}) m]
  · have e : ∀ i ∈ Finset.range N, ∀ j ∈ Finset.range N,
        μ.real {ω | i ≤ j ∧ (((n : Int) * j + u j ω) - ((n : Int) * i + u i ω)).natAbs = d} =
        (if (j : Int) - i = 0 then (if d = 0 then 1 else 0) else 0) +
          if i < j then ((n - ((d : Int) - n * ((j : Int) - i)).natAbs : Nat) : ℝ) / (n * n) else 0 := by
      intro i _ j _
      rcases Nat.lt_trichotomy i j with h | h | h
      · rw [if_neg (by omega), if_pos h, zero_add, ← single_prob h1 hi d i j h]
        simp only [h.le, true_and]
      · subst h
        rw [if_pos (show (i : Int) - i = 0 by simp), if_neg (lt_irrefl i), add_zero]
        by_cases h0 : d = 0
        · simp [h0]
        · rw [if_neg h0]
          rw [show {ω | i ≤ i ∧ (((n : Int) * i + u i ω) - ((n : Int) * i + u i ω)).natAbs = d} = (∅ : Set Ω) by
            ext ω; simp [Ne.symm h0]]
          simp
      · rw [if_neg (by omega), if_neg (by omega), add_zero]
        simp [show ¬ i ≤ j by omega]
    rw [Finset.sum_congr rfl fun i hi => Finset.sum_congr rfl (e i hi)]
    simp only [Finset.sum_add_distrib]
    rw [sum_diff, sum_forward N (fun g => ((n - ((d : Int) - n * g).natAbs : Nat) : ℝ) / (n * n))]
    congr 1
    simp
  · intro ω
    rw [count_selfPairs]
    refine Finset.sum_congr rfl fun i _ => Finset.sum_congr rfl fun j _ => ?_
    by_cases h : i ≤ j
    · rw [if_pos h]
      simp only [Set.mem_setOf_eq, h, true_and]
    · rw [if_neg h]
      simp only [Set.mem_setOf_eq, h, false_and, if_false]

/-- The sum over the numbers of periods, at `d = qn + s`. -/
theorem period_sum (N n q s : Nat) (hs : s < n) (w : Nat → ℝ) :
    ∑ g ∈ Finset.Ico 1 N, w g * ((n - (((q * n + s : Nat) : Int) - n * g).natAbs : Nat) : ℝ) =
      (if 1 ≤ q ∧ q < N then w q * (n - s) else 0) + (if q + 1 < N then w (q + 1) * s else 0) := by
  have e : ∀ g ∈ Finset.Ico 1 N, w g * ((n - (((q * n + s : Nat) : Int) - n * g).natAbs : Nat) : ℝ) =
      (if g = q then w g * (n - s) else 0) + (if g = q + 1 then w g * s else 0) := by
    intro g _
    have hc : ((q * n + s : Nat) : Int) = n * q + s := by push_cast; ring
    rw [hc]
    rcases Nat.lt_trichotomy g q with h | h | h
    · rw [if_neg (by omega), if_neg (by omega)]
      have : (n : Int) * (g + 1) ≤ n * q := mul_le_mul_of_nonneg_left (by omega) (by omega)
      rw [mul_add] at this
      rw [show n - ((n : Int) * q + s - n * g).natAbs = 0 by omega]
      simp
    · subst h
      rw [if_pos rfl, if_neg (by omega), show n - ((n : Int) * g + s - n * g).natAbs = n - s by omega,
        Nat.cast_sub hs.le, add_zero]
    · rcases Nat.lt_or_ge (q + 1) g with h2 | h2
      · rw [if_neg (by omega), if_neg (by omega)]
        have : (n : Int) * (q + 2) ≤ n * g := mul_le_mul_of_nonneg_left (by omega) (by omega)
        rw [mul_add] at this
        rw [show n - ((n : Int) * q + s - n * g).natAbs = 0 by omega]
        simp
      · obtain rfl : g = q + 1 := by omega
        rw [if_neg (by omega), if_pos rfl, zero_add]
        have : (n : Int) * ((q + 1 : Nat) : Int) = n * q + n := by push_cast; ring
        rw [this, show n - ((n : Int) * q + s - (n * q + n)).natAbs = s by omega]
  rw [Finset.sum_congr rfl e, Finset.sum_add_distrib, Finset.sum_ite_eq', Finset.sum_ite_eq']
  simp only [Finset.mem_Ico]
  congr 1
  simp

/-- The expected number of pairs of the single-camera scheme: all delays up to `Nn`. -/
theorem single_formula {n : Nat} {u : Nat → Ω → Nat} (N : Nat) (hn : 1 ≤ n) (h1 : ∀ i, UniformDraw μ n (u i))
    (hi : ∀ i j, i ≠ j → IndepFun (u i) (u j) μ) (d : Nat) :
    ∫ ω, (((selfPairs ((List.range N).map fun (k : Nat) => (n : Int) * k + u k ω)).filter
        fun p => (p.2 - p.1).natAbs = d).length : ℝ) ∂μ =
      if d = 0 then (N : ℝ) else if d < n then ((N - 1 : Nat) : ℝ) * d / (n * n)
        else ((N * n - d : Nat) : ℝ) / (n * n) := by
  classical
  have hn' : (0 : ℝ) < n := by exact_mod_cast hn
  rw [single_expected N h1 hi d]
  have e := period_sum N n (d / n) (d % n) (Nat.mod_lt _ hn) (fun g => ((N - g : Nat) : ℝ))
  rw [Nat.div_add_mod'] at e
  have e2 : ∑ g ∈ Finset.Ico 1 N, ((N - g : Nat) : ℝ) * (((n - ((d : Int) - n * g).natAbs : Nat) : ℝ) / (n * n)) =
      (∑ g ∈ Finset.Ico 1 N, ((N - g : Nat) : ℝ) * ((n - ((d : Int) - n * g).natAbs : Nat) : ℝ)) / (n * n) := by
    rw [Finset.sum_div]
    exact Finset.sum_congr rfl fun g _ => by rw [mul_div_assoc]
  rw [e2, e]
  clear e e2
  obtain ⟨q, hq⟩ : ∃ q, q = d / n := ⟨_, rfl⟩
  obtain ⟨s, hs⟩ : ∃ s, s = d % n := ⟨_, rfl⟩
  have hd : n * q + s = d := by rw [hq, hs]; exact Nat.div_add_mod d n
  have hsn : s < n := by rw [hs]; exact Nat.mod_lt _ hn
  rw [← hq, ← hs]
  by_cases h0 : d = 0
  · have q0 : q = 0 := by rw [hq, h0]; simp
    have s0 : s = 0 := by rw [hs, h0]; simp
    rw [if_pos h0, if_pos h0, q0, s0, if_neg (by omega)]
    simp
  · rw [if_neg h0, if_neg h0, zero_add]
    by_cases hlt : d < n
    · have q0 : q = 0 := by rw [hq]; exact Nat.div_eq_of_lt hlt
      have s0 : s = d := by rw [hs]; exact Nat.mod_eq_of_lt hlt
      rw [if_pos hlt, q0, s0, if_neg (by omega), zero_add, zero_add]
      by_cases hN : 1 < N
      · rw [if_pos hN]
      · rw [if_neg hN, show N - 1 = 0 by omega]
        simp
    · rw [if_neg hlt]
      have q1 : 1 ≤ q := by
        rcases Nat.eq_zero_or_pos q with z | z
        · rw [z] at hd; omega
        · exact z
      congr 1
      by_cases hqN : q < N
      · rw [if_pos ⟨q1, hqN⟩]
        have a : n * (q + 1) ≤ N * n := by rw [Nat.mul_comm N]; exact Nat.mul_le_mul_left n hqN
        rw [Nat.mul_add] at a
        rw [Nat.cast_sub hqN.le, Nat.cast_sub (by omega : d ≤ N * n), ← hd]
        push_cast
        by_cases hq2 : q + 1 < N
        · rw [if_pos hq2, Nat.cast_sub hq2.le]
          push_cast
          ring
        · obtain rfl : N = q + 1 := by omega
          rw [if_neg hq2]
          push_cast
          ring
      · rw [if_neg (by omega), if_neg (by omega)]
        have a : N * n ≤ n * q := by rw [Nat.mul_comm N]; exact Nat.mul_le_mul_left n (by omega)
        rw [show N * n - d = 0 by omega]
        simp

end

/-- The entries of the estimated counts. -/
theorem randomTimeCount_entries (N n : Nat) (hN : 1 ≤ N) (hn : 1 ≤ n) :
    ∃ est, randomTimeCount N n = .ok est ∧ est.length = N * n + 1 ∧
      ∀ d ≤ N * n, est[d]? = some (if d = 0 then (N : ℝ) * n else
        if d < n then (d : ℝ) / n * (((N * n - d : Nat) : ℝ) / n / n) else ((N * n - d : Nat) : ℝ) / n / n) := by
  have hle : n ≤ N * n := by
    calc n = 1 * n := by simp
      _ ≤ N * n := Nat.mul_le_mul_right n hN
  unfold randomTimeCount
  rw [if_neg (by omega)]
  dsimp only
  rw [if_neg (by simp; omega)]
  refine ⟨_, rfl, by simp, fun d hd => ?_⟩
  by_cases h0 : d = 0
  · subst h0
    rw [if_pos rfl, List.getElem?_set_self (by simp)]
    push_cast
    rfl
  · rw [if_neg h0, List.getElem?_set_ne (by omega), List.getElem?_mapIdx, List.getElem?_map,
      List.getElem?_reverse (by simp; omega), List.getElem?_range (by simp)]
    simp only [Option.map_some, List.length_range]
    rw [show N * n + 1 - 1 - d = N * n - d by omega]

section
variable {Ω : Type} [MeasurableSpace Ω] {μ : Measure Ω} [IsProbabilityMeasure μ]

/-- **C95 (part).** `random_time_count` against the expected number of pairs in the single-camera scheme, the mean of `auto_count`
of the times of `create_random_time`: the expected number at each delay, the estimate is exact for `n ≤ d ≤ Nn`, and at
`0 < d < n` it is too large by `d(n-d)/n³`.  Missing: the delay 0 (see `C95_zero_delay_refuted`). -/
theorem C95_expected_count_partial {n : Nat} {u : Nat → Ω → Nat} (N : Nat) (hN : 1 ≤ N) (hn : 1 ≤ n) (h1 : ∀ i, UniformDraw μ n (u i))
    (hi : ∀ i j, i ≠ j → IndepFun (u i) (u j) μ) (dtMin : Int) (hdt : dtMin ≤ 1) (rand : Ω → Nat → Int → Int → Int)
    (hr : ∀ ω i, rand ω i 0 n = u i ω) :
    ∃ (cnt : Ω → List Nat) (est : List ℝ),
      (∀ ω, Except.bind (createRandomTime N n dtMin (rand ω)) (fun t => autoCount (.array t) (some (N * n + 1)) none) = .ok (cnt ω)) ∧
      randomTimeCount N n = .ok est ∧ est.length = N * n + 1 ∧
      ∀ d ≤ N * n, ∃ (c : Ω → Nat) (e : ℝ), (∀ ω, (cnt ω)[d]? = some (c ω)) ∧ est[d]? = some e ∧
        (d = 0 → ∫ ω, (c ω : ℝ) ∂μ = N ∧ e = N * n) ∧
        (0 < d → d < n → ∫ ω, (c ω : ℝ) ∂μ = ((N : ℝ) - 1) * d / n ^ 2 ∧
          e = ∫ ω, (c ω : ℝ) ∂μ + d * (n - d) / (n : ℝ) ^ 3) ∧
        (n ≤ d → ∫ ω, (c ω : ℝ) ∂μ = ((N : ℝ) * n - d) / n ^ 2 ∧ e = ∫ ω, (c ω : ℝ) ∂μ) := by
  have hn' : (0 : ℝ) < n := by exact_mod_cast hn
  obtain ⟨est, he1, he2, he3⟩ := randomTimeCount_entries N n hN hn
  have key := fun ω => C06_auto_count (.array ((List.range N).map fun (k : Nat) => (n : Int) * k + u k ω)) (some (N * n + 1)) none
    (by simp)
  choose cnt c1 c2 c3 using key
  refine ⟨cnt, est, fun ω => ?_, he1, he2, fun d hd => ?_⟩
  · rw [randomTime_eq N n hn dtMin hdt (rand ω) (fun i => u i ω) (fun i => (h1 i).range ω) (hr ω)]
    exact c1 ω
  · refine ⟨fun ω => ((selfPairs ((List.range N).map fun (k : Nat) => (n : Int) * k + u k ω)).filter
        fun p => (p.2 - p.1).natAbs = d).length, _, fun ω => ?_, he3 d hd, ?_⟩
    · have hk : d < (cnt ω).length := by rw [c2 ω]; exact Nat.lt_succ_of_le hd
      rw [List.getElem?_eq_getElem hk, c3 ω d hk]
      simp only [start, Nat.zero_add]
      rfl
    · rw [single_formula N hn h1 hi d]
      refine ⟨fun h0 => ?_, fun h0 hlt => ?_, fun hge => ?_⟩
      · simp [h0]
      · rw [if_neg (by omega), if_pos hlt, if_neg (by omega), if_pos hlt, Nat.cast_sub hd, Nat.cast_sub hN]
        push_cast
        constructor
        · ring
        · field_simp
          ring
      · rw [if_neg (by omega), if_neg (by omega), if_neg (by omega), if_neg (by omega), Nat.cast_sub hd]
        push_cast
        constructor
        · ring
        · rw [div_div]

end

/-- **C95.** No frames: ValueError, except for the periods 0 and 1, where the result is one 0. -/
theorem C95_no_frames (N n : Nat) :
    (N = 0 → 2 ≤ n → randomTimeCount N n = .error .valueError) ∧ (n = 0 → randomTimeCount N n = .ok [0]) ∧
      (N = 0 → n = 1 → randomTimeCount N n = .ok [0]) := by
  refine ⟨?_, ?_, ?_⟩
  · rintro rfl h
    unfold randomTimeCount
    rw [if_neg (by omega)]
    dsimp only
    rw [if_pos (by simp; omega)]
  · rintro rfl
    rfl
  · rintro rfl rfl
    simp [randomTimeCount]

/-- **C95, refuted at the delay 0.** The estimate of `random_time_count` at the delay 0 is `nframes * n`: `n` times the number of
frames, which is the number of pairs there whatever the random times are. -/
theorem C95_zero_delay_refuted :
    ∃ est, randomTimeCount 4 2 = .ok est ∧ est[0]? = some 8 ∧
      ∀ rand : Nat → Int → Int → Int, (∀ i lo hi, lo < hi → lo ≤ rand i lo hi ∧ rand i lo hi < hi) →
        ∃ cnt, Except.bind (createRandomTime 4 2 1 rand) (fun t => autoCount (.array t) (some 9) none) = .ok cnt ∧ cnt[0]? = some 4 := by
  obtain ⟨est, e1, -, e3⟩ := randomTimeCount_entries 4 2 (by omega) (by omega)
  refine ⟨est, e1, ?_, fun rand hr => ?_⟩
  · rw [e3 0 (by omega)]
    norm_num
  · obtain ⟨u, hu⟩ : ∃ u : Nat → Nat, ∀ i, u i = (rand i 0 2).toNat := ⟨_, fun _ => rfl⟩
    have hb := fun i => hr i 0 2 (by omega)
    have hlt : ∀ i, u i < 2 := fun i => by have := hb i; rw [hu]; omega
    have t := randomTime_eq 4 2 (by omega) 1 (by omega) rand u hlt (fun i => by have := hb i; rw [hu]; norm_cast; omega)
    obtain ⟨cnt, c1, c2, c3⟩ := C06_auto_count (.array ((List.range 4).map fun (k : Nat) => ((2 : Nat) : Int) * k + u k)) (some 9) none
      (by simp)
    refine ⟨cnt, ?_, ?_⟩
    · rw [show (2 : Int) = ((2 : Nat) : Int) from rfl, t]
      exact c1
    · have hk : 0 < cnt.length := by rw [c2]; exact Nat.succ_pos _
      rw [List.getElem?_eq_getElem hk, c3 0 hk]
      have h0 := hlt 0
      have h1 := hlt 1
      have h2 := hlt 2
      have h3 := hlt 3
      simp only [start, TimeArg.times, count_selfPairs, Finset.sum_range_succ, Finset.sum_range_zero]
      norm_num
      split_ifs <;> omega

end Cddm
