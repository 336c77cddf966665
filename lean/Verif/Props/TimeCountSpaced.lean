import Verif.Props.TimeCount
import Verif.Props.SimTime
import Verif.Props.TimeCountCases

/-! # C95 with a minimum time between the frames -/

namespace Cddm
open Spec MeasureTheory ProbabilityTheory

/-- C95: with the largest minimum time, one period, the random part of the times never decreases, and once it is the largest possible one all
later frames are exactly one period apart: the times are not random any more, whatever is drawn. -/
theorem C95_regular_in_the_end (nframes : Nat) (n : Int) (rand : Nat → Int → Int → Int)
    (hrand : ∀ (i : Nat) (low high : Int), low < high → low ≤ rand i low high ∧ rand i low high < high) (hn : 1 ≤ n) :
    ∃ t, createRandomTime nframes n n rand = .ok t ∧ t.length = nframes ∧
      (∀ (i : Nat) (v w : Int), t[i]? = some v → t[i + 1]? = some w → v - i * n ≤ w - (i + 1) * n) ∧
      ∀ (i : Nat), t[i]? = some (i * n + (n - 1)) → ∀ (j : Nat) (v : Int), i ≤ j → t[j]? = some v → v = j * n + (n - 1) := by
  obtain ⟨t, h1, h2, -, h3, h4⟩ := C56_random_time nframes n n rand hrand hn le_rfl
  have mono : ∀ (i : Nat) (v w : Int), t[i]? = some v → t[i + 1]? = some w → v - i * n ≤ w - (i + 1) * n := by
    intro i v w hv hw
    have := h4 i v w hv hw
    linarith [add_one_mul (i : Int) n]
  refine ⟨t, h1, h2, mono, fun i hi j v hij hv => ?_⟩
  obtain ⟨k, rfl⟩ := Nat.exists_eq_add_of_le hij
  induction k generalizing v with
  | zero => rw [Nat.add_zero, hi] at hv; exact (Option.some.inj hv).symm
  | succ k ih =>
    have hl : i + k < t.length := by have := (List.getElem?_eq_some_iff.1 hv).1; omega
    have hk := ih t[i + k] (Nat.le_add_right _ _) (List.getElem?_eq_getElem hl)
    have g := mono (i + k) _ v (List.getElem?_eq_getElem hl) hv
    have b := (h3 (i + (k + 1)) v hv).2
    rw [hk] at g
    push_cast at g b ⊢
    linarith

/-- **C95, refuted for a minimum time.** Two frames, period 2, minimum time 2: the expected number of pairs at the delay 2 is 3/4, the
estimate, which does not know the minimum time, is 1/2. -/
theorem C95_minimum_time_refuted {Ω : Type} [MeasurableSpace Ω] {μ : Measure Ω} [IsProbabilityMeasure μ] {u : Nat → Ω → Nat}
    (h0 : UniformDraw μ 2 (u 0)) (h1 : UniformDraw μ 2 (u 1)) (hi : IndepFun (u 0) (u 1) μ) (rand : Ω → Nat → Int → Int → Int)
    (hr : ∀ ω i, rand ω i 0 2 = u i ω) (hr' : ∀ ω i, rand ω i 1 2 = 1) :
    ∃ (c : Ω → Nat) (est : List ℝ),
      (∀ ω, ∃ cnt, Except.bind (createRandomTime 2 2 2 (rand ω)) (fun t => autoCount (.array t) (some 5) none) = .ok cnt ∧
        cnt[2]? = some (c ω)) ∧
      randomTimeCount 2 2 = .ok est ∧ ∫ ω, (c ω : ℝ) ∂μ = 3 / 4 ∧ est[2]? = some (1 / 2) := by
  obtain ⟨est, e1, -, e3⟩ := randomTimeCount_entries 2 2 (by omega) (by omega)
  have hS : MeasurableSet (u 0 ⁻¹' {0} ∩ u 1 ⁻¹' {1}) :=
    (h0.measurable (measurableSet_singleton _)).inter (h1.measurable (measurableSet_singleton _))
  refine ⟨fun ω => if u 0 ω = 0 ∧ u 1 ω = 1 then 0 else 1, est, fun ω => ?_, e1, ?_, ?_⟩
  · have b0 := h0.range ω
    have b1 := h1.range ω
    obtain ha | ha : u 0 ω = 0 ∨ u 0 ω = 1 := by omega
    · obtain hb | hb : u 1 ω = 0 ∨ u 1 ω = 1 := by omega
      · refine ⟨[2, 0, 1, 0, 0], ?_, by simp [ha, hb]⟩
        have : createRandomTime 2 2 2 (rand ω) = .ok [0, 2] := by
          simp [createRandomTime, randomTimeLoop, randint, hr, ha, hb, bind, Except.bind]
        rw [this]
        rfl
      · refine ⟨[2, 0, 0, 1, 0], ?_, by simp [ha, hb]⟩
        have : createRandomTime 2 2 2 (rand ω) = .ok [0, 3] := by
          simp [createRandomTime, randomTimeLoop, randint, hr, ha, hb, bind, Except.bind]
        rw [this]
        rfl
    · refine ⟨[2, 0, 1, 0, 0], ?_, by simp [ha]⟩
      have : createRandomTime 2 2 2 (rand ω) = .ok [1, 3] := by
        simp [createRandomTime, randomTimeLoop, randint, hr, hr', ha, bind, Except.bind]
      rw [this]
      rfl
  · have e : (fun ω => (((if u 0 ω = 0 ∧ u 1 ω = 1 then 0 else 1 : Nat)) : ℝ)) =
        fun ω => 1 - (u 0 ⁻¹' {0} ∩ u 1 ⁻¹' {1}).indicator (fun _ => (1 : ℝ)) ω := by
      funext ω
      by_cases h : u 0 ω = 0 ∧ u 1 ω = 1 <;> simp [Set.indicator, h]
    have p0 : μ.real (u 0 ⁻¹' {0}) = 1 / 2 := by
      have := h0.uniform 0 (by omega)
      rw [Nat.cast_ofNat] at this
      exact this
    have p1 : μ.real (u 1 ⁻¹' {1}) = 1 / 2 := by
      have := h1.uniform 1 (by omega)
      rw [Nat.cast_ofNat] at this
      exact this
    rw [e, integral_sub (integrable_const _) ((integrable_const _).indicator hS), integral_indicator_const _ hS]
    rw [measureReal_def, hi.measure_inter_preimage_eq_mul _ _ (measurableSet_singleton _) (measurableSet_singleton _), ENNReal.toReal_mul,
      ← measureReal_def, ← measureReal_def, p0, p1]
    norm_num
  · rw [e3 2 (by omega)]
    norm_num

/-- Such draws exist: independent fair coins. -/
example : ∃ u : Nat → Draws → Nat, UniformDraw drawMeasure 2 (u 0) ∧ UniformDraw drawMeasure 2 (u 1) ∧ IndepFun (u 0) (u 1) drawMeasure :=
  ⟨fun i => draw (1, i), draw_uniform (1, 0), draw_uniform (1, 1), draw_indep.indepFun (by simp)⟩

/-- With a period of three ticks, the random part being 0 and then 2: from the second frame on, nothing is random. -/
example : createRandomTime 5 3 3 (fun i low high => min (high - 1) (low + (i : Int) % 2 + (if i = 1 then 1 else 0))) = .ok [0, 5, 8, 11, 14] := by
  decide

end Cddm
