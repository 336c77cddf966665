import Verif.Props.TimeCount

/-!
# The hypotheses of C94 and C95 are met by independent uniform draws
-/

namespace Cddm
open Spec MeasureTheory ProbabilityTheory

/-- One number below 3, one below 2 and one below 6 for each frame. -/
abbrev drawSize (q : Fin 3 × Nat) : Nat := (![2, 1, 5] q.1) + 1

/-- All draws. -/
abbrev Draws : Type := (q : Fin 3 × Nat) → Fin (drawSize q)

/-- Independent draws, each uniform. -/
noncomputable def drawMeasure : Measure Draws :=
  Measure.infinitePi fun q => (uniformOn Set.univ : Measure (Fin (drawSize q)))

instance drawUniform (q : Fin 3 × Nat) : IsProbabilityMeasure (uniformOn Set.univ : Measure (Fin (drawSize q))) :=
  isProbabilityMeasure_uniformOn Set.finite_univ Set.univ_nonempty

instance : IsProbabilityMeasure drawMeasure := by unfold drawMeasure; infer_instance

/-- The draw `q`. -/
def draw (q : Fin 3 × Nat) (ω : Draws) : Nat := (ω q).val

theorem draw_indep : iIndepFun draw drawMeasure :=
  iIndepFun_infinitePi (X := fun (q : Fin 3 × Nat) (x : Fin (drawSize q)) => x.val) fun _ => measurable_of_finite _

theorem draw_uniform (q : Fin 3 × Nat) : UniformDraw drawMeasure (drawSize q) (draw q) := by
  refine ⟨(measurable_of_finite (fun x : Fin (drawSize q) => x.val)).comp (measurable_pi_apply q), fun ω => (ω q).isLt, fun a ha => ?_⟩
  have hs : {ω : Draws | draw q ω = a} = (fun ω : Draws => ω q) ⁻¹' {⟨a, ha⟩} := by
    ext ω
    simp [draw, Fin.ext_iff]
  have hm : drawMeasure.map (fun ω : Draws => ω q) = (uniformOn Set.univ : Measure (Fin (drawSize q))) :=
    Measure.infinitePi_map_eval _ q
  rw [hs, measureReal_def, ← Measure.map_apply (measurable_pi_apply q) (measurableSet_singleton _), hm, uniformOn_univ]
  rw [Measure.count_singleton, Fintype.card_fin, ENNReal.toReal_div, ENNReal.toReal_one, ENNReal.toReal_natCast]

theorem three_draws : ThreeDraws drawMeasure 3 (fun i => draw (0, i)) (fun i => draw (1, i)) (fun i => draw (2, i)) := by
  refine ⟨fun i => draw_uniform (0, i), fun i => draw_uniform (1, i), fun i => draw_uniform (2, i), ?_⟩
  have : (fun (q : Fin 3 × Nat) => (![fun i => draw (0, i), fun i => draw (1, i), fun i => draw (2, i)] q.1) q.2) = draw := by
    funext q
    obtain ⟨q, i⟩ := q
    fin_cases q <;> rfl
  rw [this]
  exact draw_indep

/-- Eq.7 with 100 frames: each delay below the period is sampled 100/6 times for each sign. -/
example : ∃ cnt : Draws → List Nat,
    (∀ ω, Except.bind (createRandomTimes1 100 3 (fun i => draw (0, i) ω) (fun i => draw (1, i) ω)) (fun t =>
      crossCount (.array t.1) (some (.array t.2)) (some 50) true none) = .ok (cnt ω)) ∧
    ∃ c : Draws → Nat, (∀ ω, pyGet (cnt ω) (-2) = some (c ω)) ∧ ∫ ω, (c ω : ℝ) ∂drawMeasure = 100 / 6 := by
  obtain ⟨cnt, h1, h2⟩ := C94_uniform 100 (by omega) (threeDraws_two three_draws) 50 (by omega)
  obtain ⟨c, h3, h4⟩ := h2 (-2) (by simp)
  refine ⟨cnt, h1, c, h3, ?_⟩
  rw [h4 0 (by norm_num) (by norm_num)]
  norm_num

/-- Three periods apart there are 97 pairs of periods. -/
example : ∃ cnt : Draws → List Nat,
    (∀ ω, Except.bind (createRandomTimes1 100 3 (fun i => draw (0, i) ω) (fun i => draw (1, i) ω)) (fun t =>
      crossCount (.array t.1) (some (.array t.2)) (some 50) false none) = .ok (cnt ω)) ∧
    ∃ c : Draws → Nat, (∀ ω, (cnt ω)[17]? = some (c ω)) ∧ ∫ ω, (c ω : ℝ) ∂drawMeasure = 97 / 3 := by
  obtain ⟨cnt, h1, h2⟩ := C94_uniform_abs 100 (by omega) (threeDraws_two three_draws) 50
  obtain ⟨c, h3, -, h4, -⟩ := h2 17 (by simp)
  refine ⟨cnt, h1, c, h3, ?_⟩
  rw [h4 3 (by norm_num) (by norm_num) (by norm_num)]
  norm_num

/-- Eq.8, one period apart. -/
example : ∃ cnt : Draws → List Nat,
    (∀ ω, Except.bind (createRandomTimes2 100 3 (fun i => draw (0, i) ω) (fun i => draw (1, i) ω) (fun i => draw (2, i) ω)) (fun t =>
      crossCount (.array t.1) (some (.array t.2)) (some 50) true none) = .ok (cnt ω)) ∧
    ∃ c : Draws → Nat, (∀ ω, pyGet (cnt ω) 7 = some (c ω)) ∧
      ∫ ω, (c ω : ℝ) ∂drawMeasure = 99 * (5 / 6 * (1 / 6) + 1 / 6 * (2 / 9)) := by
  obtain ⟨cnt, h1, h2⟩ := C94_simultaneous 100 (by omega) three_draws 50 (by omega)
  obtain ⟨c, h3, -, -, h4⟩ := h2 7 (by simp)
  refine ⟨cnt, h1, c, h3, ?_⟩
  rw [h4 1 (by norm_num) (by norm_num) (by norm_num)]
  norm_num

example : ∃ cnt : Draws → List Nat,
    (∀ ω, Except.bind (createRandomTimes2 100 3 (fun i => draw (0, i) ω) (fun i => draw (1, i) ω) (fun i => draw (2, i) ω)) (fun t =>
      crossCount (.array t.1) (some (.array t.2)) (some 50) false none) = .ok (cnt ω)) ∧
    ∃ c : Draws → Nat, (∀ ω, (cnt ω)[0]? = some (c ω)) ∧ ∫ ω, (c ω : ℝ) ∂drawMeasure = 100 / 3 * (11 / 12) := by
  obtain ⟨cnt, h1, h2⟩ := C94_simultaneous_abs 100 (by omega) three_draws 50
  obtain ⟨c, h3, h4, -⟩ := h2 0 (by simp)
  refine ⟨cnt, h1, c, h3, ?_⟩
  rw [h4 rfl]
  norm_num

/-- The single-camera scheme with 100 frames: at the delay 2 the estimate is 198/9 + 2/27. -/
example : ∃ (cnt : Draws → List Nat) (est : List ℝ),
    (∀ ω, Except.bind (createRandomTime 100 3 1 (fun i _ _ => (draw (0, i) ω : Int)))
      (fun t => autoCount (.array t) (some 301) none) = .ok (cnt ω)) ∧
    randomTimeCount 100 3 = .ok est ∧
    ∃ c : Draws → Nat, (∀ ω, (cnt ω)[2]? = some (c ω)) ∧ ∫ ω, (c ω : ℝ) ∂drawMeasure = 198 / 9 ∧ est[2]? = some (198 / 9 + 2 / 27) := by
  obtain ⟨cnt, est, h1, h2, -, h3⟩ := C95_expected_count_partial (n := 3) (u := fun i => draw (0, i)) (μ := drawMeasure) 100 (by omega)
    (by omega) (fun i => draw_uniform (0, i)) (fun i j hij => draw_indep.indepFun (by simpa using hij)) 1 (by omega)
    (fun ω i _ _ => (draw (0, i) ω : Int)) (fun _ _ => rfl)
  obtain ⟨c, e, h4, h5, -, h6, -⟩ := h3 2 (by norm_num)
  obtain ⟨h7, h8⟩ := h6 (by norm_num) (by norm_num)
  refine ⟨cnt, est, h1, h2, c, h4, ?_, ?_⟩
  · rw [h7]; norm_num
  · rw [h5, h8, h7]; norm_num

example : randomTimeCount 0 32 = .error .valueError := (C95_no_frames 0 32).1 rfl (by omega)

end Cddm
