import Verif.Spec.ProcessM
import Verif.Lemmas.Process

/-! # Lemmas about random signals on any probability space -/

namespace Cddm
open Spec MeasureTheory
open scoped BigOperators

variable {Ω : Type} [MeasurableSpace Ω] {μ : Measure Ω}

/-- Random variables that are integrable with a known mean. -/
def HasMean (μ : Measure Ω) (f : Ω → ℝ) (y : ℝ) : Prop := Integrable f μ ∧ ∫ ω, f ω ∂μ = y

theorem hasMean_const [IsProbabilityMeasure μ] (c : ℝ) : HasMean μ (fun _ => c) c :=
  ⟨integrable_const c, by simp⟩

theorem hasMean_add {f g : Ω → ℝ} {y z : ℝ} (hf : HasMean μ f y) (hg : HasMean μ g z) :
    HasMean μ (fun ω => f ω + g ω) (y + z) :=
  ⟨hf.1.add hg.1, by rw [integral_add hf.1 hg.1, hf.2, hg.2]⟩

theorem hasMean_sub {f g : Ω → ℝ} {y z : ℝ} (hf : HasMean μ f y) (hg : HasMean μ g z) :
    HasMean μ (fun ω => f ω - g ω) (y - z) :=
  ⟨hf.1.sub hg.1, by rw [integral_sub hf.1 hg.1, hf.2, hg.2]⟩

theorem hasMean_mul (c : ℝ) {f : Ω → ℝ} {y : ℝ} (hf : HasMean μ f y) : HasMean μ (fun ω => c * f ω) (c * y) :=
  ⟨hf.1.const_mul c, by rw [integral_const_mul, hf.2]⟩

theorem hasMean_congr {f g : Ω → ℝ} {y z : ℝ} (hf : HasMean μ f y) (h : ∀ ω, g ω = f ω) (e : z = y) : HasMean μ g z := by
  rw [e, show g = f from funext h]
  exact hf

theorem hasMean_listSum {ι : Type} (l : List ι) (g : Ω → ι → ℝ) (y : ι → ℝ) (h : ∀ i ∈ l, HasMean μ (fun ω => g ω i) (y i)) :
    HasMean μ (fun ω => (l.map (g ω)).sum) (l.map y).sum := by
  induction l with
  | nil => exact ⟨by simp, by simp⟩
  | cons a l ih =>
    simp only [List.map_cons, List.sum_cons]
    exact hasMean_add (h a (by simp)) (ih fun i hi => h i (by simp [hi]))

theorem hasMean_mean {α β : Type} (g : Ω → α → β → ℝ) (P : List (α × β)) (y : α → β → ℝ)
    (h : ∀ q ∈ P, HasMean μ (fun ω => g ω q.1 q.2) (y q.1 q.2)) :
    HasMean μ (fun ω => mean (g ω) P) (mean y P) := by
  unfold mean total
  simp only [smul_eq_mul]
  exact hasMean_mul _ (hasMean_listSum P (fun ω q => g ω q.1 q.2) (fun q => y q.1 q.2) h)

/-- The mean over pairs whose means are all the same. -/
theorem hasMean_mean_const {α β : Type} (g : Ω → α → β → ℝ) (P : List (α × β)) (hP : P ≠ []) (y : ℝ)
    (h : ∀ q ∈ P, HasMean μ (fun ω => g ω q.1 q.2) y) : HasMean μ (fun ω => mean (g ω) P) y := by
  have := hasMean_mean g P (fun _ _ => y) h
  rwa [mean_const (fun _ _ => y) P hP y fun _ _ => rfl] at this

variable {T1 T2 : Int → Prop} {x1 x2 : Ω → Int → Cx ℝ} {m1 m2 : Cx ℝ} {v1 v2 : ℝ} {G : Int → Cx ℝ}

theorem stationaryAt_linear1 (h : StationaryAt μ T1 T2 x1 x2 m1 m2 v1 v2 G) {a : Int} (ha : T1 a) :
    HasMean μ (fun ω => (x1 ω a).re) m1.re ∧ HasMean μ (fun ω => (x1 ω a).im) m1.im := by
  have := h.prob
  exact ⟨⟨(h.finite1 a ha).1.integrable one_le_two, congrArg Cx.re (h.mean1 a ha)⟩,
    ⟨(h.finite1 a ha).2.integrable one_le_two, congrArg Cx.im (h.mean1 a ha)⟩⟩

theorem stationaryAt_linear2 (h : StationaryAt μ T1 T2 x1 x2 m1 m2 v1 v2 G) {a : Int} (ha : T2 a) :
    HasMean μ (fun ω => (x2 ω a).re) m2.re ∧ HasMean μ (fun ω => (x2 ω a).im) m2.im := by
  have := h.prob
  exact ⟨⟨(h.finite2 a ha).1.integrable one_le_two, congrArg Cx.re (h.mean2 a ha)⟩,
    ⟨(h.finite2 a ha).2.integrable one_le_two, congrArg Cx.im (h.mean2 a ha)⟩⟩

theorem integrable_abs2 [IsProbabilityMeasure μ] {x : Ω → Cx ℝ} (m : Cx ℝ) (h1 : MemLp (fun ω => (x ω).re) 2 μ)
    (h2 : MemLp (fun ω => (x ω).im) 2 μ) : Integrable (fun ω => (x ω - m).abs2) μ := by
  have a1 : MemLp (fun ω => (x ω).re - m.re) 2 μ := h1.sub (memLp_const _)
  have a2 : MemLp (fun ω => (x ω).im - m.im) 2 μ := h2.sub (memLp_const _)
  have e : (fun ω => (x ω - m).abs2) = fun ω => ((x ω).re - m.re) * ((x ω).re - m.re) + ((x ω).im - m.im) * ((x ω).im - m.im) := by
    funext ω; simp [Cx.abs2]
  rw [e]
  exact (a1.integrable_mul a1).add (a2.integrable_mul a2)

theorem integrable_prod [IsProbabilityMeasure μ] {x y : Ω → Cx ℝ} (m n : Cx ℝ) (h1 : MemLp (fun ω => (x ω).re) 2 μ)
    (h2 : MemLp (fun ω => (x ω).im) 2 μ) (h3 : MemLp (fun ω => (y ω).re) 2 μ) (h4 : MemLp (fun ω => (y ω).im) 2 μ) :
    Integrable (fun ω => reProd (x ω - m) (y ω - n)) μ ∧ Integrable (fun ω => (cxProd (x ω - m) (y ω - n)).im) μ := by
  have a1 : MemLp (fun ω => (x ω).re - m.re) 2 μ := h1.sub (memLp_const _)
  have a2 : MemLp (fun ω => (x ω).im - m.im) 2 μ := h2.sub (memLp_const _)
  have a3 : MemLp (fun ω => (y ω).re - n.re) 2 μ := h3.sub (memLp_const _)
  have a4 : MemLp (fun ω => (y ω).im - n.im) 2 μ := h4.sub (memLp_const _)
  constructor
  · have e : (fun ω => reProd (x ω - m) (y ω - n)) =
        fun ω => ((x ω).re - m.re) * ((y ω).re - n.re) + ((x ω).im - m.im) * ((y ω).im - n.im) := by
      funext ω; simp [reProd]; ring
    rw [e]
    exact (a1.integrable_mul a3).add (a2.integrable_mul a4)
  · have e : (fun ω => (cxProd (x ω - m) (y ω - n)).im) =
        fun ω => ((x ω).re - m.re) * ((y ω).im - n.im) - ((x ω).im - m.im) * ((y ω).re - n.re) := by
      funext ω; simp [cxProd]; ring
    rw [e]
    exact (a1.integrable_mul a4).sub (a2.integrable_mul a3)

/-- The means of all quadratic forms of the deviations and of the signals at two times that occur in the norms. -/
theorem stationaryAt_forms (h : StationaryAt μ T1 T2 x1 x2 m1 m2 v1 v2 G) {a b : Int} (ha : T1 a) (hb : T2 b) :
    (HasMean μ (fun ω => reProd (x1 ω a - m1) (x2 ω b - m2)) (G (b - a)).re ∧
      HasMean μ (fun ω => (cxProd (x1 ω a - m1) (x2 ω b - m2)).im) (G (b - a)).im) ∧
    (HasMean μ (fun ω => reProd (x1 ω a) (x2 ω b)) ((G (b - a)).re + reProd m1 m2) ∧
      HasMean μ (fun ω => (cxProd (x1 ω a) (x2 ω b)).im) ((G (b - a)).im + (cxProd m1 m2).im)) ∧
    (HasMean μ (fun ω => dist2 (x1 ω a - m1) (x2 ω b - m2)) (v1 + v2 - 2 * (G (b - a)).re) ∧
      HasMean μ (fun ω => dist2 (Cx.I * (x1 ω a - m1)) (x2 ω b - m2)) (v1 + v2 - 2 * (G (b - a)).im)) ∧
    (HasMean μ (fun ω => dist2 (x1 ω a) (x2 ω b)) (v1 + v2 - 2 * (G (b - a)).re + dist2 m1 m2) ∧
      HasMean μ (fun ω => dist2 (Cx.I * x1 ω a) (x2 ω b)) (v1 + v2 - 2 * (G (b - a)).im + dist2 (Cx.I * m1) m2)) := by
  have hp := h.prob
  obtain ⟨r1, i1⟩ := stationaryAt_linear1 h ha
  obtain ⟨r2, i2⟩ := stationaryAt_linear2 h hb
  have hcov := h.cov a (b - a) ha (by rwa [show a + (b - a) = b by ring])
  rw [show a + (b - a) = b by ring] at hcov
  have ip := integrable_prod m1 m2 (h.finite1 a ha).1 (h.finite1 a ha).2 (h.finite2 b hb).1 (h.finite2 b hb).2
  have R : HasMean μ (fun ω => reProd (x1 ω a - m1) (x2 ω b - m2)) (G (b - a)).re := ⟨ip.1, congrArg Cx.re hcov⟩
  have I : HasMean μ (fun ω => (cxProd (x1 ω a - m1) (x2 ω b - m2)).im) (G (b - a)).im := ⟨ip.2, congrArg Cx.im hcov⟩
  have V1 : HasMean μ (fun ω => (x1 ω a - m1).abs2) v1 :=
    ⟨integrable_abs2 m1 (h.finite1 a ha).1 (h.finite1 a ha).2, h.var1 a ha⟩
  have V2 : HasMean μ (fun ω => (x2 ω b - m2).abs2) v2 :=
    ⟨integrable_abs2 m2 (h.finite2 b hb).1 (h.finite2 b hb).2, h.var2 b hb⟩
  have D : HasMean μ (fun ω => dist2 (x1 ω a - m1) (x2 ω b - m2)) (v1 + v2 - 2 * (G (b - a)).re) :=
    hasMean_congr (hasMean_sub (hasMean_add V1 V2) (hasMean_mul 2 R))
      (fun ω => by simp [reProd, dist2, Cx.abs2]; ring) rfl
  have DI : HasMean μ (fun ω => dist2 (Cx.I * (x1 ω a - m1)) (x2 ω b - m2)) (v1 + v2 - 2 * (G (b - a)).im) :=
    hasMean_congr (hasMean_sub (hasMean_add V1 V2) (hasMean_mul 2 I))
      (fun ω => by simp [cxProd, dist2, Cx.abs2, Cx.I]; ring) rfl
  refine ⟨⟨R, I⟩, ⟨?_, ?_⟩, ⟨D, DI⟩, ⟨?_, ?_⟩⟩
  · refine hasMean_congr (hasMean_sub (hasMean_add R (hasMean_add (hasMean_add (hasMean_mul m2.re r1) (hasMean_mul m2.im i1))
      (hasMean_add (hasMean_mul m1.re r2) (hasMean_mul m1.im i2)))) (hasMean_const (reProd m1 m2))) (fun ω => ?_) ?_
    · simp [reProd]; ring
    · simp [reProd]; ring
  · refine hasMean_congr (hasMean_sub (hasMean_add I (hasMean_add (hasMean_add (hasMean_mul m2.im r1) (hasMean_mul (-m2.re) i1))
      (hasMean_add (hasMean_mul m1.re i2) (hasMean_mul (-m1.im) r2)))) (hasMean_const (cxProd m1 m2).im)) (fun ω => ?_) ?_
    · simp [cxProd]; ring
    · simp [cxProd]; ring
  · refine hasMean_congr (hasMean_sub (hasMean_add D (hasMean_add (hasMean_mul (2 * (m2 - m1).re) r2)
      (hasMean_mul (2 * (m2 - m1).im) i2))) (hasMean_add (hasMean_add (hasMean_mul (2 * (m2 - m1).re) r1)
      (hasMean_mul (2 * (m2 - m1).im) i1)) (hasMean_const (dist2 m1 m2)))) (fun ω => ?_) ?_
    · simp [dist2, Cx.abs2]; ring
    · simp [dist2, Cx.abs2]; ring
  · refine hasMean_congr (hasMean_sub (hasMean_add DI (hasMean_add (hasMean_mul (2 * (m2 - Cx.I * m1).re) r2)
      (hasMean_mul (2 * (m2 - Cx.I * m1).im) i2))) (hasMean_add (hasMean_add (hasMean_mul (2 * (m2 - Cx.I * m1).im) r1)
      (hasMean_mul (-2 * (m2 - Cx.I * m1).re) i1)) (hasMean_const (dist2 (Cx.I * m1) m2)))) (fun ω => ?_) ?_
    · simp [dist2, Cx.abs2, Cx.I]; ring
    · simp [dist2, Cx.abs2, Cx.I]; ring

end Cddm
