import Verif.Lemmas.GaussPair
import Verif.Props.UnbiasedSpace
import Verif.Props.Weight

/-! # The variance of what the norms make of independent pairs of samples -/

namespace Cddm
open Spec MeasureTheory ProbabilityTheory
open scoped BigOperators

section
variable {Ω : Type} [MeasurableSpace Ω] {μ : Measure Ω} {a b : Ω → Cx ℝ} {m1 m2 : Cx ℝ} {v1 v2 : ℝ} {c : Cx ℝ}

/-- What a weighted norm makes of one pair; `base` is 1, 5 or 13. -/
noncomputable def pairEst (base : Int) (w v : ℝ) (m1 m2 a b : Cx ℝ) : ℝ :=
  if base = 1 then w * (v - (1 / 2) * dist2 a b + (1 / 2) * dist2 m1 m2) + (1 - w) * (reProd a b - reProd m1 m2)
  else w * (v - (1 / 2) * dist2 (a - m1) (b - m2)) + (1 - w) * reProd (a - m1) (b - m2)

/-- The radicand that belongs to it. -/
noncomputable def pairArg (base : Int) (w : ℝ) (m1 m2 : Cx ℝ) (v1 v2 : ℝ) (c : Cx ℝ) : ℝ :=
  if base = 1 then sigmaPrimeArg w ((2 / (v1 + v2)) • c.conj) ((v2 - v1) / (v1 + v2))
    ((1 / Real.sqrt ((v1 + v2) / 2)) • m1) ((1 / Real.sqrt ((v1 + v2) / 2)) • m2)
  else sigmaArg w ((2 / (v1 + v2)) • c) ((v2 - v1) / (v1 + v2))

theorem pairEst_variance (h : CircularPair μ a b m1 m2 v1 v2 c) (hv : 0 < v1 + v2) (base : Int) (w v : ℝ) :
    MemLp (fun ω => pairEst base w v m1 m2 (a ω) (b ω)) 2 μ ∧
      ∫ ω, pairEst base w v m1 m2 (a ω) (b ω) ∂μ = w * v - w * ((v1 + v2) / 2) + c.re ∧
      Var[fun ω => pairEst base w v m1 m2 (a ω) (b ω); μ] = ((v1 + v2) / 2) ^ 2 * pairArg base w m1 m2 v1 v2 c := by
  have hne : v1 + v2 ≠ 0 := hv.ne'
  by_cases hb : base = 1
  · obtain ⟨h1, h2, h3⟩ := quadForm_variance h (-(w / 2)) (-(w / 2)) 1 (w * v) (m2 - w • m1) (m1 - w • m2)
      (fun ω => pairEst base w v m1 m2 (a ω) (b ω)) (fun ω => by
        simp only [pairEst, if_pos hb, quadForm, reProd, dist2, Cx.abs2, Cx.mul_re, Cx.conj_re, Cx.conj_im, Cx.sub_re,
          Cx.sub_im, Cx.smul_re, Cx.smul_im]
        ring)
    refine ⟨h1, by rw [h2]; ring, ?_⟩
    rw [h3, pairArg, if_pos hb]
    obtain ⟨s, hs⟩ : ∃ s, s = Real.sqrt ((v1 + v2) / 2) := ⟨_, rfl⟩
    have hs0 : s ≠ 0 := by rw [hs]; exact (Real.sqrt_pos.mpr (by linarith)).ne'
    have hs2 : s ^ 2 = (v1 + v2) / 2 := by rw [hs, Real.sq_sqrt (by linarith)]
    rw [← hs]
    have e2 : v2 = 2 * s ^ 2 - v1 := by rw [hs2]; ring
    subst e2
    have hs4 : v1 + (2 * s ^ 2 - v1) = 2 * s ^ 2 := by ring
    rw [hs4]
    simp only [sigmaPrimeArg, reProd, cxProd, Cx.abs2, Cx.mul_re, Cx.mul_im, Cx.conj_re, Cx.conj_im, Cx.sub_re,
          Cx.sub_im, Cx.smul_re, Cx.smul_im]
    field_simp
    ring
  · obtain ⟨h1, h2, h3⟩ := quadForm_variance h (-(w / 2)) (-(w / 2)) 1 (w * v) 0 0
      (fun ω => pairEst base w v m1 m2 (a ω) (b ω)) (fun ω => by
        simp only [pairEst, if_neg hb, quadForm, reProd, dist2, Cx.abs2, Cx.mul_re, Cx.conj_re, Cx.conj_im, Cx.sub_re,
          Cx.sub_im, Cx.zero_re, Cx.zero_im]
        ring)
    refine ⟨h1, by rw [h2]; ring, ?_⟩
    rw [h3, pairArg, if_neg hb]
    simp only [sigmaArg, reProd, cxProd, Cx.abs2, Cx.mul_re, Cx.mul_im, Cx.conj_re, Cx.conj_im, Cx.smul_re, Cx.smul_im,
      Cx.zero_re, Cx.zero_im]
    field_simp
    ring

theorem pairEst_measurable (base : Int) (w v : ℝ) (m1 m2 : Cx ℝ) :
    Measurable fun p : Fin 4 → ℝ => pairEst base w v m1 m2 ⟨p 0, p 1⟩ ⟨p 2, p 3⟩ := by
  unfold pairEst
  split
  · simp only [reProd, dist2, Cx.abs2, Cx.mul_re, Cx.conj_re, Cx.conj_im, Cx.sub_re, Cx.sub_im]
    fun_prop
  · simp only [reProd, dist2, Cx.abs2, Cx.mul_re, Cx.conj_re, Cx.conj_im, Cx.sub_re, Cx.sub_im]
    fun_prop

/-- The mean over pairwise independent pairs. -/
theorem pairEst_mean_variance {x1 x2 : Ω → Int → Cx ℝ} (Q : List (Int × Int)) (hQ : Q ≠ [])
    (hC : ∀ q ∈ Q, CircularPair μ (fun ω => x1 ω q.1) (fun ω => x2 ω q.2) m1 m2 v1 v2 c)
    (hI : IndependentPairs μ x1 x2 Q) (hv : 0 < v1 + v2) (base : Int) (w v : ℝ) :
    MemLp (fun ω => mean (pairEst base w v m1 m2) (Q.map (Prod.map (x1 ω) (x2 ω)))) 2 μ ∧
      ∫ ω, mean (pairEst base w v m1 m2) (Q.map (Prod.map (x1 ω) (x2 ω))) ∂μ = w * v - w * ((v1 + v2) / 2) + c.re ∧
      Var[fun ω => mean (pairEst base w v m1 m2) (Q.map (Prod.map (x1 ω) (x2 ω))); μ] =
        ((v1 + v2) / 2) ^ 2 * pairArg base w m1 m2 v1 v2 c / Q.length := by
  have hl : (Q.length : ℝ) ≠ 0 := by
    rw [Nat.cast_ne_zero]; intro h0; exact hQ (List.length_eq_zero_iff.mp h0)
  obtain ⟨X, hX⟩ : ∃ X : Fin Q.length → Ω → ℝ, ∀ i ω, X i ω = pairEst base w v m1 m2 (x1 ω Q[i].1) (x2 ω Q[i].2) :=
    ⟨_, fun _ _ => rfl⟩
  have key : ∀ i, MemLp (X i) 2 μ ∧ ∫ ω, X i ω ∂μ = w * v - w * ((v1 + v2) / 2) + c.re ∧
      Var[X i; μ] = ((v1 + v2) / 2) ^ 2 * pairArg base w m1 m2 v1 v2 c := by
    intro i
    rw [show X i = fun ω => pairEst base w v m1 m2 (x1 ω Q[i].1) (x2 ω Q[i].2) from funext (hX i)]
    exact pairEst_variance (hC _ (List.getElem_mem _)) hv base w v
  have em : ∀ ω, mean (pairEst base w v m1 m2) (Q.map (Prod.map (x1 ω) (x2 ω))) = (1 / (Q.length : ℝ)) * (∑ i, X i) ω := by
    intro ω
    rw [mean_map]
    unfold mean total
    rw [smul_eq_mul, Finset.sum_apply]
    congr 1
    have := Fin.sum_univ_getElem (Q.map fun q => pairEst base w v m1 m2 (x1 ω q.1) (x2 ω q.2))
    rw [← this, ← Fin.sum_congr' _ (List.length_map (as := Q) fun q => pairEst base w v m1 m2 (x1 ω q.1) (x2 ω q.2)).symm]
    refine Finset.sum_congr rfl fun i _ => ?_
    simp [hX]
  have hind : ∀ i j : Fin Q.length, i < j → IndepFun (X i) (X j) μ := by
    intro i j hij
    have := List.pairwise_iff_getElem.mp hI i j i.2 j.2 hij
    have := this.comp (pairEst_measurable base w v m1 m2) (pairEst_measurable base w v m1 m2)
    rw [show X i = _ from funext (hX i), show X j = _ from funext (hX j)]
    exact this
  have hsum := IndepFun.variance_sum (s := Finset.univ) (fun i _ => (key i).1) (fun i _ j _ hij => by
    rcases lt_or_gt_of_ne hij with hlt | hlt
    · exact hind i j hlt
    · exact (hind j i hlt).symm)
  have hmem : MemLp (∑ i, X i) 2 μ := memLp_finsetSum' _ fun i _ => (key i).1
  rw [show (fun ω => mean (pairEst base w v m1 m2) (Q.map (Prod.map (x1 ω) (x2 ω)))) =
    fun ω => (1 / (Q.length : ℝ)) * (∑ i, X i) ω from funext em]
  have hq : 0 < Q.length := List.length_pos_of_ne_nil hQ
  have hprob := (hC _ (List.getElem_mem hq)).gauss.isProbabilityMeasure
  refine ⟨hmem.const_mul _, ?_, ?_⟩
  · rw [integral_const_mul]
    simp only [Finset.sum_apply]
    rw [integral_finsetSum _ fun i _ => (key i).1.integrable one_le_two]
    simp only [(key _).2.1, Finset.sum_const, Finset.card_univ, Fintype.card_fin, nsmul_eq_mul]
    field_simp
  · rw [variance_const_mul, hsum]
    simp only [(key _).2.2, Finset.sum_const, Finset.card_univ, Fintype.card_fin, nsmul_eq_mul]
    field_simp

/-- Weighted means of the formulas of the norms are means over the pairs. -/
theorem formula_pairEst (m1 m2 c1 c2 c1' c2' : Cx ℝ) (v w : ℝ) (base : Int) (hb : base = 1 ∨ base = 5 ∨ base = 13)
    (P : List (Cx ℝ × Cx ℝ)) (hP : P ≠ []) :
    w * normFormula m1 m2 c1 c2 v (base + 1) P + (1 - w) * normFormula m1 m2 c1' c2' v base P =
      mean (pairEst base w v m1 m2) P := by
  have hl : (P.length : ℝ) ≠ 0 := by
    rw [Nat.cast_ne_zero]; intro h0; exact hP (List.length_eq_zero_iff.mp h0)
  have lin : ∀ (f g : Cx ℝ → Cx ℝ → ℝ) (α β γ : ℝ), mean (fun a b => α + β * f a b + γ * g a b) P =
      α + β * mean f P + γ * mean g P := by
    intro f g α β γ
    unfold mean total
    rw [List.sum_map_add, List.sum_map_add, List.sum_map_mul_left, List.sum_map_mul_left, List.map_const', List.sum_replicate]
    simp only [smul_eq_mul, nsmul_eq_mul]
    field_simp
  rcases hb with rfl | rfl | rfl
  · have := lin dist2 reProd (w * (v + (1 / 2) * dist2 m1 m2) - (1 - w) * reProd m1 m2) (-(w / 2)) (1 - w)
    rw [show pairEst 1 w v m1 m2 = fun a b => (w * (v + (1 / 2) * dist2 m1 m2) - (1 - w) * reProd m1 m2) +
      -(w / 2) * dist2 a b + (1 - w) * reProd a b from by funext a b; simp only [pairEst, if_true]; ring, this]
    norm_num [normFormula]
    ring
  all_goals
    have := lin (fun a b => dist2 (a - m1) (b - m2)) (fun a b => reProd (a - m1) (b - m2)) (w * v) (-(w / 2)) (1 - w)
    rw [show pairEst _ w v m1 m2 = fun a b => (w * v) + -(w / 2) * dist2 (a - m1) (b - m2) + (1 - w) *
      reProd (a - m1) (b - m2) from by funext a b; norm_num [pairEst]; ring, this]
    norm_num [normFormula]
    ring

end

end Cddm
