import Verif.Spec.Process
import Verif.Lemmas.NormModes

/-! # Lemmas about random signals -/

namespace Cddm
open Spec
open scoped BigOperators

variable {Ω : Type} [Fintype Ω] {p : Ω → ℝ}

theorem expect_const (hp : ∑ ω, p ω = 1) (c : ℝ) : expect p (fun _ => c) = c := by
  unfold expect; rw [← Finset.sum_mul, hp, one_mul]

theorem expect_add (f g : Ω → ℝ) : expect p (fun ω => f ω + g ω) = expect p f + expect p g := by
  unfold expect; rw [← Finset.sum_add_distrib]; exact Finset.sum_congr rfl fun _ _ => by ring

theorem expect_sub (f g : Ω → ℝ) : expect p (fun ω => f ω - g ω) = expect p f - expect p g := by
  unfold expect; rw [← Finset.sum_sub_distrib]; exact Finset.sum_congr rfl fun _ _ => by ring

theorem expect_mul (c : ℝ) (f : Ω → ℝ) : expect p (fun ω => c * f ω) = c * expect p f := by
  unfold expect; rw [Finset.mul_sum]; exact Finset.sum_congr rfl fun _ _ => by ring

theorem expect_listSum {ι : Type} (l : List ι) (g : Ω → ι → ℝ) :
    expect p (fun ω => (l.map (g ω)).sum) = (l.map fun i => expect p fun ω => g ω i).sum := by
  induction l with
  | nil => simp [expect]
  | cons a l ih => simp only [List.map_cons, List.sum_cons, expect_add, ih]

/-- The expected mean over pairs is the mean of the expected values. -/
theorem expect_mean {α β : Type} (g : Ω → α → β → ℝ) (P : List (α × β)) :
    expect p (fun ω => mean (g ω) P) = mean (fun a b => expect p fun ω => g ω a b) P := by
  unfold mean total
  simp only [smul_eq_mul]
  rw [expect_mul, expect_listSum P fun ω q => g ω q.1 q.2]

theorem mean_const {α β : Type} (g : α → β → ℝ) (P : List (α × β)) (h : P ≠ []) (c : ℝ)
    (hc : ∀ q ∈ P, g q.1 q.2 = c) : mean g P = c := by
  have : (P.length : ℝ) ≠ 0 := by
    rw [Nat.cast_ne_zero]; intro h0; exact h (List.length_eq_zero_iff.mp h0)
  unfold mean total
  rw [List.map_congr_left (g := fun _ => c) (fun q hq => hc q hq), List.map_const', List.sum_replicate, smul_eq_mul, nsmul_eq_mul]
  field_simp

theorem mean_congr' {α β M : Type} [AddCommMonoid M] [SMul ℝ M] (g g' : α → β → M) (P : List (α × β))
    (h : ∀ q ∈ P, g q.1 q.2 = g' q.1 q.2) : mean g P = mean g' P := by
  unfold mean total
  rw [List.map_congr_left h]

theorem mean_re {α β : Type} (g : α → β → Cx ℝ) (P : List (α × β)) :
    (mean g P).re = mean (fun a b => (g a b).re) P ∧ (mean g P).im = mean (fun a b => (g a b).im) P := by
  unfold mean total
  constructor
  · simp only [Cx.smul_re]
    congr 1
    induction P with
    | nil => rfl
    | cons a P ih => simp only [List.map_cons, List.sum_cons, Cx.add_re, ih]
  · simp only [Cx.smul_im]
    congr 1
    induction P with
    | nil => rfl
    | cons a P ih => simp only [List.map_cons, List.sum_cons, Cx.add_im, ih]

variable {x1 x2 : Ω → Int → Cx ℝ} {m1 m2 : Cx ℝ} {v1 v2 : ℝ} {G : Int → Cx ℝ}

/-- Expected products and square distances of deviations and of the signals. -/
theorem Spec.Stationary.re (h : Stationary p x1 x2 m1 m2 v1 v2 G) (a b : Int) :
    expect p (fun ω => reProd (x1 ω a - m1) (x2 ω b - m2)) = (G (b - a)).re := by
  have := congrArg Cx.re (h.cov a (b - a))
  rw [show a + (b - a) = b by ring] at this
  exact this

theorem Spec.Stationary.im (h : Stationary p x1 x2 m1 m2 v1 v2 G) (a b : Int) :
    expect p (fun ω => (cxProd (x1 ω a - m1) (x2 ω b - m2)).im) = (G (b - a)).im := by
  have := congrArg Cx.im (h.cov a (b - a))
  rw [show a + (b - a) = b by ring] at this
  exact this

theorem Spec.Stationary.m1re (h : Stationary p x1 x2 m1 m2 v1 v2 G) (a : Int) :
    expect p (fun ω => (x1 ω a).re) = m1.re := congrArg Cx.re (h.mean1 a)
theorem Spec.Stationary.m1im (h : Stationary p x1 x2 m1 m2 v1 v2 G) (a : Int) :
    expect p (fun ω => (x1 ω a).im) = m1.im := congrArg Cx.im (h.mean1 a)
theorem Spec.Stationary.m2re (h : Stationary p x1 x2 m1 m2 v1 v2 G) (a : Int) :
    expect p (fun ω => (x2 ω a).re) = m2.re := congrArg Cx.re (h.mean2 a)
theorem Spec.Stationary.m2im (h : Stationary p x1 x2 m1 m2 v1 v2 G) (a : Int) :
    expect p (fun ω => (x2 ω a).im) = m2.im := congrArg Cx.im (h.mean2 a)

/-- The product of the signals themselves. -/
theorem Spec.Stationary.raw_re (h : Stationary p x1 x2 m1 m2 v1 v2 G) (a b : Int) :
    expect p (fun ω => reProd (x1 ω a) (x2 ω b)) = (G (b - a)).re + reProd m1 m2 := by
  have e : (fun ω => reProd (x1 ω a) (x2 ω b)) = fun ω => (reProd (x1 ω a - m1) (x2 ω b - m2)
      + (m2.re * (x1 ω a).re + m2.im * (x1 ω a).im + (m1.re * (x2 ω b).re + m1.im * (x2 ω b).im))) - reProd m1 m2 := by
    funext ω; simp [reProd]; ring
  rw [e, expect_sub, expect_add, h.re, expect_add, expect_add, expect_add, expect_mul, expect_mul, expect_mul, expect_mul,
    h.m1re, h.m1im, h.m2re, h.m2im, expect_const h.prob]
  simp [reProd]; ring

theorem Spec.Stationary.raw_im (h : Stationary p x1 x2 m1 m2 v1 v2 G) (a b : Int) :
    expect p (fun ω => (cxProd (x1 ω a) (x2 ω b)).im) = (G (b - a)).im + (cxProd m1 m2).im := by
  have e : (fun ω => (cxProd (x1 ω a) (x2 ω b)).im) = fun ω => ((cxProd (x1 ω a - m1) (x2 ω b - m2)).im
      + (m2.im * (x1 ω a).re + (-m2.re) * (x1 ω a).im + (m1.re * (x2 ω b).im + (-m1.im) * (x2 ω b).re))) - (cxProd m1 m2).im := by
    funext ω; simp [cxProd]; ring
  rw [e, expect_sub, expect_add, h.im, expect_add, expect_add, expect_add, expect_mul, expect_mul, expect_mul, expect_mul,
    h.m1re, h.m1im, h.m2re, h.m2im, expect_const h.prob]
  simp [cxProd]; ring

theorem Spec.Stationary.dist (h : Stationary p x1 x2 m1 m2 v1 v2 G) (a b : Int) :
    expect p (fun ω => dist2 (x1 ω a - m1) (x2 ω b - m2)) = v1 + v2 - 2 * (G (b - a)).re := by
  have e : (fun ω => dist2 (x1 ω a - m1) (x2 ω b - m2)) = fun ω => ((x1 ω a - m1).abs2 + (x2 ω b - m2).abs2)
      - 2 * reProd (x1 ω a - m1) (x2 ω b - m2) := by
    funext ω; simp [reProd, dist2, Cx.abs2]; ring
  rw [e, expect_sub, expect_add, expect_mul, h.re, h.var1, h.var2]

theorem Spec.Stationary.dist_im (h : Stationary p x1 x2 m1 m2 v1 v2 G) (a b : Int) :
    expect p (fun ω => dist2 (Cx.I * (x1 ω a - m1)) (x2 ω b - m2)) = v1 + v2 - 2 * (G (b - a)).im := by
  have e : (fun ω => dist2 (Cx.I * (x1 ω a - m1)) (x2 ω b - m2)) = fun ω => ((x1 ω a - m1).abs2 + (x2 ω b - m2).abs2)
      - 2 * (cxProd (x1 ω a - m1) (x2 ω b - m2)).im := by
    funext ω; simp [cxProd, dist2, Cx.abs2, Cx.I]; ring
  rw [e, expect_sub, expect_add, expect_mul, h.im, h.var1, h.var2]

theorem Spec.Stationary.raw_dist (h : Stationary p x1 x2 m1 m2 v1 v2 G) (a b : Int) :
    expect p (fun ω => dist2 (x1 ω a) (x2 ω b)) = v1 + v2 - 2 * (G (b - a)).re + dist2 m1 m2 := by
  have e : (fun ω => dist2 (x1 ω a) (x2 ω b)) = fun ω => (dist2 (x1 ω a - m1) (x2 ω b - m2)
      + (2 * (m2 - m1).re * (x2 ω b).re + 2 * (m2 - m1).im * (x2 ω b).im))
      - ((2 * (m2 - m1).re * (x1 ω a).re + 2 * (m2 - m1).im * (x1 ω a).im) + dist2 m1 m2) := by
    funext ω; simp [dist2, Cx.abs2]; ring
  rw [e, expect_sub, expect_add, expect_add, expect_add, expect_add, h.dist, expect_mul, expect_mul, expect_mul, expect_mul,
    h.m1re, h.m1im, h.m2re, h.m2im, expect_const h.prob]
  simp [dist2, Cx.abs2]; ring

theorem Spec.Stationary.raw_dist_im (h : Stationary p x1 x2 m1 m2 v1 v2 G) (a b : Int) :
    expect p (fun ω => dist2 (Cx.I * x1 ω a) (x2 ω b)) = v1 + v2 - 2 * (G (b - a)).im + dist2 (Cx.I * m1) m2 := by
  have e : (fun ω => dist2 (Cx.I * x1 ω a) (x2 ω b)) = fun ω => (dist2 (Cx.I * (x1 ω a - m1)) (x2 ω b - m2)
      + (2 * (m2 - Cx.I * m1).re * (x2 ω b).re + 2 * (m2 - Cx.I * m1).im * (x2 ω b).im))
      - ((2 * (m2 - Cx.I * m1).im * (x1 ω a).re + (-2 * (m2 - Cx.I * m1).re) * (x1 ω a).im) + dist2 (Cx.I * m1) m2) := by
    funext ω; simp [dist2, Cx.abs2, Cx.I]; ring
  rw [e, expect_sub, expect_add, expect_add, expect_add, expect_add, h.dist_im, expect_mul, expect_mul, expect_mul, expect_mul,
    h.m1re, h.m1im, h.m2re, h.m2im, expect_const h.prob]
  simp [dist2, Cx.abs2, Cx.I]; ring

end Cddm
