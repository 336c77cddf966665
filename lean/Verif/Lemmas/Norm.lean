import Verif.Model.Norm
import Verif.Spec.Norm
import Verif.Lemmas.Ccorr

/-!
# Lemmas for normalization
-/

namespace Cddm
open Spec

section pairs
variable {α β M : Type}

theorem cellSum_total [AddCommMonoid M] (full : Bool) (g : α → β → M) (s1 : Stream α)
    (s2 : Stream β) (L k : Nat) : cellSum full g s1 s2 L k = total g (pairsAt full s1 s2 L k) := by
  cases full <;>
    simp [cellSum, pairSum, pairSumAt, total, pairsAt, List.map_map, Function.comp_def]

theorem selfSum_total' [AddCommMonoid M] (g : α → α → M) (s : Stream α) (k : Nat) :
    selfSum g s k = total g (selfPairsAt s k) := by
  simp [selfSum, total, selfPairsAt, List.map_map, Function.comp_def]

theorem selfSumFwd_total [AddCommMonoid M] (g : α → α → M) (s : Stream α) (k : Nat) :
    selfSumFwd g s k = total g (selfPairsFwdAt s k) := by
  simp [selfSumFwd, total, selfPairsFwdAt, List.map_map, Function.comp_def]

@[simp] theorem total_nil [AddCommMonoid M] (g : α → β → M) : total g [] = 0 := rfl
@[simp] theorem total_cons [AddCommMonoid M] (g : α → β → M) (p : α × β) (P : List (α × β)) :
    total g (p :: P) = g p.1 p.2 + total g P := by simp [total]

theorem total_count (P : List (α × β)) : total (fun _ _ => 1) P = P.length := by
  induction P with
  | nil => rfl
  | cons p P ih => rw [total_cons, ih, List.length_cons, add_comm]

end pairs

section algebra
variable (P : List (Cx ℝ × Cx ℝ))

/-- `Re(conj(a) b)` as a sum of products. -/
def dot (a b : Cx ℝ) : ℝ := a.re * b.re + a.im * b.im

theorem reProd_dot (a b : Cx ℝ) : reProd a b = dot a b := by
  simp [reProd, dot]

theorem dist2_dot (a b : Cx ℝ) : dist2 a b = a.abs2 + b.abs2 - 2 * dot a b := by
  simp [dist2, dot, Cx.abs2]; ring

theorem total_fst_re : (total (fun a _ => a) P).re = total (fun a _ => a.re) P := by
  induction P with
  | nil => rfl
  | cons p P ih => simp [ih]
theorem total_fst_im : (total (fun a _ => a) P).im = total (fun a _ => a.im) P := by
  induction P with
  | nil => rfl
  | cons p P ih => simp [ih]
theorem total_snd_re : (total (fun _ b => b) P).re = total (fun _ b => b.re) P := by
  induction P with
  | nil => rfl
  | cons p P ih => simp [ih]
theorem total_snd_im : (total (fun _ b => b) P).im = total (fun _ b => b.im) P := by
  induction P with
  | nil => rfl
  | cons p P ih => simp [ih]

theorem total_half : total (fun a b => (1 / 2 : ℝ) • (a + b)) P
    = (1 / 2 : ℝ) • (total (fun a _ => a) P + total (fun _ b => b) P) := by
  induction P with
  | nil => ext <;> simp
  | cons p P ih => rw [total_cons, total_cons, total_cons, ih]; ext <;> simp <;> ring

theorem total_reProd_shift (b1 b2 : Cx ℝ) :
    total (fun a b => reProd (a - b1) (b - b2)) P = total reProd P
      - dot b1 (total (fun _ b => b) P) - dot b2 (total (fun a _ => a) P)
      + P.length * dot b1 b2 := by
  induction P with
  | nil => simp [dot]
  | cons p P ih =>
    simp only [total_cons, List.length_cons]
    rw [ih]
    simp only [reProd_dot, dot, Cx.add_re, Cx.add_im, Cx.sub_re,
      Cx.sub_im]
    push_cast
    ring

theorem total_cxProd_shift (b1 b2 : Cx ℝ) :
    total (fun a b => cxProd (a - b1) (b - b2)) P = total cxProd P
      - b1.conj * (total (fun _ b => b) P) - (total (fun a _ => a) P).conj * b2
      + (P.length : ℝ) • (b1.conj * b2) := by
  induction P with
  | nil => ext <;> simp
  | cons p P ih =>
    simp only [total_cons, List.length_cons]
    rw [ih]
    simp only [cxProd]
    ext <;> simp <;> ring

theorem total_dist2 : total dist2 P
    = total (fun a b => a.abs2 + b.abs2) P - 2 * total reProd P := by
  induction P with
  | nil => simp
  | cons p P ih => simp only [total_cons, ih, dist2_dot, reProd_dot]; ring

theorem total_dist2_I : total (fun a b => dist2 (Cx.I * a) b) P
    = total (fun a b => a.abs2 + b.abs2) P - 2 * (total cxProd P).im := by
  induction P with
  | nil => simp
  | cons p P ih =>
    simp only [total_cons]
    rw [ih]
    simp only [dist2, cxProd, Cx.abs2, Cx.I, Cx.mul_re, Cx.mul_im, Cx.sub_re,
      Cx.sub_im, Cx.add_im, Cx.conj_re, Cx.conj_im]
    ring

theorem total_cxProd_re : (total cxProd P).re = total reProd P := by
  induction P with
  | nil => rfl
  | cons p P ih => simp [ih, cxProd, reProd]

theorem total_dist2_shift (b1 b2 : Cx ℝ) :
    total (fun a b => dist2 (a - b1) (b - b2)) P = total dist2 P
      - 2 * dot (total (fun a _ => a) P - total (fun _ b => b) P) (b1 - b2)
      + P.length * dist2 b1 b2 := by
  induction P with
  | nil => simp [dot]
  | cons p P ih =>
    simp only [total_cons, List.length_cons]
    rw [ih]
    simp only [dist2, dot, Cx.abs2, Cx.add_re, Cx.add_im,
      Cx.sub_re, Cx.sub_im]
    push_cast
    ring

theorem total_dist2_I_shift (b1 b2 : Cx ℝ) :
    total (fun a b => dist2 (Cx.I * (a - b1)) (b - b2)) P
      = total (fun a b => dist2 (Cx.I * a) b) P
      - 2 * dot (Cx.I * total (fun a _ => a) P - total (fun _ b => b) P) (Cx.I * b1 - b2)
      + P.length * dist2 (Cx.I * b1) b2 := by
  induction P with
  | nil => simp [dot]
  | cons p P ih =>
    simp only [total_cons, List.length_cons]
    rw [ih]
    simp only [dist2, dot, Cx.abs2, Cx.add_re, Cx.add_im,
      Cx.sub_re, Cx.sub_im, Cx.mul_re, Cx.mul_im, Cx.I]
    push_cast
    ring

theorem total_nonneg {α β : Type} (g : α → β → ℝ) (hg : ∀ a b, 0 ≤ g a b) (P : List (α × β)) :
    0 ≤ total g P := by
  induction P with
  | nil => simp
  | cons p P ih => rw [total_cons]; exact add_nonneg (hg _ _) ih

theorem distSq_nonneg (a b : Cx ℝ) : 0 ≤ dist2 a b :=
  add_nonneg (mul_self_nonneg _) (mul_self_nonneg _)

theorem mean_dist2_nonneg (f g : Cx ℝ → Cx ℝ) : 0 ≤ mean (fun a b => dist2 (f a) (g b)) P :=
  mul_nonneg (by positivity) (total_nonneg _ (fun _ _ => distSq_nonneg _ _) P)

end algebra

section cells
variable {P : List (Cx ℝ × Cx ℝ)}

theorem len_ne (h : P ≠ []) : (P.length : ℝ) ≠ 0 := by
  have : P.length ≠ 0 := by simpa using h
  exact_mod_cast this

theorem divCount_pos {M : Type} [SMul ℝ M] (x : M) (h : P ≠ []) :
    divCount x P.length = some ((1 / (P.length : ℝ)) • x) := by
  rw [divCount, if_neg (by simpa using h)]

theorem divCount_zero {M : Type} [SMul ℝ M] (x : M) : divCount x 0 = none := rfl

/-! Each formula on the sums over the pairs of one delay. -/

theorem cell_corrBaselineR (h : P ≠ []) (b1 b2 : Cx ℝ) :
    corrBaselineR (total reProd P) P.length b1 b2 = some (mean reProd P - reProd b1 b2) := by
  rw [corrBaselineR, divCount_pos _ h, reProd_dot]
  rfl

theorem cell_corrBaselineC (h : P ≠ []) (b1 b2 : Cx ℝ) :
    corrBaselineC (total cxProd P) P.length b1 b2 = some (mean cxProd P - cxProd b1 b2) := by
  rw [corrBaselineC, divCount_pos _ h]
  simp only [Option.map_some, mean, cxProd]
  rw [mul_comm]

theorem cell_corrSubtractedR (h : P ≠ []) (b1 b2 m1 m2 : Cx ℝ)
    (hm : dot b1 m2 + dot b2 m1
      = dot b1 (total (fun _ b => b) P) + dot b2 (total (fun a _ => a) P)) :
    corrSubtractedR (total reProd P) P.length b1 b2 m1 m2
      = some (mean (fun a b => reProd (a - b1) (b - b2)) P) := by
  have hN := len_ne h
  rw [corrSubtractedR, divCount_pos _ h, mean, total_reProd_shift]
  simp only [Option.map_some, smul_eq_mul, Option.some.injEq, dot] at *
  field_simp
  linear_combination -hm

theorem cell_corrSubtractedC (h : P ≠ []) (b1 b2 : Cx ℝ) :
    corrSubtractedC (total cxProd P) P.length b1 b2 (total (fun a _ => a) P)
      (total (fun _ b => b) P) = some (mean (fun a b => cxProd (a - b1) (b - b2)) P) := by
  have hN := len_ne h
  rw [corrSubtractedC, divCount_pos _ h, mean, total_cxProd_shift]
  simp only [Option.map_some, Option.some.injEq]
  ext <;> simp <;> field_simp

theorem cell_structBaselineR (h : P ≠ []) (b1 b2 : Cx ℝ) (var : ℝ) :
    structBaselineR (total reProd P) P.length b1 b2 var (total (fun a b => a.abs2 + b.abs2) P)
      = some (var - (1 / 2) * mean dist2 P + (1 / 2) * dist2 b1 b2) := by
  have hN := len_ne h
  rw [structBaselineR, divCount_pos _ h, mean, total_dist2]
  simp only [Option.map_some, smul_eq_mul, Option.some.injEq, dist2, Cx.abs2, Cx.sub_re, Cx.sub_im]
  field_simp
  ring

theorem cell_structSubtractedR (h : P ≠ []) (b1 b2 m1 m2 : Cx ℝ) (var : ℝ)
    (hm : dot (m1 - m2) (b1 - b2)
      = dot (total (fun a _ => a) P - total (fun _ b => b) P) (b1 - b2)) :
    structSubtractedR (total reProd P) P.length b1 b2 var (total (fun a b => a.abs2 + b.abs2) P)
      m1 m2 = some (var - (1 / 2) * mean (fun a b => dist2 (a - b1) (b - b2)) P) := by
  have hN := len_ne h
  rw [structSubtractedR, divCount_pos _ h, mean, total_dist2_shift, total_dist2]
  simp only [Option.map_some, smul_eq_mul, Option.some.injEq, dist2, Cx.abs2, Cx.sub_re, Cx.sub_im,
    dot] at *
  field_simp
  linear_combination 2 * hm

theorem cell_corrCompensatedR (h : P ≠ []) (m1 m2 : Cx ℝ)
    (hm : dot m1 (total (fun _ b => b) P) + dot m2 (total (fun a _ => a) P) = 2 * dot m1 m2) :
    corrCompensatedR (total reProd P) P.length m1 m2
      = some (mean (fun a b => reProd (a - (1 / (P.length : ℝ)) • m1)
          (b - (1 / (P.length : ℝ)) • m2)) P) := by
  have hN := len_ne h
  rw [corrCompensatedR, divCount_pos _ h, Option.bind_some, divCount_pos _ h, mean,
    total_reProd_shift]
  simp only [smul_eq_mul, Option.some.injEq, dot, Cx.smul_re, Cx.smul_im] at *
  field_simp
  linear_combination hm

theorem cell_corrCompensatedC (h : P ≠ []) (m1 m2 : Cx ℝ) (h1 : m1 = total (fun a _ => a) P)
    (h2 : m2 = total (fun _ b => b) P) :
    corrCompensatedC (total cxProd P) P.length m1 m2
      = some (mean (fun a b => cxProd (a - (1 / (P.length : ℝ)) • m1)
          (b - (1 / (P.length : ℝ)) • m2)) P) := by
  have hN := len_ne h
  rw [corrCompensatedC, divCount_pos _ h, Option.bind_some, divCount_pos _ h, mean,
    total_cxProd_shift, ← h1, ← h2]
  simp only [Option.some.injEq]
  ext <;> simp <;> field_simp <;> ring

theorem cell_structCompensatedR (h : P ≠ []) (m1 m2 : Cx ℝ) (var : ℝ)
    (hm : dot (m1 - m2) (m1 - m2)
      = dot (total (fun a _ => a) P - total (fun _ b => b) P) (m1 - m2)) :
    structCompensatedR (total reProd P) P.length var (total (fun a b => a.abs2 + b.abs2) P) m1 m2
      = some (var - (1 / 2) * mean (fun a b => dist2 (a - (1 / (P.length : ℝ)) • m1)
          (b - (1 / (P.length : ℝ)) • m2)) P) := by
  have hN := len_ne h
  rw [structCompensatedR]
  rw [divCount_pos _ h, Option.bind_some, divCount_pos _ h, mean, total_dist2_shift, total_dist2]
  simp only [Option.map_some, smul_eq_mul, Option.some.injEq, dist2, Cx.abs2, Cx.sub_re, Cx.sub_im,
    dot, Cx.smul_re, Cx.smul_im] at *
  field_simp
  linear_combination 2 * hm

/-- The value of the complex structured formulas: the real formula in the real part, and in the
imaginary part the same formula with the first signal turned by 90°. -/
theorem cell_structBaselineC (h : P ≠ []) (b1 b2 : Cx ℝ) (var : ℝ) :
    structBaselineC (total cxProd P) P.length b1 b2 var (total (fun a b => a.abs2 + b.abs2) P)
      = some ⟨var - (1 / 2) * mean dist2 P + (1 / 2) * dist2 b1 b2,
          var - (1 / 2) * mean (fun a b => dist2 (Cx.I * a) b) P
            + (1 / 2) * dist2 (Cx.I * b1) b2⟩ := by
  have hN := len_ne h
  rw [structBaselineC, divCount_pos _ h, mean, mean, total_dist2, total_dist2_I, ← total_cxProd_re]
  simp only [Option.map_some, Option.some.injEq, dist2, Cx.abs2]
  ext <;> simp [Cx.I] <;> field_simp <;> ring

theorem cell_structSubtractedC (h : P ≠ []) (b1 b2 : Cx ℝ) (var : ℝ) :
    structSubtractedC (total cxProd P) P.length b1 b2 var (total (fun a b => a.abs2 + b.abs2) P)
      (total (fun a _ => a) P) (total (fun _ b => b) P)
      = some ⟨var - (1 / 2) * mean (fun a b => dist2 (a - b1) (b - b2)) P,
          var - (1 / 2) * mean (fun a b => dist2 (Cx.I * (a - b1)) (b - b2)) P⟩ := by
  have hN := len_ne h
  rw [structSubtractedC]
  dsimp only
  rw [divCount_pos _ h, mean, mean, total_dist2_shift, total_dist2_I_shift, total_dist2,
    total_dist2_I, ← total_cxProd_re]
  simp only [Option.map_some, Option.some.injEq, dist2, Cx.abs2, dot]
  ext <;> simp [Cx.I] <;> field_simp <;> ring

theorem cell_structCompensatedC (h : P ≠ []) (m1 m2 : Cx ℝ) (var : ℝ)
    (h1 : m1 = total (fun a _ => a) P) (h2 : m2 = total (fun _ b => b) P) :
    structCompensatedC (total cxProd P) P.length var (total (fun a b => a.abs2 + b.abs2) P) m1 m2
      = some ⟨var - (1 / 2) * mean (fun a b => dist2 (a - (1 / (P.length : ℝ)) • m1)
            (b - (1 / (P.length : ℝ)) • m2)) P,
          var - (1 / 2) * mean (fun a b => dist2 (Cx.I * (a - (1 / (P.length : ℝ)) • m1))
            (b - (1 / (P.length : ℝ)) • m2)) P⟩ := by
  have hN := len_ne h
  rw [structCompensatedC]
  rw [divCount_pos _ h, Option.bind_some, divCount_pos _ h, Option.bind_some, divCount_pos _ h,
    Option.bind_some, divCount_pos _ h, Option.bind_some, divCount_pos _ h, mean, mean,
    total_dist2_shift, total_dist2_I_shift, total_dist2, total_dist2_I, ← total_cxProd_re, ← h1,
    ← h2]
  simp only [Option.map_some, Option.some.injEq, dist2, Cx.abs2, dot]
  ext <;> simp [Cx.I] <;> field_simp <;> ring

/-! Difference data. -/

theorem cell_cdiff1 (h : P ≠ []) (b1 b2 : Cx ℝ) :
    cdiff1 (total dist2 P) P.length (b2 - b1) = some (mean dist2 P - dist2 b1 b2) := by
  rw [cdiff1, divCount_pos _ h]
  rfl

theorem cell_cdiff3 (h : P ≠ []) (b1 b2 : Cx ℝ) :
    cdiff3 (total dist2 P) P.length (b2 - b1) (total (fun a _ => a) P) (total (fun _ b => b) P)
      = some (mean (fun a b => dist2 (a - b1) (b - b2)) P) := by
  have hN := len_ne h
  rw [cdiff3, divCount_pos _ h, mean, total_dist2_shift]
  simp only [Option.map_some, smul_eq_mul, Option.some.injEq, dist2, Cx.abs2, dot, Cx.sub_re,
    Cx.sub_im]
  field_simp
  ring

end cells
end Cddm
