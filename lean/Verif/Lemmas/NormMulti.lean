import Verif.Spec.NormMulti
import Verif.Lemmas.NormModes
import Verif.Lemmas.NormGlue
import Verif.Lemmas.Multitau
import Verif.Lemmas.Vec

/-!
# Lemmas for the normalization of multiple tau data
-/

namespace Cddm
open Spec

/-! ### Sums over pairs taken from two blocks -/

section blocks
variable {α M : Type} [AddCommMonoid M]

theorem total_append {β : Type} (g : α → β → M) (P Q : List (α × β)) : total g (P ++ Q) = total g P + total g Q := by
  simp [total]

theorem total_flatMap {β γ : Type} (g : α → β → M) (L : List γ) (F : γ → List (α × β)) :
    total g (L.flatMap F) = (L.map fun p => total g (F p)).sum := by
  induction L with
  | nil => rfl
  | cons p L ih => rw [List.flatMap_cons, total_append, ih, List.map_cons, List.sum_cons]

theorem total_product {β : Type} (g : α → β → M) (A : List α) (B : List β) :
    total g (A ×ˢ B) = (A.map fun a => (B.map (g a)).sum).sum := by
  change total g (A.product B) = _
  unfold List.product
  rw [total_flatMap]
  congr 1
  apply List.map_congr_left
  intro a _
  simp [total, Function.comp_def]

theorem length_eq_total {β : Type} (P : List (α × β)) : P.length = total (fun _ _ => 1) P := (total_count P).symm

end blocks

theorem dot_sum_right (a : Cx ℝ) (B : List (Cx ℝ)) : (B.map (dot a)).sum = dot a B.sum := by
  induction B with
  | nil => simp [dot]
  | cons b B ih => rw [List.map_cons, List.sum_cons, ih, List.sum_cons]; simp [dot]; ring

theorem dot_sum_left (b : Cx ℝ) (A : List (Cx ℝ)) : (A.map fun a => dot a b).sum = dot A.sum b := by
  induction A with
  | nil => simp [dot]
  | cons a A ih => rw [List.map_cons, List.sum_cons, ih, List.sum_cons]; simp [dot]; ring

theorem product_reProd (A B : List (Cx ℝ)) : total reProd (A ×ˢ B) = dot A.sum B.sum := by
  rw [total_product, ← dot_sum_left]
  congr 1
  apply List.map_congr_left
  intro a _
  rw [← dot_sum_right]
  congr 1
  apply List.map_congr_left
  intro b _
  exact reProd_dot a b

section module
variable {V : Type} [AddCommGroup V] [Module ℝ V]

theorem sum_const_real {γ : Type} (B : List γ) (x : V) : (B.map fun _ => x).sum = (B.length : ℝ) • x := by
  induction B with
  | nil => simp
  | cons b B ih =>
    rw [List.map_cons, List.sum_cons, ih, List.length_cons]
    push_cast
    rw [add_smul, one_smul, add_comm]

theorem sum_smul_real {γ : Type} (A : List γ) (c : ℝ) (φ : γ → V) :
    (A.map fun a => c • φ a).sum = c • (A.map φ).sum := by
  induction A with
  | nil => simp
  | cons a A ih => rw [List.map_cons, List.sum_cons, ih, List.map_cons, List.sum_cons, smul_add]

omit [Module ℝ V] in
theorem sum_add_real {γ : Type} (A : List γ) (φ ψ : γ → V) :
    (A.map fun a => φ a + ψ a).sum = (A.map φ).sum + (A.map ψ).sum := by
  induction A with
  | nil => simp
  | cons a A ih => simp only [List.map_cons, List.sum_cons, ih]; abel

theorem product_add {α β : Type} (A : List α) (B : List β) (φ : α → V) (ψ : β → V) :
    total (fun a b => φ a + ψ b) (A ×ˢ B) = (B.length : ℝ) • (A.map φ).sum + (A.length : ℝ) • (B.map ψ).sum := by
  rw [total_product]
  have : ∀ a : α, (B.map fun b => φ a + ψ b).sum = (B.length : ℝ) • φ a + (B.map ψ).sum := by
    intro a
    rw [sum_add_real, sum_const_real]
  simp only [this]
  rw [sum_add_real, sum_smul_real, sum_const_real]

end module

/-- Both blocks of a pair have `m` samples. -/
def Even2 (m : Nat) (L : List (List (Cx ℝ) × List (Cx ℝ))) : Prop := ∀ p ∈ L, p.1.length = m ∧ p.2.length = m

/-- All pairs of samples. -/
abbrev fineOf (L : List (List (Cx ℝ) × List (Cx ℝ))) : List (Cx ℝ × Cx ℝ) := L.flatMap fun p => p.1 ×ˢ p.2

noncomputable def bmean {V : Type} [AddCommGroup V] [Module ℝ V] (m : Nat) (A : List V) : V := (1 / m : ℝ) • A.sum

section fine
variable {m : Nat} (hm : 0 < m) {L : List (List (Cx ℝ) × List (Cx ℝ))} (h : Even2 m L)
include hm h

omit hm in
theorem fine_total {V : Type} [AddCommGroup V] [Module ℝ V] (g : Cx ℝ → Cx ℝ → V)
    (G : List (Cx ℝ) → List (Cx ℝ) → V)
    (hG : ∀ A B, A.length = m → B.length = m → total g (A ×ˢ B) = ((m * m : Nat) : ℝ) • G A B) :
    total g (fineOf L) = ((m * m : Nat) : ℝ) • total G L := by
  rw [total_flatMap]
  unfold total
  rw [← sum_smul_real]
  congr 1
  apply List.map_congr_left
  intro p hp
  exact hG _ _ (h p hp).1 (h p hp).2

omit hm in
theorem fine_length : (fineOf L).length = m * m * L.length := by
  unfold fineOf
  induction L with
  | nil => rfl
  | cons p L ih =>
    rw [List.flatMap_cons, List.length_append, ih fun q hq => h q (List.mem_cons_of_mem _ hq), List.length_product,
      (h p List.mem_cons_self).1, (h p List.mem_cons_self).2, List.length_cons]
    ring

theorem fine_reProd : total reProd (fineOf L)
    = ((m * m : Nat) : ℝ) * total (fun A B => reProd (bmean m A) (bmean m B)) L := by
  have hm' : (m : ℝ) ≠ 0 := by exact_mod_cast hm.ne'
  rw [← smul_eq_mul]
  refine fine_total h _ _ fun A B _ _ => ?_
  rw [product_reProd, reProd_dot]
  simp [dot, bmean]
  field_simp

theorem fine_fst : total (fun a _ => a) (fineOf L) = ((m * m : Nat) : ℝ) • total (fun A _ => bmean m A) L := by
  have hm' : (m : ℝ) ≠ 0 := by exact_mod_cast hm.ne'
  refine fine_total h _ _ fun A B hA hB => ?_
  have := product_add A B (fun a => a) (fun _ => (0 : Cx ℝ))
  simp only [add_zero, List.map_id'] at this
  rw [this, hA, hB]
  ext <;> simp [bmean] <;> field_simp

theorem fine_snd : total (fun _ b => b) (fineOf L) = ((m * m : Nat) : ℝ) • total (fun _ B => bmean m B) L := by
  have hm' : (m : ℝ) ≠ 0 := by exact_mod_cast hm.ne'
  refine fine_total h _ _ fun A B hA hB => ?_
  have := product_add A B (fun _ => (0 : Cx ℝ)) (fun b => b)
  simp only [zero_add, List.map_id'] at this
  rw [this, hA, hB]
  ext <;> simp [bmean] <;> field_simp

theorem fine_abs2 : total (fun a b => a.abs2 + b.abs2) (fineOf L)
    = ((m * m : Nat) : ℝ) * total (fun A B => bmean m (A.map Cx.abs2) + bmean m (B.map Cx.abs2)) L := by
  have hm' : (m : ℝ) ≠ 0 := by exact_mod_cast hm.ne'
  rw [← smul_eq_mul]
  refine fine_total h _ _ fun A B hA hB => ?_
  rw [product_add, hA, hB]
  simp [bmean]
  field_simp

end fine

/-! ### Only the ratios to the counts matter -/

section homogeneous
variable {K : Nat} (hK : 0 < K)
include hK

theorem divCount_scale {V : Type} [AddCommGroup V] [Module ℝ V] (x : V) (c : Nat) :
    divCount ((K : ℝ) • x) (K * c) = divCount x c := by
  have hK' : (K : ℝ) ≠ 0 := by exact_mod_cast hK.ne'
  unfold divCount
  by_cases hc : c = 0
  · simp [hc]
  · rw [if_neg hc, if_neg (by positivity), smul_smul]
    congr 2
    push_cast
    have hc' : (c : ℝ) ≠ 0 := by exact_mod_cast hc
    field_simp

theorem divCount_scale' (x y : ℝ) (c : Nat) (h : y = K * x) : divCount y (K * c) = divCount x c := by
  rw [h, ← smul_eq_mul, divCount_scale hK]

theorem corrBaselineR_scale (d : ℝ) (c : Nat) (b1 b2 : Cx ℝ) :
    corrBaselineR (K * d) (K * c) b1 b2 = corrBaselineR d c b1 b2 := by
  unfold corrBaselineR
  rw [divCount_scale' hK d _ c rfl]

theorem structBaselineR_scale (d q v : ℝ) (c : Nat) (b1 b2 : Cx ℝ) :
    structBaselineR (K * d) (K * c) b1 b2 v (K * q) = structBaselineR d c b1 b2 v q := by
  unfold structBaselineR
  dsimp only
  rw [divCount_scale' hK (d - 1 / 2 * q) _ c (by ring)]

theorem corrSubtractedR_scale (d : ℝ) (c : Nat) (b1 b2 m1 m2 : Cx ℝ) :
    corrSubtractedR (K * d) (K * c) b1 b2 ((K : ℝ) • m1) ((K : ℝ) • m2) = corrSubtractedR d c b1 b2 m1 m2 := by
  unfold corrSubtractedR
  dsimp only
  rw [divCount_scale' hK (d - b1.re * m2.re - b1.im * m2.im - b2.re * m1.re - b2.im * m1.im) _ c
    (by simp only [Cx.smul_re, Cx.smul_im]; ring)]

theorem structSubtractedR_scale (d q v : ℝ) (c : Nat) (b1 b2 m1 m2 : Cx ℝ) :
    structSubtractedR (K * d) (K * c) b1 b2 v (K * q) ((K : ℝ) • m1) ((K : ℝ) • m2)
      = structSubtractedR d c b1 b2 v q m1 m2 := by
  unfold structSubtractedR
  dsimp only
  rw [divCount_scale' hK (d - 1 / 2 * q + (m1.re - m2.re) * (b1.re - b2.re) + (m1.im - m2.im) * (b1.im - b2.im)) _ c
    (by simp only [Cx.smul_re, Cx.smul_im]; ring)]

theorem corrCompensatedR_scale (d : ℝ) (c : Nat) (m1 m2 : Cx ℝ) :
    corrCompensatedR (K * d) (K * c) ((K : ℝ) • m1) ((K : ℝ) • m2) = corrCompensatedR d c m1 m2 := by
  unfold corrCompensatedR
  rw [divCount_scale' hK ((K : ℝ) * (m1.re * m2.re + m1.im * m2.im)) _ c
    (by simp only [Cx.smul_re, Cx.smul_im]; ring)]
  by_cases hc : c = 0
  · simp [divCount, hc]
  · simp only [divCount, if_neg hc, Option.bind_some]
    rw [if_neg (by positivity)]
    have hK' : (K : ℝ) ≠ 0 := by exact_mod_cast hK.ne'
    have hc' : (c : ℝ) ≠ 0 := by exact_mod_cast hc
    congr 1
    push_cast
    simp only [smul_eq_mul]
    field_simp

theorem structCompensatedR_scale (d q v : ℝ) (c : Nat) (m1 m2 : Cx ℝ) :
    structCompensatedR (K * d) (K * c) v (K * q) ((K : ℝ) • m1) ((K : ℝ) • m2) = structCompensatedR d c v q m1 m2 := by
  unfold structCompensatedR
  dsimp only
  by_cases hc : c = 0
  · simp [divCount, hc]
  · have hK' : (K : ℝ) ≠ 0 := by exact_mod_cast hK.ne'
    have hc' : (c : ℝ) ≠ 0 := by exact_mod_cast hc
    have h0 : ¬ K * c = 0 := by positivity
    simp only [divCount, if_neg hc, if_neg h0, Option.bind_some, Option.map_some]
    congr 1
    push_cast
    simp only [smul_eq_mul, Cx.smul_re, Cx.smul_im]
    field_simp

end homogeneous

/-! ### Normalised curves -/

section curves
variable {n : Nat} {P : Nat → List (Cx ℝ × Cx ℝ)} {K : Nat} {c q : Nat → ℝ} {N : Nat → Nat}

/-- The arrays hold, up to a common factor, the sums over the pairs. -/
structure HoldsSums (P : Nat → List (Cx ℝ × Cx ℝ)) (K : Nat) (c q : Nat → ℝ) (N : Nat → Nat) : Prop where
  pos : 0 < K
  cor : ∀ k, total reProd (P k) = K * c k
  count : ∀ k, (P k).length = K * N k
  sq : ∀ k, total (fun a b => a.abs2 + b.abs2) (P k) = K * q k

theorem HoldsSums.count_zero (h : HoldsSums P K c q N) {k : Nat} (hk : P k = []) : N k = 0 := by
  have := h.count k
  rw [hk] at this
  have hp := h.pos
  simp at this
  omega

theorem normalize_cross_curve {s1 s2 : Nat → Cx ℝ} (h : HoldsSums P K c q N)
    (h1 : ∀ k, total (fun a _ => a) (P k) = (K : ℝ) • s1 k) (h2 : ∀ k, total (fun _ b => b) (P k) = (K : ℝ) • s2 k)
    (sqo : Option (List ℝ)) (s1o s2o : Option (List (Cx ℝ))) (bg : Background) (v : Variance) (z : Int)
    (hz : PlainNorm z) (hsq : (z = 2 ∨ z = 6 ∨ z = 10 ∨ z = 14) → sqo = some ((List.range n).map q))
    (hs : z ≠ 1 → z ≠ 2 → s1o = some ((List.range n).map s1) ∧ s2o = some ((List.range n).map s2)) :
    ∃ out, normalize normOpsR (.corr ((List.range n).map c) ((List.range n).map N) sqo s1o s2o) (some bg) (some v)
      (some z) "corr" false none = .ok (out, none) ∧ IsCurve n P (crossFormula bg v.offset z) out := by
  simp only [PlainNorm, List.mem_cons, List.not_mem_nil, or_false] at hz
  have hK := h.pos
  have hs2 : ∀ s : Nat → Cx ℝ, some ((List.range n).map s) = (some s).map fun f => (List.range n).map f := fun _ => rfl
  rcases hz with rfl | rfl | hz
  · rw [normalize_standard]
    refine ⟨_, rfl, isCurve_of _ _ _ _ (fun k _ e => ?_) (fun k _ e => ?_)⟩
    · simp [normOpsR, corrBaselineR, h.count_zero e, divCount]
    · change corrBaselineR (c k) (N k) bg.fst bg.snd = _
      rw [← corrBaselineR_scale hK, ← h.cor, ← h.count, cell_corrBaselineR e]
      rfl
  · obtain rfl := hsq (by norm_num)
    rw [normalize_structured]
    refine ⟨_, rfl, isCurve_of _ _ _ _ (fun k _ e => ?_) (fun k _ e => ?_)⟩
    · simp [normOpsR, structBaselineR, h.count_zero e, divCount]
    · change structBaselineR (c k) (N k) bg.fst bg.snd v.offset (q k) = _
      rw [← structBaselineR_scale hK, ← h.cor, ← h.count, ← h.sq, cell_structBaselineR e]
      rfl
  obtain ⟨rfl, rfl⟩ := hs (by omega) (by omega)
  rw [hs2 s2]
  rcases (by omega : (z = 5 ∨ z = 13) ∨ (z = 6 ∨ z = 14) ∨ z = 9 ∨ z = 10) with hz | hz | rfl | rfl
  · rw [normalize_subtracted _ _ _ _ _ _ _ _ _ _ _ hz]
    refine ⟨_, rfl, isCurve_of _ _ _ _ (fun k _ e => ?_) (fun k _ e => ?_)⟩
    · simp [normOpsR, corrSubtractedR, h.count_zero e, divCount]
    · change corrSubtractedR (c k) (N k) bg.fst bg.snd (s1 k) (s2 k) = _
      rw [← corrSubtractedR_scale hK, ← h.cor, ← h.count, ← h1, ← h2, cell_corrSubtractedR e _ _ _ _ rfl]
      rcases hz with rfl | rfl <;> rfl
  · obtain rfl := hsq (by omega)
    rw [normalize_structSubtracted _ _ _ _ _ _ _ _ _ _ _ hz]
    refine ⟨_, rfl, isCurve_of _ _ _ _ (fun k _ e => ?_) (fun k _ e => ?_)⟩
    · simp [normOpsR, structSubtractedR, h.count_zero e, divCount]
    · change structSubtractedR (c k) (N k) bg.fst bg.snd v.offset (q k) (s1 k) (s2 k) = _
      rw [← structSubtractedR_scale hK, ← h.cor, ← h.count, ← h.sq, ← h1, ← h2,
        cell_structSubtractedR e _ _ _ _ _ rfl]
      rcases hz with rfl | rfl <;> rfl
  · rw [normalize_compensated]
    refine ⟨_, rfl, isCurve_of _ _ _ _ (fun k _ e => ?_) (fun k _ e => ?_)⟩
    · simp [normOpsR, corrCompensatedR, h.count_zero e, divCount]
    · change corrCompensatedR (c k) (N k) (s1 k) (s2 k) = _
      rw [← corrCompensatedR_scale hK, ← h.cor, ← h.count, ← h1, ← h2,
        cell_corrCompensatedR e _ _ (by simp [dot]; ring)]
      rfl
  · obtain rfl := hsq (by norm_num)
    rw [normalize_structCompensated]
    refine ⟨_, rfl, isCurve_of _ _ _ _ (fun k _ e => ?_) (fun k _ e => ?_)⟩
    · simp [normOpsR, structCompensatedR, h.count_zero e, divCount]
    · change structCompensatedR (c k) (N k) v.offset (q k) (s1 k) (s2 k) = _
      rw [← structCompensatedR_scale hK, ← h.cor, ← h.count, ← h.sq, ← h1, ← h2,
        cell_structCompensatedR e _ _ _ rfl]
      rfl

theorem normalize_auto_curve {s1 : Nat → Cx ℝ} (h : HoldsSums P K c q N)
    (h1 : ∀ k, total (fun a b => (1 / 2 : ℝ) • (a + b)) (P k) = (K : ℝ) • s1 k)
    (sqo : Option (List ℝ)) (s1o : Option (List (Cx ℝ))) (bg : Background) (v : Variance) (z : Int)
    (hz : PlainNorm z) (hb : z = 5 ∨ z = 13 ∨ z = 6 ∨ z = 14 → bg.fst = bg.snd)
    (hsq : (z = 2 ∨ z = 6 ∨ z = 10 ∨ z = 14) → sqo = some ((List.range n).map q))
    (hs : z ≠ 1 → z ≠ 2 → s1o = some ((List.range n).map s1)) :
    ∃ out, normalize normOpsR (.corr ((List.range n).map c) ((List.range n).map N) sqo s1o none) (some bg) (some v)
      (some z) "corr" false none = .ok (out, none) ∧ IsCurve n P (autoFormula bg v.offset z) out := by
  simp only [PlainNorm, List.mem_cons, List.not_mem_nil, or_false] at hz
  have hK := h.pos
  have hs2 : (none : Option (List (Cx ℝ))) = (none : Option (Nat → Cx ℝ)).map fun f => (List.range n).map f := rfl
  have hh := fun k => total_half (P k)
  rcases hz with rfl | rfl | hz
  · rw [normalize_standard]
    refine ⟨_, rfl, isCurve_of _ _ _ _ (fun k _ e => ?_) (fun k _ e => ?_)⟩
    · simp [normOpsR, corrBaselineR, h.count_zero e, divCount]
    · change corrBaselineR (c k) (N k) bg.fst bg.snd = _
      rw [← corrBaselineR_scale hK, ← h.cor, ← h.count, cell_corrBaselineR e]
      rfl
  · obtain rfl := hsq (by norm_num)
    rw [normalize_structured]
    refine ⟨_, rfl, isCurve_of _ _ _ _ (fun k _ e => ?_) (fun k _ e => ?_)⟩
    · simp [normOpsR, structBaselineR, h.count_zero e, divCount]
    · change structBaselineR (c k) (N k) bg.fst bg.snd v.offset (q k) = _
      rw [← structBaselineR_scale hK, ← h.cor, ← h.count, ← h.sq, cell_structBaselineR e]
      rfl
  obtain rfl := hs (by omega) (by omega)
  rw [hs2]
  rcases (by omega : (z = 5 ∨ z = 13) ∨ (z = 6 ∨ z = 14) ∨ z = 9 ∨ z = 10) with hz | hz | rfl | rfl
  · rw [normalize_subtracted _ _ _ _ _ _ _ _ _ _ _ hz]
    have hb' := hb (by omega)
    refine ⟨_, rfl, isCurve_of _ _ _ _ (fun k _ e => ?_) (fun k _ e => ?_)⟩
    · simp [normOpsR, corrSubtractedR, h.count_zero e, divCount]
    · change corrSubtractedR (c k) (N k) bg.fst bg.snd (s1 k) (s1 k) = _
      rw [← corrSubtractedR_scale hK, ← h.cor, ← h.count, ← h1,
        cell_corrSubtractedR e _ _ _ _ (by rw [hb']; exact total_half_dot _ _)]
      rcases hz with rfl | rfl <;> rfl
  · obtain rfl := hsq (by omega)
    have hb' := hb (by omega)
    rw [normalize_structSubtracted _ _ _ _ _ _ _ _ _ _ _ hz]
    refine ⟨_, rfl, isCurve_of _ _ _ _ (fun k _ e => ?_) (fun k _ e => ?_)⟩
    · simp [normOpsR, structSubtractedR, h.count_zero e, divCount]
    · change structSubtractedR (c k) (N k) bg.fst bg.snd v.offset (q k) (s1 k) (s1 k) = _
      rw [← structSubtractedR_scale hK, ← h.cor, ← h.count, ← h.sq, ← h1,
        cell_structSubtractedR e _ _ _ _ _ (by rw [hb']; simp [dot])]
      rcases hz with rfl | rfl <;> rfl
  · rw [normalize_compensated]
    refine ⟨_, rfl, isCurve_of _ _ _ _ (fun k _ e => ?_) (fun k _ e => ?_)⟩
    · simp [normOpsR, corrCompensatedR, h.count_zero e, divCount]
    · change corrCompensatedR (c k) (N k) (s1 k) (s1 k) = _
      rw [← corrCompensatedR_scale hK, ← h.cor, ← h.count, ← h1,
        cell_corrCompensatedR e _ _ (by rw [← total_half_dot]; ring)]
      rfl
  · obtain rfl := hsq (by norm_num)
    rw [normalize_structCompensated]
    refine ⟨_, rfl, isCurve_of _ _ _ _ (fun k _ e => ?_) (fun k _ e => ?_)⟩
    · simp [normOpsR, structCompensatedR, h.count_zero e, divCount]
    · change structCompensatedR (c k) (N k) v.offset (q k) (s1 k) (s1 k) = _
      rw [← structCompensatedR_scale hK, ← h.cor, ← h.count, ← h.sq, ← h1,
        cell_structCompensatedR e _ _ _ (by simp [dot])]
      rfl

end curves

/-! ### Blocks -/

theorem blocks_length {α : Type} {m : Nat} {x A : List α} (h : A ∈ blocks m x) : A.length = m := by
  obtain ⟨b, hb, rfl⟩ := List.mem_map.1 h
  have hb := List.mem_range.1 hb
  have h1 : (b + 1) * m ≤ x.length := le_trans (Nat.mul_le_mul_right m hb) (Nat.div_mul_le_self _ _)
  rw [Nat.add_mul, one_mul] at h1
  rw [List.length_take, List.length_drop]
  omega

theorem blockMeans_eq {V : Type} [AddCommGroup V] [Module ℝ V] (m : Nat) (x : List V) :
    blockMeans m x = (blocks m x).map (bmean m) := by
  unfold blockMeans blocks blockMean bmean
  rw [List.map_map]
  rfl

theorem blocks_map {α β : Type} (φ : α → β) (m : Nat) (x : List α) :
    blocks m (x.map φ) = (blocks m x).map (List.map φ) := by
  unfold blocks
  rw [List.map_map, List.length_map]
  apply List.map_congr_left
  intro b _
  simp [List.map_drop, List.map_take]

theorem pairsAt_mem {α β : Type} {s1 : Stream α} {s2 : Stream β} {n k : Nat} {p : α × β}
    (h : p ∈ pairsAt false s1 s2 n k) : (∃ t, (t, p.1) ∈ s1) ∧ ∃ t, (t, p.2) ∈ s2 := by
  simp only [pairsAt, Bool.false_eq_true, if_false, List.mem_map, List.mem_filter] at h
  obtain ⟨q, ⟨hq, -⟩, rfl⟩ := h
  obtain ⟨h1, h2⟩ := List.mem_product.1 (show (q.1, q.2) ∈ s1.product s2 from hq)
  exact ⟨⟨q.1.1, h1⟩, ⟨q.2.1, h2⟩⟩

theorem selfPairs_mem {α : Type} {s : List α} {p : α × α} (h : p ∈ selfPairs s) : p.1 ∈ s ∧ p.2 ∈ s := by
  induction s with
  | nil => simp [selfPairs] at h
  | cons a s ih =>
    simp only [selfPairs, List.mem_append, List.mem_map] at h
    rcases h with ⟨b, hb, rfl⟩ | h
    · exact ⟨List.mem_cons_self, hb⟩
    · exact ⟨List.mem_cons_of_mem _ (ih h).1, List.mem_cons_of_mem _ (ih h).2⟩

theorem selfPairsAt_mem {α : Type} {s : Stream α} {k : Nat} {p : α × α}
    (h : p ∈ selfPairsAt s k) : (∃ t, (t, p.1) ∈ s) ∧ ∃ t, (t, p.2) ∈ s := by
  simp only [selfPairsAt, List.mem_map, List.mem_filter] at h
  obtain ⟨q, ⟨hq, -⟩, rfl⟩ := h
  exact ⟨⟨q.1.1, (selfPairs_mem hq).1⟩, ⟨q.2.1, (selfPairs_mem hq).2⟩⟩

theorem mem_regular {α : Type} {x : List α} {t : Int} {a : α} (h : (t, a) ∈ regular x) : a ∈ x := by
  simp only [regular, List.mem_mapIdx] at h
  obtain ⟨i, hi, h⟩ := h
  simp only [Prod.mk.injEq] at h
  rw [← h.2]
  exact List.getElem_mem _

theorem even_pairs (m n k : Nat) (f1 f2 : List (Cx ℝ)) :
    Even2 m (pairsAt false (regular (blocks m f1)) (regular (blocks m f2)) n k) := by
  intro p hp
  obtain ⟨⟨t, h1⟩, ⟨u, h2⟩⟩ := pairsAt_mem hp
  exact ⟨blocks_length (mem_regular h1), blocks_length (mem_regular h2)⟩

theorem even_selfPairs (m k : Nat) (f : List (Cx ℝ)) : Even2 m (selfPairsAt (regular (blocks m f)) k) := by
  intro p hp
  obtain ⟨⟨t, h1⟩, ⟨u, h2⟩⟩ := selfPairsAt_mem hp
  exact ⟨blocks_length (mem_regular h1), blocks_length (mem_regular h2)⟩

theorem cellSum_blocks {V W M : Type} [AddCommMonoid M] (m n k : Nat) (f1 f2 : List (Cx ℝ)) (g : V → W → M)
    (φ : List (Cx ℝ) → V) (ψ : List (Cx ℝ) → W) :
    cellSum false g (regular ((blocks m f1).map φ)) (regular ((blocks m f2).map ψ)) n k
      = total (fun A B => g (φ A) (ψ B)) (pairsAt false (regular (blocks m f1)) (regular (blocks m f2)) n k) := by
  rw [cellSum_total]
  have := pairsAt_stream_map false φ ψ (blocks m f1) (blocks m f2) none none n k
  simp only [stream] at this
  rw [this, total_map]

theorem selfSum_blocks {V M : Type} [AddCommMonoid M] (m k : Nat) (f : List (Cx ℝ)) (g : V → V → M)
    (φ : List (Cx ℝ) → V) :
    selfSum g (regular ((blocks m f).map φ)) k
      = total (fun A B => g (φ A) (φ B)) (selfPairsAt (regular (blocks m f)) k) := by
  rw [selfSum_total']
  have := selfPairsAt_stream_map φ (blocks m f) none k
  simp only [stream] at this
  rw [this, total_map]

theorem total_half_map {α : Type} (φ : α → Cx ℝ) (P : List (α × α)) :
    total (fun A B => (1 / 2 : ℝ) • (φ A + φ B)) P
      = (1 / 2 : ℝ) • (total (fun A _ => φ A) P + total (fun _ B => φ B) P) := by
  have := total_half (P.map (Prod.map φ φ))
  rwa [total_map, total_map, total_map] at this

/-! ### The data of `ccorr_multi`, `acorr_multi` -/

theorem blockFirsts_map {α β : Type} (φ : α → β) (m : Nat) (x : List α) :
    blockFirsts m (x.map φ) = (blockFirsts m x).map φ := by
  unfold blockFirsts
  rw [List.map_filterMap, List.length_map]
  congr 1
  funext b
  rw [List.getElem?_map]

/-- Sums over pairs of two streams. -/
theorem holds_cross (f1 f2 : List (Cx ℝ)) (t1 t2 : Option (List Int)) (L : Nat) :
    HoldsSums (pairsAt false (stream f1 t1) (stream f2 t2) L) 1 (cellSum false reProd (stream f1 t1) (stream f2 t2) L)
      (cellSum false (· + ·) (stream (f1.map Cx.abs2) t1) (stream (f2.map Cx.abs2) t2) L)
      (cellSum false (fun _ _ => 1) (stream f1 t1) (stream f2 t2) L) := by
  refine ⟨Nat.one_pos, fun k => ?_, fun k => ?_, fun k => ?_⟩
  · rw [cellSum_total]; simp
  · rw [cellSum_total, ← length_eq_total, one_mul]
  · rw [cellSum_total, pairsAt_stream_map, total_map]; simp

theorem holds_auto (f : List (Cx ℝ)) (t : Option (List Int)) :
    HoldsSums (selfPairsAt (stream f t)) 1 (selfSum reProd (stream f t))
      (selfSum (· + ·) (stream (f.map Cx.abs2) t)) (selfSum (fun _ _ => 1) (stream f t)) := by
  refine ⟨Nat.one_pos, fun k => ?_, fun k => ?_, fun k => ?_⟩
  · rw [selfSum_total']; simp
  · rw [selfSum_total', ← length_eq_total, one_mul]
  · rw [selfSum_total', selfPairsAt_stream_map, total_map]; simp

/-- Sums over the pairs of block means. -/
theorem holds_cross_fine (f1 f2 : List (Cx ℝ)) (m L : Nat) (hm : 0 < m) :
    HoldsSums (finePairs m f1 f2 L) (m * m)
      (cellSum false reProd (regular (blockMeans m f1)) (regular (blockMeans m f2)) L)
      (cellSum false (· + ·) (regular (blockMeans m (f1.map Cx.abs2))) (regular (blockMeans m (f2.map Cx.abs2))) L)
      (cellSum false (fun _ _ => 1) (regular (blockMeans m f1)) (regular (blockMeans m f2)) L) := by
  refine ⟨Nat.mul_pos hm hm, fun k => ?_, fun k => ?_, fun k => ?_⟩
  · rw [blockMeans_eq, blockMeans_eq, cellSum_blocks]
    exact fine_reProd hm (even_pairs m L k f1 f2)
  · rw [blockMeans_eq, blockMeans_eq, cellSum_blocks, ← length_eq_total]
    exact fine_length (even_pairs m L k f1 f2)
  · rw [blockMeans_eq, blockMeans_eq, blocks_map, blocks_map, List.map_map, List.map_map, cellSum_blocks]
    exact fine_abs2 hm (even_pairs m L k f1 f2)

theorem holds_auto_fine (f : List (Cx ℝ)) (m : Nat) (hm : 0 < m) :
    HoldsSums (selfFinePairs m f) (m * m) (selfSum reProd (regular (blockMeans m f)))
      (selfSum (· + ·) (regular (blockMeans m (f.map Cx.abs2))))
      (selfSum (fun _ _ => 1) (regular (blockMeans m f))) := by
  refine ⟨Nat.mul_pos hm hm, fun k => ?_, fun k => ?_, fun k => ?_⟩
  · rw [blockMeans_eq, selfSum_blocks]
    exact fine_reProd hm (even_selfPairs m k f)
  · rw [blockMeans_eq, selfSum_blocks, ← length_eq_total]
    exact fine_length (even_selfPairs m k f)
  · rw [blockMeans_eq, blocks_map, List.map_map, selfSum_blocks]
    exact fine_abs2 hm (even_selfPairs m k f)

theorem normalize_crossData {P : Nat → List (Cx ℝ × Cx ℝ)} {K : Nat} {m : String} (hm : m = "corr" ∨ m = "fft")
    {v : Int} {L : Nat} {s1 s2 : Stream (Cx ℝ)} {q1 q2 : Stream ℝ}
    (h : HoldsSums P K (cellSum false reProd s1 s2 L) (cellSum false (· + ·) q1 q2 L)
      (cellSum false (fun _ _ => 1) s1 s2 L))
    (h1 : ∀ k, total (fun a _ => a) (P k) = (K : ℝ) • cellSum false (fun a _ => a) s1 s2 L k)
    (h2 : ∀ k, total (fun _ b => b) (P k) = (K : ℝ) • cellSum false (fun _ b => b) s1 s2 L k)
    (bg : Background) (var : Variance) {z : Int} (hz : PlainNorm z) (hp : Prepared v z) :
    ∃ out, normalize normOpsR ((crossData false (productOf m) m v L s1 s2 q1 q2).toData m) (some bg) (some var)
      (some z) "corr" false none = .ok (out, none) ∧ IsCurve L P (crossFormula bg var.offset z) out := by
  have hm' : m ≠ "diff" := by rcases hm with rfl | rfl <;> decide
  have hg : productOf m = reProd := by unfold productOf; rw [if_neg hm']
  rw [hg]
  simp only [CorrAout.toData, crossData, if_neg hm', cells]
  refine normalize_cross_curve h h1 h2 _ _ _ bg var z hz (fun hq => ?_) (fun ha hb => ?_)
  · rw [if_pos ⟨hp.1 hq, hm'⟩]
  · rw [if_pos (hp.2 ha hb), if_pos (hp.2 ha hb)]
    exact ⟨rfl, rfl⟩

theorem normalize_autoData {P : Nat → List (Cx ℝ × Cx ℝ)} {K : Nat} {m : String} (hm : m = "corr" ∨ m = "fft")
    {v : Int} {L : Nat} {s : Stream (Cx ℝ)} {q : Stream ℝ}
    (h : HoldsSums P K (selfSum reProd s) (selfSum (· + ·) q) (selfSum (fun _ _ => 1) s))
    (h1 : ∀ k, total (fun a b => (1 / 2 : ℝ) • (a + b)) (P k)
      = (K : ℝ) • selfSum (fun a b => (1 / 2 : ℝ) • (a + b)) s k)
    (bg : Background) (var : Variance) {z : Int} (hz : PlainNorm z) (hp : Prepared v z)
    (hb : z = 5 ∨ z = 13 ∨ z = 6 ∨ z = 14 → bg.fst = bg.snd) :
    ∃ out, normalize normOpsR ((autoData (productOf m) m v L s q).toData m) (some bg) (some var)
      (some z) "corr" false none = .ok (out, none) ∧ IsCurve L P (autoFormula bg var.offset z) out := by
  have hm' : m ≠ "diff" := by rcases hm with rfl | rfl <;> decide
  have hg : productOf m = reProd := by unfold productOf; rw [if_neg hm']
  rw [hg]
  simp only [CorrAout.toData, autoData, if_neg hm', cells]
  refine normalize_auto_curve h h1 _ _ bg var z hz hb (fun hq => ?_) (fun ha hb => ?_)
  · rw [if_pos ⟨hp.1 hq, hm'⟩]
  · rw [if_pos (hp.2 ha hb)]

theorem mapM_range_ok {β : Type} [Inhabited β] (n : Nat) (F : Nat → Py β) (Q : Nat → β → Prop)
    (h : ∀ j < n, ∃ y, F j = .ok y ∧ Q j y) :
    ∃ out : Nat → β, (List.range n).mapM F = .ok ((List.range n).map out) ∧ ∀ j < n, Q j (out j) := by
  classical
  refine ⟨fun j => if hj : j < n then (h j hj).choose else default, ?_, fun j hj => ?_⟩
  · apply mapM_ok
    intro j hj
    have hj := List.mem_range.1 hj
    rw [dif_pos hj]
    exact (h j hj).choose_spec.1
  · dsimp only
    rw [dif_pos hj]
    exact (h j hj).choose_spec.2

theorem normOf_again {C : Type} (data : NormData C) (z : Option Int) (x : Nat) (h : normOf data z = .ok x) :
    normOf data (some (x : Int)) = .ok x := by
  cases data with
  | other => cases h
  | corr cor count sq s1 s2 =>
    simp only [normOf] at h ⊢
    cases z with
    | none =>
      simp only [normFromCcorrData, Except.ok.injEq] at h
      subst h
      generalize sq.isSome = a
      generalize s1.isSome = b
      revert a b; decide
    | some v =>
      simp only [normFromCcorrData] at h ⊢
      by_cases h1 : v ∉ allNorms.map Int.ofNat
      · rw [if_pos h1] at h; cases h
      rw [if_neg h1] at h
      by_cases h2 : v.toNat &&& (ccorrNorms sq.isSome s1.isSome).2 = v.toNat
      · rw [if_pos h2] at h
        have hx := Except.ok.inj h
        have hv : (x : Int) = v := by
          rw [← hx]
          simp only [List.mem_map, not_not] at h1
          obtain ⟨y, -, rfl⟩ := h1
          simp
        rw [hv, if_neg h1, if_pos h2, hx]
      · rw [if_neg h2] at h; cases h
  | diff dif count s1 s2 =>
    simp only [normOf] at h ⊢
    generalize s1.isSome = a at h ⊢
    generalize s2.isSome = b at h ⊢
    cases z with
    | none =>
      simp only [normFromCdiffData, Except.ok.injEq] at h
      subst h
      revert a b; decide
    | some v =>
      by_cases h1 : v = 2 ∨ v = 6
      · rcases h1 with rfl | rfl
        · revert h; revert a b
          simp only [normFromCdiffData]
          intro a b h
          cases a <;> cases b <;> simp at h <;> subst h <;> rfl
        · revert h; revert a b
          simp only [normFromCdiffData]
          intro a b h
          cases a <;> cases b <;> simp at h <;> subst h <;> rfl
      · simp only [normFromCdiffData] at h
        rw [if_pos] at h
        · cases h
        · simp; omega

theorem normOf_sameForm {C : Type} {d e : NormData C} (h : SameForm d e) (z : Option Int) :
    normOf d z = normOf e z := by
  cases d <;> cases e <;> simp only [SameForm] at h
  · simp only [normOf, h.1, h.2.1]
  · simp only [normOf, h.1, h.2]
  · rfl

end Cddm
