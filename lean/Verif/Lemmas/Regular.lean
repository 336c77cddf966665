import Verif.Lemmas.Pairs
import Verif.Model.Regular

/-! # The regular kernels compute the same sums as the irregular ones -/

namespace Cddm
open Spec

section generic
variable {M : Type} [AddCommMonoid M]

theorem addAt_nat (out : List M) (c : Nat) (hc : c < out.length) (v : M) :
    addAt out (c : Int) v = some (addSeq out fun k => if k = c then v else 0) := by
  rw [addAt_eq (pyIdx_nonneg (by omega) (by omega))]
  simp

/-- Summing `g` over two aligned slices into one cell. -/
theorem addPairs_acc {α β : Type} (xv : List α) (yv : List β) (h : xv.length ≤ yv.length)
    (out : List M) (c : Nat) (hc : c < out.length)
    (body : List M → Nat → Option (List M)) (g : α → β → M)
    (hb : ∀ (o : List M) j x y, xv[j]? = some x → yv[j]? = some y →
      body o j = addAt o (c : Int) (g x y)) :
    forRange xv.length out body
      = some (addSeq out fun k => if k = c then ((xv.zip yv).map fun p => g p.1 p.2).sum else 0) := by
  rcases hxv : xv with _ | ⟨x0, xs⟩
  · simp [forRange, addSeq_zero']
  rcases hyv : yv with _ | ⟨y0, ys⟩
  · simp [hxv, hyv] at h
  rw [← hxv, ← hyv]
  rw [forRange_acc out.length xv.length body
    (fun j k => if k = c then g ((xv.zip yv).getD j (x0, y0)).1 ((xv.zip yv).getD j (x0, y0)).2
      else 0) ?_ out rfl]
  · congr 1
    apply addSeq_congr
    intro k _
    by_cases hk : k = c
    · simp only [hk, if_true]
      exact sum_range_getD (xv.zip yv) (x0, y0) (fun p => g p.1 p.2) _ (by simp; omega)
    · simp only [hk, if_false]
      exact sum_map_zero _ _ (fun _ _ => rfl)
  · intro o ho j hj
    have hz : (xv.zip yv)[j]? = some ((xv.zip yv).getD j (x0, y0)) :=
      getElem?_getD _ _ (by simp; omega)
    rw [List.getElem?_zip_eq_some] at hz
    rw [hb o j _ _ hz.1 hz.2, addAt_nat _ _ (by omega)]

theorem pyTake_sub {α : Type} (x : List α) (n i : Nat) (hi : i ≤ n) :
    pyTake x ((n : Int) - i) = x.take (n - i) := by
  unfold pyTake
  rw [if_pos (by omega)]
  congr 1
  omega

theorem zip_take_drop {α β : Type} (x : List α) (y : List β) (i n : Nat) (h : y.length = n) :
    (x.take (n - i)).zip (y.drop i) = x.zip (y.drop i) := by
  subst h
  induction x generalizing i with
  | nil => simp
  | cons a x ih =>
    by_cases hi : i < y.length
    · obtain ⟨m, hm⟩ : ∃ m, y.length - i = m + 1 := ⟨y.length - i - 1, by omega⟩
      rw [hm, List.take_succ_cons, List.drop_eq_getElem_cons hi, List.zip_cons_cons,
        List.zip_cons_cons, ← ih (i+1)]
      congr 3
      omega
    · have : y.drop i = [] := by rw [List.drop_eq_nil_iff]; omega
      simp [this]

theorem zip_swap' {α β : Type} (x : List α) (y : List β) :
    (x.zip y).map Prod.swap = y.zip x := by
  induction x generalizing y with
  | nil => simp
  | cons a x ih => cases y <;> simp [ih]

theorem zip_drop_take {α β : Type} (x : List α) (y : List β) (i n : Nat) (h : y.length = n) :
    (y.drop i).zip (x.take (n - i)) = (y.drop i).zip x := by
  rw [← zip_swap', zip_take_drop x y i n h, zip_swap']

theorem sum_zip_swap {α β : Type} (x : List α) (y : List β) (g : α → β → M) :
    ((x.zip y).map fun p => g p.1 p.2).sum = ((y.zip x).map fun p => g p.2 p.1).sum := by
  rw [← zip_swap' x y, List.map_map]
  rfl

/-- A loop in which step `i` adds `S i` to cell `i` only. -/
theorem forRange_diag (n : Nat) (out : List M) (body : List M → Nat → Option (List M))
    (S : Nat → M)
    (h : ∀ o : List M, o.length = out.length → ∀ i, i < n →
      body o i = some (addSeq o fun k => if k = i then S k else 0)) :
    forRange n out body = some (addSeq out fun k => if k < n then S k else 0) := by
  rw [forRange_acc out.length n body (fun i k => if k = i then S k else 0) h out rfl]
  congr 1
  apply addSeq_congr
  intro k hk
  have : ∀ n, ((List.range n).map fun i => if k = i then S k else 0).sum
      = if k < n then S k else 0 := by
    intro n
    induction n with
    | zero => simp
    | succ n ih =>
      rw [List.range_succ, List.map_append, List.sum_append, ih]
      rcases lt_trichotomy k n with h | h | h
      · have h2 : ¬ k = n := by omega
        have h3 : k < n + 1 := by omega
        simp [h, h2, h3]
      · subst h; simp
      · have h2 : ¬ k = n := by omega
        have h3 : ¬ k < n + 1 := by omega
        have h4 : ¬ k < n := by omega
        simp [h2, h3, h4]
  exact this n

theorem forRange_diag' (out : List M) (body : List M → Nat → Option (List M))
    (S : Nat → M)
    (h : ∀ o : List M, o.length = out.length → ∀ i, i < out.length →
      body o i = some (addSeq o fun k => if k = i then S k else 0)) :
    forRange out.length out body = some (addSeq out S) := by
  rw [forRange_diag out.length out body S h]
  congr 1
  apply addSeq_congr
  intro k hk
  simp [hk]

end generic

section kernels
variable {R : Type} [CommRing R]

theorem reProd_comm (a b : Cx R) : reProd a b = reProd b a := by
  simp [reProd]; ring

theorem dist2_comm (a b : Cx R) : dist2 a b = dist2 b a := by
  simp [dist2, Cx.abs2]; ring

theorem crossCorrAdd_eq (xv yv : List (Cx R)) (out : List R) (c : Nat)
    (h : xv.length ≤ yv.length) (hc : c < out.length) :
    crossCorrAdd xv yv out c = some (addSeq out fun k =>
      if k = c then ((xv.zip yv).map fun p => reProd p.1 p.2).sum else 0) := by
  unfold crossCorrAdd
  apply addPairs_acc xv yv h out c hc
  intro o j x y hx hy
  rw [hx, hy]
  simp [reProd_eq]

theorem crossCorrComplexAdd_eq (xv yv : List (Cx R)) (out : List (Cx R)) (c : Nat)
    (h : xv.length ≤ yv.length) (hc : c < out.length) :
    crossCorrComplexAdd xv yv out c = some (addSeq out fun k =>
      if k = c then ((xv.zip yv).map fun p => cxProd p.1 p.2).sum else 0) := by
  unfold crossCorrComplexAdd
  apply addPairs_acc xv yv h out c hc
  intro o j x y hx hy
  rw [hx, hy]
  simp [cxProd, mul_comm]

theorem crossDiffAdd_eq (xv yv : List (Cx R)) (out : List R) (c : Nat)
    (h : xv.length ≤ yv.length) (hc : c < out.length) :
    crossDiffAdd xv yv out c = some (addSeq out fun k =>
      if k = c then ((xv.zip yv).map fun p => dist2 p.1 p.2).sum else 0) := by
  unfold crossDiffAdd
  apply addPairs_acc xv yv h out c hc
  intro o j x y hx hy
  rw [hx, hy]
  simp [dist2, Cx.abs2]
  congr 1
  ring

theorem addSeq_cell_add {M : Type} [AddCommMonoid M] (out : List M) (i : Nat) (a b : M) (S : Nat → M)
    (h : a + b = S i) :
    addSeq out (fun k => (if k = i then a else 0) + if k = i then b else 0)
      = addSeq out fun k => if k = i then S k else 0 := by
  apply addSeq_congr
  intro k _
  by_cases hk : k = i
  · subst hk; simp [h]
  · simp [hk]

theorem crossCorrRegular_eq (x y : List (Cx R)) (out : List R) (hxy : x.length = y.length)
    (hout : out.length ≤ x.length + 1) :
    crossCorrRegular x y out
      = some (addSeq out fun k => pairSum reProd (regular x) (regular y) k) := by
  unfold crossCorrRegular
  apply forRange_diag'
  intro o ho i hi
  simp only [pyTake_sub _ _ _ (show i ≤ x.length by omega), pyDrop]
  rw [crossCorrAdd_eq _ _ _ _ (by simp; omega) (by omega)]
  simp only [Option.bind_eq_bind, Option.bind_some]
  rw [zip_take_drop x y i _ hxy.symm]
  by_cases hi0 : 0 < i
  · rw [if_pos hi0, crossCorrAdd_eq _ _ _ _ (by simp [hxy]) (by simp; omega), addSeq_addSeq,
      zip_take_drop y x i _ rfl]
    congr 1
    refine addSeq_cell_add o i _ _ (fun k => pairSum reProd (regular x) (regular y) k) ?_
    rw [pairSum_split, pairSumAt_regular, pairSumAt_regular_neg, if_neg (by omega)]
    simp only [reProd_comm]
  · rw [if_neg hi0]
    congr 1
    apply addSeq_congr
    intro k _
    by_cases hk : k = i
    · subst hk
      rw [pairSum_split, pairSumAt_regular, if_pos rfl,
        if_pos (show k = 0 by omega), add_zero, if_pos rfl]
    · simp [hk]

theorem crossDiffRegular_eq (x y : List (Cx R)) (out : List R) (hxy : x.length = y.length)
    (hout : out.length ≤ x.length + 1) :
    crossDiffRegular x y out
      = some (addSeq out fun k => pairSum dist2 (regular x) (regular y) k) := by
  unfold crossDiffRegular
  apply forRange_diag'
  intro o ho i hi
  simp only [pyTake_sub _ _ _ (show i ≤ x.length by omega), pyDrop]
  rw [crossDiffAdd_eq _ _ _ _ (by simp; omega) (by omega)]
  simp only [Option.bind_eq_bind, Option.bind_some]
  rw [zip_drop_take x y i _ hxy.symm]
  by_cases hi0 : 0 < i
  · rw [if_pos hi0, crossDiffAdd_eq _ _ _ _ (by simp [hxy]) (by simp; omega), addSeq_addSeq,
      zip_take_drop y x i _ rfl]
    congr 1
    refine addSeq_cell_add o i _ _ (fun k => pairSum dist2 (regular x) (regular y) k) ?_
    rw [pairSum_split, pairSumAt_regular, pairSumAt_regular_neg, if_neg (by omega),
      sum_zip_swap x (y.drop i)]
    simp only [dist2_comm]
  · rw [if_neg hi0]
    congr 1
    apply addSeq_congr
    intro k _
    by_cases hk : k = i
    · subst hk
      rw [pairSum_split, pairSumAt_regular, if_pos rfl,
        if_pos (show k = 0 by omega), add_zero, if_pos rfl, sum_zip_swap x (y.drop k)]
      simp only [dist2_comm]
    · simp [hk]

theorem autoCorrRegular_eq (x : List (Cx R)) (out : List R) :
    autoCorrRegular x out = some (addSeq out fun k => selfSum reProd (regular x) k) := by
  unfold autoCorrRegular
  apply forRange_diag'
  intro o ho i hi
  have key : crossCorrAdd (x.drop i) (pyTake x ((x.length : Int) - i)) o i = some (addSeq o fun k =>
      if k = i then (((x.drop i).zip x).map fun p => reProd p.1 p.2).sum else 0) := by
    by_cases h : i ≤ x.length
    · rw [pyTake_sub _ _ _ h, crossCorrAdd_eq _ _ _ _ (by simp) (by omega),
        zip_drop_take x x i _ rfl]
    · have : x.drop i = [] := by rw [List.drop_eq_nil_iff]; omega
      rw [crossCorrAdd_eq _ _ _ _ (by simp [this]) (by omega)]
      simp [this]
  simp only [pyDrop]
  rw [key]
  congr 1
  apply addSeq_congr
  intro k _
  by_cases hk : k = i
  · subst hk
    rw [selfSum_regular, sum_zip_swap (x.drop k) x]
    simp only [reProd_comm]
  · simp [hk]

theorem autoDiffRegular_eq (x : List (Cx R)) (out : List R) :
    autoDiffRegular x out = some (addSeq out fun k => selfSum dist2 (regular x) k) := by
  unfold autoDiffRegular
  apply forRange_diag'
  intro o ho i hi
  have key : crossDiffAdd (x.drop i) (pyTake x ((x.length : Int) - i)) o i = some (addSeq o fun k =>
      if k = i then (((x.drop i).zip x).map fun p => dist2 p.1 p.2).sum else 0) := by
    by_cases h : i ≤ x.length
    · rw [pyTake_sub _ _ _ h, crossDiffAdd_eq _ _ _ _ (by simp) (by omega),
        zip_drop_take x x i _ rfl]
    · have : x.drop i = [] := by rw [List.drop_eq_nil_iff]; omega
      rw [crossDiffAdd_eq _ _ _ _ (by simp [this]) (by omega)]
      simp [this]
  simp only [pyDrop]
  rw [key]
  congr 1
  apply addSeq_congr
  intro k _
  by_cases hk : k = i
  · subst hk
    rw [selfSum_regular, sum_zip_swap (x.drop k) x]
    simp only [dist2_comm]
  · simp [hk]

theorem autoCorrComplexRegular_eq (x : List (Cx R)) (out : List (Cx R))
    (hout : out.length ≤ x.length + 1) :
    autoCorrComplexRegular x out
      = some (addSeq out fun k => selfSumFwd cxProd (regular x) k) := by
  unfold autoCorrComplexRegular
  apply forRange_diag'
  intro o ho i hi
  simp only [pyDrop]
  rw [pyTake_sub _ _ _ (show i ≤ x.length by omega),
    crossCorrComplexAdd_eq _ _ _ _ (by simp) (by omega), zip_take_drop x x i _ rfl]
  congr 1
  apply addSeq_congr
  intro k _
  by_cases hk : k = i
  · subst hk
    rw [selfPairs_sorted_fwd _ _ _ (regular_sorted x), selfSum_regular]
  · simp [hk]

theorem crossCorrComplexRegular_eq (x y : List (Cx R)) (out : List (Cx R))
    (hxy : x.length = y.length) (hodd : out.length % 2 = 1)
    (hout : (out.length + 1) / 2 ≤ x.length + 1) :
    crossCorrComplexRegular x y out
      = some (addSeq out fun k =>
          pairSumAt cxProd (regular x) (regular y) (cellDelay out.length k)) := by
  unfold crossCorrComplexRegular
  set S := fun k => pairSumAt cxProd (regular x) (regular y) (cellDelay out.length k) with hS
  rw [forRange_acc out.length ((out.length + 1) / 2) _
    (fun i k => (if k = i then S k else 0) + if 0 < i ∧ k = out.length - i then S k else 0) ?_
    out rfl]
  · congr 1
    apply addSeq_congr
    intro k hk
    have key : ∀ n, n ≤ (out.length + 1) / 2 →
        ((List.range n).map fun i =>
          (if k = i then S k else 0) + if 0 < i ∧ k = out.length - i then S k else 0).sum
        = if k < n ∨ (out.length < k + n) then S k else 0 := by
      intro n
      induction n with
      | zero => intro _; simp; omega
      | succ n ih =>
        intro hn
        rw [List.range_succ, List.map_append, List.sum_append, ih (by omega)]
        simp only [List.map_cons, List.map_nil, List.sum_cons, List.sum_nil, add_zero]
        by_cases h1 : k = n
        · have a1 : ¬ (k < n ∨ out.length < k + n) := by omega
          have a2 : ¬ (0 < n ∧ k = out.length - n) := by omega
          have a3 : (k < n + 1 ∨ out.length < k + (n + 1)) := by omega
          rw [if_neg a1, if_neg a2, if_pos a3, if_pos h1]; simp
        · by_cases h2 : 0 < n ∧ k = out.length - n
          · have a1 : ¬ (k < n ∨ out.length < k + n) := by omega
            have a3 : (k < n + 1 ∨ out.length < k + (n + 1)) := by omega
            rw [if_neg a1, if_pos h2, if_pos a3, if_neg h1]; simp
          · rw [if_neg h1, if_neg h2]
            have : (k < n ∨ out.length < k + n) ↔ (k < n + 1 ∨ out.length < k + (n + 1)) := by
              omega
            simp only [this]; simp
    rw [key _ le_rfl, if_pos (by omega)]
  · intro o ho i hi
    simp only [pyTake_sub _ _ _ (show i ≤ x.length by omega), pyDrop]
    rw [crossCorrComplexAdd_eq _ _ _ _ (by simp; omega) (by omega)]
    simp only [Option.bind_eq_bind, Option.bind_some]
    rw [zip_take_drop x y i _ hxy.symm]
    have hSi : S i = ((x.zip (y.drop i)).map fun p => cxProd p.1 p.2).sum := by
      simp only [hS]
      rw [cellDelay, if_pos (by omega), pairSumAt_regular]
    by_cases hi0 : 0 < i
    · rw [if_pos hi0, crossCorrComplexAdd_eq _ _ _ _ (by simp; omega) (by simp; omega),
        addSeq_addSeq, hxy, zip_drop_take y x i _ hxy]
      simp only [addSeq_length, ho]
      have hSj : S (out.length - i)
          = (((x.drop i).zip y).map fun p => cxProd p.1 p.2).sum := by
        simp only [hS]
        rw [cellDelay, if_neg (by omega),
          show ((out.length - i : Nat) : Int) - out.length = -(i : Int) by omega,
          pairSumAt_regular_neg, sum_zip_swap]
      congr 1
      apply addSeq_congr
      intro k _
      congr 1
      · by_cases hk : k = i
        · subst hk; simp [hSi]
        · simp [hk]
      · by_cases hk : k = out.length - i
        · subst hk; simp [hi0, hSj]
        · simp [hk]
    · rw [if_neg hi0]
      congr 1
      apply addSeq_congr
      intro k _
      by_cases hk : k = i
      · subst hk; simp [hSi, hi0]
      · simp [hk, hi0]

end kernels
end Cddm
