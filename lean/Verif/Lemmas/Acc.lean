import Verif.Model.Py
import Verif.Spec.Pairs
import Mathlib.Data.List.Basic

/-! # Accumulation loops: every kernel adds a fixed array to its output -/

namespace Cddm
variable {M : Type}

/-- Entrywise addition of the sequence `δ` to the array `out`. -/
def addSeq [Add M] (out : List M) (δ : Nat → M) : List M := out.mapIdx fun k v => v + δ k

section
variable [AddCommMonoid M]

@[simp] theorem addSeq_length (out : List M) (δ : Nat → M) : (addSeq out δ).length = out.length := by
  simp [addSeq]

theorem addSeq_getElem? (out : List M) (δ : Nat → M) (k : Nat) :
    (addSeq out δ)[k]? = out[k]?.map (· + δ k) := by
  simp [addSeq]

theorem addSeq_congr {out : List M} {δ ε : Nat → M} (h : ∀ k, k < out.length → δ k = ε k) :
    addSeq out δ = addSeq out ε := by
  apply List.ext_getElem
  · simp
  · intro k h1 h2
    have h1' : k < out.length := by simpa using h1
    simp [addSeq, h k h1']

theorem addSeq_zero' {out : List M} {δ : Nat → M} (h : ∀ k, k < out.length → δ k = 0) :
    addSeq out δ = out := by
  apply List.ext_getElem
  · simp
  · intro k h1 h2
    simp [addSeq, h k h2]

@[simp] theorem addSeq_addSeq (out : List M) (δ ε : Nat → M) :
    addSeq (addSeq out δ) ε = addSeq out fun k => δ k + ε k := by
  apply List.ext_getElem
  · simp
  · intro k h1 h2
    simp [addSeq]

theorem addAt_eq {out : List M} {m : Int} {j : Nat} {v : M} (h : pyIdx out.length m = some j) :
    addAt out m v = some (addSeq out fun k => if k = j then v else 0) := by
  unfold addAt
  rw [h]
  simp only [Option.bind_some]
  congr 1
  apply List.ext_getElem
  · simp
  · intro k h1 h2
    simp only [addSeq, List.getElem_modify, List.getElem_mapIdx]
    by_cases hk : j = k
    · simp [hk]
    · simp [hk, Ne.symm hk]

theorem pyIdx_nonneg {len : Nat} {m : Int} (h0 : 0 ≤ m) (h1 : m < len) :
    pyIdx len m = some m.toNat := by simp [pyIdx, h0, h1]

theorem pyIdx_neg {len : Nat} {m : Int} (h0 : m < 0) (h1 : 0 ≤ (len : Int) + m) :
    pyIdx len m = some ((len : Int) + m).toNat := by
  simp [pyIdx, not_le.mpr h0, h1]

/-- Master lemma: a loop whose body adds `δ i` adds the sum of all `δ i`. -/
theorem foldlM_acc {ι : Type} (L : Nat) (l : List ι) (step : List M → ι → Option (List M))
    (δ : ι → Nat → M)
    (h : ∀ out : List M, out.length = L → ∀ i ∈ l, step out i = some (addSeq out (δ i)))
    (out : List M) (hL : out.length = L) :
    l.foldlM step out = some (addSeq out fun k => (l.map fun i => δ i k).sum) := by
  induction l generalizing out with
  | nil => simp [addSeq_zero']
  | cons a l ih =>
    rw [List.foldlM_cons, h out hL a (by simp)]
    simp only [Option.bind_eq_bind, Option.bind_some]
    rw [ih (fun out hL i hi => h out hL i (by simp [hi])) _ (by simpa using hL)]
    simp

theorem forRange_acc (L n : Nat) (step : List M → Nat → Option (List M))
    (δ : Nat → Nat → M)
    (h : ∀ out : List M, out.length = L → ∀ i, i < n → step out i = some (addSeq out (δ i)))
    (out : List M) (hL : out.length = L) :
    forRange n out step = some (addSeq out fun k => ((List.range n).map fun i => δ i k).sum) := by
  unfold forRange
  exact foldlM_acc L _ step δ (fun out ho i hi => h out ho i (by simpa using hi)) out hL

theorem forRange'_acc (L a n : Nat) (step : List M → Nat → Option (List M))
    (δ : Nat → Nat → M)
    (h : ∀ out : List M, out.length = L → ∀ i, a ≤ i → i < n → step out i = some (addSeq out (δ i)))
    (out : List M) (hL : out.length = L) :
    forRange' a n out step =
      some (addSeq out fun k => ((List.range' a (n - a)).map fun i => δ i k).sum) := by
  unfold forRange'
  refine foldlM_acc L _ step δ (fun out ho i hi => ?_) out hL
  rw [List.mem_range'_1] at hi
  exact h out ho i hi.1 (by omega)

/-- Summing over indices of a list is summing over its elements. -/
theorem sum_range_getD {α : Type} (l : List α) (d : α) (h : α → M) (n : Nat) (hn : n = l.length) :
    ((List.range n).map fun i => h (l.getD i d)).sum = (l.map h).sum := by
  subst hn
  congr 1
  apply List.ext_getElem
  · simp
  · intro k h1 h2
    simp at h1 h2
    simp [h1]

theorem sum_product {α β : Type} (l1 : List α) (l2 : List β) (F : α × β → M) :
    ((l1 ×ˢ l2).map F).sum = (l1.map fun a => (l2.map fun b => F (a, b)).sum).sum := by
  induction l1 with
  | nil => simp
  | cons a l ih =>
    rw [List.product_cons, List.map_append, List.sum_append, ih]
    simp [Function.comp_def]

theorem sum_filter {α : Type} (l : List α) (p : α → Bool) (F : α → M) :
    ((l.filter p).map F).sum = (l.map fun a => if p a then F a else 0).sum := by
  induction l with
  | nil => simp
  | cons a l ih =>
    by_cases h : p a <;> simp [h, ih]

/-- Triangular double loop = sum over `selfPairs`. -/
theorem sum_selfPairs {α : Type} (l : List α) (d : α) (F : α × α → M) (n : Nat)
    (hn : n = l.length) :
    ((List.range n).map fun i =>
      ((List.range' i (n - i)).map fun j => F (l.getD i d, l.getD j d)).sum).sum
      = ((Spec.selfPairs l).map F).sum := by
  induction l generalizing n with
  | nil => simp at hn; subst hn; simp [Spec.selfPairs]
  | cons a l ih =>
    simp at hn
    subst hn
    rw [List.range_succ_eq_map, List.map_cons, List.sum_cons]
    simp only [Spec.selfPairs, List.map_append, List.sum_append, List.map_map]
    congr 1
    · rw [Nat.sub_zero, ← List.range_eq_range']
      exact sum_range_getD (a :: l) d (fun b => F (a, b)) _ (by simp)
    · rw [← ih _ rfl]
      congr 1
      apply List.map_congr_left
      intro i hi
      simp only [Function.comp_apply, Nat.succ_eq_add_one, Nat.add_sub_add_right,
        List.getD_cons_succ]
      rw [show List.range' (i+1) (l.length - i) = (List.range' i (l.length - i)).map (1 + ·) by
        rw [List.map_add_range', add_comm], List.map_map]
      congr 1
      apply List.map_congr_left
      intro j hj
      simp only [Function.comp_apply]
      rw [add_comm 1 j, List.getD_cons_succ]

end
end Cddm
