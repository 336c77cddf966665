import Verif.Model.Kernels
import Verif.Lemmas.Acc
import Mathlib.Tactic.Linarith

/-! # The irregular kernels compute the specification sums -/

namespace Cddm
open Spec

section generic
variable {M : Type} [AddCommMonoid M]

theorem crossLoop_acc (L n1 n2 : Nat) (body : List M → Nat → Nat → Option (List M))
    (δ : Nat → Nat → Nat → M)
    (h : ∀ out : List M, out.length = L → ∀ i, i < n1 → ∀ j, j < n2 →
      body out i j = some (addSeq out (δ i j)))
    (out : List M) (hL : out.length = L) :
    forRange n1 out (fun out i => forRange n2 out fun out j => body out i j) =
      some (addSeq out fun k =>
        ((List.range n1).map fun i => ((List.range n2).map fun j => δ i j k).sum).sum) := by
  refine forRange_acc L n1 _ (fun i k => ((List.range n2).map fun j => δ i j k).sum) ?_ out hL
  intro out ho i hi
  exact forRange_acc L n2 _ (δ i) (fun out ho j hj => h out ho i hi j hj) out ho

theorem autoLoop_acc (L n : Nat) (body : List M → Nat → Nat → Option (List M))
    (δ : Nat → Nat → Nat → M)
    (h : ∀ out : List M, out.length = L → ∀ i, i < n → ∀ j, i ≤ j → j < n →
      body out i j = some (addSeq out (δ i j)))
    (out : List M) (hL : out.length = L) :
    forRange n out (fun out i => forRange' i n out fun out j => body out i j) =
      some (addSeq out fun k =>
        ((List.range n).map fun i => ((List.range' i (n - i)).map fun j => δ i j k).sum).sum) := by
  refine forRange_acc L n _ (fun i k => ((List.range' i (n - i)).map fun j => δ i j k).sum) ?_
    out hL
  intro out ho i hi
  exact forRange'_acc L i n _ (δ i) (fun out ho j hj1 hj2 => h out ho i hi j hj1 hj2) out ho

/-- `if m < len(out): out[m] += v` with `m = |d|` adds `v` at the entry `k = |d|`. -/
theorem addAt_abs (out : List M) (d : Int) (v : M) :
    (if |d| < out.length then addAt out |d| v else some out)
      = some (addSeq out fun k => if |d| = k then v else 0) := by
  have h0 := abs_nonneg d
  split_ifs with h
  · rw [addAt_eq (pyIdx_nonneg h0 h)]
    congr 1
    apply addSeq_congr
    intro k hk
    congr 1
    apply propext
    omega
  · congr 1
    symm
    apply addSeq_zero'
    intro k hk
    rw [if_neg]
    omega

/-- `if abs(d) < (len(out)+1)//2: out[d] += v` adds `v` at the cell of delay `d`
(odd output length). -/
theorem addAt_signed (out : List M) (d : Int) (v : M) (hodd : out.length % 2 = 1) :
    (if |d| < ((out.length + 1) / 2 : Nat) then addAt out d v else some out)
      = some (addSeq out fun k => if d = cellDelay out.length k then v else 0) := by
  split_ifs with h
  · rw [abs_lt] at h
    by_cases hd : 0 ≤ d
    · rw [addAt_eq (pyIdx_nonneg hd (by omega))]
      congr 1
      apply addSeq_congr
      intro k hk
      congr 1
      apply propext
      unfold cellDelay
      split_ifs <;> omega
    · rw [addAt_eq (pyIdx_neg (by omega) (by omega))]
      congr 1
      apply addSeq_congr
      intro k hk
      congr 1
      apply propext
      unfold cellDelay
      split_ifs <;> omega
  · congr 1
    symm
    apply addSeq_zero'
    intro k hk
    rw [if_neg]
    intro hd
    apply h
    rw [hd, abs_lt]
    unfold cellDelay
    split_ifs <;> omega

theorem pairSum_eq {α β : Type} (g : α → β → M) (s1 : Stream α) (s2 : Stream β) (k : Nat) :
    pairSum g s1 s2 k = (s1.map fun a => (s2.map fun b =>
      if |b.1 - a.1| = (k : Int) then g a.2 b.2 else 0).sum).sum := by
  unfold pairSum
  rw [sum_filter, sum_product]
  simp only [decide_eq_true_eq]
  rfl

theorem pairSumAt_eq {α β : Type} (g : α → β → M) (s1 : Stream α) (s2 : Stream β) (d : Int) :
    pairSumAt g s1 s2 d = (s1.map fun a => (s2.map fun b =>
      if b.1 - a.1 = d then g a.2 b.2 else 0).sum).sum := by
  unfold pairSumAt
  rw [sum_filter, sum_product]
  simp only [decide_eq_true_eq]
  rfl

theorem selfSum_eq {α : Type} (g : α → α → M) (s : Stream α) (k : Nat) :
    selfSum g s k = ((selfPairs s).map fun p =>
      if |p.2.1 - p.1.1| = (k : Int) then g p.1.2 p.2.2 else 0).sum := by
  unfold selfSum
  rw [sum_filter]
  simp only [decide_eq_true_eq]
  rfl

theorem selfSumFwd_eq {α : Type} (g : α → α → M) (s : Stream α) (k : Nat) :
    selfSumFwd g s k = ((selfPairs s).map fun p =>
      if |p.2.1 - p.1.1| = (k : Int) then
        (if p.2.1 - p.1.1 < 0 then g p.2.2 p.1.2 else g p.1.2 p.2.2) else 0).sum := by
  unfold selfSumFwd
  rw [sum_filter]
  congr 1
  apply List.map_congr_left
  intro p _
  simp only [decide_eq_true_eq]
  simp only [delay, forward]
  by_cases h : p.2.1 - p.1.1 < 0 <;> simp [h]

theorem getElem?_getD {α : Type} (l : List α) (d : α) {i : Nat} (hi : i < l.length) :
    l[i]? = some (l.getD i d) := by
  rw [List.getD_eq_getElem?_getD, List.getElem?_eq_getElem hi]; rfl

/-- A double loop over two streams. -/
theorem cross_stream {α β : Type} (s1 : List α) (s2 : List β) (n1 n2 : Nat)
    (hn1 : n1 = s1.length) (hn2 : n2 = s2.length)
    (out : List M) (body : List M → Nat → Nat → Option (List M)) (F : α → β → Nat → M)
    (h : ∀ o : List M, o.length = out.length → ∀ i j a b, s1[i]? = some a → s2[j]? = some b →
      body o i j = some (addSeq o (F a b))) :
    forRange n1 out (fun out i => forRange n2 out fun out j => body out i j) =
      some (addSeq out fun k => (s1.map fun a => (s2.map fun b => F a b k).sum).sum) := by
  subst hn1 hn2
  rcases s1 with _ | ⟨a0, s1⟩
  · simp [forRange, addSeq_zero']
  rcases s2 with _ | ⟨b0, s2⟩
  · rw [crossLoop_acc out.length _ _ _ (fun i j k => 0) ?_ out rfl]
    · simp
    · intro o ho i hi j hj
      simp at hj
  rw [crossLoop_acc out.length _ _ _
    (fun i j k => F ((a0 :: s1).getD i a0) ((b0 :: s2).getD j b0) k) ?_ out rfl]
  · congr 1
    apply addSeq_congr
    intro k _
    rw [← sum_range_getD (a0 :: s1) a0 (fun a => ((b0 :: s2).map fun b => F a b k).sum) _ rfl]
    congr 1
    apply List.map_congr_left
    intro i _
    exact sum_range_getD (b0 :: s2) b0 (fun b => F ((a0 :: s1).getD i a0) b k) _ rfl
  · intro o ho i hi j hj
    apply h o ho
    · exact getElem?_getD _ _ hi
    · exact getElem?_getD _ _ hj

/-- A triangular double loop over one stream. -/
theorem self_stream {α : Type} (s : List α) (n : Nat) (hn : n = s.length)
    (out : List M) (body : List M → Nat → Nat → Option (List M)) (F : α × α → Nat → M)
    (h : ∀ o : List M, o.length = out.length → ∀ i j a b, s[i]? = some a → s[j]? = some b →
      body o i j = some (addSeq o (F (a, b)))) :
    forRange n out (fun out i => forRange' i n out fun out j => body out i j) =
      some (addSeq out fun k => ((selfPairs s).map fun p => F p k).sum) := by
  subst hn
  rcases s with _ | ⟨a0, s⟩
  · simp [forRange, addSeq_zero', selfPairs]
  rw [autoLoop_acc out.length _ _
    (fun i j k => F ((a0 :: s).getD i a0, (a0 :: s).getD j a0) k) ?_ out rfl]
  · congr 1
    apply addSeq_congr
    intro k _
    exact sum_selfPairs (a0 :: s) a0 (fun p => F p k) _ rfl
  · intro o ho i hi j _ hj
    apply h o ho
    · exact getElem?_getD _ _ hi
    · exact getElem?_getD _ _ hj

theorem zip_get {α : Type} {t : List Int} {x : List α} {i : Nat} {a : Int × α}
    (h : (t.zip x)[i]? = some a) : t[i]? = some a.1 ∧ x[i]? = some a.2 := by
  rwa [List.getElem?_zip_eq_some] at h

end generic

section kernels
variable {R : Type} [CommRing R]

theorem reProd_eq (a b : Cx R) : a.re * b.re + a.im * b.im = reProd a b := by
  simp [reProd]

theorem dist2_eq (a b : Cx R) : (b - a).re * (b - a).re + (b - a).im * (b - a).im = dist2 a b := by
  simp [dist2, Cx.abs2]

theorem crossCorr_eq (x y : List (Cx R)) (t1 t2 : List Int) (out : List R)
    (h1 : t1.length = x.length) (h2 : t2.length = y.length) :
    crossCorr x y t1 t2 out
      = some (addSeq out fun k => pairSum reProd (t1.zip x) (t2.zip y) k) := by
  unfold crossCorr
  simp only [pairSum_eq]
  apply cross_stream (t1.zip x) (t2.zip y) _ _ (by simp [h1]) (by simp [h2]) out _
    (fun a b k => if |b.1 - a.1| = (k : Int) then reProd a.2 b.2 else 0)
  intro o _ i j a b ha hb
  obtain ⟨e1, e2⟩ := zip_get ha
  obtain ⟨e3, e4⟩ := zip_get hb
  rw [e1, e2, e3, e4, ← addAt_abs]
  simp [reProd_eq]

theorem crossCorrComplex_eq (x y : List (Cx R)) (t1 t2 : List Int) (out : List (Cx R))
    (h1 : t1.length = x.length) (h2 : t2.length = y.length) (hodd : out.length % 2 = 1) :
    crossCorrComplex x y t1 t2 out
      = some (addSeq out fun k =>
          pairSumAt cxProd (t1.zip x) (t2.zip y) (cellDelay out.length k)) := by
  unfold crossCorrComplex
  simp only [pairSumAt_eq]
  apply cross_stream (t1.zip x) (t2.zip y) _ _ (by simp [h1]) (by simp [h2]) out _
    (fun a b k => if b.1 - a.1 = cellDelay out.length k then cxProd a.2 b.2 else 0)
  intro o ho i j a b ha hb
  obtain ⟨e1, e2⟩ := zip_get ha
  obtain ⟨e3, e4⟩ := zip_get hb
  rw [e1, e2, e3, e4, ← ho, ← addAt_signed _ _ _ (by omega)]
  simp [cxProd]

theorem autoCorr_eq (x : List (Cx R)) (t : List Int) (out : List R) (h : t.length = x.length) :
    autoCorr x t out = some (addSeq out fun k => selfSum reProd (t.zip x) k) := by
  unfold autoCorr
  simp only [selfSum_eq]
  apply self_stream (t.zip x) _ (by simp [h]) out _
    (fun p k => if |p.2.1 - p.1.1| = (k : Int) then reProd p.1.2 p.2.2 else 0)
  intro o _ i j a b ha hb
  obtain ⟨e1, e2⟩ := zip_get ha
  obtain ⟨e3, e4⟩ := zip_get hb
  rw [e1, e2, e3, e4, ← addAt_abs]
  simp [reProd_eq]

theorem autoCorrComplex_eq (x : List (Cx R)) (t : List Int) (out : List (Cx R))
    (h : t.length = x.length) :
    autoCorrComplex x t out = some (addSeq out fun k => selfSumFwd cxProd (t.zip x) k) := by
  unfold autoCorrComplex
  simp only [selfSumFwd_eq]
  apply self_stream (t.zip x) _ (by simp [h]) out _
    (fun p k => if |p.2.1 - p.1.1| = (k : Int) then
        (if p.2.1 - p.1.1 < 0 then cxProd p.2.2 p.1.2 else cxProd p.1.2 p.2.2) else 0)
  intro o _ i j a b ha hb
  obtain ⟨e1, e2⟩ := zip_get ha
  obtain ⟨e3, e4⟩ := zip_get hb
  rw [e1, e2, e3, e4, ← addAt_abs]
  by_cases hd : b.1 - a.1 < 0
  · simp [not_le.mpr (sub_neg.mp hd), hd, cxProd, mul_comm]
  · have hd' : 0 ≤ b.1 - a.1 := by omega
    have : ¬ b.1 < a.1 := by omega
    have h3 : a.1 ≤ b.1 := by omega
    simp [this, cxProd, abs_of_nonneg hd', h3]

theorem crossDiff_eq (x y : List (Cx R)) (t1 t2 : List Int) (out : List R)
    (h1 : t1.length = x.length) (h2 : t2.length = y.length) :
    crossDiff x y t1 t2 out
      = some (addSeq out fun k => pairSum dist2 (t1.zip x) (t2.zip y) k) := by
  unfold crossDiff
  simp only [pairSum_eq]
  apply cross_stream (t1.zip x) (t2.zip y) _ _ (by simp [h1]) (by simp [h2]) out _
    (fun a b k => if |b.1 - a.1| = (k : Int) then dist2 a.2 b.2 else 0)
  intro o _ i j a b ha hb
  obtain ⟨e1, e2⟩ := zip_get ha
  obtain ⟨e3, e4⟩ := zip_get hb
  rw [e1, e2, e3, e4, ← addAt_abs]
  simp only [dist2_eq, Option.bind_eq_bind, Option.bind_some]

theorem autoDiff_eq (x : List (Cx R)) (t : List Int) (out : List R) (h : t.length = x.length) :
    autoDiff x t out = some (addSeq out fun k => selfSum dist2 (t.zip x) k) := by
  unfold autoDiff
  simp only [selfSum_eq]
  apply self_stream (t.zip x) _ (by simp [h]) out _
    (fun p k => if |p.2.1 - p.1.1| = (k : Int) then dist2 p.1.2 p.2.2 else 0)
  intro o _ i j a b ha hb
  obtain ⟨e1, e2⟩ := zip_get ha
  obtain ⟨e3, e4⟩ := zip_get hb
  rw [e1, e2, e3, e4, ← addAt_abs]
  simp only [dist2_eq, Option.bind_eq_bind, Option.bind_some]

theorem stamps_get {t : List Int} {i : Nat} {a : Int × Unit}
    (h : (stamps t)[i]? = some a) : t[i]? = some a.1 := by
  simp only [stamps, List.getElem?_map, Option.map_eq_some_iff] at h
  obtain ⟨b, hb, rfl⟩ := h
  exact hb

theorem crossSum_eq {M : Type} [AddCommMonoid M] (f : List M) (t1 t2 : List Int) (out : List M)
    (h1 : t1.length = f.length) :
    crossSum f t1 t2 out
      = some (addSeq out fun k => pairSum (fun a _ => a) (t1.zip f) (stamps t2) k) := by
  unfold crossSum
  simp only [pairSum_eq]
  apply cross_stream (t1.zip f) (stamps t2) _ _ (by simp [h1]) (by simp [stamps]) out _
    (fun a b k => if |b.1 - a.1| = (k : Int) then a.2 else 0)
  intro o _ i j a b ha hb
  obtain ⟨e1, e2⟩ := zip_get ha
  rw [e1, e2, stamps_get hb, ← addAt_abs]
  simp

theorem crossSumComplex_eq {M : Type} [AddCommMonoid M] (f : List M) (t1 t2 : List Int)
    (out : List M) (h1 : t1.length = f.length) (hodd : out.length % 2 = 1) :
    crossSumComplex f t1 t2 out
      = some (addSeq out fun k =>
          pairSumAt (fun a _ => a) (t1.zip f) (stamps t2) (cellDelay out.length k)) := by
  unfold crossSumComplex
  simp only [pairSumAt_eq]
  apply cross_stream (t1.zip f) (stamps t2) _ _ (by simp [h1]) (by simp [stamps]) out _
    (fun a b k => if b.1 - a.1 = cellDelay out.length k then a.2 else 0)
  intro o ho i j a b ha hb
  obtain ⟨e1, e2⟩ := zip_get ha
  rw [e1, e2, stamps_get hb, ← ho, ← addAt_signed _ _ _ (by omega)]
  simp

theorem addCountCross_eq (t1 t2 : List Int) (n : List Nat) :
    addCountCross t1 t2 n
      = some (addSeq n fun k => pairSum (fun _ _ => 1) (stamps t1) (stamps t2) k) := by
  unfold addCountCross
  simp only [pairSum_eq]
  apply cross_stream (stamps t1) (stamps t2) _ _ (by simp [stamps]) (by simp [stamps]) n _
    (fun a b k => if |b.1 - a.1| = (k : Int) then 1 else 0)
  intro o _ i j a b ha hb
  rw [stamps_get ha, stamps_get hb, ← addAt_abs]
  simp

theorem addCountCrossComplex_eq (t1 t2 : List Int) (n : List Nat) (hodd : n.length % 2 = 1) :
    addCountCrossComplex t1 t2 n
      = some (addSeq n fun k =>
          pairSumAt (fun _ _ => 1) (stamps t1) (stamps t2) (cellDelay n.length k)) := by
  unfold addCountCrossComplex
  simp only [pairSumAt_eq]
  apply cross_stream (stamps t1) (stamps t2) _ _ (by simp [stamps]) (by simp [stamps]) n _
    (fun a b k => if b.1 - a.1 = cellDelay n.length k then 1 else 0)
  intro o ho i j a b ha hb
  rw [stamps_get ha, stamps_get hb, ← ho, ← addAt_signed _ _ _ (by omega)]
  have : (2 * |b.1 - a.1| < ((o.length + 1 : Nat) : Int)) ↔
      |b.1 - a.1| < (((o.length + 1) / 2 : Nat) : Int) := by omega
  simp only [Option.bind_eq_bind, Option.bind_some, this]

theorem addCountAuto_eq (t : List Int) (n : List Nat) :
    addCountAuto t n = some (addSeq n fun k => selfSum (fun _ _ => 1) (stamps t) k) := by
  unfold addCountAuto
  simp only [selfSum_eq]
  apply self_stream (stamps t) _ (by simp [stamps]) n _
    (fun p k => if |p.2.1 - p.1.1| = (k : Int) then 1 else 0)
  intro o _ i j a b ha hb
  rw [stamps_get ha, stamps_get hb, ← addAt_abs]
  simp [abs_sub_comm]

end kernels
end Cddm
