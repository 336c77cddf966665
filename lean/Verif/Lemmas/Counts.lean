import Verif.Model.Counts
import Verif.Spec.Counts
import Verif.Lemmas.LogAvg
import Mathlib.Algebra.Order.BigOperators.Ring.Finset
import Mathlib.Tactic.Linarith
import Mathlib.Tactic.FieldSimp
import Mathlib.Tactic.Ring
import Mathlib.Tactic.Positivity

/-!
# Lemmas about effective counts
-/

namespace Cddm
open Spec
open scoped BigOperators

section
variable {K : Type} [Field K]

theorem sum_Ioo_range (W : Nat) (hW : 0 < W) (g : ℤ → K) :
    ∑ d ∈ Finset.Ioo (-(W : ℤ)) W, g d = ∑ j ∈ Finset.range (2 * W - 1), g ((W : ℤ) - 1 - j) := by
  apply Finset.sum_nbij' (fun d => ((W : ℤ) - 1 - d).toNat) (fun j => (W : ℤ) - 1 - j)
  · intro d hd
    simp only [Finset.mem_Ioo] at hd
    simp only [Finset.mem_range]
    omega
  · intro j hj
    simp only [Finset.mem_range] at hj
    simp only [Finset.mem_Ioo]
    omega
  · intro d hd
    simp only [Finset.mem_Ioo] at hd
    omega
  · intro j hj
    simp only [Finset.mem_range] at hj
    omega
  · intro d hd
    simp only [Finset.mem_Ioo] at hd
    congr 1
    omega

theorem convFull_eq (a v : List K) (m : Nat) :
    convFull a v m = ∑ j ∈ Finset.range a.length, a.getD j 0 * countAt v ((m : ℤ) - j) := by
  unfold convFull
  have h1 : ∑ j ∈ Finset.range (m + 1), a.getD j 0 * v.getD (m - j) 0
      = ∑ j ∈ Finset.range (max (m + 1) a.length), a.getD j 0 * countAt v ((m : ℤ) - j) := by
    rw [← Finset.sum_subset (Finset.range_mono (le_max_left (m + 1) a.length))]
    · apply Finset.sum_congr rfl
      intro j hj
      rw [Finset.mem_range] at hj
      unfold countAt
      rw [if_pos (by omega)]
      congr 2
      omega
    · intro j _ hj
      rw [Finset.mem_range] at hj
      unfold countAt
      rw [if_neg (by omega), mul_zero]
  rw [h1, ← Finset.sum_subset (Finset.range_mono (le_max_right (m + 1) a.length))]
  intro j _ hj
  rw [Finset.mem_range] at hj
  rw [List.getD_eq_getElem?_getD, List.getElem?_eq_none (by omega), Option.getD_none, zero_mul]

/-- The kernel of level `l` is `triWeight` around its middle. -/
theorem kernel_getD (h2 : (2 : K) ≠ 0) (l j : Nat) (hj : j < 2 * 2 ^ l - 1) (ker : List K)
    (hk : triangularKernel K l = some ker) : ker.getD j 0 = triWeight K (2 ^ l) (((2 ^ l : Nat) : ℤ) - 1 - j) := by
  have e := triangularKernel_eq K h2 l
  rw [e, Option.some.injEq] at hk
  rw [← hk, List.getD_eq_getElem?_getD, List.getElem?_map, List.getElem?_range (by rw [pow_succ]; omega)]
  simp only [Option.map_some, Option.getD_some, kernelWeight, triWeight]
  have hp : 0 < 2 ^ l := Nat.two_pow_pos l
  have : ((min (j + 1) (2 ^ (l + 1) - 1 - j) : Nat) : ℤ) = ((2 ^ l : Nat) : ℤ) - |((2 ^ l : Nat) : ℤ) - 1 - j| := by
    rw [pow_succ, Int.abs_eq_natAbs]; omega
  rw [← Int.cast_natCast (R := K) (min _ _), this]
  push_cast
  rfl

theorem kernel_length (h2 : (2 : K) ≠ 0) (l : Nat) (ker : List K) (hk : triangularKernel K l = some ker) :
    ker.length = 2 * 2 ^ l - 1 := by
  have e := triangularKernel_eq K h2 l
  rw [e, Option.some.injEq] at hk
  rw [← hk]
  simp [pow_succ, mul_comm]

theorem countAt_map_pow (v : List K) (p : Nat) (hp : p ≠ 0) (k : ℤ) :
    countAt (v.map (· ^ p)) k = countAt v k ^ p := by
  unfold countAt
  split
  · rw [List.getD_eq_getElem?_getD, List.getD_eq_getElem?_getD, List.getElem?_map]
    cases v[k.toNat]? with
    | none => simp [hp]
    | some x => simp
  · simp [hp]

theorem getD_map_pow (v : List K) (p : Nat) (hp : p ≠ 0) (k : Nat) : (v.map (· ^ p)).getD k 0 = v.getD k 0 ^ p := by
  rw [List.getD_eq_getElem?_getD, List.getD_eq_getElem?_getD, List.getElem?_map]
  cases v[k]? with
  | none => simp [hp]
  | some x => simp

theorem convFull_kernel (h2 : (2 : K) ≠ 0) (l i p : Nat) (hp : p ≠ 0) (count ker : List K)
    (hk : triangularKernel K l = some ker) :
    convFull (ker.map (· ^ p)) (count.map (· ^ p)) (i + (2 ^ l - 1)) = weightedPow p count i (2 ^ l) := by
  have hW : 0 < 2 ^ l := Nat.two_pow_pos l
  rw [convFull_eq, weightedPow, sum_Ioo_range _ hW, List.length_map, kernel_length h2 l ker hk]
  apply Finset.sum_congr rfl
  intro j hj
  rw [Finset.mem_range] at hj
  rw [getD_map_pow _ _ hp, countAt_map_pow _ _ hp, kernel_getD h2 l j hj ker hk, ← mul_pow]
  congr 3
  omega

end

section
variable {K : Type} [Field K] [LinearOrder K] [IsStrictOrderedRing K]

omit [LinearOrder K] [IsStrictOrderedRing K] in
theorem sum_Ioo_abs (f : ℤ → K) (w : Nat) (hw : 0 < w) :
    ∑ d ∈ Finset.Ioo (-(w : ℤ)) w, f |d| = 2 * ∑ k ∈ Finset.range w, f k - f 0 := by
  induction w with
  | zero => omega
  | succ w ih =>
    rcases Nat.eq_zero_or_pos w with rfl | hw'
    · have : Finset.Ioo (-((0 + 1 : Nat) : ℤ)) ((0 + 1 : Nat) : ℤ) = {0} := by ext x; simp; omega
      rw [this]
      simp
      ring
    · have : Finset.Ioo (-((w + 1 : Nat) : ℤ)) ((w + 1 : Nat) : ℤ)
          = insert (-(w : ℤ)) (insert (w : ℤ) (Finset.Ioo (-(w : ℤ)) w)) := by
        ext x; simp only [Finset.mem_Ioo, Finset.mem_insert]; omega
      rw [this, Finset.sum_insert (by simp; omega), Finset.sum_insert (by simp), ih hw', Finset.sum_range_succ,
        abs_neg, abs_of_nonneg (by omega : (0 : ℤ) ≤ w)]
      ring

theorem tri_sum_one (w : Nat) (hw : 0 < w) :
    ∑ d ∈ Finset.Ioo (-(w : ℤ)) w, ((w : K) - (|d| : ℤ)) ^ 1 = (w : K) ^ 2 := by
  have := sum_Ioo_abs (fun d : ℤ => ((w : K) - (d : K)) ^ 1) w hw
  rw [this]
  have h : ∀ (W : K) (m : Nat), ∑ k ∈ Finset.range m, (W - ((k : ℤ) : K)) ^ 1 = m * W - m * (m - 1) / 2 := by
    intro W m
    induction m with
    | zero => simp
    | succ m ih => rw [Finset.sum_range_succ, ih]; push_cast; field_simp; ring
  rw [h]
  push_cast
  ring

theorem tri_sum_two (w : Nat) (hw : 0 < w) :
    ∑ d ∈ Finset.Ioo (-(w : ℤ)) w, ((w : K) - (|d| : ℤ)) ^ 2 = (w : K) * (2 * (w : K) ^ 2 + 1) / 3 := by
  have := sum_Ioo_abs (fun d : ℤ => ((w : K) - (d : K)) ^ 2) w hw
  rw [this]
  have h : ∀ (W : K) (m : Nat), ∑ k ∈ Finset.range m, (W - ((k : ℤ) : K)) ^ 2
      = m * W ^ 2 - W * (m * (m - 1)) + (m - 1) * m * (2 * m - 1) / 6 := by
    intro W m
    induction m with
    | zero => simp
    | succ m ih => rw [Finset.sum_range_succ, ih]; push_cast; field_simp; ring
  rw [h]
  push_cast
  field_simp
  ring

omit [IsStrictOrderedRing K] in
theorem countAt_nonneg {count : List K} (h0 : ∀ c ∈ count, 0 < c) (k : ℤ) : 0 ≤ countAt count k := by
  unfold countAt
  split
  · rw [List.getD_eq_getElem?_getD]
    cases h : count[k.toNat]? with
    | none => simp
    | some x => exact (h0 x (List.mem_of_getElem? h)).le
  · exact le_refl _

theorem triWeight_pos (w : Nat) (d : ℤ) (hd : d ∈ Finset.Ioo (-(w : ℤ)) w) : 0 < triWeight K w d := by
  rw [Finset.mem_Ioo] at hd
  unfold triWeight
  apply div_pos
  · have h : |d| < (w : ℤ) := abs_lt.mpr ⟨hd.1, hd.2⟩
    have h' : ((|d| : ℤ) : K) < ((w : ℤ) : K) := by exact_mod_cast h
    rw [Int.cast_natCast] at h'
    linarith
  · have : (0 : K) < w := by exact_mod_cast (by omega : 0 < w)
    positivity

theorem weightedPow_pos {count : List K} (h0 : ∀ c ∈ count, 0 < c) (t w : Nat) (hw : 0 < w) (ht : t < count.length)
    (p : Nat) : 0 < weightedPow p count t w := by
  unfold weightedPow
  apply Finset.sum_pos'
  · intro d hd
    exact pow_nonneg (mul_nonneg (triWeight_pos w d hd).le (countAt_nonneg h0 _)) _
  · refine ⟨0, by simp; omega, ?_⟩
    apply pow_pos
    apply mul_pos (triWeight_pos w 0 (by simp; omega))
    unfold countAt
    rw [if_pos (by omega), List.getD_eq_getElem?_getD]
    have : ((t : ℤ) + 0).toNat = t := by omega
    rw [this, List.getElem?_eq_getElem ht, Option.getD_some]
    exact h0 _ (List.getElem_mem ht)

theorem convFull_pos (a v : List K) (ha : ∀ x ∈ a, 0 < x) (hv : ∀ x ∈ v, 0 < x) (m : Nat)
    (ha0 : 0 < a.length) (hv0 : 0 < v.length) (hm : m + 1 < a.length + v.length) : 0 < convFull a v m := by
  have g : ∀ (l : List K), (∀ x ∈ l, 0 < x) → ∀ k, 0 ≤ l.getD k 0 := by
    intro l hl k
    rw [List.getD_eq_getElem?_getD]
    cases h : l[k]? with
    | none => simp
    | some x => exact (hl x (List.mem_of_getElem? h)).le
  have gp : ∀ (l : List K), (∀ x ∈ l, 0 < x) → ∀ k, k < l.length → 0 < l.getD k 0 := by
    intro l hl k hk
    rw [List.getD_eq_getElem?_getD, List.getElem?_eq_getElem hk, Option.getD_some]
    exact hl _ (List.getElem_mem hk)
  unfold convFull
  apply Finset.sum_pos'
  · intro j _
    exact mul_nonneg (g a ha _) (g v hv _)
  · refine ⟨min m (a.length - 1), by rw [Finset.mem_range]; omega, ?_⟩
    apply mul_pos
    · exact gp a ha _ (by omega)
    · exact gp v hv _ (by omega)

end

theorem takeIdx_every {α : Type} (x : List α) (s k : Nat) (hs : 0 < s) :
    (takeIdx x (sliceBy x.length 0 x.length s))[k]? = x[s * k]? := by
  have hlen : ∀ i, i < (x.length + s - 1) / s → 0 + s * i < x.length := by
    intro i hi
    have := (Nat.le_div_iff_mul_le hs).mp hi
    rw [Nat.succ_mul, Nat.mul_comm] at this
    omega
  have e : sliceBy x.length 0 x.length s = List.range' 0 ((x.length + s - 1) / s) s := by
    unfold sliceBy
    simp
  rw [e]
  obtain ⟨h1, h2⟩ := takeIdx_range' x 0 _ s hlen
  by_cases hk : k < (x.length + s - 1) / s
  · rw [h2 k hk, Nat.zero_add]
  · rw [List.getElem?_eq_none (by omega), List.getElem?_eq_none]
    by_contra hc
    apply hk
    show k + 1 ≤ _
    rw [Nat.le_div_iff_mul_le hs, Nat.succ_mul, Nat.mul_comm]
    omega

section
variable {K : Type} [Field K] [DecidableEq K]

theorem takeIdx_every_length {α : Type} (x : List α) (s : Nat) (hs : 0 < s) (k : Nat) :
    k < (takeIdx x (sliceBy x.length 0 x.length s)).length ↔ s * k < x.length := by
  have h := takeIdx_every x s k hs
  constructor
  · intro hk
    by_contra hc
    rw [List.getElem?_eq_getElem hk, List.getElem?_eq_none (by omega)] at h
    exact absurd h (by simp)
  · intro hk
    by_contra hc
    rw [List.getElem?_eq_getElem hk, List.getElem?_eq_none (by omega)] at h
    exact absurd h (by simp)

theorem countRow_get (g h : Nat → K) (M s size : Nat) (hs : 0 < s) (n d : List K)
    (hn : n = (List.range M).map g) (hd : d = (List.range M).map h) (row : List (Option K))
    (hrow : row = List.zipWith (fun n d => fdiv (n ^ 3) d) ((takeIdx n (sliceBy n.length 0 n.length s)).take size)
      ((takeIdx d (sliceBy d.length 0 d.length s)).take size) ++
      List.replicate (size - ((takeIdx d (sliceBy d.length 0 d.length s)).take size).length) none) :
    row.length = size ∧ ∀ j, j < size → row[j]? =
      some (if j * s < M then fdiv (g (j * s) ^ 3) (h (j * s)) else none) := by
  have ln : n.length = M := by simp [hn]
  have ld : d.length = M := by simp [hd]
  have gn : ∀ k, k < M → n[k]? = some (g k) := by intro k hk; rw [hn]; simp [hk]
  have gd : ∀ k, k < M → d[k]? = some (h k) := by intro k hk; rw [hd]; simp [hk]
  have en : ∀ k, k < (takeIdx n (sliceBy n.length 0 n.length s)).length ↔ s * k < M :=
    fun k => (takeIdx_every_length n s hs k).trans (by rw [ln])
  have ed : ∀ k, k < (takeIdx d (sliceBy d.length 0 d.length s)).length ↔ s * k < M :=
    fun k => (takeIdx_every_length d s hs k).trans (by rw [ld])
  have qn := fun k => takeIdx_every n s k hs
  have qd := fun k => takeIdx_every d s k hs
  generalize takeIdx n (sliceBy n.length 0 n.length s) = N at *
  generalize takeIdx d (sliceBy d.length 0 d.length s) = D at *
  have hND : N.length = D.length := by
    rcases Nat.lt_trichotomy N.length D.length with hc | hc | hc
    · exact absurd ((en _).mpr ((ed _).mp hc)) (by omega)
    · exact hc
    · exact absurd ((ed _).mpr ((en _).mp hc)) (by omega)
  subst hrow
  constructor
  · simp only [List.length_append, List.length_zipWith, List.length_take, List.length_replicate]
    omega
  · intro j hj
    by_cases hM : j * s < M
    · rw [if_pos hM]
      have h1 : j < D.length := (ed j).mpr (by rw [Nat.mul_comm]; exact hM)
      rw [List.getElem?_append_left (by
        simp only [List.length_zipWith, List.length_take]; omega), List.getElem?_zipWith,
        List.getElem?_take_of_lt hj, List.getElem?_take_of_lt hj, qn, qd, Nat.mul_comm s j, gn _ hM, gd _ hM]
    · rw [if_neg hM]
      have h1 : ¬ j < D.length := fun hc => hM (by rw [Nat.mul_comm]; exact (ed j).mp hc)
      rw [List.getElem?_append_right (by simp only [List.length_zipWith, List.length_take]; omega),
        List.getElem?_replicate, if_pos]
      simp only [List.length_zipWith, List.length_take]
      omega

omit [DecidableEq K] in
theorem npConvolveSame_eq (a v : List K) (ha : a ≠ []) (hv : v ≠ []) :
    npConvolveSame a v = .ok ((List.range (max a.length v.length)).map fun (i : Nat) =>
      convFull a v (i + (min a.length v.length - 1 - min a.length v.length / 2))) := by
  unfold npConvolveSame
  rw [if_neg (by simp [ha, hv])]

/-- A row of effective counts, whatever the position of the kernel. -/
theorem countRow_mean (h2 : (2 : K) ≠ 0) (count ker : List K) (hc : count ≠ []) (size l : Nat)
    (hk : triangularKernel K l = some ker) :
    ∃ row, countRow count size 1 l = .ok row ∧ row.length = size ∧ ∀ j, j < size → row[j]? =
      some (if j * 2 ^ l < max (2 * 2 ^ l - 1) count.length then
        fdiv (convFull ker count (j * 2 ^ l + (min (2 * 2 ^ l - 1) count.length - 1 -
            min (2 * 2 ^ l - 1) count.length / 2)) ^ 3)
          (convFull (ker.map (· ^ 2)) (count.map (· ^ 2)) (j * 2 ^ l + (min (2 * 2 ^ l - 1) count.length - 1 -
            min (2 * 2 ^ l - 1) count.length / 2))) else none) := by
  have hp : 0 < 2 ^ l := Nat.two_pow_pos l
  have hkl := kernel_length h2 l ker hk
  have hk0 : ker ≠ [] := by intro h; rw [h] at hkl; simp at hkl; omega
  have e1 : npConvolveSame (ker.map (· ^ 2)) (count.map (· ^ 2)) = .ok ((List.range (max (2 * 2 ^ l - 1)
      count.length)).map fun (i : Nat) => convFull (ker.map (· ^ 2)) (count.map (· ^ 2)) (i + (min (2 * 2 ^ l - 1)
        count.length - 1 - min (2 * 2 ^ l - 1) count.length / 2))) := by
    rw [npConvolveSame_eq _ _ (by simpa using hk0) (by simpa using hc)]
    simp only [List.length_map, hkl]
  have e2 : npConvolveSame ker count = .ok ((List.range (max (2 * 2 ^ l - 1)
      count.length)).map fun (i : Nat) => convFull ker count (i + (min (2 * 2 ^ l - 1)
        count.length - 1 - min (2 * 2 ^ l - 1) count.length / 2))) := by
    rw [npConvolveSame_eq _ _ hk0 hc]
    simp only [hkl]
  unfold countRow
  rw [if_pos rfl, hk]
  simp only [e1, e2]
  exact ⟨_, rfl, countRow_get _ _ _ (2 ^ l) size hp _ _ rfl rfl _ rfl⟩

/-- A row of counts without averaging. -/
theorem countRow_pick (count : List K) (hc : count ≠ []) (size l : Nat) (binning : Int) (hb : binning ≠ 1) :
    ∃ row, countRow count size binning l = .ok row ∧ row.length = size ∧ ∀ j, j < size → row[j]? =
      some (if j * 2 ^ l < count.length then
        fdiv (count.getD (j * 2 ^ l) 0 ^ 3) (count.getD (j * 2 ^ l) 0 ^ 2) else none) := by
  have hp : 0 < 2 ^ l := Nat.two_pow_pos l
  have hlen : 0 < count.length := List.length_pos_of_ne_nil hc
  have c1 : ∀ (v : List K) (m : Nat), convFull [1] v m = v.getD m 0 := by
    intro v m
    unfold convFull
    rw [Finset.sum_eq_single 0]
    · simp
    · intro b _ hb
      obtain ⟨b, rfl⟩ := Nat.exists_eq_succ_of_ne_zero hb
      simp
    · simp
  have e : min 1 count.length - 1 - min 1 count.length / 2 = 0 := by omega
  have e' : max 1 count.length = count.length := by omega
  have e1 : npConvolveSame ([1].map (· ^ 2)) (count.map (· ^ 2)) = .ok ((List.range count.length).map
      fun (i : Nat) => count.getD i 0 ^ 2) := by
    rw [npConvolveSame_eq _ _ (by simp) (by simpa using hc)]
    simp only [List.length_map, List.length_singleton, List.map_cons, List.map_nil, one_pow, c1, e, e', Nat.add_zero,
      getD_map_pow _ 2 (by decide)]
  have e2 : npConvolveSame [1] count = .ok ((List.range count.length).map fun (i : Nat) => count.getD i 0) := by
    rw [npConvolveSame_eq _ _ (by simp) hc]
    simp only [List.length_singleton, c1, e, e', Nat.add_zero]
  unfold countRow
  rw [if_neg hb]
  simp only [e1, e2]
  exact ⟨_, rfl, countRow_get _ _ _ (2 ^ l) size hp _ _ rfl rfl _ rfl⟩

theorem mapM_py_ok {α β : Type} (f : α → Py β) (l : List α) (h : ∀ a ∈ l, ∃ b, f a = .ok b) :
    ∃ r, l.mapM f = .ok r ∧ r.length = l.length ∧ ∀ (i : Nat) a, l[i]? = some a → ∃ b, r[i]? = some b ∧ f a = .ok b := by
  induction l with
  | nil => exact ⟨[], rfl, rfl, by simp⟩
  | cons x xs ih =>
    obtain ⟨b, hb⟩ := h x (by simp)
    obtain ⟨r, h1, h2, h3⟩ := ih (fun a ha => h a (by simp [ha]))
    refine ⟨b :: r, ?_, by simp [h2], ?_⟩
    · rw [List.mapM_cons, hb, h1]; rfl
    · intro i a hi
      cases i with
      | zero => simp only [List.getElem?_cons_zero, Option.some.injEq] at hi ⊢; exact ⟨b, rfl, hi ▸ hb⟩
      | succ i => simpa using h3 i a (by simpa using hi)

theorem countRow_ok (h2 : (2 : K) ≠ 0) (count : List K) (hc : count ≠ []) (size l : Nat) (binning : Int) :
    ∃ row, countRow count size binning l = .ok row := by
  by_cases hb : binning = 1
  · subst hb
    obtain ⟨row, h, -⟩ := countRow_mean h2 count _ hc size l (triangularKernel_eq K h2 l)
    exact ⟨row, h⟩
  · obtain ⟨row, h, -⟩ := countRow_pick count hc size l binning hb
    exact ⟨row, h⟩

theorem multilevelCount_rows (h2 : (2 : K) ≠ 0) (count : List K) (hc : count ≠ []) (size : Nat) (hs : 2 ≤ size)
    (binning : Int) :
    ∃ L rows, IsDoublings size count.length L ∧ multilevelCount count size binning = .ok rows ∧
      rows.length = L + 1 ∧ ∀ (l : Nat) row, rows[l]? = some row → l ≤ L ∧ countRow count size binning l = .ok row := by
  obtain ⟨rows, h1, hl, hr⟩ := mapM_py_ok (countRow count size binning)
    (List.range (levelLoop size count.length 0 + 1)) (fun l _ => countRow_ok h2 count hc size l binning)
  refine ⟨levelLoop size count.length 0, rows, levelLoop_spec size count.length (by omega) 0 (by omega), ?_, ?_, ?_⟩
  · unfold multilevelCount
    rw [if_neg (by omega), Int.toNat_natCast, h1]
  · rw [hl, List.length_range]
  · intro l row hrow
    rw [List.length_range] at hl
    have hlt : l < rows.length := (List.getElem?_eq_some_iff.mp hrow).1
    obtain ⟨b, hb, hf⟩ := hr l l (by rw [List.getElem?_range (by omega)])
    rw [hrow, Option.some.injEq] at hb
    exact ⟨by omega, hb ▸ hf⟩

end

theorem isDoublings_unique {size N a b : Nat} (ha : IsDoublings size N a) (hb : IsDoublings size N b) : a = b := by
  rcases Nat.lt_trichotomy a b with h | h | h
  · have := hb.2 a h; have := ha.1; omega
  · exact h
  · have := ha.2 b h; have := hb.1; omega

theorem mergeTimes_length_congr {α β : Type} (n i0 : Nat) (a : List (List α)) (b : List (List β))
    (h : a.length = b.length) : mergeTimes n i0 a = mergeTimes n i0 b := by
  induction a generalizing i0 b with
  | nil =>
    cases b with
    | nil => rfl
    | cons y b => simp at h
  | cons x a ih =>
    cases b with
    | nil => simp at h
    | cons y b =>
      unfold mergeTimes
      rw [ih (i0 + 1) b (by simpa using h)]

end Cddm
