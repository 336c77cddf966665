import Verif.Lemmas.Arr2

/-!
# Cropping one axis
-/

namespace Cddm
open Spec
variable {α : Type}

/-- The two slices of a cropped axis: `[:K+1]`, and `[-K:]` starting at `s`, of length `m`; the second
one is read from `s'` on. -/
structure CropAxis (n N K s s' m : Nat) : Prop where
  head_out : sliceUp N 0 ((K : Int) + 1) = List.range' 0 (K + 1)
  head_in : sliceUp n 0 ((K : Int) + 1) = List.range' 0 (K + 1)
  tail_out : sliceUp N (-((K : Int) + 1) + 1) N = List.range' s m
  tail_in : sliceUp n (-((K : Int) + 1) + 1) n = List.range' s' m
  stop_out : s + m = N
  stop_in : s' + m = n
  cover : s ≤ K + 1
  size : N ≤ 2 * K + 1
  lt_out : K < N
  lt_in : K < n
  same : s ≤ K → n = N
  tail : K ≤ m

theorem cropAxis {n N K : Nat} {kmax : Option Int} (h : SignedCut n kmax K N) (hn : 1 ≤ n)
    (hz : kmax = some 0 → n = 1) : ∃ s s' m, CropAxis n N K s s' m := by
  have h1 : K < N := by rcases h with ⟨-, h1, h2⟩ | ⟨-, h1, h2⟩ <;> omega
  have h2 : K < n := by rcases h with ⟨-, h1, h2⟩ | ⟨-, h1, h2⟩ <;> omega
  have a1 := sliceUp_to N (K + 1) (by omega)
  have a2 := sliceUp_to n (K + 1) (by omega)
  push_cast at a1 a2
  rcases Nat.eq_zero_or_pos K with hK | hK
  · subst hK
    have hn1 : n = 1 ∧ N = 1 := by
      rcases h with ⟨-, h1, h2⟩ | ⟨h1, h2, h3⟩
      · omega
      · have := hz h1
        omega
    obtain ⟨rfl, rfl⟩ := hn1
    exact ⟨0, 0, 1, a1, a2, rfl, rfl, rfl, rfl, by omega, by omega, by omega, by omega, by omega,
      by omega⟩
  · refine ⟨N - K, n - K, K, a1, a2, ?_, ?_, by omega, by omega, ?_, ?_, h1, h2, ?_, le_rfl⟩
    · rw [show -((K : Int) + 1) + 1 = -(K : Int) by ring]
      exact sliceUp_last N K hK h1.le
    · rw [show -((K : Int) + 1) + 1 = -(K : Int) by ring]
      exact sliceUp_last n K hK h2.le
    · rcases h with ⟨-, h1, h2⟩ | ⟨-, h1, h2⟩ <;> omega
    · rcases h with ⟨-, h1, h2⟩ | ⟨-, h1, h2⟩ <;> omega
    · rcases h with ⟨-, h1, h2⟩ | ⟨-, h1, h2⟩ <;> omega

/-- Every place is that of a kept frequency. -/
theorem CropAxis.all {n N K s s' m : Nat} (h : CropAxis n N K s s' m) {i : Nat} (hi : i < N) :
    ∃ d : Int, |d| ≤ K ∧ i = wrap N d := by
  have h1 := h.size
  by_cases hc : i ≤ K
  · exact ⟨i, by rw [Int.abs_eq_natAbs]; omega, (wrap_nat hi).symm⟩
  · refine ⟨-((N - i : Nat) : Int), by rw [Int.abs_eq_natAbs]; omega, ?_⟩
    rw [wrap_neg (by omega) (by omega)]
    omega

/-- The source of the place of a kept frequency. -/
theorem CropAxis.source {n N K s s' m : Nat} (h : CropAxis n N K s s' m) {d : Int}
    (hd : |d| ≤ (K : Int)) :
    (if s ≤ wrap N d then s' + (wrap N d - s) else wrap N d) = wrap n d ∧ wrap N d < N ∧
      (wrap N d ≤ K ∨ s ≤ wrap N d) := by
  have h1 := h.lt_out
  have h2 := h.lt_in
  have h3 := h.stop_out
  have h4 := h.stop_in
  have h5 := h.tail
  have h6 := h.size
  have h7 := h.cover
  refine ⟨?_, wrap_lt (by omega) d, ?_⟩
  · rcases lt_or_ge d 0 with hneg | hnn
    · obtain ⟨k, rfl⟩ : ∃ k : Nat, d = -(k : Int) := ⟨d.natAbs, by omega⟩
      rw [Int.abs_eq_natAbs] at hd
      rw [wrap_neg (by omega) (by omega), wrap_neg (by omega) (by omega), if_pos (by omega)]
      omega
    · obtain ⟨k, rfl⟩ : ∃ k : Nat, d = (k : Int) := ⟨d.natAbs, by omega⟩
      rw [Int.abs_eq_natAbs] at hd
      rw [wrap_nat (by omega), wrap_nat (by omega)]
      split
      · have := h.same (by omega)
        omega
      · rfl
  · have := wrap_lt (show 0 < N by omega) d
    omega

theorem take2_get (x : Arr2 α) {a n b m i j : Nat} (hi : i < n) (hj : j < m) :
    (take2 x (List.range' a n) (List.range' b m)).get i j = x.get (a + i) (b + j) := by
  unfold take2
  simp only
  rw [getD_range' _ _ _ hi, getD_range' _ _ _ hj]

theorem take2_h (x : Arr2 α) (a n b m : Nat) :
    (take2 x (List.range' a n) (List.range' b m)).h = n := by simp [take2]

theorem take2_w (x : Arr2 α) (a n b m : Nat) :
    (take2 x (List.range' a n) (List.range' b m)).w = m := by simp [take2]

end Cddm
