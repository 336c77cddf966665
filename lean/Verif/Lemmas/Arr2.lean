import Verif.Model.Rfft2
import Verif.Spec.Freq
import Verif.Lemmas.Slice

/-!
# Two-dimensional slices
-/

namespace Cddm
open Spec
variable {α : Type}

theorem idxOf_range' {a n i : Nat} (h1 : a ≤ i) (h2 : i < a + n) :
    (List.range' a n).idxOf i = i - a := by
  have hlt : i - a < (List.range' a n).length := by simp; omega
  have := (List.nodup_range' (s := a) (n := n)).idxOf_getElem (i - a) hlt
  rwa [List.getElem_range', one_mul, Nat.add_sub_cancel' h1] at this

/-- Assignment to a block from an array of the same shape. -/
theorem assign2_block (out : Arr2 α) (a n b m : Nat) (src : Arr2 α) (hh : src.h = n)
    (hw : src.w = m) :
    assign2 out (List.range' a n) (List.range' b m) src = .ok { out with
      get := fun i j => if (a ≤ i ∧ i < a + n) ∧ (b ≤ j ∧ j < b + m) then src.get (i - a) (j - b)
        else out.get i j } := by
  unfold assign2
  rw [if_pos (by simp [hh, hw])]
  congr 2
  funext i j
  simp only [List.mem_range'_1]
  split
  · next h =>
    rw [idxOf_range' h.1.1 h.1.2, idxOf_range' h.2.1 h.2.2]
    congr 1
    · split <;> omega
    · split <;> omega
  · rfl

theorem range_eq_range' (n : Nat) : List.range n = List.range' 0 n := List.range_eq_range'

theorem sliceUp_all (len : Nat) : sliceUp len 0 len = List.range' 0 len := by
  simpa using sliceUp_nat len 0 len (Nat.zero_le _) le_rfl

theorem sliceUp_to (len b : Nat) (h : b ≤ len) : sliceUp len 0 (b : Int) = List.range' 0 b := by
  simpa using sliceUp_nat len 0 b (Nat.zero_le _) h

theorem sliceUp_from (len a : Nat) (h : a ≤ len) :
    sliceUp len (a : Int) len = List.range' a (len - a) := sliceUp_nat len a len h le_rfl

theorem sliceUp_last (len k : Nat) (h1 : 1 ≤ k) (h : k ≤ len) :
    sliceUp len (-(k : Int)) len = List.range' (len - k) k := by
  unfold sliceUp
  have e1 : (if -(k : Int) < 0 then max (-(k : Int) + len) 0 else min (-(k : Int)) len).toNat
      = len - k := by
    rw [if_pos (by omega)]; omega
  have e2 : (if (len : Int) < 0 then max ((len : Int) + len) 0 else min (len : Int) len).toNat
      = len := by
    rw [if_neg (by omega)]; omega
  simp only [e1, e2]
  congr 1
  omega

theorem sliceDown_rows (len : Nat) (h : 1 ≤ len) :
    sliceDown len (-1) 0 = (List.range (len - 1)).map fun i => len - 1 - i := by
  unfold sliceDown
  have e1 : (if (-1 : Int) < 0 then max (-1 + (len : Int)) (-1) else min (-1) ((len : Int) - 1))
      = (len : Int) - 1 := by
    rw [if_pos (by omega)]; omega
  have e2 : (if (0 : Int) < 0 then max (0 + (len : Int)) (-1) else min 0 ((len : Int) - 1)) = 0 := by
    rw [if_neg (by omega)]; omega
  simp only [e1, e2]
  have e3 : ((len : Int) - 1 - 0).toNat = len - 1 := by omega
  rw [e3]
  apply List.map_congr_left
  intro i hi
  rw [List.mem_range] at hi
  omega

theorem getD_down (len a n j : Nat) (h : j < n) :
    ((List.range n).map fun i => len - a - i).getD j 0 = len - a - j := by
  rw [List.getD_eq_getElem?_getD, getElem?_down len a n j h]
  rfl

theorem getD_range' (a n j : Nat) (h : j < n) : (List.range' a n).getD j 0 = a + j := by
  rw [List.getD_eq_getElem?_getD, getElem?_range' a n j h]
  rfl

theorem wrap_nat {n i : Nat} (h : i < n) : wrap n (i : Int) = i := by
  unfold wrap
  rw [Int.emod_eq_of_lt (by omega) (by omega)]
  simp

theorem wrap_neg {n i : Nat} (h0 : 0 < i) (h : i ≤ n) : wrap n (-(i : Int)) = n - i := by
  unfold wrap
  have : (-(i : Int)) % (n : Int) = (n : Int) - i := by
    rw [← Int.add_emod_right, Int.emod_eq_of_lt (by omega) (by omega)]
    omega
  rw [this]
  omega

theorem wrap_zero (n : Nat) : wrap n (-((0 : Nat) : Int)) = 0 := by simp [wrap]

theorem wrap_lt {n : Nat} (h : 0 < n) (d : Int) : wrap n d < n := by
  unfold wrap
  have h1 := Int.emod_nonneg d (show (n : Int) ≠ 0 by omega)
  have h2 := Int.emod_lt_of_pos d (show (0 : Int) < n by omega)
  omega

/-- Taking the opposite twice. -/
theorem wrap_wrap {n i : Nat} (h : i < n) : wrap n (-((wrap n (-(i : Int)) : Nat) : Int)) = i := by
  rcases Nat.eq_zero_or_pos i with rfl | hi
  · rw [wrap_zero, wrap_zero]
  · rw [wrap_neg hi h.le, wrap_neg (by omega) (by omega)]
    omega

end Cddm
