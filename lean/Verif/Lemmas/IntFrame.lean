import Verif.Spec.IntFrame
import Mathlib.Tactic.Linarith
import Mathlib.Tactic.Ring

/-! # Integer types: ranges and conversions -/

namespace Cddm
open Spec

theorem std_pos {t : IntPix} (h : StdInt t) : 0 < t.bits := by
  rcases h with h | h | h | h <;> omega

theorem two_pow_pred {n : Nat} (h : 0 < n) : (2 : Int) ^ n = 2 * 2 ^ (n - 1) := by
  obtain ⟨k, rfl⟩ : ∃ k, n = k + 1 := ⟨n - 1, by omega⟩
  rw [pow_succ, Nat.add_sub_cancel, mul_comm]

theorem toIntPix_range (t : IntPix) (ht : 0 < t.bits) (v : Int) : HoldsInt t (toIntPix t v) := by
  have hp : (0 : Int) < 2 ^ t.bits := by positivity
  have hq := two_pow_pred ht
  unfold HoldsInt toIntPix
  cases hs : t.signed
  · rw [if_neg (by simp), if_neg (by simp)]
    exact ⟨Int.emod_nonneg _ (by omega), Int.emod_lt_of_pos _ hp⟩
  · rw [if_pos rfl, if_pos rfl]
    have h1 := Int.le_bmod (x := v) (m := 2 ^ t.bits) (by positivity)
    have h2 := Int.bmod_lt (x := v) (m := 2 ^ t.bits) (by positivity)
    push_cast at h1 h2
    omega

theorem toIntPix_shift (t : IntPix) (v : Int) : ∃ k : Int, toIntPix t v = v + k * 2 ^ t.bits := by
  have e : (2 : Int) ^ t.bits ∣ toIntPix t v - v := by
    unfold toIntPix
    split
    · have h := Int.bmod_emod (x := v) (m := 2 ^ t.bits)
      push_cast at h
      exact Int.dvd_of_emod_eq_zero (by rw [Int.sub_emod, h]; simp)
    · exact Int.dvd_of_emod_eq_zero (by rw [Int.sub_emod, Int.emod_emod_of_dvd _ (dvd_refl _)]; simp)
  obtain ⟨k, hk⟩ := e
  exact ⟨k, by rw [mul_comm k]; omega⟩

theorem holds_unique {t : IntPix} (ht : 0 < t.bits) {u v : Int} (hu : HoldsInt t u) (hv : HoldsInt t v) (k : Int)
    (h : u = v + k * 2 ^ t.bits) : u = v := by
  have hq := two_pow_pred ht
  have hp : (0 : Int) < 2 ^ t.bits := by positivity
  have hd : -(2 ^ t.bits) < u - v ∧ u - v < 2 ^ t.bits := by
    unfold HoldsInt at hu hv
    cases hs : t.signed <;> rw [hs] at hu hv <;> simp at hu hv <;> constructor <;> omega
  have hk : k = 0 := by
    by_contra hne
    rcases lt_or_gt_of_ne hne with h1 | h1
    · nlinarith
    · nlinarith
  rw [h, hk]
  ring

theorem toIntPix_eq_iff (t : IntPix) (ht : 0 < t.bits) (v : Int) : toIntPix t v = v ↔ HoldsInt t v := by
  constructor
  · intro h
    rw [← h]
    exact toIntPix_range t ht v
  · intro h
    obtain ⟨k, hk⟩ := toIntPix_shift t v
    exact holds_unique ht (toIntPix_range t ht v) h k hk

/-- One type holds all numbers of another. -/
theorem covers_iff (a t : IntPix) (ha : 0 < a.bits) (ht : 0 < t.bits) :
    (∀ v, HoldsInt a v → HoldsInt t v) ↔
      (a.signed = t.signed ∧ a.bits ≤ t.bits) ∨ (a.signed = false ∧ t.signed = true ∧ a.bits < t.bits) := by
  obtain ⟨as, an⟩ := a
  obtain ⟨ts, tn⟩ := t
  dsimp only at ha ht ⊢
  have pa : (0 : Int) < 2 ^ an := by positivity
  have pa' : (0 : Int) < 2 ^ (an - 1) := by positivity
  have pt : (0 : Int) < 2 ^ tn := by positivity
  have pt' : (0 : Int) < 2 ^ (tn - 1) := by positivity
  have mono : ∀ m n : Nat, (2 : Int) ^ m ≤ 2 ^ n ↔ m ≤ n := fun m n => pow_le_pow_iff_right₀ (by norm_num)
  unfold HoldsInt
  constructor
  · intro h
    cases as <;> cases ts <;> simp at h ⊢
    · exact (mono _ _).mp (by have := h (2 ^ an - 1) (by omega) (by omega); omega)
    · have := (mono an (tn - 1)).mp (by have := h (2 ^ an - 1) (by omega) (by omega); omega)
      omega
    · have := h (-(2 ^ (an - 1))) (by omega) (by omega)
      omega
    · have := (mono (an - 1) (tn - 1)).mp (by have := h (-(2 ^ (an - 1))) (by omega) (by omega); omega)
      omega
  · rintro h v hv
    cases as <;> cases ts <;> simp at h hv ⊢
    · have := (mono an tn).mpr h
      omega
    · have := (mono an (tn - 1)).mpr (by omega)
      omega
    · have := (mono (an - 1) (tn - 1)).mpr (by omega)
      omega

theorem broadcastLen_fits {a b n : Nat} (h : Fits a b n) : broadcastLen a b = some n := by
  unfold broadcastLen
  rcases h with ⟨rfl, rfl⟩ | ⟨rfl, rfl⟩ | ⟨rfl, rfl⟩
  · rw [if_pos rfl]
  · by_cases h : 1 = b
    · rw [if_pos h, h]
    · rw [if_neg h, if_pos rfl]
  · by_cases h : a = 1
    · rw [if_pos h]
    · rw [if_neg h, if_neg h, if_pos rfl]

theorem fits_of_broadcastLen {a b n : Nat} (h : broadcastLen a b = some n) : Fits a b n := by
  unfold broadcastLen at h
  unfold Fits
  split at h
  · cases h; omega
  split at h
  · cases h; omega
  split at h
  · cases h; omega
  · cases h

/-- The place of a pixel seen in a bigger frame. -/
theorem seenAt_of {P : Int → Prop} {x : Arr2 Int} {m n h w : Nat} (hh : Fits x.h m h) (hw : Fits x.w n w) {i j : Nat}
    (hi : i < h) (hj : j < w) (hx : ∀ i j, i < x.h → j < x.w → P (x.get i j)) : P (seenAt x i j) := by
  unfold seenAt
  unfold Fits at hh hw
  apply hx
  · split <;> omega
  · split <;> omega

theorem fits_comm {a b n : Nat} (h : Fits a b n) : Fits b a n := by
  unfold Fits at *; omega

end Cddm
