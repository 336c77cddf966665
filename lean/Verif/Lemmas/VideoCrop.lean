import Verif.Model.VideoCrop
import Verif.Spec.VideoCrop
import Mathlib.Data.Int.Basic
import Mathlib.Tactic.Linarith
import Mathlib.Tactic.Ring

/-!
# Lemmas about slices
-/

namespace Cddm
open Spec

theorem mem_sliceLength_up {a b s : Int} (hs : 0 < s) (k : Nat) : k < sliceLength a b s ↔ a + k * s < b := by
  unfold sliceLength
  rw [if_neg (by omega)]
  split_ifs with h
  · have h0 : 0 ≤ (b - a - 1) / s := Int.ediv_nonneg (by omega) (by omega)
    have : (k : Int) ≤ (b - a - 1) / s ↔ k * s ≤ b - a - 1 := Int.le_ediv_iff_mul_le hs
    omega
  · have : 0 ≤ (k : Int) * s := by positivity
    omega

theorem mem_sliceLength_down {a b s : Int} (hs : s < 0) (k : Nat) : k < sliceLength a b s ↔ b < a + k * s := by
  unfold sliceLength
  rw [if_pos hs]
  split_ifs with h
  · have h0 : 0 ≤ (a - b - 1) / (-s) := Int.ediv_nonneg (by omega) (by omega)
    have : (k : Int) ≤ (a - b - 1) / (-s) ↔ k * (-s) ≤ a - b - 1 := Int.le_ediv_iff_mul_le (by omega)
    have e : (k : Int) * (-s) = -(k * s) := by ring
    omega
  · have : 0 ≤ (k : Int) * (-s) := mul_nonneg (by positivity) (by omega)
    have e : (k : Int) * (-s) = -(k * s) := by ring
    omega

theorem first_up (s : PySlice) {step : Int} (hs : 0 < step) (n : Nat) :
    0 ≤ s.first step n ∧ s.first step n ≤ n ∧ ∀ i : Nat, i < n → ((∀ a ∈ s.start, fromEnd n a ≤ i) ↔ s.first step n ≤ i) ∧
      ((∀ a ∈ s.start, fromEnd n a ≤ i) → s.first step n = max 0 ((s.start.map (fromEnd n)).getD 0)) := by
  unfold PySlice.first
  cases h : s.start with
  | none => simp [show ¬ step < 0 by omega]
  | some a =>
    simp only [Option.mem_def, Option.some.injEq, forall_eq', Option.map_some, Option.getD_some]
    unfold fromEnd
    refine ⟨by split_ifs <;> omega, by split_ifs <;> omega, fun i hi => ⟨by split_ifs <;> omega, ?_⟩⟩
    split_ifs <;> omega

theorem last_up (s : PySlice) {step : Int} (hs : 0 < step) (n : Nat) :
    0 ≤ s.last step n ∧ s.last step n ≤ n ∧ ∀ i : Nat, i < n → ((∀ a ∈ s.stop, (i : Int) < fromEnd n a) ↔ i < s.last step n) := by
  unfold PySlice.last
  cases h : s.stop with
  | none => simp [show ¬ step < 0 by omega]
  | some a =>
    simp only [Option.mem_def, Option.some.injEq, forall_eq']
    unfold fromEnd
    refine ⟨by split_ifs <;> omega, by split_ifs <;> omega, fun i hi => by split_ifs <;> omega⟩

theorem first_down (s : PySlice) {step : Int} (hs : step < 0) (n : Nat) :
    -1 ≤ s.first step n ∧ s.first step n ≤ (n : Int) - 1 ∧ ∀ i : Nat, i < n → ((∀ a ∈ s.start, (i : Int) ≤ fromEnd n a) ↔ i ≤ s.first step n) ∧
      ((∀ a ∈ s.start, (i : Int) ≤ fromEnd n a) → s.first step n = min ((n : Int) - 1) ((s.start.map (fromEnd n)).getD (n - 1))) := by
  unfold PySlice.first
  cases h : s.start with
  | none => simp [hs]; omega
  | some a =>
    simp only [Option.mem_def, Option.some.injEq, forall_eq', Option.map_some, Option.getD_some]
    unfold fromEnd
    refine ⟨by split_ifs <;> omega, by split_ifs <;> omega, fun i hi => ⟨by split_ifs <;> omega, ?_⟩⟩
    split_ifs <;> omega

theorem last_down (s : PySlice) {step : Int} (hs : step < 0) (n : Nat) :
    -1 ≤ s.last step n ∧ ∀ i : Nat, i < n → ((∀ a ∈ s.stop, fromEnd n a < (i : Int)) ↔ s.last step n < i) := by
  unfold PySlice.last
  cases h : s.stop with
  | none => simp only [hs, if_true]; exact ⟨by omega, fun i _ => ⟨fun _ => by omega, fun _ => by simp⟩⟩
  | some a =>
    simp only [Option.mem_def, Option.some.injEq, forall_eq']
    unfold fromEnd
    refine ⟨by split_ifs <;> omega, fun i hi => by split_ifs <;> omega⟩

theorem positions_ok (s : PySlice) (n : Nat) (hs : s.step.getD 1 ≠ 0) :
    ∃ ps, s.positions n = .ok ps ∧ SliceOf s.start s.stop (s.step.getD 1) n ps := by
  unfold PySlice.positions
  dsimp only
  rw [if_neg hs]
  generalize s.step.getD 1 = step at hs
  refine ⟨_, rfl, fun hp => ⟨?_, fun i => ?_⟩, fun hp => ⟨?_, fun i => ?_⟩⟩
  · obtain ⟨h0, -, -⟩ := first_up s hp n
    refine List.Pairwise.map _ ?_ (List.pairwise_lt_range)
    intro k l hkl
    have hk : 0 ≤ (k : Int) * step := by positivity
    have : (k : Int) * step < l * step := mul_lt_mul_of_pos_right (by exact_mod_cast hkl) hp
    omega
  · obtain ⟨h0, h1, h2⟩ := first_up s hp n
    obtain ⟨g0, g1, g2⟩ := last_up s hp n
    simp only [List.mem_map, List.mem_range, mem_sliceLength_up hp]
    unfold UpSelected
    constructor
    · rintro ⟨k, hk, rfl⟩
      have hk0 : 0 ≤ (k : Int) * step := by positivity
      have hi : (s.first step n + k * step).toNat < n := by omega
      have hle : s.first step n ≤ ((s.first step n + k * step).toNat : Int) := by omega
      have hst := (h2 _ hi).1.mpr hle
      refine ⟨hi, hst, (g2 _ hi).mpr (by omega), ?_⟩
      rw [← (h2 _ hi).2 hst]
      refine ⟨k, ?_⟩
      rw [mul_comm step]
      omega
    · rintro ⟨hi, a1, a2, k, hk⟩
      rw [← (h2 _ hi).2 a1] at hk
      have b1 := (h2 _ hi).1.mp a1
      have b2 := (g2 _ hi).mp a2
      have hk0 : 0 ≤ k := by
        by_contra hc
        have : step * k < 0 := mul_neg_of_pos_of_neg hp (by omega)
        omega
      refine ⟨k.toNat, ?_, ?_⟩ <;> rw [Int.toNat_of_nonneg hk0, mul_comm] <;> omega
  · obtain ⟨h0, h1, -⟩ := first_down s hp n
    obtain ⟨g0, -⟩ := last_down s hp n
    rw [List.pairwise_map]
    refine List.Pairwise.imp_of_mem ?_ (List.pairwise_lt_range)
    intro k l hk hl hkl
    rw [List.mem_range, mem_sliceLength_down hp] at hk hl
    have : (l : Int) * step < k * step := mul_lt_mul_of_neg_right (by exact_mod_cast hkl) hp
    omega
  · obtain ⟨h0, h1, h2⟩ := first_down s hp n
    obtain ⟨g0, g2⟩ := last_down s hp n
    simp only [List.mem_map, List.mem_range, mem_sliceLength_down hp]
    unfold DownSelected
    constructor
    · rintro ⟨k, hk, rfl⟩
      have hk0 : (k : Int) * step ≤ 0 := mul_nonpos_of_nonneg_of_nonpos (by positivity) (by omega)
      have hi : (s.first step n + k * step).toNat < n := by omega
      have hle : ((s.first step n + k * step).toNat : Int) ≤ s.first step n := by omega
      have hst := (h2 _ hi).1.mpr hle
      refine ⟨hi, hst, (g2 _ hi).mpr (by omega), ?_⟩
      rw [← (h2 _ hi).2 hst]
      refine ⟨-k, ?_⟩
      rw [mul_neg, mul_comm step]
      omega
    · rintro ⟨hi, a1, a2, k, hk⟩
      rw [← (h2 _ hi).2 a1] at hk
      have b1 := (h2 _ hi).1.mp a1
      have b2 := (g2 _ hi).mp a2
      have hk0 : k ≤ 0 := by
        by_contra hc
        have : step * k < 0 := mul_neg_of_neg_of_pos hp (by omega)
        omega
      have e : ((-k).toNat : Int) = -k := Int.toNat_of_nonneg (by omega)
      refine ⟨(-k).toNat, ?_, ?_⟩ <;> rw [e, neg_mul, mul_comm] <;> omega

theorem cropFrame_ok {α : Type} (hs ws : PySlice) (frame : Arr2 α) (hh : hs.step.getD 1 ≠ 0) (hw : ws.step.getD 1 ≠ 0) :
    ∃ rows cols, hs.positions frame.h = .ok rows ∧ ws.positions frame.w = .ok cols ∧
      cropFrame hs ws frame = .ok (take2 frame rows cols) := by
  obtain ⟨rows, e1, -⟩ := positions_ok hs frame.h hh
  obtain ⟨cols, e2, -⟩ := positions_ok ws frame.w hw
  refine ⟨rows, cols, e1, e2, ?_⟩
  unfold cropFrame
  rw [e1, e2]
  rfl

theorem take2_isSubframe {α : Type} (frame : Arr2 α) (rows cols : List Nat) : IsSubframe frame rows cols (take2 frame rows cols) := by
  refine ⟨rfl, rfl, fun i j hi hj => ?_⟩
  unfold take2
  dsimp only
  simp only [List.getD_eq_getElem?_getD, List.getElem?_eq_getElem hi, List.getElem?_eq_getElem hj, Option.getD_some]

/-- A generator all of whose frames succeed. -/
theorem mapFrames_ok {F G : Type} (f : F → Py G) (g : F → G) (video : List (List F)) (h : ∀ fs ∈ video, ∀ x ∈ fs, f x = .ok (g x)) :
    mapFrames f video = (video.map fun fs => fs.map g, none) := by
  induction video with
  | nil => rfl
  | cons fs rest ih =>
    unfold mapFrames
    have e : fs.mapM f = .ok (fs.map g) := by
      have hf := h fs List.mem_cons_self
      clear h ih
      induction fs with
      | nil => rfl
      | cons x fs ih =>
        rw [List.mapM_cons, hf x List.mem_cons_self, ih fun y hy => hf y (List.mem_cons_of_mem _ hy)]
        rfl
    rw [e, ih fun fs' h' => h fs' (List.mem_cons_of_mem _ h')]
    rfl

end Cddm
