import Verif.Spec.RandomVideo
import Mathlib.Algebra.Order.Ring.Rat
import Mathlib.Algebra.Order.Floor.Ring
import Mathlib.Tactic.Ring
import Mathlib.Tactic.Linarith
import Mathlib.Tactic.Positivity

/-! # `random_video` draws the pixels one after another -/

namespace Cddm
open Spec

theorem toPixDtype_ok {dtype : PixDtype} {m x : Rat} (hs : Stores dtype m) (h0 : 0 ≤ x) (h1 : x < m) :
    toPixDtype dtype x = .ok (drawnPixel dtype x) := by
  rcases dtype with _ | bits
  · rfl
  · simp only [toPixDtype, if_pos h0, drawnPixel]
    rw [if_pos]
    refine ⟨Int.floor_nonneg.2 h0, ?_⟩
    rw [Int.floor_lt]
    push_cast
    exact lt_of_lt_of_le h1 hs

theorem mapM_toPix {α : Type} (l : List α) (f : α → Py Rat) (g : α → Rat) (h : ∀ a ∈ l, f a = .ok (g a)) :
    l.mapM f = .ok (l.map g) := by
  induction l with
  | nil => rfl
  | cons a l ih =>
    rw [List.mapM_cons, h a (by simp), ih fun b hb => h b (by simp [hb])]
    rfl

theorem unit_scaled {u : Nat → Rat} (hu : UnitNumbers u) {m : Rat} (hm : 0 < m) (k : Nat) : 0 ≤ u k * m ∧ u k * m < m := by
  obtain ⟨h0, h1⟩ := hu k
  constructor
  · positivity
  · calc u k * m < 1 * m := by exact mul_lt_mul_of_pos_right h1 hm
      _ = m := one_mul m

theorem randomFrame_ok {u : Nat → Rat} (hu : UnitNumbers u) (shape : List Nat) {dtype : PixDtype} {m : Rat} (hm : 0 < m)
    (hs : Stores dtype m) (used : Nat) :
    randomFrame u (shape.map Int.ofNat) dtype m used
      = .ok (⟨shape, (List.range shape.prod).map fun p => drawnPixel dtype (u (used + p) * m)⟩, used + shape.prod) := by
  unfold randomFrame
  rw [if_neg (by simp)]
  have e : (shape.map Int.ofNat).map Int.toNat = shape := by simp [Function.comp_def]
  simp only [e, bind, Except.bind]
  rw [mapM_toPix _ _ (fun p => drawnPixel dtype (u (used + p) * m))
    (fun p _ => toPixDtype_ok hs (unit_scaled hu hm _).1 (unit_scaled hu hm _).2)]

theorem randomMultiFrame_ok {u : Nat → Rat} (hu : UnitNumbers u) (shape : List Nat) {dtype : PixDtype} {m : Rat} (hm : 0 < m)
    (hs : Stores dtype m) (n used : Nat) :
    randomMultiFrame u (shape.map Int.ofNat) dtype m n used
      = .ok ((List.range n).map fun c => ⟨shape, (List.range shape.prod).map fun p => drawnPixel dtype (u (used + c * shape.prod + p) * m)⟩,
        used + n * shape.prod) := by
  induction n generalizing used with
  | zero => simp [randomMultiFrame]
  | succ n ih =>
    simp only [randomMultiFrame, randomFrame_ok hu shape hm hs, bind, Except.bind, ih]
    rw [List.range_succ_eq_map]
    simp only [List.map_cons, List.map_map, Function.comp_def, Nat.zero_mul, Nat.add_zero]
    have e (c : Nat) : used + shape.prod + c * shape.prod = used + c.succ * shape.prod := by rw [Nat.succ_mul]; omega
    simp only [e, Nat.succ_eq_add_one]

theorem randomLoop_ok {u : Nat → Rat} (hu : UnitNumbers u) (shape : List Nat) {dtype : PixDtype} {m : Rat} (hm : 0 < m)
    (hs : Stores dtype m) (cams n used : Nat) :
    randomLoop u (shape.map Int.ofNat) dtype m cams n used
      = .ok ((List.range n).map fun i => (List.range cams).map fun c =>
        ⟨shape, (List.range shape.prod).map fun p => drawnPixel dtype (u (used + (i * cams + c) * shape.prod + p) * m)⟩) := by
  induction n generalizing used with
  | zero => simp [randomLoop]
  | succ n ih =>
    simp only [randomLoop, randomMultiFrame_ok hu shape hm hs, bind, Except.bind, ih]
    rw [List.range_succ_eq_map]
    simp only [List.map_cons, List.map_map, Function.comp_def, Nat.zero_mul, Nat.zero_add]
    have e (i c : Nat) : used + cams * shape.prod + (i * cams + c) * shape.prod = used + (i.succ * cams + c) * shape.prod := by
      rw [Nat.succ_mul]; ring
    simp only [e, Nat.succ_eq_add_one]

end Cddm
