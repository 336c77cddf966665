import Verif.Model.Sim
import Verif.Spec.Sim
import Mathlib.Tactic.Linarith
import Mathlib.Tactic.Ring
import Mathlib.Algebra.Order.Archimedean.Basic

/-!
# Lemmas about the periodic box
-/

namespace Cddm
open Spec

theorem mirrorLoop_more {x0 x1 : ℝ} {n : Nat} {x y : ℝ} (h : mirrorLoop x0 x1 n x = some y) (m : Nat) :
    mirrorLoop x0 x1 (n + m) x = some y := by
  induction n generalizing x with
  | zero => simp [mirrorLoop] at h
  | succ n ih =>
    rw [Nat.succ_add]
    unfold mirrorLoop at h ⊢
    split
    · rename_i c; rw [if_pos c] at h; exact ih h
    · rename_i c
      rw [if_neg c] at h
      split
      · rename_i c'; rw [if_pos c'] at h; exact ih h
      · rename_i c'; rw [if_neg c'] at h; exact h

theorem mirrorLoop_unique {x0 x1 : ℝ} {n m : Nat} {x y z : ℝ} (h : mirrorLoop x0 x1 n x = some y)
    (h' : mirrorLoop x0 x1 m x = some z) : y = z := by
  have a := mirrorLoop_more h m
  have b := mirrorLoop_more h' n
  rw [Nat.add_comm, a] at b
  exact Option.some.inj b

theorem mirrorLoop_ends {x0 x1 : ℝ} (hx : x0 < x1) (n : Nat) (x : ℝ)
    (h1 : x0 - n * (x1 - x0) ≤ x) (h2 : x < x1 + n * (x1 - x0)) :
    ∃ m y, mirrorLoop x0 x1 m x = some y ∧ x0 ≤ y ∧ y < x1 ∧ ∃ k : ℤ, y = x + k * (x1 - x0) := by
  induction n generalizing x with
  | zero =>
    refine ⟨1, x, ?_, by simpa using h1, by simpa using h2, 0, by simp⟩
    unfold mirrorLoop
    rw [if_neg (by simp at h1; linarith), if_neg (by simp at h2; simpa using h2)]
  | succ n ih =>
    push_cast at h1 h2
    have hn : (0 : ℝ) ≤ n := Nat.cast_nonneg n
    by_cases c : x < x0
    · obtain ⟨m, y, hy, a, b, k, hk⟩ := ih (x1 + x - x0) (by nlinarith) (by nlinarith)
      refine ⟨m + 1, y, ?_, a, b, k + 1, ?_⟩
      · unfold mirrorLoop; rw [if_pos c]; exact hy
      · rw [hk]; push_cast; ring
    · by_cases c' : x ≥ x1
      · obtain ⟨m, y, hy, a, b, k, hk⟩ := ih (x0 + x - x1) (by nlinarith) (by nlinarith)
        refine ⟨m + 1, y, ?_, a, b, k - 1, ?_⟩
        · unfold mirrorLoop; rw [if_neg c, if_pos c']; exact hy
        · rw [hk]; push_cast; ring
      · refine ⟨1, x, ?_, by linarith, by linarith, 0, by simp⟩
        unfold mirrorLoop
        rw [if_neg c, if_neg c']

theorem mirror_spec {x0 x1 : ℝ} (hx : x0 < x1) (x : ℝ) :
    ∃ y, mirror x x0 x1 = some y ∧ x0 ≤ y ∧ y < x1 ∧ ∃ k : ℤ, y = x + k * (x1 - x0) := by
  have hL : 0 < x1 - x0 := by linarith
  obtain ⟨n, hn⟩ := exists_nat_gt (|x| / (x1 - x0) + |x0| / (x1 - x0) + |x1| / (x1 - x0))
  have hn' : |x| + |x0| + |x1| < n * (x1 - x0) := by
    rw [← add_div, ← add_div, div_lt_iff₀ hL] at hn
    exact hn
  obtain ⟨m, y, hy, a, b, k⟩ := mirrorLoop_ends hx n x
    (by have := neg_abs_le x; have := le_abs_self x0; have := abs_nonneg x1; linarith)
    (by have := le_abs_self x; have := neg_abs_le x1; have := abs_nonneg x0; linarith)
  refine ⟨y, ?_, a, b, k⟩
  have hex : ∃ n y, mirrorLoop x0 x1 n x = some y := ⟨m, y, hy⟩
  unfold mirror
  rw [if_neg hx.ne, dif_pos hex]
  obtain ⟨z, hz⟩ := hex.choose_spec
  rw [hz, mirrorLoop_unique hz hy]

theorem mirrorLoop_none {x0 x1 : ℝ} (hx : x1 < x0) (n : Nat) (x : ℝ) : mirrorLoop x0 x1 n x = none := by
  induction n generalizing x with
  | zero => rfl
  | succ n ih =>
    unfold mirrorLoop
    split
    · exact ih _
    · rw [if_pos (by linarith)]; exact ih _

theorem mirrorAll_spec {shape : Nat × Nat} (h1 : 0 < shape.1) (h2 : 0 < shape.2) (x : List (ℝ × ℝ)) :
    ∃ y, mirrorAll shape x = some y ∧ BroughtBack shape y x := by
  have e1 : (0 : ℝ) < shape.1 := by exact_mod_cast h1
  have e2 : (0 : ℝ) < shape.2 := by exact_mod_cast h2
  induction x with
  | nil => exact ⟨[], rfl, .nil⟩
  | cons p x ih =>
    obtain ⟨y, hy, hb⟩ := ih
    obtain ⟨a, ha, ha1, ha2, ka, hka⟩ := mirror_spec e1 p.1
    obtain ⟨b, hb', hb1, hb2, kb, hkb⟩ := mirror_spec e2 p.2
    refine ⟨(a, b) :: y, ?_, .cons ⟨⟨⟨ha1, ha2⟩, hb1, hb2⟩, ⟨ka, by rw [hka]; ring⟩, ⟨kb, by rw [hkb]; ring⟩⟩ hb⟩
    unfold mirrorAll at hy ⊢
    rw [List.mapM_cons, hy, ha, hb']
    rfl

theorem moved_length (x : List (ℝ × ℝ)) (inc : Nat → ℝ × ℝ) : (moved x inc).length = x.length := by
  simp [moved]

theorem walkLoop_spec {shape : Nat × Nat} (h1 : 0 < shape.1) (h2 : 0 < shape.2)
    (inc : Nat → List (ℝ × ℝ) → Nat → ℝ × ℝ) (n i : Nat) (x : List (ℝ × ℝ)) (hx : ∀ p ∈ x, InBox shape p) :
    ∃ xs, walkLoop shape inc n i x = some xs ∧ xs.length = n ∧ (0 < n → xs[0]? = some x) ∧
      (∀ y ∈ xs, y.length = x.length ∧ ∀ p ∈ y, InBox shape p) ∧
      ∀ (k : Nat) (y z : List (ℝ × ℝ)), xs[k]? = some y → xs[k + 1]? = some z →
        BroughtBack shape z (moved y (inc (i + k) y)) := by
  induction n generalizing i x with
  | zero => exact ⟨[], rfl, rfl, by simp, by simp, by simp⟩
  | succ n ih =>
    obtain ⟨x', hx', hb⟩ := mirrorAll_spec h1 h2 (makeStep x (inc i x))
    have hin : ∀ p ∈ x', InBox shape p := by
      intro p hp
      obtain ⟨j, hj, rfl⟩ := List.mem_iff_getElem.mp hp
      have h := List.forall₂_iff_get.mp hb
      exact (h.2 j hj (h.1 ▸ hj)).1
    have hlen : x'.length = x.length := by
      rw [hb.length_eq]; exact moved_length x (inc i x)
    obtain ⟨xs, e, l, f, a, c⟩ := ih (i + 1) x' hin
    refine ⟨x :: xs, ?_, by simp [l], by simp, ?_, ?_⟩
    · unfold walkLoop
      simp [hx', e]
    · intro y hy
      rcases List.mem_cons.mp hy with rfl | hy
      · exact ⟨rfl, hx⟩
      · obtain ⟨b1, b2⟩ := a y hy
        exact ⟨b1.trans hlen, b2⟩
    · intro k y z hy hz
      cases k with
      | zero =>
        simp at hy hz
        subst hy
        have hn : 0 < n := by
          rcases Nat.eq_zero_or_pos n with rfl | h
          · rw [List.length_eq_zero_iff.mp l] at hz; simp at hz
          · exact h
        have := f hn
        rw [hz] at this
        cases this
        exact hb
      | succ k =>
        simp at hy hz
        have := c k y z hy hz
        rw [show i + (k + 1) = i + 1 + k by omega]
        exact this

end Cddm
