import Verif.Model.Slice
import Mathlib.Tactic.Ring
import Mathlib.Data.List.Nodup

/-!
# Slices
-/

namespace Cddm
variable {α : Type}

theorem sliceUp_nat (len a b : Nat) (ha : a ≤ len) (hb : b ≤ len) :
    sliceUp len (a : Int) (b : Int) = List.range' a (b - a) := by
  unfold sliceUp
  have e1 : (if (a : Int) < 0 then max ((a : Int) + len) 0 else min (a : Int) len).toNat = a := by
    rw [if_neg (by omega)]; omega
  have e2 : (if (b : Int) < 0 then max ((b : Int) + len) 0 else min (b : Int) len).toNat = b := by
    rw [if_neg (by omega)]; omega
  simp only [e1, e2]

theorem sliceDown_neg (len a b : Nat) (ha : 1 ≤ a) (hab : a ≤ b) (hb : b ≤ len + 1) :
    sliceDown len (-(a : Int)) (-(b : Int)) = (List.range (b - a)).map fun i => len - a - i := by
  unfold sliceDown
  have e1 : (if -(a : Int) < 0 then max (-(a : Int) + len) (-1) else min (-(a : Int)) (len - 1))
      = (len : Int) - a := by
    rw [if_pos (by omega)]; omega
  have e2 : (if -(b : Int) < 0 then max (-(b : Int) + len) (-1) else min (-(b : Int)) (len - 1))
      = (len : Int) - b := by
    rw [if_pos (by omega)]; omega
  simp only [e1, e2]
  have e3 : ((len : Int) - a - (len - b)).toNat = b - a := by omega
  rw [e3]
  apply List.map_congr_left
  intro i hi
  rw [List.mem_range] at hi
  omega

theorem takeIdx_eq (x : List α) (idx : List Nat) (h : ∀ i ∈ idx, i < x.length) :
    (takeIdx x idx).length = idx.length ∧
      ∀ (j : Nat) (i : Nat), idx[j]? = some i → (takeIdx x idx)[j]? = x[i]? := by
  unfold takeIdx
  induction idx with
  | nil => simp
  | cons k l ih =>
    have hk := h k (by simp)
    have := ih fun i hi => h i (by simp [hi])
    rw [List.filterMap_cons, List.getElem?_eq_getElem hk]
    dsimp only
    refine ⟨by simp [this.1], ?_⟩
    intro j i hj
    cases j with
    | zero =>
      simp at hj
      subst hj
      simp [List.getElem?_eq_getElem hk]
    | succ j => exact this.2 j i (by simpa using hj)

theorem foldl_set_length (ps : List (Nat × α)) (out : List α) :
    (ps.foldl (fun o p => o.set p.1 p.2) out).length = out.length := by
  induction ps generalizing out with
  | nil => rfl
  | cons p ps ih => rw [List.foldl_cons, ih]; simp

theorem foldl_set_other (ps : List (Nat × α)) (out : List α) (i : Nat)
    (h : i ∉ ps.map Prod.fst) :
    (ps.foldl (fun o p => o.set p.1 p.2) out)[i]? = out[i]? := by
  induction ps generalizing out with
  | nil => rfl
  | cons p ps ih =>
    simp only [List.map_cons, List.mem_cons, not_or] at h
    rw [List.foldl_cons, ih _ h.2, List.getElem?_set_ne (fun e => h.1 e.symm)]

theorem foldl_set_same (ps : List (Nat × α)) (out : List α) (hn : (ps.map Prod.fst).Nodup)
    (hl : ∀ p ∈ ps, p.1 < out.length) (p : Nat × α) (hp : p ∈ ps) :
    (ps.foldl (fun o p => o.set p.1 p.2) out)[p.1]? = some p.2 := by
  induction ps generalizing out with
  | nil => cases hp
  | cons q ps ih =>
    simp only [List.map_cons, List.nodup_cons] at hn
    rw [List.foldl_cons]
    rcases List.mem_cons.mp hp with rfl | hp
    · rw [foldl_set_other _ _ _ hn.1, List.getElem?_set_self (hl p (by simp))]
    · exact ih _ hn.2 (fun r hr => by simpa using hl r (by simp [hr])) hp

/-- Assignment through pairwise different indices. -/
theorem assignIdx_eq (out : List α) (idx : List Nat) (vals : List α)
    (hl : idx.length = vals.length) (hn : idx.Nodup) (hi : ∀ i ∈ idx, i < out.length) :
    ∃ r, assignIdx out idx vals = .ok r ∧ r.length = out.length ∧
      (∀ i, i ∉ idx → r[i]? = out[i]?) ∧
      (∀ (j i : Nat), idx[j]? = some i → r[i]? = vals[j]?) := by
  refine ⟨_, by rw [assignIdx, if_pos hl], foldl_set_length _ _, ?_, ?_⟩
  · intro i h
    apply foldl_set_other
    rw [List.map_fst_zip (by omega)]
    exact h
  · intro j i h
    obtain ⟨hj, rfl⟩ := List.getElem?_eq_some_iff.mp h
    have hv : j < vals.length := by omega
    rw [List.getElem?_eq_getElem hv]
    refine foldl_set_same (idx.zip vals) out ?_ ?_ (idx[j], vals[j]) ?_
    · rw [List.map_fst_zip (by omega)]; exact hn
    · intro p hp
      exact hi _ (List.of_mem_zip hp).1
    · rw [List.mem_iff_getElem]
      exact ⟨j, by simp; omega, by simp⟩

theorem getElem?_range' (a n j : Nat) (h : j < n) : (List.range' a n)[j]? = some (a + j) := by
  rw [List.getElem?_range' h]; simp

theorem getElem?_down (len a n j : Nat) (h : j < n) :
    ((List.range n).map fun i => len - a - i)[j]? = some (len - a - j) := by
  simp [List.getElem?_range h]

theorem nodup_down (len a n : Nat) (h : n + a ≤ len + 1) :
    ((List.range n).map fun i => len - a - i).Nodup := by
  rw [List.nodup_map_iff_inj_on List.nodup_range]
  intro x hx y hy hxy
  rw [List.mem_range] at hx hy
  omega

end Cddm
