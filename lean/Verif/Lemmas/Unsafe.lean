import Verif.Lemmas.Laws

/-! # When the regular kernels leave their arrays -/

namespace Cddm
open Spec

theorem foldlM_none {σ ι : Type} (l : List ι) (i : ι) (hi : i ∈ l) (body : σ → ι → Option σ)
    (h : ∀ s, body s i = none) (s : σ) : l.foldlM body s = none := by
  induction l generalizing s with
  | nil => simp at hi
  | cons a l ih =>
    rw [List.foldlM_cons]
    rcases List.mem_cons.mp hi with rfl | hi
    · simp [h]
    · cases hb : body s a with
      | none => rfl
      | some s' => exact ih hi s'

/-- A loop with a step that fails from every state fails. -/
theorem forRange_none {σ : Type} {n i : Nat} (hi : i < n) (body : σ → Nat → Option σ)
    (h : ∀ s, body s i = none) (s : σ) : forRange n s body = none :=
  foldlM_none _ i (by simpa using hi) body h s

variable {R : Type} [CommRing R]

theorem pyTake_neg_one_pos {α : Type} (x : List α) (h : 2 ≤ x.length) :
    0 < (pyTake x ((x.length : Int) - ((x.length + 1 : Nat) : Int))).length := by
  unfold pyTake
  rw [if_neg (by push_cast; omega), List.length_take]
  push_cast
  omega

theorem pyDrop_succ {α : Type} (y : List α) (n : Nat) (h : y.length = n) :
    pyDrop y (n + 1) = [] := by
  simp [pyDrop, h]

theorem crossCorrRegular_unsafe (x y : List (Cx R)) (out : List R) (hxy : x.length = y.length)
    (hN : 2 ≤ x.length) (hout : x.length + 1 < out.length) : crossCorrRegular x y out = none := by
  unfold crossCorrRegular
  refine forRange_none hout _ (fun o => ?_) _
  simp only [pyDrop_succ y _ hxy.symm, crossCorrAdd]
  rw [forRange_none (pyTake_neg_one_pos x hN) _ (fun s => by simp)]
  rfl

theorem crossCorrComplexRegular_unsafe (x y : List (Cx R)) (out : List (Cx R))
    (hxy : x.length = y.length) (hN : 2 ≤ x.length)
    (hout : x.length + 1 < (out.length + 1) / 2) : crossCorrComplexRegular x y out = none := by
  unfold crossCorrComplexRegular
  refine forRange_none hout _ (fun o => ?_) _
  simp only [pyDrop_succ y _ hxy.symm, crossCorrComplexAdd]
  rw [forRange_none (pyTake_neg_one_pos x hN) _ (fun s => by simp)]
  rfl

theorem autoCorrComplexRegular_unsafe (x : List (Cx R)) (out : List (Cx R))
    (hN : 2 ≤ x.length) (hout : x.length + 1 < out.length) :
    autoCorrComplexRegular x out = none := by
  unfold autoCorrComplexRegular
  refine forRange_none hout _ (fun o => ?_) _
  simp only [pyDrop_succ x _ rfl, crossCorrComplexAdd]
  exact forRange_none (pyTake_neg_one_pos x hN) _ (fun s => by simp) _

theorem crossDiffRegular_unsafe (x y : List (Cx R)) (out : List R) (hxy : x.length = y.length)
    (hN : 2 ≤ x.length) (hout : x.length + 1 < out.length) : crossDiffRegular x y out = none := by
  unfold crossDiffRegular
  refine forRange_none hout _ (fun o => ?_) _
  simp only [pyDrop_succ y _ hxy.symm, pyDrop_succ x _ rfl, crossDiffAdd, Option.bind_eq_bind]
  simp only [List.length_nil, forRange, List.range_zero, List.foldlM_nil, Option.pure_def,
    Option.bind_some]
  rw [if_pos (by omega)]
  refine forRange_none (i := 0) ?_ _ (fun s => ?_) _
  · have := pyTake_neg_one_pos y (by omega)
    rwa [← hxy] at this
  · cases (pyTake y ((x.length : Int) - ((x.length + 1 : Nat) : Int)))[0]? <;> simp

theorem crossSumRegular_unsafe {M : Type} [AddCommGroup M] (x out : List M)
    (hout : x.length + 1 < out.length) : crossSumRegular x out = none := by
  unfold crossSumRegular
  rw [forRange_none hout _ (fun s => ?_)]
  · rfl
  · obtain ⟨o, p⟩ := s
    dsimp only
    rw [if_neg (show ¬ x.length + 1 = 0 by omega)]
    have : pyGet x (((x.length + 1 : Nat) : Int) - 1) = none := by
      simp [pyGet, pyIdx]
    rw [this]
    rfl

end Cddm
