import Verif.Lemmas.ParallelKernel
import Mathlib.Tactic.IntervalCases

/-!
# C110: kernels with `target = "parallel"`
-/

namespace Cddm
open Spec

section
variable {A V : Type} [DecidableEq A] [Add V] {P T : Nat} {addr : Fin P → Nat → A} {L : Nat}

/-- **C110** (any interleaving): if every item has cells of its own, then when all workers are done the cells of each item hold what
its kernel computes alone, and the rest of the memory is unchanged.  `V` is any type with an addition, rounded or not: the results are
the same bit for bit. -/
theorem C110_same (hsep : SeparateCells addr L) (mem mem' : A → V) (ups : Fin P → List (Int × V)) (share : Fin P → Fin T)
    (sched : List (Fin T)) (h : kernParallel addr L mem ups share sched = some mem') :
    (∀ p, runUpdates (ups p) (cellsOf addr L mem p) = some (cellsOf addr L mem' p)) ∧ ∀ b, ¬ IsCell addr L b → mem' b = mem b := by
  have I := kernInv_run hsep sched (kernInv_start (addr := addr) (L := L) mem ups share)
  unfold kernParallel at h
  simp only at h
  split_ifs at h with hd
  cases h
  refine ⟨fun p => ?_, fun b hb => ?_⟩
  · have h1 := I.run p
    rcases ht : (kernRun addr L sched (kernStart mem ups share)).todo p with _ | ⟨u, l⟩
    · rw [ht] at h1
      exact h1.symm
    · have h2 := I.left p (by rw [ht]; simp)
      rw [hd] at h2
      cases h2
  · exact I.other b fun p k hk e => hb ⟨p, k, hk, e⟩

/-- **C110** (the workers come to an end): if no kernel alone leaves its array, then every order in which each worker gets as many
steps as it needs ends. -/
theorem C110_ends (hsep : SeparateCells addr L) (mem : A → V) (ups : Fin P → List (Int × V)) (share : Fin P → Fin T)
    (sched : List (Fin T)) (hin : ∀ p, ∃ r, runUpdates (ups p) (cellsOf addr L mem p) = some r)
    (hs : ∀ t, (((List.finRange P).filter fun p => decide (share p = t)).map fun p => 2 * (ups p).length + 1).sum ≤ sched.count t) :
    ∃ mem', kernParallel addr L mem ups share sched = some mem' := by
  have I0 := kernInv_start (addr := addr) (L := L) mem ups share
  have hi : KernInside L (kernStart mem ups share) := by
    intro p u hu
    obtain ⟨r, hr⟩ := hin p
    have := runUpdates_inside hr u hu
    rwa [cellsOf_length] at this
  refine ⟨_, if_pos fun t => kernWork_zero (kernInv_run hsep sched I0) t ?_⟩
  rw [kernWork_run hsep sched I0 hi]
  have := hs t
  simp only [kernWork, kernStart, Option.isSome_none, Bool.false_eq_true, if_false]
  omega

end

/-! ### The kernels -/

section
variable {A V R M : Type} [DecidableEq A] [Add V] [Zero M] [Add M] [Sub M] [Add R] [Sub R] [Neg R] [Mul R] {P T : Nat} {addr : Fin P → Nat → A} {L : Nat}

/-- **C110.** `_cross_corr` in parallel is `_cross_corr` of every item. -/
theorem C110_cross_corr (hsep : SeparateCells addr L) (mem mem' : A → R) (x y : Fin P → List (Cx R)) (t1 t2 : Fin P → List Int)
    (h1 : ∀ p, (t1 p).length = (x p).length) (h2 : ∀ p, (t2 p).length = (y p).length) (share : Fin P → Fin T) (sched : List (Fin T))
    (h : kernParallel addr L mem (fun p => crossCorrUpdates L (x p) (y p) (t1 p) (t2 p)) share sched = some mem') (p : Fin P) :
    crossCorr (x p) (y p) (t1 p) (t2 p) (cellsOf addr L mem p) = some (cellsOf addr L mem' p) := by
  have := (C110_same hsep mem mem' _ share sched h).1 p
  rw [crossCorr_updates _ _ _ _ _ (h1 p) (h2 p), cellsOf_length]
  exact this

/-- **C110.** `_cross_corr_complex`. -/
theorem C110_cross_corr_complex (hsep : SeparateCells addr L) (mem mem' : A → Cx R) (x y : Fin P → List (Cx R)) (t1 t2 : Fin P → List Int)
    (h1 : ∀ p, (t1 p).length = (x p).length) (h2 : ∀ p, (t2 p).length = (y p).length) (share : Fin P → Fin T) (sched : List (Fin T))
    (h : kernParallel addr L mem (fun p => crossCorrComplexUpdates L (x p) (y p) (t1 p) (t2 p)) share sched = some mem') (p : Fin P) :
    crossCorrComplex (x p) (y p) (t1 p) (t2 p) (cellsOf addr L mem p) = some (cellsOf addr L mem' p) := by
  have := (C110_same hsep mem mem' _ share sched h).1 p
  rw [crossCorrComplex_updates _ _ _ _ _ (h1 p) (h2 p), cellsOf_length]
  exact this

/-- **C110.** `_cross_diff`. -/
theorem C110_cross_diff (hsep : SeparateCells addr L) (mem mem' : A → R) (x y : Fin P → List (Cx R)) (t1 t2 : Fin P → List Int)
    (h1 : ∀ p, (t1 p).length = (x p).length) (h2 : ∀ p, (t2 p).length = (y p).length) (share : Fin P → Fin T) (sched : List (Fin T))
    (h : kernParallel addr L mem (fun p => crossDiffUpdates L (x p) (y p) (t1 p) (t2 p)) share sched = some mem') (p : Fin P) :
    crossDiff (x p) (y p) (t1 p) (t2 p) (cellsOf addr L mem p) = some (cellsOf addr L mem' p) := by
  have := (C110_same hsep mem mem' _ share sched h).1 p
  rw [crossDiff_updates _ _ _ _ _ (h1 p) (h2 p), cellsOf_length]
  exact this

/-- **C110.** `_auto_corr`. -/
theorem C110_auto_corr (hsep : SeparateCells addr L) (mem mem' : A → R) (f : Fin P → List (Cx R)) (t : Fin P → List Int)
    (h1 : ∀ p, (t p).length = (f p).length) (share : Fin P → Fin T) (sched : List (Fin T))
    (h : kernParallel addr L mem (fun p => autoCorrUpdates L (f p) (t p)) share sched = some mem') (p : Fin P) :
    autoCorr (f p) (t p) (cellsOf addr L mem p) = some (cellsOf addr L mem' p) := by
  have := (C110_same hsep mem mem' _ share sched h).1 p
  rw [autoCorr_updates _ _ _ (h1 p), cellsOf_length]
  exact this

/-- **C110.** `_auto_corr_complex`. -/
theorem C110_auto_corr_complex (hsep : SeparateCells addr L) (mem mem' : A → Cx R) (f : Fin P → List (Cx R)) (t : Fin P → List Int)
    (h1 : ∀ p, (t p).length = (f p).length) (share : Fin P → Fin T) (sched : List (Fin T))
    (h : kernParallel addr L mem (fun p => autoCorrComplexUpdates L (f p) (t p)) share sched = some mem') (p : Fin P) :
    autoCorrComplex (f p) (t p) (cellsOf addr L mem p) = some (cellsOf addr L mem' p) := by
  have := (C110_same hsep mem mem' _ share sched h).1 p
  rw [autoCorrComplex_updates _ _ _ (h1 p), cellsOf_length]
  exact this

/-- **C110.** `_auto_diff`. -/
theorem C110_auto_diff (hsep : SeparateCells addr L) (mem mem' : A → R) (f : Fin P → List (Cx R)) (t : Fin P → List Int)
    (h1 : ∀ p, (t p).length = (f p).length) (share : Fin P → Fin T) (sched : List (Fin T))
    (h : kernParallel addr L mem (fun p => autoDiffUpdates L (f p) (t p)) share sched = some mem') (p : Fin P) :
    autoDiff (f p) (t p) (cellsOf addr L mem p) = some (cellsOf addr L mem' p) := by
  have := (C110_same hsep mem mem' _ share sched h).1 p
  rw [autoDiff_updates _ _ _ (h1 p), cellsOf_length]
  exact this

/-- **C110.** `_cross_sum`. -/
theorem C110_cross_sum (hsep : SeparateCells addr L) (mem mem' : A → V) (f : Fin P → List V) (t1 t2 : Fin P → List Int)
    (h1 : ∀ p, (t1 p).length = (f p).length) (share : Fin P → Fin T) (sched : List (Fin T))
    (h : kernParallel addr L mem (fun p => crossSumUpdates L (f p) (t1 p) (t2 p)) share sched = some mem') (p : Fin P) :
    crossSum (f p) (t1 p) (t2 p) (cellsOf addr L mem p) = some (cellsOf addr L mem' p) := by
  have := (C110_same hsep mem mem' _ share sched h).1 p
  rw [crossSum_updates _ _ _ _ (h1 p), cellsOf_length]
  exact this

/-- **C110.** `_cross_sum_complex`. -/
theorem C110_cross_sum_complex (hsep : SeparateCells addr L) (mem mem' : A → V) (f : Fin P → List V) (t1 t2 : Fin P → List Int)
    (h1 : ∀ p, (t1 p).length = (f p).length) (share : Fin P → Fin T) (sched : List (Fin T))
    (h : kernParallel addr L mem (fun p => crossSumComplexUpdates L (f p) (t1 p) (t2 p)) share sched = some mem') (p : Fin P) :
    crossSumComplex (f p) (t1 p) (t2 p) (cellsOf addr L mem p) = some (cellsOf addr L mem' p) := by
  have := (C110_same hsep mem mem' _ share sched h).1 p
  rw [crossSumComplex_updates _ _ _ _ (h1 p), cellsOf_length]
  exact this

/-- **C110.** `_cross_corr_regular`, not longer than the signal allows. -/
theorem C110_cross_corr_regular (hsep : SeparateCells addr L) (mem mem' : A → R) (x y : Fin P → List (Cx R))
    (h1 : ∀ p, (y p).length = (x p).length) (hL : ∀ p, L ≤ (x p).length + 1) (share : Fin P → Fin T) (sched : List (Fin T))
    (h : kernParallel addr L mem (fun p => crossCorrRegularUpdates L (x p) (y p)) share sched = some mem') (p : Fin P) :
    crossCorrRegular (x p) (y p) (cellsOf addr L mem p) = some (cellsOf addr L mem' p) := by
  have := (C110_same hsep mem mem' _ share sched h).1 p
  rw [crossCorrRegular_updates _ _ _ (h1 p) (by rw [cellsOf_length]; exact hL p), cellsOf_length]
  exact this

/-- **C110.** `_cross_corr_complex_regular`, not longer than the signal allows. -/
theorem C110_cross_corr_complex_regular (hsep : SeparateCells addr L) (mem mem' : A → Cx R) (x y : Fin P → List (Cx R))
    (h1 : ∀ p, (y p).length = (x p).length) (hL : ∀ p, (L + 1) / 2 ≤ (x p).length + 1) (share : Fin P → Fin T) (sched : List (Fin T))
    (h : kernParallel addr L mem (fun p => crossCorrComplexRegularUpdates L (x p) (y p)) share sched = some mem') (p : Fin P) :
    crossCorrComplexRegular (x p) (y p) (cellsOf addr L mem p) = some (cellsOf addr L mem' p) := by
  have := (C110_same hsep mem mem' _ share sched h).1 p
  rw [crossCorrComplexRegular_updates _ _ _ (h1 p) (by rw [cellsOf_length]; exact hL p), cellsOf_length]
  exact this

/-- **C110.** `_cross_diff_regular`, not longer than the signal allows. -/
theorem C110_cross_diff_regular (hsep : SeparateCells addr L) (mem mem' : A → R) (x y : Fin P → List (Cx R))
    (h1 : ∀ p, (y p).length = (x p).length) (hL : ∀ p, L ≤ (x p).length + 1) (share : Fin P → Fin T) (sched : List (Fin T))
    (h : kernParallel addr L mem (fun p => crossDiffRegularUpdates L (x p) (y p)) share sched = some mem') (p : Fin P) :
    crossDiffRegular (x p) (y p) (cellsOf addr L mem p) = some (cellsOf addr L mem' p) := by
  have := (C110_same hsep mem mem' _ share sched h).1 p
  rw [crossDiffRegular_updates _ _ _ (h1 p) (by rw [cellsOf_length]; exact hL p), cellsOf_length]
  exact this

/-- **C110.** `_auto_corr_regular`. -/
theorem C110_auto_corr_regular (hsep : SeparateCells addr L) (mem mem' : A → R) (x : Fin P → List (Cx R))
    (hL : ∀ p, L ≤ (x p).length + 1) (share : Fin P → Fin T) (sched : List (Fin T))
    (h : kernParallel addr L mem (fun p => autoCorrRegularUpdates L (x p)) share sched = some mem') (p : Fin P) :
    autoCorrRegular (x p) (cellsOf addr L mem p) = some (cellsOf addr L mem' p) := by
  have := (C110_same hsep mem mem' _ share sched h).1 p
  rw [autoCorrRegular_updates _ _ (by rw [cellsOf_length]; exact hL p), cellsOf_length]
  exact this

/-- **C110.** `_auto_corr_complex_regular`. -/
theorem C110_auto_corr_complex_regular (hsep : SeparateCells addr L) (mem mem' : A → Cx R) (x : Fin P → List (Cx R))
    (hL : ∀ p, L ≤ (x p).length + 1) (share : Fin P → Fin T) (sched : List (Fin T))
    (h : kernParallel addr L mem (fun p => autoCorrComplexRegularUpdates L (x p)) share sched = some mem') (p : Fin P) :
    autoCorrComplexRegular (x p) (cellsOf addr L mem p) = some (cellsOf addr L mem' p) := by
  have := (C110_same hsep mem mem' _ share sched h).1 p
  rw [autoCorrComplexRegular_updates _ _ (by rw [cellsOf_length]; exact hL p), cellsOf_length]
  exact this

/-- **C110.** `_auto_diff_regular`. -/
theorem C110_auto_diff_regular (hsep : SeparateCells addr L) (mem mem' : A → R) (x : Fin P → List (Cx R))
    (hL : ∀ p, L ≤ (x p).length + 1) (share : Fin P → Fin T) (sched : List (Fin T))
    (h : kernParallel addr L mem (fun p => autoDiffRegularUpdates L (x p)) share sched = some mem') (p : Fin P) :
    autoDiffRegular (x p) (cellsOf addr L mem p) = some (cellsOf addr L mem' p) := by
  have := (C110_same hsep mem mem' _ share sched h).1 p
  rw [autoDiffRegular_updates _ _ (by rw [cellsOf_length]; exact hL p), cellsOf_length]
  exact this

/-- **C110.** `_cross_sum_regular`. -/
theorem C110_cross_sum_regular (hsep : SeparateCells addr L) (mem mem' : A → M) (x : Fin P → List M)
    (hL : ∀ p, L ≤ (x p).length + 1) (share : Fin P → Fin T) (sched : List (Fin T))
    (h : kernParallel addr L mem (fun p => crossSumRegularUpdates L (x p)) share sched = some mem') (p : Fin P) :
    crossSumRegular (x p) (cellsOf addr L mem p) = some (cellsOf addr L mem' p) := by
  have := (C110_same hsep mem mem' _ share sched h).1 p
  rw [crossSumRegular_updates _ _ (by rw [cellsOf_length]; exact hL p), cellsOf_length]
  exact this

/-- **C110.** `_cross_sum_complex_regular_inverted`. -/
theorem C110_cross_sum_complex_regular_inverted (hsep : SeparateCells addr L) (mem mem' : A → M) (x : Fin P → List M)
    (hL : ∀ p, (L + 1) / 2 ≤ (x p).length + 1) (share : Fin P → Fin T) (sched : List (Fin T))
    (h : kernParallel addr L mem (fun p => crossSumComplexRegularInvertedUpdates L (x p)) share sched = some mem') (p : Fin P) :
    crossSumComplexRegularInverted (x p) (cellsOf addr L mem p) = some (cellsOf addr L mem' p) := by
  have := (C110_same hsep mem mem' _ share sched h).1 p
  rw [crossSumComplexRegularInverted_updates _ _ (by rw [cellsOf_length]; exact hL p), cellsOf_length]
  exact this

/-- **C110.** `_cross_sum_complex_regular`. -/
theorem C110_cross_sum_complex_regular (hsep : SeparateCells addr L) (mem mem' : A → M) (x : Fin P → List M)
    (hL : ∀ p, (L + 1) / 2 ≤ (x p).length + 1) (share : Fin P → Fin T) (sched : List (Fin T))
    (h : kernParallel addr L mem (fun p => crossSumComplexRegularUpdates L (x p)) share sched = some mem') (p : Fin P) :
    crossSumComplexRegular (x p) (cellsOf addr L mem p) = some (cellsOf addr L mem' p) := by
  have := (C110_same hsep mem mem' _ share sched h).1 p
  rw [crossSumComplexRegular_updates _ _ (by rw [cellsOf_length]; exact hL p), cellsOf_length]
  exact this

end

/-! ### Cells of their own are needed -/

/-- **C110** needs cells of their own: two items whose output is one cell (an array of stride 0), two workers, each adding 1.  The
second worker reads before the first has written; one of the two is lost. -/
theorem C110_shared_lost : ∃ mem' : Unit → Nat,
    kernParallel (fun (_ : Fin 2) _ => ()) 1 (fun _ => 0) (fun _ => [(0, 1)]) (fun p : Fin 2 => p) [0, 1, 0, 1, 0, 1] = some mem'
      ∧ mem' () = 1 ∧ runUpdates [(0, 1), (0, 1)] [0] = some [2] := by
  refine ⟨_, rfl, rfl, rfl⟩

-- The hypotheses of the theorems above: a C-contiguous array of items of `L` cells has separate cells.
example (P L : Nat) : SeparateCells (fun (p : Fin P) k => p.val * L + k) L := by
  intro p q k l hk hl e
  simp only at e
  have h1 : p.val = q.val := by
    rcases Nat.lt_trichotomy p.val q.val with h | h | h
    · have := Nat.mul_le_mul_right L h
      rw [Nat.succ_mul] at this
      omega
    · exact h
    · have := Nat.mul_le_mul_right L h
      rw [Nat.succ_mul] at this
      omega
  refine ⟨Fin.ext h1, ?_⟩
  rw [h1] at e
  omega

-- Two items of two cells each, two workers whose steps alternate: they come to an end.
example : (kernParallel (fun (p : Fin 2) k => p.val * 2 + k) 2 (fun _ => (0 : Nat)) (fun p => [(0, p.val + 1), (-1, 5)]) (fun p : Fin 2 => p)
    [0, 1, 1, 0, 0, 1, 1, 0, 0, 1]).map (fun m => [m 0, m 1, m 2, m 3]) = some [1, 5, 2, 5] := by decide

end Cddm
