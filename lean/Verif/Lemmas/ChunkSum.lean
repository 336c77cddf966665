import Verif.Lemmas.IterBuf
import Verif.Lemmas.MultiRow

/-!
# Sums over pairs of chunks
-/

namespace Cddm
open Spec

/-- A double sum whose far off-diagonal terms vanish. -/
theorem sum_band {M : Type} [AddCommMonoid M] (a : Nat → Nat → M) (Q : Nat)
    (h : ∀ p p', p < Q → p' < Q → (p + 2 ≤ p' ∨ p' + 2 ≤ p) → a p p' = 0) :
    ∑ p ∈ Finset.range Q, ∑ p' ∈ Finset.range Q, a p p'
      = ∑ q ∈ Finset.range Q, (a q q + if 1 ≤ q then a q (q - 1) + a (q - 1) q else 0) := by
  induction Q with
  | zero => simp
  | succ Q ih =>
    have key : ∀ f : Nat → M, (∀ p, p + 2 ≤ Q → f p = 0) →
        ∑ p ∈ Finset.range Q, f p = if 1 ≤ Q then f (Q - 1) else 0 := by
      intro f hf
      cases Q with
      | zero => simp
      | succ p =>
        rw [Finset.sum_range_succ, Finset.sum_eq_zero, zero_add]
        · simp
        · intro x hx
          exact hf x (by have := Finset.mem_range.mp hx; omega)
    rw [Finset.sum_range_succ, Finset.sum_range_succ, Finset.sum_range_succ,
      Finset.sum_congr rfl (fun p _ => Finset.sum_range_succ _ _), Finset.sum_add_distrib,
      ih (fun p p' h1 h2 => h p p' (by omega) (by omega)),
      key (fun p => a p Q) (fun p hp => h p Q (by omega) (by omega) (.inl hp)),
      key (fun p => a Q p) (fun p hp => h Q p (by omega) (by omega) (.inr hp)), add_assoc]
    congr 1
    split
    · generalize a Q Q = x
      generalize a Q (Q - 1) = y
      generalize a (Q - 1) Q = z
      abel
    · simp

theorem chunk_flatten {α : Type} (F : Nat → α) (h Q : Nat) :
    ((List.range Q).map (chunkOf F h)).flatten = (List.range (Q * h)).map F := by
  induction Q with
  | zero => simp
  | succ Q ih =>
    rw [List.range_succ, List.map_append, List.flatten_append, ih, Nat.succ_mul, List.range_add,
      List.map_append]
    simp [chunkOf]

theorem cellSum_flatten {α β M : Type} [AddCommMonoid M] (full : Bool) (g : α → β → M)
    (A : Nat → Stream α) (B : Nat → Stream β) (Q L k : Nat) :
    cellSum full g ((List.range Q).map A).flatten ((List.range Q).map B).flatten L k
      = ∑ p ∈ Finset.range Q, ∑ p' ∈ Finset.range Q, cellSum full g (A p) (B p') L k := by
  unfold cellSum
  rw [pairSum_flatten, pairSumAt_flatten, sum_product, sum_product]
  simp only [List.map_map]
  split <;> rfl

theorem cellSum_far {α β M : Type} [AddCommMonoid M] (full : Bool) (g : α → β → M)
    {s1 : Stream α} {s2 : Stream β} {n L k : Nat} (hL : L = if full then 2 * n - 1 else n)
    (hk : k < L) (h : ∀ a ∈ s1, ∀ b ∈ s2, (n : Int) ≤ |b.1 - a.1|) :
    cellSum full g s1 s2 L k = 0 := by
  unfold cellSum
  split
  · next hf =>
    rw [if_pos hf] at hL
    rw [pairSumAt_eq]
    apply sum_map_zero
    intro a ha
    apply sum_map_zero
    intro b hb
    have := h a ha b hb
    rw [if_neg]
    intro e
    rw [e] at this
    unfold cellDelay at this
    rw [Int.abs_eq_natAbs] at this
    split at this <;> omega
  · next hf =>
    rw [if_neg hf] at hL
    rw [pairSum_eq]
    apply sum_map_zero
    intro a ha
    apply sum_map_zero
    intro b hb
    have := h a ha b hb
    rw [if_neg]
    intro e
    omega

/-- Chunks with themselves and with their neighbours make up the whole, if other chunks are too
far apart in time. -/
theorem cellSum_chunks {α β M : Type} [AddCommMonoid M] (full : Bool) (g : α → β → M)
    (A : Nat → Stream α) (B : Nat → Stream β) {Q n L k : Nat}
    (hL : L = if full then 2 * n - 1 else n) (hk : k < L)
    (h : ∀ p p', p < Q → p' < Q → (p + 2 ≤ p' ∨ p' + 2 ≤ p) →
      ∀ a ∈ A p, ∀ b ∈ B p', (n : Int) ≤ |b.1 - a.1|) :
    ∑ q ∈ Finset.range Q, (cellSum full g (A q) (B q) L k +
      if 1 ≤ q then cellSum full g (A q) (B (q - 1)) L k + cellSum full g (A (q - 1)) (B q) L k
      else 0)
    = cellSum full g ((List.range Q).map A).flatten ((List.range Q).map B).flatten L k := by
  rw [cellSum_flatten, sum_band _ Q fun p p' h1 h2 h3 => cellSum_far full g hL hk (h p p' h1 h2 h3)]

theorem selfSum_append {α M : Type} [AddCommMonoid M] (g : α → α → M) (s s' : Stream α) (k : Nat) :
    selfSum g (s ++ s') k = selfSum g s k + pairSum g s s' k + selfSum g s' k := by
  induction s with
  | nil => simp [selfSum_eq, pairSum_eq, selfPairs]
  | cons a s ih =>
    rw [List.cons_append, selfSum_cons, selfSum_cons, ih, pairSum_eq, pairSum_eq, List.map_cons,
      List.sum_cons, List.map_append, List.sum_append]
    generalize (if (0 : Int) = k then g a.2 a.2 else 0) = x1
    generalize selfSum g s k = x2
    generalize selfSum g s' k = x3
    generalize (List.map (fun b => if |b.1 - a.1| = (k : Int) then g a.2 b.2 else 0) s).sum = x4
    generalize (List.map (fun b => if |b.1 - a.1| = (k : Int) then g a.2 b.2 else 0) s').sum = x5
    generalize (List.map (fun a => (List.map (fun b =>
      if |b.1 - a.1| = (k : Int) then g a.2 b.2 else 0) s').sum) s).sum = x6
    abel

/-- The same for one signal. -/
theorem selfSum_chunks {α M : Type} [AddCommMonoid M] (g : α → α → M) (A : Nat → Stream α)
    {n k : Nat} (hk : k < n) :
    ∀ Q, (∀ p p', p < Q → p' < Q → p + 2 ≤ p' →
      ∀ a ∈ A p, ∀ b ∈ A p', (n : Int) ≤ |b.1 - a.1|) →
    ∑ q ∈ Finset.range Q, (selfSum g (A q) k + if 1 ≤ q then pairSum g (A (q - 1)) (A q) k else 0)
      = selfSum g ((List.range Q).map A).flatten k
  | 0, _ => by simp [selfSum_eq, selfPairs]
  | Q + 1, h => by
    rw [Finset.sum_range_succ, selfSum_chunks g A hk Q fun p p' h1 h2 => h p p' (by omega) (by omega),
      List.range_succ, List.map_append, List.flatten_append, selfSum_append]
    have e : pairSum g ((List.range Q).map A).flatten (([Q].map A).flatten) k
        = if 1 ≤ Q then pairSum g (A (Q - 1)) (A Q) k else 0 := by
      have e1 := pairSum_flatten g ((List.range Q).map A) [A Q] k
      rw [sum_product] at e1
      simp only [List.map_cons, List.map_nil]
      rw [e1, List.map_map]
      have : ((List.range Q).map ((fun a => (List.map (fun b => pairSum g a b k) [A Q]).sum) ∘ A)).sum
          = ∑ p ∈ Finset.range Q, pairSum g (A p) (A Q) k := by
        simp only [Function.comp_def, List.map_cons, List.map_nil, List.sum_cons, List.sum_nil, add_zero]
        rfl
      rw [this]
      cases Q with
      | zero => simp
      | succ p =>
        rw [Finset.sum_range_succ, Finset.sum_eq_zero, zero_add]
        · simp
        · intro x hx
          have hx := Finset.mem_range.mp hx
          have h0 := cellSum_far (full := false) g (s1 := A x) (s2 := A (p + 1)) (n := n) (L := n)
            (k := k) (by simp) hk (h x (p + 1) (by omega) (by omega) (by omega))
          simpa [cellSum] using h0
    rw [e]
    simp only [List.map_cons, List.map_nil, List.flatten_cons, List.flatten_nil, List.append_nil]
    generalize (if 1 ≤ Q then pairSum g (A (Q - 1)) (A Q) k else 0) = x1
    generalize selfSum g (A Q) k = x2
    generalize selfSum g ((List.range Q).map A).flatten k = x3
    abel

end Cddm
