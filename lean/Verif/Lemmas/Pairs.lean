import Verif.Lemmas.Kernels

/-! # Algebra of the specification sums -/

namespace Cddm
open Spec

section
variable {M α β : Type} [AddCommMonoid M]

theorem sum_map_comm (l1 : List α) (l2 : List β) (F : α → β → M) :
    (l1.map fun a => (l2.map fun b => F a b).sum).sum
      = (l2.map fun b => (l1.map fun a => F a b).sum).sum := by
  induction l1 with
  | nil => simp
  | cons a l ih => simp [ih, List.sum_map_add]

theorem sum_map_zero (l : List α) (F : α → M) (h : ∀ a ∈ l, F a = 0) : (l.map F).sum = 0 := by
  induction l with
  | nil => simp
  | cons a l ih => simp_all

/-- A distance-`k` sum is the sum at delay `k` plus, for `k > 0`, the sum at delay `-k`. -/
theorem pairSum_split (g : α → β → M) (s1 : Stream α) (s2 : Stream β) (k : Nat) :
    pairSum g s1 s2 k = pairSumAt g s1 s2 k + if k = 0 then 0 else pairSumAt g s1 s2 (-k) := by
  rw [pairSum_eq, pairSumAt_eq, pairSumAt_eq]
  by_cases hk : k = 0
  · subst hk
    simp
  · rw [if_neg hk, ← List.sum_map_add]
    congr 1
    apply List.map_congr_left
    intro a _
    rw [← List.sum_map_add]
    congr 1
    apply List.map_congr_left
    intro b _
    rcases lt_trichotomy 0 (b.1 - a.1) with h | h | h
    · rw [abs_of_pos h]
      have : ¬ (b.1 - a.1 = -(k : Int)) := by omega
      simp [this]
    · have h1 : ¬ (|b.1 - a.1| = (k : Int)) := by rw [← h]; simp; omega
      have h2 : ¬ (b.1 - a.1 = (k : Int)) := by omega
      have h3 : ¬ (b.1 - a.1 = -(k : Int)) := by omega
      simp [h1, h2, h3]
    · rw [abs_of_neg h]
      have : ¬ (b.1 - a.1 = (k : Int)) := by omega
      simp only [this, if_false, zero_add]
      congr 1
      apply propext
      omega

theorem pairSumAt_swap (g : α → β → M) (s1 : Stream α) (s2 : Stream β) (d : Int) :
    pairSumAt g s1 s2 d = pairSumAt (fun b a => g a b) s2 s1 (-d) := by
  rw [pairSumAt_eq, pairSumAt_eq, sum_map_comm]
  congr 1
  apply List.map_congr_left
  intro a _
  congr 1
  apply List.map_congr_left
  intro b _
  congr 1
  apply propext
  omega

theorem pairSum_swap (g : α → β → M) (s1 : Stream α) (s2 : Stream β) (k : Nat) :
    pairSum g s1 s2 k = pairSum (fun b a => g a b) s2 s1 k := by
  rw [pairSum_eq, pairSum_eq, sum_map_comm]
  simp only [abs_sub_comm]

theorem pairSum_congr {g g' : α → β → M} (h : ∀ a b, g a b = g' a b) (s1 : Stream α)
    (s2 : Stream β) (k : Nat) : pairSum g s1 s2 k = pairSum g' s1 s2 k := by
  rw [show g = g' from funext fun a => funext fun b => h a b]

theorem pairSumAt_congr {g g' : α → β → M} (h : ∀ a b, g a b = g' a b) (s1 : Stream α)
    (s2 : Stream β) (d : Int) : pairSumAt g s1 s2 d = pairSumAt g' s1 s2 d := by
  rw [show g = g' from funext fun a => funext fun b => h a b]

/-- Move the time axis of a stream. -/
def shiftStream (c : Int) (s : Stream α) : Stream α := s.map fun a => (a.1 + c, a.2)

theorem pairSumAt_shift (g : α → β → M) (s1 : Stream α) (s2 : Stream β) (c d : Int) :
    pairSumAt g (shiftStream c s1) (shiftStream c s2) d = pairSumAt g s1 s2 d := by
  simp [pairSumAt_eq, shiftStream, Function.comp_def]

theorem pairSum_shift (g : α → β → M) (s1 : Stream α) (s2 : Stream β) (c : Int) (k : Nat) :
    pairSum g (shiftStream c s1) (shiftStream c s2) k = pairSum g s1 s2 k := by
  simp [pairSum_eq, shiftStream, Function.comp_def]

theorem selfPairs_map {γ : Type} (f : α → γ) (l : List α) :
    selfPairs (l.map f) = (selfPairs l).map (Prod.map f f) := by
  induction l with
  | nil => rfl
  | cons a l ih => simp [selfPairs, ih]

theorem selfSum_shift (g : α → α → M) (s : Stream α) (c : Int) (k : Nat) :
    selfSum g (shiftStream c s) k = selfSum g s k := by
  simp [selfSum_eq, shiftStream, selfPairs_map, Function.comp_def]

theorem selfSumFwd_shift (g : α → α → M) (s : Stream α) (c : Int) (k : Nat) :
    selfSumFwd g (shiftStream c s) k = selfSumFwd g s k := by
  simp only [selfSumFwd_eq, shiftStream, selfPairs_map, List.map_map, Function.comp_def,
    Prod.map, add_sub_add_right_eq_sub]

/-! ### Regular sampling -/

/-- Samples stamped `c, c+1, ...`. -/
def stampFrom (c : Nat) (x : List α) : Stream α := x.mapIdx fun i v => (((c + i : Nat) : Int), v)

@[simp] theorem stampFrom_nil (c : Nat) : stampFrom c ([] : List α) = [] := rfl

@[simp] theorem stampFrom_cons (c : Nat) (a : α) (x : List α) :
    stampFrom c (a :: x) = ((c : Int), a) :: stampFrom (c + 1) x := by
  simp [stampFrom, List.mapIdx_cons, add_comm, add_left_comm]

theorem regular_eq (x : List α) : regular x = stampFrom 0 x := by
  simp [regular, stampFrom]

theorem sum_stampFrom (y : List β) (c : Nat) (m : Int) (F : β → M) (hm : (c : Int) ≤ m) :
    ((stampFrom c y).map fun b => if b.1 = m then F b.2 else 0).sum
      = ((y.drop (m.toNat - c)).head?.map F).getD 0 := by
  induction y generalizing c with
  | nil => simp
  | cons b y ih =>
    rw [stampFrom_cons, List.map_cons, List.sum_cons]
    by_cases h : (c : Int) = m
    · have hz : ((stampFrom (c+1) y).map fun b => if b.1 = m then F b.2 else 0).sum = 0 := by
        apply sum_map_zero
        intro p hp
        rw [if_neg]
        simp only [stampFrom, List.mem_mapIdx] at hp
        obtain ⟨i, _, rfl⟩ := hp
        simp
        omega
      rw [hz]
      have : m.toNat - c = 0 := by omega
      simp [h, this]
    · rw [ih (c+1) (by omega)]
      have : m.toNat - c = (m.toNat - (c+1)) + 1 := by omega
      simp [h, this]

theorem pairSumAt_stampFrom (g : α → β → M) (x : List α) (y : List β) (c k : Nat) :
    pairSumAt g (stampFrom c x) (stampFrom 0 y) k
      = ((x.zip (y.drop (c + k))).map fun p => g p.1 p.2).sum := by
  rw [pairSumAt_eq]
  induction x generalizing c with
  | nil => simp
  | cons a x ih =>
    rw [stampFrom_cons, List.map_cons, List.sum_cons, ih]
    have h := sum_stampFrom y 0 ((c + k : Nat) : Int) (g a) (by omega)
    have e : ((stampFrom 0 y).map fun b => if b.1 - (c : Int) = k then g a b.2 else 0)
        = ((stampFrom 0 y).map fun b => if b.1 = ((c + k : Nat) : Int) then g a b.2 else 0) := by
      apply List.map_congr_left
      intro b _
      congr 1
      apply propext
      push_cast
      omega
    simp only [e, h, Int.toNat_natCast, Nat.sub_zero]
    rcases hd : y.drop (c + k) with _ | ⟨b, y'⟩
    · have : y.drop (c + 1 + k) = [] := by
        rw [List.drop_eq_nil_iff] at hd ⊢; omega
      simp [this]
    · have : y.drop (c + 1 + k) = y' := by
        have := congrArg List.tail hd
        rw [List.tail_drop] at this
        rw [show c + 1 + k = c + k + 1 by ring, this]; rfl
      simp [this]

theorem pairSumAt_regular (g : α → β → M) (x : List α) (y : List β) (k : Nat) :
    pairSumAt g (regular x) (regular y) k = ((x.zip (y.drop k)).map fun p => g p.1 p.2).sum := by
  rw [regular_eq, regular_eq, pairSumAt_stampFrom, zero_add]

theorem pairSumAt_regular_neg (g : α → β → M) (x : List α) (y : List β) (k : Nat) :
    pairSumAt g (regular x) (regular y) (-k)
      = ((y.zip (x.drop k)).map fun p => g p.2 p.1).sum := by
  rw [pairSumAt_swap, neg_neg, pairSumAt_regular]

theorem selfSum_stampFrom (g : α → α → M) (x : List α) (c k : Nat) :
    selfSum g (stampFrom c x) k = ((x.zip (x.drop k)).map fun p => g p.1 p.2).sum := by
  rw [selfSum_eq]
  induction x generalizing c with
  | nil => simp [selfPairs]
  | cons a x ih =>
    rw [stampFrom_cons, selfPairs, List.map_append, List.sum_append, ih, ← stampFrom_cons,
      List.map_map]
    have h := sum_stampFrom (a :: x) c ((c + k : Nat) : Int) (g a) (by omega)
    have e : ((stampFrom c (a :: x)).map ((fun p : (Int × α) × (Int × α) =>
          if |p.2.1 - p.1.1| = (k : Int) then g p.1.2 p.2.2 else 0) ∘ fun b => (((c : Int), a), b)))
        = ((stampFrom c (a :: x)).map fun b =>
            if b.1 = ((c + k : Nat) : Int) then g a b.2 else 0) := by
      apply List.map_congr_left
      intro b hb
      simp only [Function.comp_apply]
      congr 1
      apply propext
      simp only [stampFrom, List.mem_mapIdx] at hb
      obtain ⟨i, _, rfl⟩ := hb
      rw [abs_of_nonneg (by push_cast; omega)]
      push_cast
      omega
    simp only [e, h, Int.toNat_natCast, Nat.add_sub_cancel_left]
    rcases hd : (a :: x).drop k with _ | ⟨b, y'⟩
    · have : x.drop k = [] := by
        rw [List.drop_eq_nil_iff] at hd ⊢; simp at hd; omega
      simp [this]
    · have : x.drop k = y' := by
        have := congrArg List.tail hd
        rw [List.tail_drop] at this
        simpa using this
      simp [this]

theorem selfSum_regular (g : α → α → M) (x : List α) (k : Nat) :
    selfSum g (regular x) k = ((x.zip (x.drop k)).map fun p => g p.1 p.2).sum := by
  rw [regular_eq, selfSum_stampFrom]

theorem pairSum_cons (g : α → β → M) (a : Int × α) (b : Int × β) (s1 : Stream α) (s2 : Stream β)
    (k : Nat) :
    pairSum g (a :: s1) (b :: s2) k = (if |b.1 - a.1| = (k : Int) then g a.2 b.2 else 0)
      + (s2.map fun b => if |b.1 - a.1| = (k : Int) then g a.2 b.2 else 0).sum
      + (s1.map fun a => if |b.1 - a.1| = (k : Int) then g a.2 b.2 else 0).sum
      + pairSum g s1 s2 k := by
  simp only [pairSum_eq, List.map_cons, List.sum_cons, List.sum_map_add]
  simp only [add_assoc]

theorem selfSum_cons (g : α → α → M) (a : Int × α) (s : Stream α) (k : Nat) :
    selfSum g (a :: s) k = (if (0 : Int) = k then g a.2 a.2 else 0)
      + (s.map fun b => if |b.1 - a.1| = (k : Int) then g a.2 b.2 else 0).sum + selfSum g s k := by
  simp only [selfSum_eq, selfPairs, List.map_cons, List.map_append, List.sum_append, List.sum_cons,
    List.map_map, Function.comp_def, sub_self, abs_zero]

/-- At positive distance the ordered pairs of a stream with itself are the unordered pairs taken
in both orders. -/
theorem pairSum_self_pos (g : α → α → M) (s : Stream α) (k : Nat) (hk : k ≠ 0) :
    pairSum g s s k = selfSum (fun a b => g a b + g b a) s k := by
  induction s with
  | nil => simp [pairSum_eq, selfSum_eq, selfPairs]
  | cons a s ih =>
    have h0 : ¬ ((0 : Int) = k) := by omega
    rw [pairSum_cons, selfSum_cons, ih]
    simp only [sub_self, abs_zero, h0, if_false, zero_add]
    rw [← List.sum_map_add]
    congr 2
    apply List.map_congr_left
    intro b _
    rw [abs_sub_comm]
    split_ifs <;> simp

/-- At distance zero only the diagonal contributes if the time stamps are distinct. -/
theorem pairSum_self_zero (g : α → α → M) (s : Stream α) (hs : (s.map Prod.fst).Nodup) :
    pairSum g s s 0 = selfSum g s 0 := by
  induction s with
  | nil => simp [pairSum_eq, selfSum_eq, selfPairs]
  | cons a s ih =>
    rw [List.map_cons, List.nodup_cons] at hs
    rw [pairSum_cons, selfSum_cons, ih hs.2]
    have h : ∀ b ∈ s, b.1 ≠ a.1 := fun b hb hab =>
      hs.1 (by rw [← hab]; exact List.mem_map_of_mem hb)
    have z2 : (s.map fun b => if |a.1 - b.1| = ((0 : Nat) : Int) then g b.2 a.2 else 0).sum = 0 := by
      apply sum_map_zero
      intro b hb
      rw [if_neg]
      have := h b hb
      simp [sub_eq_zero]
      omega
    rw [z2]
    simp

/-- ... and that diagonal is the sum over the samples. -/
theorem selfSum_zero (g : α → α → M) (s : Stream α) (hs : (s.map Prod.fst).Nodup) :
    selfSum g s 0 = (s.map fun a => g a.2 a.2).sum := by
  induction s with
  | nil => simp [selfSum_eq, selfPairs]
  | cons a s ih =>
    rw [List.map_cons, List.nodup_cons] at hs
    rw [selfSum_cons, ih hs.2]
    have h : ∀ b ∈ s, b.1 ≠ a.1 := fun b hb hab =>
      hs.1 (by rw [← hab]; exact List.mem_map_of_mem hb)
    have z2 : (s.map fun b => if |b.1 - a.1| = ((0 : Nat) : Int) then g a.2 b.2 else 0).sum = 0 := by
      apply sum_map_zero
      intro b hb
      rw [if_neg]
      have := h b hb
      simp [sub_eq_zero]
      omega
    rw [z2]
    simp

theorem selfSum_congr {g g' : α → α → M} (h : ∀ a b, g a b = g' a b) (s : Stream α) (k : Nat) :
    selfSum g s k = selfSum g' s k := by
  rw [show g = g' from funext fun a => funext fun b => h a b]

theorem selfPairs_sorted_fwd (g : α → α → M) (s : Stream α) (k : Nat)
    (hs : s.Pairwise fun a b => a.1 ≤ b.1) : selfSumFwd g s k = selfSum g s k := by
  rw [selfSum_eq, selfSumFwd_eq]
  congr 1
  apply List.map_congr_left
  intro p hp
  have : p.1.1 ≤ p.2.1 := by
    clear k
    induction s with
    | nil => simp [selfPairs] at hp
    | cons a s ih =>
      rw [List.pairwise_cons] at hs
      simp only [selfPairs, List.mem_append, List.mem_map] at hp
      rcases hp with ⟨b, hb, rfl⟩ | hp
      · rcases List.mem_cons.mp hb with rfl | hb
        · simp
        · exact hs.1 b hb
      · exact ih hs.2 hp
  rw [if_neg (show ¬ (p.2.1 - p.1.1 < 0) by omega)]

theorem regular_sorted (x : List α) : (regular x).Pairwise fun a b => a.1 ≤ b.1 := by
  rw [List.pairwise_iff_getElem]
  intro i j hi hj hij
  simp [regular]
  omega

end
end Cddm
