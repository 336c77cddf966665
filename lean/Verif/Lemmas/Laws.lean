import Verif.Lemmas.Api
import Mathlib.Data.List.Perm.Basic
import Mathlib.Algebra.BigOperators.Group.List.Lemmas
import Mathlib.Algebra.Field.Basic
import Mathlib.Algebra.Module.Basic

/-! # Further algebra of the specification sums -/

namespace Cddm
open Spec

section
variable {M α β : Type} [AddCommMonoid M]

theorem sum_perm {l l' : List α} (h : l.Perm l') (F : α → M) : (l.map F).sum = (l'.map F).sum :=
  (h.map F).sum_eq

theorem pairSum_perm (g : α → β → M) {s1 s1' : Stream α} {s2 s2' : Stream β}
    (h1 : s1.Perm s1') (h2 : s2.Perm s2') (k : Nat) : pairSum g s1 s2 k = pairSum g s1' s2' k := by
  rw [pairSum_eq, pairSum_eq, sum_perm h1]
  congr 1
  apply List.map_congr_left
  intro a _
  exact sum_perm h2 _

theorem pairSumAt_perm (g : α → β → M) {s1 s1' : Stream α} {s2 s2' : Stream β}
    (h1 : s1.Perm s1') (h2 : s2.Perm s2') (d : Int) :
    pairSumAt g s1 s2 d = pairSumAt g s1' s2' d := by
  rw [pairSumAt_eq, pairSumAt_eq, sum_perm h1]
  congr 1
  apply List.map_congr_left
  intro a _
  exact sum_perm h2 _

theorem sum_selfPairs_perm {l l' : List α} (h : l.Perm l') (G : α × α → M)
    (hG : ∀ a b, G (a, b) = G (b, a)) :
    ((selfPairs l).map G).sum = ((selfPairs l').map G).sum := by
  induction h with
  | nil => rfl
  | cons a h ih =>
    simp only [selfPairs, List.map_append, List.sum_append, List.map_map, ih, List.map_cons,
      List.sum_cons]
    rw [sum_perm h]
  | swap a b l =>
    simp only [selfPairs, List.map_append, List.sum_append, List.map_cons, List.sum_cons,
      List.map_map]
    rw [hG b a]
    generalize (List.map (G ∘ fun b_1 => (b, b_1)) l).sum = x
    generalize (List.map (G ∘ fun b_1 => (a, b_1)) l).sum = y
    simp only [add_comm, add_left_comm, add_assoc]
  | trans _ _ ih1 ih2 => rw [ih1, ih2]

theorem selfSum_perm (g : α → α → M) (hg : ∀ a b, g a b = g b a) {s s' : Stream α}
    (h : s.Perm s') (k : Nat) : selfSum g s k = selfSum g s' k := by
  rw [selfSum_eq, selfSum_eq]
  apply sum_selfPairs_perm h
  intro a b
  simp only [abs_sub_comm, hg]

theorem selfSumFwd_perm (g : α → α → M) {s s' : Stream α}
    (h : s.Perm s') (k : Nat) (hk : k ≠ 0) : selfSumFwd g s k = selfSumFwd g s' k := by
  rw [selfSumFwd_eq, selfSumFwd_eq]
  apply sum_selfPairs_perm h
  intro a b
  simp only [abs_sub_comm b.1 a.1]
  by_cases hd : |a.1 - b.1| = (k : Int)
  · simp only [hd, if_true]
    rcases lt_trichotomy a.1 b.1 with h1 | h1 | h1
    · rw [if_neg (by omega), if_pos (by omega)]
    · rw [h1] at hd; simp at hd; omega
    · rw [if_pos (by omega), if_neg (by omega)]
  · simp [hd]

theorem selfSumFwd_zero (g : α → α → M) (s : Stream α) (hs : (s.map Prod.fst).Nodup) :
    selfSumFwd g s 0 = (s.map fun a => g a.2 a.2).sum := by
  rw [← selfSum_zero g s hs, selfSumFwd_eq, selfSum_eq]
  congr 1
  apply List.map_congr_left
  intro p _
  by_cases h : |p.2.1 - p.1.1| = ((0 : Nat) : Int)
  · have : p.2.1 - p.1.1 = 0 := by simpa using h
    simp [this]
  · simp only [h, if_false]

theorem pairSum_append_left (g : α → β → M) (s1 s1' : Stream α) (s2 : Stream β) (k : Nat) :
    pairSum g (s1 ++ s1') s2 k = pairSum g s1 s2 k + pairSum g s1' s2 k := by
  simp [pairSum_eq]

theorem sum_flatten_map (L : List (List α)) (F : α → M) :
    (L.flatten.map F).sum = (L.map fun l => (l.map F).sum).sum := by
  induction L with
  | nil => simp
  | cons a L ih =>
    rw [List.flatten_cons, List.map_append, List.sum_append, ih, List.map_cons, List.sum_cons]

theorem pairSum_flatten (g : α → β → M) (S1 : List (Stream α)) (S2 : List (Stream β)) (k : Nat) :
    pairSum g S1.flatten S2.flatten k
      = ((S1 ×ˢ S2).map fun p => pairSum g p.1 p.2 k).sum := by
  rw [sum_product, pairSum_eq, sum_flatten_map]
  congr 1
  apply List.map_congr_left
  intro a _
  simp only [pairSum_eq]
  rw [sum_map_comm S2 a]
  congr 1
  apply List.map_congr_left
  intro x _
  exact sum_flatten_map _ _

theorem pairSumAt_flatten (g : α → β → M) (S1 : List (Stream α)) (S2 : List (Stream β)) (d : Int) :
    pairSumAt g S1.flatten S2.flatten d
      = ((S1 ×ˢ S2).map fun p => pairSumAt g p.1 p.2 d).sum := by
  rw [sum_product, pairSumAt_eq, sum_flatten_map]
  congr 1
  apply List.map_congr_left
  intro a _
  simp only [pairSumAt_eq]
  rw [sum_map_comm S2 a]
  congr 1
  apply List.map_congr_left
  intro x _
  exact sum_flatten_map _ _

theorem ite_eq_sum (n : Nat) (m : Nat) (hm : m < n) (v : M) :
    ((List.range n).map fun k => if m = k then v else 0).sum = v := by
  induction n with
  | zero => omega
  | succ n ih =>
    rw [List.range_succ, List.map_append, List.sum_append]
    by_cases h : m = n
    · subst h
      rw [sum_map_zero]
      · simp
      · intro k hk
        rw [if_neg]
        have := List.mem_range.mp hk
        omega
    · rw [ih (by omega)]
      simp [h]

/-- Adding up all delays below a bound that no pair exceeds is adding up all pairs. -/
theorem pairSum_total (g : α → β → M) (s1 : Stream α) (s2 : Stream β) (n : Nat)
    (h : ∀ a ∈ s1, ∀ b ∈ s2, (b.1 - a.1).natAbs < n) :
    ((List.range n).map fun k => pairSum g s1 s2 k).sum
      = (s1.map fun a => (s2.map fun b => g a.2 b.2).sum).sum := by
  simp only [pairSum_eq]
  rw [sum_map_comm (List.range n) s1]
  congr 1
  apply List.map_congr_left
  intro a ha
  rw [sum_map_comm (List.range n) s2]
  congr 1
  apply List.map_congr_left
  intro b hb
  refine Eq.trans ?_ (ite_eq_sum n (b.1 - a.1).natAbs (h a ha b hb) (g a.2 b.2))
  congr 1
  apply List.map_congr_left
  intro k _
  congr 1
  apply propext
  rw [Int.abs_eq_natAbs]
  omega

theorem selfSum_total (g : α → α → M) (s : Stream α) (n : Nat)
    (h : ∀ a ∈ s, ∀ b ∈ s, (b.1 - a.1).natAbs < n) :
    ((List.range n).map fun k => selfSum g s k).sum
      = ((selfPairs s).map fun p => g p.1.2 p.2.2).sum := by
  simp only [selfSum_eq]
  rw [sum_map_comm (List.range n)]
  congr 1
  apply List.map_congr_left
  intro p hp
  have hmem : ∀ (l : List (Int × α)), ∀ p ∈ selfPairs l, p.1 ∈ l ∧ p.2 ∈ l := by
    intro l
    induction l with
    | nil => simp [selfPairs]
    | cons a l ih =>
      intro p hp
      simp only [selfPairs, List.mem_append, List.mem_map] at hp
      rcases hp with ⟨b, hb, rfl⟩ | hp
      · exact ⟨by simp, hb⟩
      · exact ⟨List.mem_cons_of_mem _ (ih p hp).1, List.mem_cons_of_mem _ (ih p hp).2⟩
  refine Eq.trans ?_ (ite_eq_sum n (p.2.1 - p.1.1).natAbs
    (h _ (hmem s p hp).1 _ (hmem s p hp).2) (g p.1.2 p.2.2))
  congr 1
  apply List.map_congr_left
  intro k _
  congr 1
  apply propext
  rw [Int.abs_eq_natAbs]
  omega

theorem selfPairs_length (l : List α) : (selfPairs l).length = l.length * (l.length + 1) / 2 := by
  have : 2 * (selfPairs l).length = l.length * (l.length + 1) := by
    induction l with
    | nil => simp [selfPairs]
    | cons a l ih =>
      simp only [selfPairs, List.length_append, List.length_map, List.length_cons]
      rw [mul_add, ih]
      ring
  omega

theorem pairSum_add (g h : α → β → M) (s1 : Stream α) (s2 : Stream β) (k : Nat) :
    pairSum (fun a b => g a b + h a b) s1 s2 k = pairSum g s1 s2 k + pairSum h s1 s2 k := by
  unfold pairSum
  rw [← List.sum_map_add]

theorem pairSumAt_add (g h : α → β → M) (s1 : Stream α) (s2 : Stream β) (d : Int) :
    pairSumAt (fun a b => g a b + h a b) s1 s2 d = pairSumAt g s1 s2 d + pairSumAt h s1 s2 d := by
  unfold pairSumAt
  rw [← List.sum_map_add]

theorem selfSum_add (g h : α → α → M) (s : Stream α) (k : Nat) :
    selfSum (fun a b => g a b + h a b) s k = selfSum g s k + selfSum h s k := by
  unfold selfSum
  rw [← List.sum_map_add]

/-- Additive maps commute with the sums. -/
theorem pairSum_hom {N : Type} [AddCommMonoid N] (φ : M →+ N) (g : α → β → M) (s1 : Stream α)
    (s2 : Stream β) (k : Nat) :
    φ (pairSum g s1 s2 k) = pairSum (fun a b => φ (g a b)) s1 s2 k := by
  unfold pairSum
  rw [map_list_sum, List.map_map]
  rfl

theorem pairSumAt_hom {N : Type} [AddCommMonoid N] (φ : M →+ N) (g : α → β → M) (s1 : Stream α)
    (s2 : Stream β) (d : Int) :
    φ (pairSumAt g s1 s2 d) = pairSumAt (fun a b => φ (g a b)) s1 s2 d := by
  unfold pairSumAt
  rw [map_list_sum, List.map_map]
  rfl

theorem selfSum_hom {N : Type} [AddCommMonoid N] (φ : M →+ N) (g : α → α → M) (s : Stream α)
    (k : Nat) : φ (selfSum g s k) = selfSum (fun a b => φ (g a b)) s k := by
  unfold selfSum
  rw [map_list_sum, List.map_map]
  rfl

theorem selfSumFwd_hom {N : Type} [AddCommMonoid N] (φ : M →+ N) (g : α → α → M) (s : Stream α)
    (k : Nat) : φ (selfSumFwd g s k) = selfSumFwd (fun a b => φ (g a b)) s k := by
  unfold selfSumFwd
  rw [map_list_sum, List.map_map]
  rfl

theorem selfSumFwd_symm (g : α → α → M) (hg : ∀ a b, g a b = g b a) (s : Stream α) (k : Nat) :
    selfSumFwd g s k = selfSum g s k := by
  rw [selfSumFwd_eq, selfSum_eq]
  congr 1
  apply List.map_congr_left
  intro p _
  rw [hg p.2.2 p.1.2, ite_self]

theorem pairSum_map {γ δ : Type} (g : γ → δ → M) (φ : α → γ) (ψ : β → δ) (s1 : Stream α)
    (s2 : Stream β) (k : Nat) :
    pairSum g (s1.map fun a => (a.1, φ a.2)) (s2.map fun b => (b.1, ψ b.2)) k
      = pairSum (fun a b => g (φ a) (ψ b)) s1 s2 k := by
  simp [pairSum_eq, Function.comp_def]

theorem pairSumAt_map {γ δ : Type} (g : γ → δ → M) (φ : α → γ) (ψ : β → δ) (s1 : Stream α)
    (s2 : Stream β) (d : Int) :
    pairSumAt g (s1.map fun a => (a.1, φ a.2)) (s2.map fun b => (b.1, ψ b.2)) d
      = pairSumAt (fun a b => g (φ a) (ψ b)) s1 s2 d := by
  simp [pairSumAt_eq, Function.comp_def]

theorem selfSum_map {γ : Type} (g : γ → γ → M) (φ : α → γ) (s : Stream α) (k : Nat) :
    selfSum g (s.map fun a => (a.1, φ a.2)) k = selfSum (fun a b => g (φ a) (φ b)) s k := by
  simp [selfSum_eq, selfPairs_map, Function.comp_def]

theorem stream_map {γ : Type} (φ : α → γ) (f : List α) (t : Option (List Int)) :
    stream (f.map φ) t = (stream f t).map fun a => (a.1, φ a.2) := by
  rcases t with _ | t
  · simp only [stream, regular]
    apply List.ext_getElem <;> simp
  · simp only [stream]
    rw [List.zip_map_right]
    rfl

theorem otherStream_eq {α : Type} (f : List α) (t : Option (List Int))
    (hv : ∀ a, t = some a → a.length = f.length) :
    otherStream f.length t = (stream f t).map fun a => (a.1, ()) := by
  rcases t with _ | a
  · simp only [otherStream, stream, regular]
    apply List.ext_getElem
    · simp
    · intro k h1 h2; simp
  · simp only [otherStream, stream, stamps]
    apply List.ext_getElem
    · simp [hv a rfl]
    · intro k h1 h2; simp

theorem addSeq_eq_zipWith (out : List M) (δ : Nat → M) :
    addSeq out δ = List.zipWith (· + ·) out (addSeq (List.replicate out.length 0) δ) := by
  apply List.ext_getElem
  · simp
  · intro k h1 h2
    simp [addSeq]

end

theorem Spec.ValidCross.length_eq {N1 N2 : Nat} {t1 t2 : Option (List Int)}
    (h : ValidCross N1 N2 t1 t2) : N1 = N2 := by
  rcases t1 with _ | a <;> rcases t2 with _ | b <;> simp only [ValidCross] at h
  · exact h
  · exact h.1

theorem Spec.ValidCross.symm {N1 N2 : Nat} {t1 t2 : Option (List Int)}
    (h : ValidCross N1 N2 t1 t2) : ValidCross N2 N1 t2 t1 := by
  rcases t1 with _ | a <;> rcases t2 with _ | b <;> simp only [ValidCross] at h ⊢
  · exact h.symm
  · exact ⟨h.1.symm, h.2.2.1, h.2.1, by omega⟩

theorem Spec.ValidCross.none_iff {N1 N2 : Nat} {t1 t2 : Option (List Int)}
    (h : ValidCross N1 N2 t1 t2) : t1 = none ↔ t2 = none := by
  rcases t1 with _ | a <;> rcases t2 with _ | b <;> simp [ValidCross] at h ⊢

theorem Spec.ValidCross.sum {N1 N2 : Nat} {t1 t2 : Option (List Int)}
    (h : ValidCross N1 N2 t1 t2) : ValidSum N1 t1 t2 := by
  rcases t1 with _ | a <;> rcases t2 with _ | b <;> simp only [ValidCross, ValidSum] at h ⊢
  obtain ⟨h0, h1, h2, h3⟩ := h
  refine ⟨h1, h3, ?_⟩
  rintro rfl
  simp at h2; omega

theorem Spec.ValidCross.right {N1 N2 : Nat} {t1 t2 : Option (List Int)}
    (h : ValidCross N1 N2 t1 t2) : ∀ b, t2 = some b → b.length = N2 := by
  rintro b rfl
  rcases t1 with _ | a <;> simp only [ValidCross] at h
  exact h.2.2.1

theorem Spec.ValidAuto.cross {N : Nat} {t : Option (List Int)} (h : ValidAuto N t) :
    ValidCross N N t t := by
  rcases t with _ | a <;> simp only [ValidCross, ValidAuto] at h ⊢
  exact ⟨trivial, h.1, h.1, h.2⟩

theorem foldl_max_eq {l l' : List Nat} (h : ∀ a, a ∈ l ↔ a ∈ l') :
    l.foldl max 0 = l'.foldl max 0 := by
  apply le_antisymm
  · rcases foldl_max_mem l 0 with h1 | h1
    · rw [h1]; exact Nat.zero_le _
    · exact (foldl_max_le l' 0).2 _ ((h _).mp h1)
  · rcases foldl_max_mem l' 0 with h1 | h1
    · rw [h1]; exact Nat.zero_le _
    · exact (foldl_max_le l 0).2 _ ((h _).mpr h1)

theorem defaultN_symm (N1 N2 : Nat) (hN : N1 = N2) (t1 t2 : Option (List Int)) :
    defaultN N1 t1 t2 = defaultN N2 t2 t1 := by
  subst hN
  rcases t1 with _ | a <;> rcases t2 with _ | b <;> simp only [defaultN]
  congr 1
  apply foldl_max_eq
  intro m
  simp only [List.mem_flatMap, List.mem_map]
  constructor
  · rintro ⟨x, hx, y, hy, rfl⟩
    exact ⟨y, hy, x, hx, by omega⟩
  · rintro ⟨x, hx, y, hy, rfl⟩
    exact ⟨y, hy, x, hx, by omega⟩

/-- Every distance is below the default length. -/
theorem lt_defaultN (N : Nat) (t1 t2 : List Int) {a b : Int} (ha : a ∈ t1) (hb : b ∈ t2) :
    (b - a).natAbs < defaultN N (some t1) (some t2) := by
  simp only [defaultN]
  have := (foldl_max_le (t1.flatMap fun a => t2.map fun b => (b - a).natAbs) 0).2
    (b - a).natAbs (by
      simp only [List.mem_flatMap, List.mem_map]
      exact ⟨a, ha, b, hb, rfl⟩)
  omega

/-- The largest distance below the default length occurs. -/
theorem defaultN_attained (N : Nat) (t1 t2 : List Int) (h1 : t1 ≠ []) (h2 : t2 ≠ []) :
    ∃ a ∈ t1, ∃ b ∈ t2, (b - a).natAbs + 1 = defaultN N (some t1) (some t2) := by
  simp only [defaultN]
  rcases foldl_max_mem (t1.flatMap fun a => t2.map fun b => (b - a).natAbs) 0 with h | h
  · obtain ⟨a, l1, rfl⟩ := List.exists_cons_of_ne_nil h1
    obtain ⟨b, l2, rfl⟩ := List.exists_cons_of_ne_nil h2
    refine ⟨a, by simp, b, by simp, ?_⟩
    have := lt_defaultN N (a :: l1) (b :: l2) (a := a) (b := b) (by simp) (by simp)
    simp only [defaultN] at this
    omega
  · have h' := h
    simp only [List.mem_flatMap, List.mem_map] at h
    obtain ⟨a, ha, b, hb, hab⟩ := h
    exact ⟨a, ha, b, hb, by omega⟩

theorem defaultN_arange (N : Nat) (hN : N ≠ 0) :
    defaultN N (some (arange N)) (some (arange N)) = N := by
  have hmem : ∀ a : Int, a ∈ arange N ↔ 0 ≤ a ∧ a < N := by
    intro a
    simp only [arange, List.mem_map, List.mem_range]
    constructor
    · rintro ⟨i, hi, rfl⟩; simp; omega
    · rintro ⟨h1, h2⟩; exact ⟨a.toNat, by omega, by simp; omega⟩
  have hne : arange N ≠ [] := by
    intro h
    have := (hmem 0).mpr ⟨le_rfl, by omega⟩
    rw [h] at this
    simp at this
  obtain ⟨a, ha, b, hb, hab⟩ := defaultN_attained N (arange N) (arange N) hne hne
  have h1 := (hmem a).mp ha
  have h2 := (hmem b).mp hb
  have h3 := lt_defaultN N (arange N) (arange N) (a := 0) (b := ((N - 1 : Nat) : Int))
    ((hmem _).mpr ⟨le_rfl, by omega⟩) ((hmem _).mpr ⟨by omega, by omega⟩)
  omega

end Cddm
