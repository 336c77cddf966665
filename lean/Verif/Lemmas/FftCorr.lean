import Verif.Lemmas.Dft
import Verif.Lemmas.Api

/-! # FFT correlation: from circular sums to the correlation API -/

namespace Cddm
open Spec

section
variable {α β M : Type} [AddCommMonoid M]

theorem circSum_pos (g : α → β → M) (L : Nat) (s1 : Stream α) (s2 : Stream β)
    (h : ∀ a ∈ s1, ∀ b ∈ s2, |b.1 - a.1| < L) (m : Nat) (hm : m ≤ L) :
    circSum g (L * 2) s1 s2 m = pairSumAt g s1 s2 m := by
  rw [pairSumAt_eq]
  unfold circSum
  congr 1
  apply List.map_congr_left
  intro a ha
  congr 1
  apply List.map_congr_left
  intro b hb
  have := abs_lt.mp (h a ha b hb)
  congr 1
  apply propext
  constructor
  · intro hd
    have : b.1 - a.1 - m = 0 := by
      apply Int.eq_zero_of_abs_lt_dvd hd
      rw [abs_lt]
      push_cast
      omega
    omega
  · intro hd
    rw [hd, sub_self]
    exact dvd_zero _

theorem circSum_neg (g : α → β → M) (L : Nat) (s1 : Stream α) (s2 : Stream β)
    (h : ∀ a ∈ s1, ∀ b ∈ s2, |b.1 - a.1| < L) (m : Nat) (hm : m ≤ L) (hm0 : 1 ≤ m) :
    circSum g (L * 2) s1 s2 (L * 2 - m) = pairSumAt g s1 s2 (-m) := by
  rw [pairSumAt_eq]
  unfold circSum
  congr 1
  apply List.map_congr_left
  intro a ha
  congr 1
  apply List.map_congr_left
  intro b hb
  have := abs_lt.mp (h a ha b hb)
  congr 1
  apply propext
  have hc : ((L * 2 - m : Nat) : Int) = (L : Int) * 2 - m := by omega
  rw [hc]
  have hs : b.1 - a.1 - ((L : Int) * 2 - m) = (b.1 - a.1 + m) + ((L * 2 : Nat) : Int) * (-1) := by
    push_cast; ring
  rw [hs, dvd_add_left (Dvd.intro _ rfl)]
  constructor
  · intro hd
    have : b.1 - a.1 + m = 0 := by
      apply Int.eq_zero_of_abs_lt_dvd hd
      rw [abs_lt]
      push_cast
      omega
    omega
  · intro hd
    rw [hd, neg_add_cancel]
    exact dvd_zero _

theorem circSum_hom {N' : Type} [AddCommMonoid N'] (φ : M →+ N') (g : α → β → M) (N : Nat)
    (s1 : Stream α) (s2 : Stream β) (m : Nat) :
    φ (circSum g N s1 s2 m) = circSum (fun a b => φ (g a b)) N s1 s2 m := by
  unfold circSum
  rw [map_list_sum, List.map_map]
  congr 1
  apply List.map_congr_left
  intro a _
  simp only [Function.comp]
  rw [map_list_sum, List.map_map]
  congr 1
  apply List.map_congr_left
  intro b _
  simp only [Function.comp]
  split_ifs <;> simp

theorem circSum_map {γ δ : Type} (g : γ → δ → M) (φ : α → γ) (ψ : β → δ) (N : Nat)
    (s1 : Stream α) (s2 : Stream β) (m : Nat) :
    circSum g N (s1.map fun a => (a.1, φ a.2)) (s2.map fun b => (b.1, ψ b.2)) m
      = circSum (fun a b => g (φ a) (ψ b)) N s1 s2 m := by
  simp [circSum, Function.comp_def]

/-! ### numpy in-place additions -/

theorem npIadd_range (out : List M) (N : Nat) (g : Nat → M) (h : out.length ≤ N) :
    npIadd out (((List.range N).map g).take out.length) = .ok (addSeq out g) := by
  unfold npIadd
  rw [if_pos (by simp; omega)]
  congr 1
  apply List.ext_getElem
  · simp; omega
  · intro k h1 h2
    simp [addSeq]

theorem revSlice_map {α β : Type} [Add α] [Add β] (x : List α) (f : α → β) (L : Nat) :
    (revSlice x L).map f = revSlice (x.map f) L := by
  simp [revSlice, List.map_take]

theorem iaddTail_range (out : List M) (N : Nat) (g : Nat → M) (h0 : 1 ≤ out.length)
    (h : out.length ≤ N) :
    iaddTail out (revSlice ((List.range N).map g) out.length)
      = .ok (addSeq out fun k => if k = 0 then 0 else g (N - k)) := by
  unfold iaddTail npIadd revSlice revLen
  rw [if_neg (show ¬ out.length = 0 by omega), if_pos (by simp; omega)]
  show Except.ok _ = _
  congr 1
  apply List.ext_getElem
  · simp; omega
  · intro k h1 h2
    simp at h2
    rcases k with _ | k
    · rw [List.getElem_append_left (by simp; omega)]
      simp [addSeq]
    · rw [List.getElem_append_right (by simp)]
      have e : min 1 out.length = 1 := by omega
      simp only [List.getElem_zipWith, List.getElem_drop, List.length_take, e, List.getElem_take,
        List.getElem_reverse, List.getElem_map, List.getElem_range, List.length_map,
        List.length_range, addSeq, List.getElem_mapIdx]
      rw [if_neg (by omega)]
      congr 2
      · omega
      · omega

theorem iaddHead_range (out : List M) (N n : Nat) (g : Nat → M) (h0 : n ≤ out.length)
    (h : n ≤ N) :
    iaddHead out n (((List.range N).map g).take n)
      = .ok (addSeq out fun k => if k < n then g k else 0) := by
  unfold iaddHead npIadd
  rw [if_pos (by simp; omega)]
  show Except.ok _ = _
  congr 1
  apply List.ext_getElem
  · simp; omega
  · intro k h1 h2
    simp at h2
    by_cases hk : k < n
    · rw [List.getElem_append_left (by simp; omega)]
      simp [addSeq, hk]
    · rw [List.getElem_append_right (by simp; omega)]
      have e : min (min n out.length) (min n N) = n := by omega
      simp only [List.getElem_drop, List.length_zipWith, List.length_take, List.length_map,
        List.length_range, addSeq, List.getElem_mapIdx, hk, if_false, add_zero]
      congr 1
      omega

theorem iaddRev_range (out : List M) (N n : Nat) (g : Nat → M) (h1 : 1 ≤ n)
    (h0 : n ≤ out.length) (h : n ≤ N) :
    iaddRev out n (revSlice ((List.range N).map g) n)
      = .ok (addSeq out fun k =>
          if out.length - k < n then g (N - (out.length - k)) else 0) := by
  unfold iaddRev npIadd revSlice revLen
  simp only [show ¬ n = 0 by omega, if_false]
  rw [if_pos (by simp; omega)]
  show Except.ok _ = _
  congr 1
  apply List.ext_getElem
  · simp; omega
  · intro k hk1 hk2
    simp at hk2
    have e : min (min (n - 1) out.length) (min (n - 1) N) = n - 1 := by omega
    rw [List.getElem_reverse]
    by_cases hk : out.length - k < n
    · rw [List.getElem_append_left (by simp; omega)]
      simp only [List.getElem_zipWith, List.length_append, List.length_zipWith, List.length_take,
        List.length_reverse, List.length_map, List.length_range, List.length_drop, e,
        List.getElem_take, List.getElem_reverse, List.getElem_map, List.getElem_range, addSeq,
        List.getElem_mapIdx, hk, if_true]
      congr 2
      · omega
      · omega
    · rw [List.getElem_append_right (by simp; omega)]
      simp only [List.length_append, List.length_zipWith, List.length_take,
        List.length_reverse, List.length_map, List.length_range, List.length_drop, e,
        List.getElem_drop, List.getElem_reverse, addSeq,
        List.getElem_mapIdx, hk, if_false, add_zero]
      congr 1
      omega

/-- The two additions of the real kernels, for a circular array of length `2L`. -/
theorem fold_real_eq (s1 : Stream α) (s2 : Stream β) (g : α → β → M) (L : Nat) (out : List M)
    (hb : ∀ a ∈ s1, ∀ b ∈ s2, |b.1 - a.1| < L) (hL : 1 ≤ L)
    (h1 : 1 ≤ out.length) (h2 : out.length ≤ L + 1) :
    (do
      let o ← npIadd out (((List.range (L * 2)).map (circSum g (L * 2) s1 s2)).take out.length)
      iaddTail o (revSlice ((List.range (L * 2)).map (circSum g (L * 2) s1 s2)) out.length))
    = (.ok (addSeq out fun k => pairSum g s1 s2 k) : Py (List M)) := by
  rw [npIadd_range _ _ _ (by omega)]
  have := iaddTail_range (addSeq out (circSum g (L * 2) s1 s2)) (L * 2) (circSum g (L * 2) s1 s2)
    (by simpa using h1) (by simp; omega)
  rw [addSeq_length] at this
  simp only [bind, Except.bind]
  rw [this, addSeq_addSeq]
  congr 1
  apply addSeq_congr
  intro k hk
  rw [pairSum_split, circSum_pos g L s1 s2 hb k (by omega)]
  by_cases h0 : k = 0
  · simp [h0]
  · rw [if_neg h0, if_neg h0, circSum_neg g L s1 s2 hb k (by omega) (by omega)]

/-- The two additions of the full-size kernels. -/
theorem fold_full_eq (s1 : Stream α) (s2 : Stream β) (g : α → β → M) (L : Nat) (out : List M)
    (hb : ∀ a ∈ s1, ∀ b ∈ s2, |b.1 - a.1| < L) (hL : 1 ≤ L)
    (h1 : out.length % 2 = 1) (h2 : (out.length + 1) / 2 ≤ L + 1) :
    (do
      let o ← iaddHead out ((out.length + 1) / 2)
        (((List.range (L * 2)).map (circSum g (L * 2) s1 s2)).take ((out.length + 1) / 2))
      iaddRev o ((out.length + 1) / 2)
        (revSlice ((List.range (L * 2)).map (circSum g (L * 2) s1 s2)) ((out.length + 1) / 2)))
    = (.ok (addSeq out fun k => pairSumAt g s1 s2 (cellDelay out.length k)) : Py (List M)) := by
  rw [iaddHead_range _ _ _ _ (by omega) (by omega)]
  simp only [bind, Except.bind]
  rw [iaddRev_range _ _ _ _ (by omega) (by simp; omega) (by omega), addSeq_addSeq, addSeq_length]
  congr 1
  apply addSeq_congr
  intro k hk
  unfold cellDelay
  by_cases h0 : k < (out.length + 1) / 2
  · rw [if_pos h0, if_pos h0, if_neg (by omega), add_zero,
      circSum_pos g L s1 s2 hb k (by omega)]
  · rw [if_neg h0, if_neg h0, if_pos (by omega), zero_add,
      circSum_neg g L s1 s2 hb (out.length - k) (by omega) (by omega)]
    congr 1
    omega

/-- The addition of the auto kernels. -/
theorem fold_auto_eq (s1 : Stream α) (s2 : Stream β) (g : α → β → M) (L : Nat) (out : List M)
    (hb : ∀ a ∈ s1, ∀ b ∈ s2, |b.1 - a.1| < L) (hL : 1 ≤ L) (h2 : out.length ≤ L + 1) :
    npIadd out (((List.range (L * 2)).map (circSum g (L * 2) s1 s2)).take out.length)
      = .ok (addSeq out fun k => pairSumAt g s1 s2 k) := by
  rw [npIadd_range _ _ _ (by omega)]
  congr 1
  apply addSeq_congr
  intro k hk
  exact circSum_pos g L s1 s2 hb k (by omega)

theorem pairSumAt_self (g : α → α → M) (s : Stream α) (hs : (s.map Prod.fst).Nodup) (k : Nat) :
    pairSumAt g s s k = selfSumFwd g s k := by
  by_cases hk : k = 0
  · subst hk
    rw [selfSumFwd_zero g s hs, ← selfSum_zero g s hs, ← pairSum_self_zero g s hs, pairSum_split]
    simp
  clear hs
  induction s with
  | nil => rfl
  | cons a s ih =>
    rw [selfSumFwd_eq] at ih ⊢
    rw [pairSumAt_eq] at ih ⊢
    have e : (a.1 - a.1 = (k : Int)) = False := by simp; omega
    have e2 : (|a.1 - a.1| = (k : Int)) = False := by simp; omega
    simp only [selfPairs, List.map_cons, List.sum_cons, List.map_append, List.sum_append,
      List.map_map, Function.comp_def, e, e2, if_false, zero_add, List.sum_map_add]
    rw [ih, ← add_assoc, ← List.sum_map_add]
    congr 2
    apply List.map_congr_left
    intro b _
    rcases lt_trichotomy 0 (b.1 - a.1) with h | h | h
    · rw [abs_of_pos h, if_neg (show ¬ (b.1 - a.1 < 0) by omega),
        if_neg (show ¬ (a.1 - b.1 = (k : Int)) by omega), add_zero]
    · rw [if_neg (show ¬ (a.1 - b.1 = (k : Int)) by omega),
        if_neg (show ¬ (b.1 - a.1 = (k : Int)) by omega), ← h,
        if_neg (by simp; omega)]
      simp
    · rw [abs_of_neg h, if_pos (show (b.1 - a.1 < 0) by omega),
        if_neg (show ¬ (b.1 - a.1 = (k : Int)) by omega), zero_add]
      congr 1
      apply propext
      omega

end

/-! ### Times -/

theorem inspectAuto_some' (N : Nat) {a : List Int} (ha : a ≠ []) (n L : Option Nat) :
    ∃ c : Int, (∀ x ∈ a, c ≤ x) ∧ c ∈ a ∧ inspectAuto N (some a) n L
      = .ok (some (a.map (· - c)), n.getD (L.getD (defaultN N (some a) (some a)))) := by
  obtain ⟨m1, h1, h1m, h1l⟩ := npMin_ok ha
  refine ⟨m1, h1l, h1m, ?_⟩
  cases n <;> cases L <;> simp [inspectAuto, bind, Except.bind, h1, fullLengthAuto_ok N ha]

theorem defaultN_map_sub (N : Nat) (a b : List Int) (c : Int) :
    defaultN N (some (a.map (· - c))) (some (b.map (· - c))) = defaultN N (some a) (some b) := by
  simp [defaultN, List.flatMap_map, Function.comp_def]

/-- The shifted times as they are after argument inspection. -/
structure Shifted (D : Nat) (a b : List Int) : Prop where
  nonneg1 : ∀ x ∈ a, 0 ≤ x
  nonneg2 : ∀ x ∈ b, 0 ≤ x
  close : ∀ x ∈ a, ∀ y ∈ b, |y - x| < D
  zero : 0 ∈ a ∨ 0 ∈ b
  ne1 : a ≠ []
  ne2 : b ≠ []

theorem shifted_of (N : Nat) {a b : List Int} (ha : a ≠ []) (hb : b ≠ []) {c : Int}
    (h1 : ∀ x ∈ a, c ≤ x) (h2 : ∀ x ∈ b, c ≤ x) (h3 : c ∈ a ∨ c ∈ b) :
    Shifted (defaultN N (some a) (some b)) (a.map (· - c)) (b.map (· - c)) := by
  refine ⟨?_, ?_, ?_, ?_, by simpa using ha, by simpa using hb⟩
  · simp only [List.mem_map]; rintro _ ⟨x, hx, rfl⟩; have := h1 x hx; omega
  · simp only [List.mem_map]; rintro _ ⟨x, hx, rfl⟩; have := h2 x hx; omega
  · simp only [List.mem_map]
    rintro _ ⟨x, hx, rfl⟩ _ ⟨y, hy, rfl⟩
    have := lt_defaultN N a b hx hy
    rw [show y - c - (x - c) = y - x by ring, Int.abs_eq_natAbs]
    omega
  · simp only [List.mem_map]
    rcases h3 with h | h
    · exact Or.inl ⟨c, h, by omega⟩
    · exact Or.inr ⟨c, h, by omega⟩

theorem Shifted.symm {D : Nat} {a b : List Int} (h : Shifted D a b) : Shifted D b a :=
  ⟨h.nonneg2, h.nonneg1, fun x hx y hy => by rw [abs_sub_comm]; exact h.close y hy x hx,
    h.zero.symm, h.ne2, h.ne1⟩

theorem Shifted.pos {D : Nat} {a b : List Int} (h : Shifted D a b) : 1 ≤ D := by
  obtain ⟨x, hx⟩ := List.exists_mem_of_ne_nil _ h.ne1
  obtain ⟨y, hy⟩ := List.exists_mem_of_ne_nil _ h.ne2
  have := h.close x hx y hy
  have := abs_nonneg (y - x)
  omega

theorem Shifted.span {D : Nat} {a b : List Int} (h : Shifted D a b) :
    ∀ x ∈ a, ∀ y ∈ a, |x - y| < ((D * 2 : Nat) : Int) := by
  intro x hx y hy
  obtain ⟨z, hz⟩ := List.exists_mem_of_ne_nil _ h.ne2
  have h1 := abs_lt.mp (h.close x hx z hz)
  have h2 := abs_lt.mp (h.close y hy z hz)
  rw [abs_lt]
  push_cast
  omega

theorem Shifted.lt {D : Nat} {a b : List Int} (h : Shifted D a b) :
    ∀ x ∈ a, x < ((D * 2 : Nat) : Int) := by
  intro x hx
  rcases h.zero with hz | hz
  · have := abs_lt.mp (h.span x hx 0 hz); omega
  · have := abs_lt.mp (h.close x hx 0 hz); push_cast; omega

theorem Shifted.fits {D : Nat} {a b : List Int} (h : Shifted D a b) (hn : a.Nodup) :
    Fits (D * 2) a :=
  ⟨hn, fun x hx => ⟨by have := h.nonneg1 x hx; omega, h.lt x hx⟩, h.span⟩

theorem Shifted.fits_neg {D : Nat} {a b : List Int} (h : Shifted D a b) (hn : a.Nodup) :
    Fits (D * 2) (a.map (- ·)) := by
  refine ⟨hn.map neg_injective, ?_, ?_⟩
  · simp only [List.mem_map]
    rintro _ ⟨x, hx, rfl⟩
    have := h.nonneg1 x hx
    have := h.lt x hx
    have := h.pos
    constructor
    · omega
    · push_cast; omega
  · simp only [List.mem_map]
    rintro _ ⟨x, hx, rfl⟩ _ ⟨y, hy, rfl⟩
    rw [show -x - -y = y - x by ring]
    exact h.span y hy x hx

theorem mem_zip_fst {α : Type} {t : List Int} {x : List α} {p : Int × α} (h : p ∈ t.zip x) :
    p.1 ∈ t := (List.of_mem_zip (show (p.1, p.2) ∈ t.zip x from h)).1

theorem nodup_zip {α : Type} {t : List Int} (h : t.Nodup) (x : List α) :
    ((t.zip x).map Prod.fst).Nodup := by
  induction t generalizing x with
  | nil => simp
  | cons a t ih =>
    rcases x with _ | ⟨b, x⟩
    · simp
    · rw [List.nodup_cons] at h
      simp only [List.zip_cons_cons, List.map_cons, List.nodup_cons]
      refine ⟨?_, ih h.2 x⟩
      intro hm
      obtain ⟨p, hp, rfl⟩ := List.mem_map.mp hm
      exact h.1 (mem_zip_fst hp)

end Cddm
