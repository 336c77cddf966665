import Verif.Lemmas.Shift
import Mathlib.Tactic.LinearCombination
import Mathlib.Tactic.NormNum
import Mathlib.Algebra.Field.Rat

/-!
# C11-C16: laws of the correlation functions
-/

namespace Cddm
open Spec

/-! ### C11: the default output length loses no pair -/

section
variable {M : Type} [AddCommMonoid M]

theorem addSeq_zeros (L : Nat) (δ : Nat → M) :
    addSeq (List.replicate L 0) δ = (List.range L).map δ := by
  apply List.ext_getElem <;> simp [addSeq]

theorem stream_mem_times {α : Type} {f : List α} {t : List Int} {a : Int × α}
    (h : a ∈ stream f (some t)) : a.1 ∈ t := by
  simp only [stream] at h
  exact (List.of_mem_zip (a := a.1) (b := a.2) h).1

theorem regular_mem {α : Type} {f : List α} {a : Int × α} (h : a ∈ regular f) :
    0 ≤ a.1 ∧ a.1 < f.length := by
  simp only [regular, List.mem_mapIdx] at h
  obtain ⟨i, hi, rfl⟩ := h
  simp; omega

/-- Every pair of samples is closer than the default length. -/
theorem delay_lt_default {α β : Type} (f1 : List α) (f2 : List β) (t1 t2 : Option (List Int))
    (hv : ValidCross f1.length f2.length t1 t2) :
    ∀ a ∈ stream f1 t1, ∀ b ∈ stream f2 t2, (b.1 - a.1).natAbs < defaultN f1.length t1 t2 := by
  intro a ha b hb
  rcases t1 with _ | u <;> rcases t2 with _ | v <;> simp only [ValidCross] at hv
  · have h1 := regular_mem ha
    have h2 := regular_mem hb
    simp only [defaultN]
    omega
  · exact lt_defaultN _ _ _ (stream_mem_times ha) (stream_mem_times hb)

theorem stream_sum {α : Type} (f : List α) (t : Option (List Int)) (F : α → M)
    (ht : ∀ u, t = some u → u.length = f.length) :
    ((stream f t).map fun a => F a.2).sum = (f.map F).sum := by
  congr 1
  rcases t with _ | u
  · apply List.ext_getElem <;> simp [stream, regular]
  · have := ht u rfl
    apply List.ext_getElem <;> simp [stream, this]

theorem cellDelay_eq_iff (L : Nat) (hL : L % 2 = 1) (d : Int) (hd : |d| < ((L + 1) / 2 : Nat))
    (k : Nat) (hk : k < L) :
    d = cellDelay L k ↔ (if 0 ≤ d then d.toNat else (L + d).toNat) = k := by
  rw [abs_lt] at hd
  unfold cellDelay
  split <;> split <;> omega

theorem pairSumAt_total {α β : Type} (g : α → β → M) (s1 : Stream α) (s2 : Stream β) (L : Nat)
    (hL : L % 2 = 1)
    (h : ∀ a ∈ s1, ∀ b ∈ s2, (b.1 - a.1).natAbs < (L + 1) / 2) :
    ((List.range L).map fun k => pairSumAt g s1 s2 (cellDelay L k)).sum
      = (s1.map fun a => (s2.map fun b => g a.2 b.2).sum).sum := by
  simp only [pairSumAt_eq]
  rw [sum_map_comm (List.range L) s1]
  congr 1
  apply List.map_congr_left
  intro a ha
  rw [sum_map_comm (List.range L) s2]
  congr 1
  apply List.map_congr_left
  intro b hb
  have hab := h a ha b hb
  have hd : |b.1 - a.1| < ((L + 1) / 2 : Nat) := by rw [Int.abs_eq_natAbs]; omega
  refine Eq.trans ?_ (ite_eq_sum L
    (if 0 ≤ b.1 - a.1 then (b.1 - a.1).toNat else (L + (b.1 - a.1)).toNat) ?_ (g a.2 b.2))
  · congr 1
    apply List.map_congr_left
    intro k hk
    congr 1
    exact propext (cellDelay_eq_iff L hL _ hd k (List.mem_range.mp hk))
  · rw [abs_lt] at hd
    split <;> omega

theorem stamps_length (t : List Int) : (stamps t).length = t.length := by simp [stamps]

theorem sum_const_one {α : Type} (l : List α) : (l.map fun _ => 1).sum = l.length := by
  induction l with
  | nil => rfl
  | cons a l ih => rw [List.map_cons, List.sum_cons, ih, List.length_cons, Nat.add_comm]

end

/-- **C11.** Counts of two non-empty time arrays: with `n` omitted every pair is counted (the counts
add up to `N1*N2`), and the last entry is not zero (the array is not longer than needed). -/
theorem C11_cross_count (t1 t2 : List Int) (h1 : t1 ≠ []) (h2 : t2 ≠ []) :
    ∃ out, crossCount (.array t1) (some (.array t2)) none false none = .ok out
      ∧ out.sum = t1.length * t2.length ∧ ∃ c, out.getLast? = some c ∧ 0 < c := by
  refine ⟨_, crossCount_ok _ _ _ _ (by simp [TimeArg.times, h1, h2]), ?_, ?_⟩
  · simp only [startOut, outLen, Option.getD_none, Option.getD_some, addSeq_zeros, TimeArg.times]
    rw [pairSum_total]
    · simp only [stamps_length, List.map_const', List.sum_replicate, smul_eq_mul, mul_one]
    · intro a ha b hb
      simp only [stamps, List.mem_map] at ha hb
      obtain ⟨x, hx, rfl⟩ := ha
      obtain ⟨y, hy, rfl⟩ := hb
      exact lt_defaultN _ _ _ hx hy
  · obtain ⟨a, ha, b, hb, hab⟩ := defaultN_attained 0 t1 t2 h1 h2
    simp only [startOut, outLen, Option.getD_none, Option.getD_some, addSeq_zeros, TimeArg.times]
    rw [← hab, List.range_succ, List.map_append, List.map_singleton, List.getLast?_concat]
    refine ⟨_, rfl, ?_⟩
    rw [pairSum, sum_const_one, List.length_pos_iff_exists_mem]
    refine ⟨((a, ()), (b, ())), ?_⟩
    simp only [List.mem_filter, stamps, List.mem_product, List.mem_map, delay]
    refine ⟨⟨⟨a, ha, rfl⟩, ⟨b, hb, rfl⟩⟩, ?_⟩
    exact decide_eq_true (Int.abs_eq_natAbs (b - a))

example : ([5, 0, 2] : List Int) ≠ [] ∧ crossCount (.array [5, 0, 2]) (some (.array [4, 1])) none
    false none = .ok [0, 3, 1, 0, 2] := ⟨by decide, rfl⟩

/-- C11, signed delays. -/
theorem C11_cross_count_complex (t1 t2 : List Int) (h1 : t1 ≠ []) (h2 : t2 ≠ []) :
    ∃ out, crossCount (.array t1) (some (.array t2)) none true none = .ok out
      ∧ out.sum = t1.length * t2.length := by
  have hd : 0 < defaultN 0 (some t1) (some t2) := by simp only [defaultN]; omega
  have hodd : (2 * defaultN 0 (some t1) (some t2) - 1) % 2 = 1 := by omega
  refine ⟨_, crossCountComplex_ok _ _ _ _ (by simp [TimeArg.times, h1, h2]) (by
    simpa [outLenFull, TimeArg.times] using hodd), ?_⟩
  simp only [startOut, outLenFull, Option.getD_none, Option.getD_some, addSeq_zeros, TimeArg.times]
  rw [pairSumAt_total _ _ _ _ hodd]
  · simp only [stamps_length, List.map_const', List.sum_replicate, smul_eq_mul, mul_one]
  · intro a ha b hb
    simp only [stamps, List.mem_map] at ha hb
    obtain ⟨x, hx, rfl⟩ := ha
    obtain ⟨y, hy, rfl⟩ := hb
    have := lt_defaultN 0 t1 t2 hx hy
    omega

example : crossCount (.array [5, 0, 2]) (some (.array [4, 1])) none true none
    = .ok [0, 1, 1, 0, 1, 1, 0, 0, 2] := rfl

/-- C11, one time array: the counts add up to `N(N+1)/2`. -/
theorem C11_auto_count (t : List Int) (h : t ≠ []) :
    ∃ out, autoCount (.array t) none none = .ok out
      ∧ out.sum = t.length * (t.length + 1) / 2 ∧ ∃ c, out.getLast? = some c ∧ 0 < c := by
  refine ⟨_, autoCount_ok _ _ _ (by simp [TimeArg.times, h]), ?_, ?_⟩
  · simp only [startOut, outLen, Option.getD_none, addSeq_zeros, TimeArg.times]
    rw [selfSum_total]
    · rw [sum_const_one, selfPairs_length, stamps_length]
    · intro a ha b hb
      simp only [stamps, List.mem_map] at ha hb
      obtain ⟨x, hx, rfl⟩ := ha
      obtain ⟨y, hy, rfl⟩ := hb
      exact lt_defaultN _ _ _ hx hy
  · obtain ⟨a, ha, b, hb, hab⟩ := defaultN_attained 0 t t h h
    simp only [startOut, outLen, Option.getD_none, addSeq_zeros, TimeArg.times]
    rw [← hab, List.range_succ, List.map_append, List.map_singleton, List.getLast?_concat]
    refine ⟨_, rfl, ?_⟩
    rw [selfSum, sum_const_one, List.length_pos_iff_exists_mem]
    have hmem : ∀ (l : List (Int × Unit)) (a b), a ∈ l → b ∈ l →
        (a, b) ∈ selfPairs l ∨ (b, a) ∈ selfPairs l := by
      intro l
      induction l with
      | nil => simp
      | cons c l ih =>
        intro a b ha hb
        simp only [selfPairs, List.mem_append, List.mem_map]
        rcases List.mem_cons.mp ha with rfl | ha'
        · exact Or.inl (Or.inl ⟨b, hb, rfl⟩)
        · rcases List.mem_cons.mp hb with rfl | hb'
          · exact Or.inr (Or.inl ⟨a, ha, rfl⟩)
          · rcases ih a b ha' hb' with h | h
            · exact Or.inl (Or.inr h)
            · exact Or.inr (Or.inr h)
    rcases hmem (stamps t) (a, ()) (b, ()) (by simp [stamps, ha]) (by simp [stamps, hb]) with h | h
    · refine ⟨_, List.mem_filter.mpr ⟨h, ?_⟩⟩
      exact decide_eq_true (Int.abs_eq_natAbs (b - a))
    · refine ⟨_, List.mem_filter.mpr ⟨h, ?_⟩⟩
      refine decide_eq_true ?_
      show |a - b| = _
      rw [abs_sub_comm]
      exact Int.abs_eq_natAbs (b - a)

example : autoCount (.array [5, 0, 2]) none none = .ok [3, 0, 1, 1, 0, 1] := rfl

section
variable {R : Type} [CommRing R]

/-- C11 for the data: with `n` omitted all `N1*N2` products end up somewhere in the result of
`cross_correlate`, for regular and irregular data. -/
theorem C11_cross_correlate (f1 f2 : List (Cx R)) (t1 t2 : Option (List Int)) (al : Bool)
    (hv : ValidCross f1.length f2.length t1 t2) :
    ∃ out, crossCorrelate f1 f2 t1 t2 none al none = .ok out
      ∧ out.sum = (f1.map fun a => (f2.map fun b => reProd a b).sum).sum := by
  refine ⟨_, crossCorrelate_ok f1 f2 t1 t2 none al none hv (by simp [outLen]), ?_⟩
  simp only [startOut, outLen, Option.getD_none, addSeq_zeros]
  rw [pairSum_total _ _ _ _ (delay_lt_default f1 f2 t1 t2 hv)]
  rw [← stream_sum f1 t1 (fun a => (f2.map fun b => reProd a b).sum) (ValidCross.right hv.symm)]
  congr 1
  apply List.map_congr_left
  intro a _
  exact stream_sum f2 t2 (fun b => reProd a.2 b) hv.right

theorem C11_auto_correlate (f : List (Cx R)) (t : Option (List Int)) (al : Bool)
    (hv : ValidAuto f.length t) :
    ∃ out, autoCorrelate f t none al none = .ok out
      ∧ out.sum = ((selfPairs f).map fun p => reProd p.1 p.2).sum := by
  refine ⟨_, autoCorrelate_ok f t none al none hv, ?_⟩
  simp only [startOut, outLen, Option.getD_none, addSeq_zeros]
  rw [selfSum_total _ _ _ (delay_lt_default f f t t hv.cross)]
  have : f = (stream f t).map Prod.snd := by
    rcases t with _ | u
    · apply List.ext_getElem <;> simp [stream, regular]
    · have := hv.1
      apply List.ext_getElem <;> simp [stream, this]
  conv_rhs => rw [this, selfPairs_map]
  simp [Function.comp_def]

end

example : crossCorrelate (R := Int) [⟨1, 2⟩, ⟨3, 4⟩] [⟨5, 6⟩, ⟨0, 1⟩] (some [0, 7]) (some [5, -3])
    none false none = .ok [0, 0, 39, 2, 0, 17, 0, 0, 0, 0, 4] := rfl

/-! ### C12: accumulation -/

section
variable {R : Type} [CommRing R]

/-- What a call adds to `aout`: `upd` (the call with `aout = o`) is the entrywise sum of `o` and
`fresh` (the call of the same length without `aout`). -/
def Spec.AddsTo {M : Type} [Add M] (o : List M) (fresh upd : Py (List M)) : Prop :=
  ∃ d, fresh = .ok d ∧ upd = .ok (List.zipWith (· + ·) o d)

theorem additive_of {M : Type} [AddCommMonoid M] {o : List M} {δ : Nat → M}
    {fresh upd : Py (List M)}
    (h1 : fresh = .ok (addSeq (List.replicate o.length 0) δ)) (h2 : upd = .ok (addSeq o δ)) :
    AddsTo o fresh upd :=
  ⟨_, h1, by rw [h2, addSeq_eq_zipWith]⟩

/-- **C12.** Accumulating into `aout` adds exactly what a fresh call of the same length returns:
correlation and difference, real output.  `n` is ignored when `aout` is given. -/
theorem C12_cross (f1 f2 : List (Cx R)) (t1 t2 : Option (List Int)) (n : Option Nat) (al : Bool)
    (o : List R) (hv : ValidCross f1.length f2.length t1 t2)
    (hfast : t1 = none → al = true → o.length ≤ f1.length + 1) :
    AddsTo o (crossCorrelate f1 f2 t1 t2 (some o.length) al none)
        (crossCorrelate f1 f2 t1 t2 n al (some o))
    ∧ AddsTo o (crossDifference f1 f2 t1 t2 (some o.length) al none)
        (crossDifference f1 f2 t1 t2 n al (some o)) :=
  ⟨additive_of (crossCorrelate_ok f1 f2 t1 t2 (some o.length) al none hv hfast)
      (crossCorrelate_ok f1 f2 t1 t2 n al (some o) hv hfast),
   additive_of (crossDifference_ok f1 f2 t1 t2 (some o.length) al none hv hfast)
      (crossDifference_ok f1 f2 t1 t2 n al (some o) hv hfast)⟩

/-- C12, complex output of length `2m-1`. -/
theorem C12_cross_complex (f1 f2 : List (Cx R)) (t1 t2 : Option (List Int)) (n : Option Nat)
    (al : Bool) (m : Nat) (o : List (Cx R)) (hm : 0 < m) (ho : o.length = 2 * m - 1)
    (hv : ValidCross f1.length f2.length t1 t2)
    (hfast : t1 = none → al = true → m ≤ f1.length + 1) :
    AddsTo o (crossCorrelateComplex f1 f2 t1 t2 (some m) al none)
        (crossCorrelateComplex f1 f2 t1 t2 n al (some o)) := by
  have hodd : o.length % 2 = 1 := by omega
  have h2 := crossCorrelateComplex_ok f1 f2 t1 t2 n al (some o) hv hodd
    (fun a b => by have := hfast a b; simp only [outLenFull]; omega)
  have h1 := crossCorrelateComplex_ok f1 f2 t1 t2 (some m) al none hv
    (by simp only [outLenFull]; omega)
    (fun a b => by have := hfast a b; simp only [outLenFull]; omega)
  simp only [outLenFull, startOut, Option.getD_none, Option.getD_some, ← ho] at h1 h2
  exact additive_of h1 h2

theorem C12_auto (f : List (Cx R)) (t : Option (List Int)) (n : Option Nat) (al : Bool)
    (o : List R) (hv : ValidAuto f.length t) :
    AddsTo o (autoCorrelate f t (some o.length) al none) (autoCorrelate f t n al (some o))
    ∧ AddsTo o (autoDifference f t (some o.length) al none)
        (autoDifference f t n al (some o)) :=
  ⟨additive_of (autoCorrelate_ok f t (some o.length) al none hv)
      (autoCorrelate_ok f t n al (some o) hv),
   additive_of (autoDifference_ok f t (some o.length) al none hv)
      (autoDifference_ok f t n al (some o) hv)⟩

theorem C12_auto_complex (f : List (Cx R)) (t : Option (List Int)) (n : Option Nat) (al : Bool)
    (o : List (Cx R)) (hv : ValidAuto f.length t)
    (hfast : t = none → al = true → o.length ≤ f.length + 1) :
    AddsTo o (autoCorrelateComplex f t (some o.length) al none)
      (autoCorrelateComplex f t n al (some o)) :=
  additive_of (autoCorrelateComplex_ok f t (some o.length) al none hv hfast)
      (autoCorrelateComplex_ok f t n al (some o) hv hfast)

theorem C12_sums {M : Type} [AddCommGroup M] (f : List M) (t1 t2 : Option (List Int))
    (n : Option Nat) (inv : Bool) (o : List M) (hv : ValidSum f.length t1 t2)
    (hfast : t1 = none → o.length ≤ f.length + 1) :
    AddsTo o (crossSumApi f t1 t2 (some o.length) false inv none)
      (crossSumApi f t1 t2 n false inv (some o)) :=
  additive_of (crossSumApi_real_ok f t1 t2 (some o.length) inv none hv hfast)
    (crossSumApi_real_ok f t1 t2 n inv (some o) hv hfast)

theorem C12_auto_sum {M : Type} [AddCommGroup M] (K : Type) [Field K] [Module K M] (f : List M)
    (t : Option (List Int)) (n : Option Nat) (o : List M) (hv : ValidAuto f.length t)
    (hfast : t = none → o.length ≤ f.length + 1) :
    AddsTo o (autoSumApi K f t (some o.length) none) (autoSumApi K f t n (some o)) :=
  additive_of (autoSumApi_ok K f t (some o.length) none hv hfast)
    (autoSumApi_ok K f t n (some o) hv hfast)

theorem C12_counts (t1 : TimeArg) (t2 : Option TimeArg) (n : Option Nat) (o : List Nat) :
    AddsTo o (crossCount t1 t2 (some o.length) false none) (crossCount t1 t2 n false (some o))
    ∧ AddsTo o (autoCount t1 (some o.length) none) (autoCount t1 n (some o)) :=
  ⟨additive_of (crossCount_ok t1 t2 (some o.length) none (by simp))
    (crossCount_ok t1 t2 n (some o) (by simp)),
   additive_of (autoCount_ok t1 (some o.length) none (by simp))
    (autoCount_ok t1 n (some o) (by simp))⟩

example : AddsTo (M := Int) [7, 0] (autoCorrelate [⟨1, 2⟩, ⟨3, 4⟩] none (some 2) true none)
    (autoCorrelate [⟨1, 2⟩, ⟨3, 4⟩] none none true (some [7, 0])) :=
  ⟨[30, 11], rfl, rfl⟩

/-- One block of data: time stamps and samples. -/
abbrev Spec.Block (R : Type) := List Int × List (Cx R)

/-- Time stamps and samples of a sequence of blocks, concatenated. -/
def Spec.concat (B : List (Block R)) : Block R := ((B.map Prod.fst).flatten, (B.map Prod.snd).flatten)

/-- Process the listed pairs of blocks one after the other, accumulating into `o`. -/
def Spec.byBlocks (al : Bool) (l : List (Block R × Block R)) (o : List R) : Py (List R) :=
  l.foldlM (fun o b => crossCorrelate b.1.2 b.2.2 (some b.1.1) (some b.2.1) none al (some o)) o

theorem foldlM_addSeq {M β : Type} [AddCommMonoid M] (step : List M → β → Py (List M))
    (δ : β → Nat → M) (l : List β) (h : ∀ b ∈ l, ∀ o, step o b = .ok (addSeq o (δ b)))
    (o : List M) : l.foldlM step o = .ok (addSeq o fun k => (l.map fun b => δ b k).sum) := by
  induction l generalizing o with
  | nil =>
    show Except.ok o = _
    congr 1
    apply List.ext_getElem <;> simp [addSeq]
  | cons b l ih =>
    rw [List.foldlM_cons, h b (by simp)]
    show l.foldlM step _ = _
    rw [ih (fun b hb => h b (List.mem_cons_of_mem _ hb))]
    congr 1
    apply List.ext_getElem
    · simp
    · intro k _ _
      simp [addSeq]

omit [CommRing R] in
theorem concat_stream (B : List (Block R)) (hB : ∀ b ∈ B, b.1.length = b.2.length) :
    (concat B).1.zip (concat B).2 = (B.map fun b => b.1.zip b.2).flatten := by
  induction B with
  | nil => rfl
  | cons b B ih =>
    have hb := hB b (by simp)
    simp only [concat, List.map_cons, List.flatten_cons] at ih ⊢
    rw [List.zip_append hb, ih (fun b hb => hB b (List.mem_cons_of_mem _ hb))]

omit [CommRing R] in
theorem concat_length (B : List (Block R)) (p : Nat)
    (hB : ∀ b ∈ B, b.1.length = p ∧ b.2.length = p) :
    (concat B).1.length = B.length * p ∧ (concat B).2.length = B.length * p := by
  induction B with
  | nil => simp [concat]
  | cons b B ih =>
    have hb := hB b (by simp)
    have := ih (fun b hb => hB b (List.mem_cons_of_mem _ hb))
    simp only [concat, List.map_cons, List.flatten_cons, List.length_append, List.length_cons,
      Nat.add_mul] at this ⊢
    omega

/-- **C12, block processing.**  Cut both streams into blocks of `p` samples; run `cross_correlate`
on every pair of blocks, in any order, accumulating into `o`: the result is the one of a single
call on the concatenated streams. -/
theorem C12_blocks (B1 B2 : List (Block R)) (p : Nat) (hp : p ≠ 0)
    (h1 : ∀ b ∈ B1, b.1.length = p ∧ b.2.length = p)
    (h2 : ∀ b ∈ B2, b.1.length = p ∧ b.2.length = p)
    (hlen : B1.length = B2.length) (h0 : B1 ≠ [])
    (l : List (Block R × Block R)) (hl : l.Perm (B1 ×ˢ B2)) (al : Bool) (o : List R) :
    byBlocks al l o
      = crossCorrelate (concat B1).2 (concat B2).2 (some (concat B1).1) (some (concat B2).1)
          none al (some o) := by
  have c1 := concat_length B1 p h1
  have c2 := concat_length B2 p h2
  have hB : B1.length ≠ 0 := by simpa using h0
  have hne : B1.length * p ≠ 0 := Nat.mul_ne_zero hB hp
  rw [crossCorrelate_ok (concat B1).2 (concat B2).2 (some (concat B1).1) (some (concat B2).1)
    none al (some o)
    ⟨by rw [c1.2, c2.2, hlen], by rw [c1.1, c1.2], by rw [c2.1, c2.2], by rw [c1.2]; exact hne⟩
    (by simp)]
  unfold byBlocks
  rw [foldlM_addSeq _ (fun b k => pairSum reProd (b.1.1.zip b.1.2) (b.2.1.zip b.2.2) k)]
  · congr 1
    show addSeq o _ = addSeq o _
    congr 1
    funext k
    simp only [stream]
    rw [concat_stream B1 (fun b hb => by rw [(h1 b hb).1, (h1 b hb).2]),
      concat_stream B2 (fun b hb => by rw [(h2 b hb).1, (h2 b hb).2]), pairSum_flatten,
      sum_perm hl, sum_product, sum_product]
    simp [Function.comp_def]
  · intro b hb o
    have hm := List.pair_mem_product.mp (hl.mem_iff.mp hb)
    rw [crossCorrelate_ok b.1.2 b.2.2 (some b.1.1) (some b.2.1) none al (some o)
      ⟨by rw [(h1 _ hm.1).2, (h2 _ hm.2).2], by rw [(h1 _ hm.1).1, (h1 _ hm.1).2],
       by rw [(h2 _ hm.2).1, (h2 _ hm.2).2], by rw [(h1 _ hm.1).2]; exact hp⟩ (by simp)]
    rfl

example : byBlocks (R := Int) true
      [(([7], [⟨3, 4⟩]), ([5], [⟨5, 6⟩])), (([0], [⟨1, 2⟩]), ([-3], [⟨0, 1⟩])),
       (([0], [⟨1, 2⟩]), ([5], [⟨5, 6⟩])), (([7], [⟨3, 4⟩]), ([-3], [⟨0, 1⟩]))]
      [0, 0, 0, 0, 0, 0] = .ok [0, 0, 39, 2, 0, 17] := rfl

/-! ### C13: invariance -/

/-- Add a constant to all time stamps. -/
abbrev Spec.later (c : Int) (t : Option (List Int)) : Option (List Int) := t.map (List.map (· + c))

/-- **C13, time shift.**  Adding a constant to all time stamps of both streams changes nothing,
whatever the arguments (rejected calls included). -/
theorem C13_shift_cross (f1 f2 : List (Cx R)) (t1 t2 : Option (List Int)) (n : Option Nat)
    (al : Bool) (c : Int) (aout : Option (List R)) (aoutC : Option (List (Cx R))) :
    crossCorrelate f1 f2 (later c t1) (later c t2) n al aout = crossCorrelate f1 f2 t1 t2 n al aout
    ∧ crossDifference f1 f2 (later c t1) (later c t2) n al aout
        = crossDifference f1 f2 t1 t2 n al aout
    ∧ crossCorrelateComplex f1 f2 (later c t1) (later c t2) n al aoutC
        = crossCorrelateComplex f1 f2 t1 t2 n al aoutC := by
  have h := fun full L => inspectCross_shift f1.length f2.length c t1 t2 n L full
  simp only [shiftT] at h
  refine ⟨?_, ?_, ?_⟩
  · unfold crossCorrelate; rw [h]
  · unfold crossDifference; rw [h]
  · unfold crossCorrelateComplex; rw [h]

theorem C13_shift_auto (f : List (Cx R)) (t : Option (List Int)) (n : Option Nat)
    (al : Bool) (c : Int) (aout : Option (List R)) (aoutC : Option (List (Cx R))) :
    autoCorrelate f (later c t) n al aout = autoCorrelate f t n al aout
    ∧ autoDifference f (later c t) n al aout = autoDifference f t n al aout
    ∧ autoCorrelateComplex f (later c t) n al aoutC = autoCorrelateComplex f t n al aoutC := by
  have h := fun L => inspectAuto_shift f.length c t n L
  simp only [shiftT] at h
  refine ⟨?_, ?_, ?_⟩
  · unfold autoCorrelate; rw [h]
  · unfold autoDifference; rw [h]
  · unfold autoCorrelateComplex; rw [h]

theorem C13_shift_sums {M : Type} [AddCommGroup M] (K : Type) [Field K] [Module K M] (f : List M)
    (t1 t2 : Option (List Int)) (n : Option Nat) (cx inv : Bool) (c : Int)
    (aout : Option (List M)) :
    crossSumApi f (later c t1) (later c t2) n cx inv aout = crossSumApi f t1 t2 n cx inv aout
    ∧ autoSumApi K f (later c t1) n aout = autoSumApi K f t1 n aout := by
  have h := fun full L => inspectCross_shift f.length f.length c t1 t2 n L full
  have h' := fun L => inspectAuto_shift f.length c t1 n L
  simp only [shiftT] at h h'
  refine ⟨?_, ?_⟩
  · unfold crossSumApi; rw [h]
  · unfold autoSumApi autoSumWith; rw [h']

theorem C13_shift_counts (t1 t2 : List Int) (c : Int) (n : Option Nat) (aout : Option (List Nat)) :
    crossCount (.array (t1.map (· + c))) (some (.array (t2.map (· + c)))) n false aout
        = crossCount (.array t1) (some (.array t2)) n false aout
    ∧ autoCount (.array (t1.map (· + c))) n aout = autoCount (.array t1) n aout := by
  constructor
  · simp only [crossCount, TimeArg.times, defaultCount_shift, addCountCross_eq, stamps_shift,
      pairSum_shift, Bool.false_eq_true, if_false]
  · simp only [autoCount, TimeArg.times, defaultCount_shift, addCountAuto_eq, stamps_shift,
      selfSum_shift]

example : crossCorrelate (R := Int) [⟨1, 2⟩, ⟨3, 4⟩] [⟨5, 6⟩, ⟨0, 1⟩] (later 100 (some [0, 7]))
    (later 100 (some [5, -3])) (some 6) false none = .ok [0, 0, 39, 2, 0, 17] := rfl

theorem perm_default {t1 t1' t2 t2' : List Int} (h1 : t1.Perm t1') (h2 : t2.Perm t2') (N N' : Nat) :
    defaultN N (some t1) (some t2) = defaultN N' (some t1') (some t2') := by
  simp only [defaultN]
  congr 1
  apply foldl_max_eq
  intro m
  simp only [List.mem_flatMap, List.mem_map, h1.mem_iff, h2.mem_iff]

theorem perm_fst {α β : Type} {a a' : List α} {b b' : List β} (h : (a.zip b).Perm (a'.zip b'))
    (h1 : a.length = b.length) (h2 : a'.length = b'.length) : a.Perm a' ∧ b.Perm b' := by
  constructor
  · have := h.map Prod.fst
    rwa [List.map_fst_zip (by omega), List.map_fst_zip (by omega)] at this
  · have := h.map Prod.snd
    rwa [List.map_snd_zip (by omega), List.map_snd_zip (by omega)] at this

/-- **C13, frame order.**  Reordering the frames of either stream together with their time stamps
changes nothing. -/
theorem C13_reorder_cross (f1 f2 f1' f2' : List (Cx R)) (t1 t2 t1' t2' : List Int)
    (h1 : (t1.zip f1).Perm (t1'.zip f1')) (h2 : (t2.zip f2).Perm (t2'.zip f2'))
    (l1 : t1.length = f1.length) (l1' : t1'.length = f1'.length)
    (l2 : t2.length = f2.length) (l2' : t2'.length = f2'.length)
    (hl : f1.length = f2.length) (h0 : f1 ≠ [])
    (n : Option Nat) (al al' : Bool) (aout : Option (List R)) :
    crossCorrelate f1 f2 (some t1) (some t2) n al aout
        = crossCorrelate f1' f2' (some t1') (some t2') n al' aout
    ∧ crossDifference f1 f2 (some t1) (some t2) n al aout
        = crossDifference f1' f2' (some t1') (some t2') n al' aout := by
  have p1 := perm_fst h1 l1 l1'
  have p2 := perm_fst h2 l2 l2'
  have e1 := p1.2.length_eq
  have e2 := p2.2.length_eq
  have hN : f1.length ≠ 0 := by simpa using h0
  have v : ValidCross f1.length f2.length (some t1) (some t2) := ⟨hl, l1, l2, hN⟩
  have v' : ValidCross f1'.length f2'.length (some t1') (some t2') :=
    ⟨by omega, l1', l2', by omega⟩
  constructor
  · rw [crossCorrelate_ok _ _ _ _ n al aout v (by simp),
      crossCorrelate_ok _ _ _ _ n al' aout v' (by simp),
      perm_default p1.1 p2.1 f1.length f1'.length]
    congr 2
    funext k
    exact pairSum_perm _ h1 h2 k
  · rw [crossDifference_ok _ _ _ _ n al aout v (by simp),
      crossDifference_ok _ _ _ _ n al' aout v' (by simp),
      perm_default p1.1 p2.1 f1.length f1'.length]
    congr 2
    funext k
    exact pairSum_perm _ h1 h2 k

theorem C13_reorder_cross_complex (f1 f2 f1' f2' : List (Cx R)) (t1 t2 t1' t2' : List Int)
    (h1 : (t1.zip f1).Perm (t1'.zip f1')) (h2 : (t2.zip f2).Perm (t2'.zip f2'))
    (l1 : t1.length = f1.length) (l1' : t1'.length = f1'.length)
    (l2 : t2.length = f2.length) (l2' : t2'.length = f2'.length)
    (hl : f1.length = f2.length) (h0 : f1 ≠ [])
    (n : Option Nat) (al al' : Bool) (aout : Option (List (Cx R)))
    (hodd : outLenFull n aout (defaultN f1.length (some t1) (some t2)) % 2 = 1) :
    crossCorrelateComplex f1 f2 (some t1) (some t2) n al aout
        = crossCorrelateComplex f1' f2' (some t1') (some t2') n al' aout := by
  have p1 := perm_fst h1 l1 l1'
  have p2 := perm_fst h2 l2 l2'
  have e1 := p1.2.length_eq
  have e2 := p2.2.length_eq
  have hN : f1.length ≠ 0 := by simpa using h0
  have v : ValidCross f1.length f2.length (some t1) (some t2) := ⟨hl, l1, l2, hN⟩
  have v' : ValidCross f1'.length f2'.length (some t1') (some t2') :=
    ⟨by omega, l1', l2', by omega⟩
  rw [crossCorrelateComplex_ok _ _ _ _ n al aout v hodd (by simp),
    crossCorrelateComplex_ok _ _ _ _ n al' aout v'
      (by rw [perm_default p1.1.symm p2.1.symm f1'.length f1.length]; exact hodd) (by simp),
    perm_default p1.1 p2.1 f1.length f1'.length]
  congr 2
  funext k
  exact pairSumAt_perm _ h1 h2 _

theorem C13_reorder_auto (f f' : List (Cx R)) (t t' : List Int)
    (h : (t.zip f).Perm (t'.zip f')) (l : t.length = f.length) (l' : t'.length = f'.length)
    (h0 : f ≠ []) (n : Option Nat) (al al' : Bool) (aout : Option (List R)) :
    autoCorrelate f (some t) n al aout = autoCorrelate f' (some t') n al' aout
    ∧ autoDifference f (some t) n al aout = autoDifference f' (some t') n al' aout := by
  have p := perm_fst h l l'
  have e := p.2.length_eq
  have hN : f.length ≠ 0 := by simpa using h0
  constructor
  · rw [autoCorrelate_ok f (some t) n al aout ⟨l, hN⟩, autoCorrelate_ok f' (some t') n al' aout ⟨l', by omega⟩,
      perm_default p.1 p.1 f.length f'.length]
    congr 2
    funext k
    exact selfSum_perm _ reProd_comm h k
  · rw [autoDifference_ok f (some t) n al aout ⟨l, hN⟩, autoDifference_ok f' (some t') n al' aout ⟨l', by omega⟩,
      perm_default p.1 p.1 f.length f'.length]
    congr 2
    funext k
    exact selfSum_perm _ dist2_comm h k

/-- The complex auto-correlation of frames with distinct times does not depend on their order. -/
theorem C13_reorder_auto_complex (f f' : List (Cx R)) (t t' : List Int)
    (h : (t.zip f).Perm (t'.zip f')) (l : t.length = f.length) (l' : t'.length = f'.length)
    (h0 : f ≠ []) (hd : t.Nodup) (n : Option Nat) (al al' : Bool) (aout : Option (List (Cx R))) :
    autoCorrelateComplex f (some t) n al aout = autoCorrelateComplex f' (some t') n al' aout := by
  have p := perm_fst h l l'
  have e := p.2.length_eq
  have hN : f.length ≠ 0 := by simpa using h0
  rw [autoCorrelateComplex_ok f (some t) n al aout ⟨l, hN⟩ (by simp),
    autoCorrelateComplex_ok f' (some t') n al' aout ⟨l', by omega⟩ (by simp),
    perm_default p.1 p.1 f.length f'.length]
  congr 2
  funext k
  by_cases hk : k = 0
  · subst hk
    rw [selfSumFwd_zero, selfSumFwd_zero]
    · exact sum_perm h _
    · simp only [stream]; rw [List.map_fst_zip (by omega)]; exact p.1.nodup_iff.mp hd
    · simp only [stream]; rw [List.map_fst_zip (by omega)]; exact hd
  · exact selfSumFwd_perm _ h k hk

theorem C13_reorder_counts (t1 t2 t1' t2' : List Int) (h1 : t1.Perm t1') (h2 : t2.Perm t2')
    (n : Option Nat) (aout : Option (List Nat)) (h : aout = none → n = none → t1 ≠ [] ∧ t2 ≠ []) :
    crossCount (.array t1) (some (.array t2)) n false aout
        = crossCount (.array t1') (some (.array t2')) n false aout
    ∧ autoCount (.array t1) n aout = autoCount (.array t1') n aout := by
  have q : ∀ {a b : List Int}, a.Perm b → a ≠ [] → b ≠ [] := by
    intro a b hab ha hb
    subst hb
    exact ha (List.perm_nil.mp hab)
  constructor
  · rw [crossCount_ok _ _ n aout (by simpa [TimeArg.times] using h),
      crossCount_ok (.array t1') (some (.array t2')) n aout (fun a b => ⟨q h1 (h a b).1, q h2 (h a b).2⟩)]
    simp only [TimeArg.times, Option.getD_some]
    rw [perm_default h1 h2 0 0]
    congr 2
    funext k
    exact pairSum_perm _ (h1.map _) (h2.map _) k
  · rw [autoCount_ok (.array t1) n aout (fun a b => (h a b).1),
      autoCount_ok (.array t1') n aout (fun a b => q h1 (h a b).1)]
    simp only [TimeArg.times]
    rw [perm_default h1 h1 0 0]
    congr 2
    funext k
    exact selfSum_perm _ (fun _ _ => rfl) (h1.map _) k

/-- C13, frame order, sums: the summed stream may be reordered together with its times, the other
time array in any way. -/
theorem C13_reorder_sums {M : Type} [AddCommGroup M] (f f' : List M) (t1 t2 t1' t2' : List Int)
    (h1 : (t1.zip f).Perm (t1'.zip f')) (h2 : t2.Perm t2')
    (l1 : t1.length = f.length) (l1' : t1'.length = f'.length) (h0 : f ≠ []) (h20 : t2 ≠ [])
    (n : Option Nat) (inv : Bool) (aout : Option (List M)) :
    crossSumApi f (some t1) (some t2) n false inv aout
      = crossSumApi f' (some t1') (some t2') n false inv aout
    ∧ (outLenFull n aout (defaultN f.length (some t1) (some t2)) % 2 = 1 →
        crossSumApi f (some t1) (some t2) n true inv aout
          = crossSumApi f' (some t1') (some t2') n true inv aout) := by
  have p1 := perm_fst h1 l1 l1'
  have e1 := p1.2.length_eq
  have hN : f.length ≠ 0 := by simpa using h0
  have h20' : t2' ≠ [] := by
    rintro rfl; exact h20 (List.perm_nil.mp h2)
  have ed := perm_default p1.1 h2 f.length f'.length
  constructor
  · rw [crossSumApi_real_ok f (some t1) (some t2) n inv aout ⟨l1, hN, h20⟩ (by simp),
      crossSumApi_real_ok f' (some t1') (some t2') n inv aout ⟨l1', by omega, h20'⟩ (by simp), ed]
    congr 2
    funext k
    exact pairSum_perm _ h1 (h2.map _) k
  · intro hodd
    rw [crossSumApi_full_ok f (some t1) (some t2) n inv aout ⟨l1, hN, h20⟩ hodd (by simp),
      crossSumApi_full_ok f' (some t1') (some t2') n inv aout ⟨l1', by omega, h20'⟩
        (by rw [← ed]; exact hodd) (by simp), ed]
    congr 2
    funext k
    exact pairSumAt_perm _ h1 (h2.map _) _

/-- C13, signed counts: invariant under a common shift of the times and under reordering. -/
theorem C13_counts_complex (t1 t2 t1' t2' : List Int) (h1 : t1.Perm t1') (h2 : t2.Perm t2')
    (c : Int) (n : Option Nat) (aout : Option (List Nat))
    (h : aout = none → n = none → t1 ≠ [] ∧ t2 ≠ [])
    (hodd : outLenFull n aout (defaultN 0 (some t1) (some t2)) % 2 = 1) :
    crossCount (.array (t1'.map (· + c))) (some (.array (t2'.map (· + c)))) n true aout
      = crossCount (.array t1) (some (.array t2)) n true aout := by
  have q : ∀ {a b : List Int}, a.Perm b → a ≠ [] → b ≠ [] := by
    intro a b hab ha hb
    subst hb
    exact ha (List.perm_nil.mp hab)
  have ed : defaultN 0 (some (t1'.map (· + c))) (some (t2'.map (· + c)))
      = defaultN 0 (some t1) (some t2) := by
    rw [← perm_default (h1.map (· + c)) (h2.map (· + c)) 0 0]
    simp [defaultN, List.flatMap_map, Function.comp_def]
  rw [crossCountComplex_ok (.array (t1'.map (· + c))) (some (.array (t2'.map (· + c)))) n aout
      (fun a b => ⟨by simpa [TimeArg.times] using q h1 (h a b).1,
        by simpa [TimeArg.times] using q h2 (h a b).2⟩)
      (by simp only [TimeArg.times, Option.getD_some, ed]; exact hodd),
    crossCountComplex_ok (.array t1) (some (.array t2)) n aout h hodd]
  simp only [TimeArg.times, Option.getD_some, ed, stamps_shift]
  congr 2
  funext k
  rw [pairSumAt_shift]
  exact (pairSumAt_perm _ (h1.map _) (h2.map _) _).symm

example : crossCorrelate (R := Int) [⟨3, 4⟩, ⟨1, 2⟩] [⟨5, 6⟩, ⟨0, 1⟩] (some [7, 0]) (some [5, -3])
    (some 6) true none = .ok [0, 0, 39, 2, 0, 17] := rfl

/-- **C13, exchange of the streams.**  The real results do not change, whatever the arguments. -/
theorem C13_swap (f1 f2 : List (Cx R)) (t1 t2 : Option (List Int)) (n : Option Nat) (al : Bool)
    (aout : Option (List R)) (hv : ValidCross f1.length f2.length t1 t2)
    (hfast : t1 = none → al = true → outLen n aout f1.length ≤ f1.length + 1) :
    crossCorrelate f2 f1 t2 t1 n al aout = crossCorrelate f1 f2 t1 t2 n al aout
    ∧ crossDifference f2 f1 t2 t1 n al aout = crossDifference f1 f2 t1 t2 n al aout := by
  have hl := hv.length_eq
  have hfast' : t2 = none → al = true → outLen n aout f2.length ≤ f2.length + 1 := by
    intro h; rw [← hl]; exact hfast (hv.none_iff.mpr h)
  constructor
  · rw [crossCorrelate_ok _ _ _ _ n al aout hv hfast,
      crossCorrelate_ok _ _ _ _ n al aout hv.symm hfast', defaultN_symm _ _ hl.symm]
    congr 2
    funext k
    rw [pairSum_swap]
    exact pairSum_congr (fun a b => reProd_comm b a) _ _ _
  · rw [crossDifference_ok _ _ _ _ n al aout hv hfast,
      crossDifference_ok _ _ _ _ n al aout hv.symm hfast', defaultN_symm _ _ hl.symm]
    congr 2
    funext k
    rw [pairSum_swap]
    exact pairSum_congr (fun a b => dist2_comm b a) _ _ _

omit [CommRing R] in
theorem C13_swap_rejects (f1 f2 : List (Cx R)) (t1 t2 : Option (List Int)) :
    ValidCross f1.length f2.length t1 t2 ↔ ValidCross f2.length f1.length t2 t1 :=
  ⟨ValidCross.symm, ValidCross.symm⟩

/-- C13, exchange of the streams, complex output: delay `d` of one is the conjugate of delay `-d`
of the other. -/
theorem C13_swap_complex (f1 f2 : List (Cx R)) (t1 t2 : Option (List Int)) (n : Option Nat)
    (al : Bool) (hv : ValidCross f1.length f2.length t1 t2)
    (hn : n ≠ some 0) (h0 : n = none → f1.length ≠ 0)
    (hfast : t1 = none → al = true → n.getD f1.length ≤ f1.length + 1) :
    ∃ out out', crossCorrelateComplex f1 f2 t1 t2 n al none = .ok out
      ∧ crossCorrelateComplex f2 f1 t2 t1 n al none = .ok out'
      ∧ out.length = 2 * (n.getD (defaultN f1.length t1 t2)) - 1 ∧ out'.length = out.length
      ∧ ∀ d : Int, |d| < (n.getD (defaultN f1.length t1 t2) : Nat) →
          ∃ v, pyGet out d = some v ∧ pyGet out' (-d) = some v.conj := by
  have hl := hv.length_eq
  have hpos : 0 < n.getD (defaultN f1.length t1 t2) := by
    rcases n with _ | n
    · have := h0 rfl
      rcases t1 with _ | a <;> rcases t2 with _ | b <;> simp only [defaultN, Option.getD_none] <;>
        omega
    · simp only [Option.getD_some]
      have : n ≠ 0 := by simpa using hn
      omega
  have hL : outLenFull n (none : Option (List (Cx R))) (defaultN f1.length t1 t2)
      = 2 * (n.getD (defaultN f1.length t1 t2)) - 1 := by cases n <;> rfl
  have hodd : outLenFull n (none : Option (List (Cx R))) (defaultN f1.length t1 t2) % 2 = 1 := by
    omega
  have hf : ∀ N, (outLenFull n (none : Option (List (Cx R))) N + 1) / 2 ≤ n.getD N := by
    intro N; cases n <;> simp only [outLenFull, Option.getD_none, Option.getD_some] <;> omega
  have e1 := crossCorrelateComplex_ok f1 f2 t1 t2 n al none hv hodd
    (fun a b => le_trans (hf _) (hfast a b))
  have e2 := crossCorrelateComplex_ok f2 f1 t2 t1 n al none hv.symm
    (by rw [defaultN_symm _ _ hl.symm]; exact hodd)
    (fun a b => le_trans (hf _) (by rw [← hl]; exact hfast (hv.none_iff.mpr a) b))
  rw [defaultN_symm _ _ hl.symm] at e2
  obtain ⟨o1, a1, b1, c1⟩ := ok_entries_full (fun d => pairSumAt cxProd (stream f1 t1)
    (stream f2 t2) d) e1 (startOut_length_full _ _ _) (fun _ _ => rfl) hodd
  obtain ⟨o2, a2, b2, c2⟩ := ok_entries_full (fun d => pairSumAt cxProd (stream f2 t2)
    (stream f1 t1) d) e2 (startOut_length_full _ _ _) (fun _ _ => rfl) hodd
  refine ⟨o1, o2, a1, a2, by rw [b1, hL], by rw [b1, b2], fun d hd => ?_⟩
  obtain ⟨k1, -, g1⟩ := c1 d (by rw [hL]; omega)
  obtain ⟨k2, -, g2⟩ := c2 (-d) (by rw [hL, abs_neg]; omega)
  refine ⟨_, g1, ?_⟩
  rw [g2]
  congr 1
  simp only [start, zero_add]
  rw [pairSumAt_swap, neg_neg]
  have := pairSumAt_hom (Cx.conjHom (R := R)) cxProd (stream f1 t1) (stream f2 t2) d
  refine Eq.trans ?_ this.symm
  refine pairSumAt_congr (fun a b => ?_) _ _ _
  show cxProd b a = (cxProd a b).conj
  ext <;> simp [cxProd] <;> ring

example : crossCorrelateComplex (R := Int) [⟨1, 2⟩, ⟨3, 4⟩] [⟨5, 6⟩, ⟨0, 1⟩] none none none true none
    = .ok [⟨21, -1⟩, ⟨2, 1⟩, ⟨39, -2⟩] := rfl
example : crossCorrelateComplex (R := Int) [⟨5, 6⟩, ⟨0, 1⟩] [⟨1, 2⟩, ⟨3, 4⟩] none none none true none
    = .ok [⟨21, 1⟩, ⟨39, 2⟩, ⟨2, -1⟩] := rfl

/-! ### C14: difference = squares - 2 correlation -/

theorem dist2_expand (a b : Cx R) : dist2 a b = a.abs2 + b.abs2 + (-(reProd a b + reProd a b)) := by
  simp [dist2, reProd, Cx.abs2]; ring

theorem crossSum_left {α M : Type} [AddCommMonoid M] (φ : α → M) (f1 : List α) (f2 : List α)
    (t1 t2 : Option (List Int)) (h2 : ∀ b, t2 = some b → b.length = f2.length)
    (hl : f1.length = f2.length) (k : Nat) :
    pairSum (fun a _ => a) (stream (f1.map φ) t1) (otherStream (f1.map φ).length t2) k
      = pairSum (fun a _ => φ a) (stream f1 t1) (stream f2 t2) k := by
  rw [List.length_map, hl, otherStream_eq f2 t2 h2, stream_map]
  exact pairSum_map (fun (a : M) (_ : Unit) => a) φ (fun _ => ()) _ _ k

theorem pairSum_neg' {α β M : Type} [AddCommGroup M] (g : α → β → M) (s1 : Stream α)
    (s2 : Stream β) (k : Nat) : pairSum (fun a b => -(g a b)) s1 s2 k = -pairSum g s1 s2 k :=
  (pairSum_hom (-AddMonoidHom.id M) g s1 s2 k).symm

theorem selfSum_neg' {α M : Type} [AddCommGroup M] (g : α → α → M) (s : Stream α) (k : Nat) :
    selfSum (fun a b => -(g a b)) s k = -selfSum g s k :=
  (selfSum_hom (-AddMonoidHom.id M) g s k).symm

theorem addSeq_zeros_get {M : Type} [AddCommMonoid M] (L : Nat) (δ : Nat → M) (k : Nat)
    (hk : k < L) : (addSeq (List.replicate L 0) δ)[k]? = some (δ k) := by
  rw [addSeq_zeros]; simp [hk]

/-- **C14.** `cross_difference = cross_sum(|f1|²) + cross_sum(|f2|²) - 2 cross_correlate` at every
delay, for regular and irregular data. -/
theorem C14_cross (f1 f2 : List (Cx R)) (t1 t2 : Option (List Int)) (n : Nat) (al : Bool)
    (hv : ValidCross f1.length f2.length t1 t2) (hfast : t1 = none → n ≤ f1.length + 1) :
    ∃ d s1 s2 c : List R,
      crossDifference f1 f2 t1 t2 (some n) al none = .ok d
      ∧ crossSumApi (f1.map Cx.abs2) t1 t2 (some n) false false none = .ok s1
      ∧ crossSumApi (f2.map Cx.abs2) t2 t1 (some n) false false none = .ok s2
      ∧ crossCorrelate f1 f2 t1 t2 (some n) al none = .ok c
      ∧ d.length = n ∧ s1.length = n ∧ s2.length = n ∧ c.length = n
      ∧ ∀ k, k < n → d.getD k 0 = s1.getD k 0 + s2.getD k 0 - 2 * c.getD k 0 := by
  have hl := hv.length_eq
  have r1 := crossSumApi_real_ok (f1.map Cx.abs2) t1 t2 (some n) false none
    (by simpa using hv.sum) (by simpa [outLen] using hfast)
  have r2 := crossSumApi_real_ok (f2.map Cx.abs2) t2 t1 (some n) false none
    (by simpa using hv.symm.sum) (by rw [← hv.none_iff, List.length_map, ← hl]; exact hfast)
  refine ⟨_, _, _, _, crossDifference_ok f1 f2 t1 t2 (some n) al none hv (fun h _ => hfast h), r1, r2,
    crossCorrelate_ok f1 f2 t1 t2 (some n) al none hv (fun h _ => hfast h), ?_, ?_, ?_, ?_, ?_⟩
  · simp [startOut, outLen]
  · simp [startOut, outLen]
  · simp [startOut, outLen]
  · simp [startOut, outLen]
  intro k hk
  simp only [startOut, outLen, Option.getD_none, List.getD_eq_getElem?_getD,
    addSeq_zeros_get _ _ k hk, Option.getD_some]
  rw [crossSum_left _ f1 f2 t1 t2 hv.right hl, crossSum_left _ f2 f1 t2 t1 hv.symm.right hl.symm,
    pairSum_swap (fun a _ => Cx.abs2 a) (stream f2 t2)]
  simp only [show (dist2 : Cx R → Cx R → R) = _ from funext fun a => funext fun b => dist2_expand a b]
  rw [pairSum_add, pairSum_add, pairSum_neg', pairSum_add]
  ring

example : crossDifference (R := Int) [⟨1, 2⟩, ⟨3, 4⟩] [⟨5, 6⟩, ⟨0, 1⟩] none none (some 2) true none
    = .ok [32 + 18, 2 + 8] := rfl

/-- C14, one stream with distinct times: `auto_difference = 2 auto_sum(|f|²) - 2 auto_correlate`. -/
theorem C14_auto {K : Type} [Field K] (h2 : (2 : K) ≠ 0) (f : List (Cx K))
    (t : Option (List Int)) (n : Nat) (al : Bool)
    (hv : ValidAuto f.length t) (hd : ∀ u, t = some u → u.Nodup)
    (hfast : t = none → n ≤ f.length + 1) :
    ∃ d s c : List K,
      autoDifference f t (some n) al none = .ok d
      ∧ autoSumApi K (f.map Cx.abs2) t (some n) none = .ok s
      ∧ autoCorrelate f t (some n) al none = .ok c
      ∧ d.length = n ∧ s.length = n ∧ c.length = n
      ∧ ∀ k, k < n → d.getD k 0 = 2 * s.getD k 0 - 2 * c.getD k 0 := by
  have r1 := autoSumApi_ok K (f.map Cx.abs2) t (some n) none (by simpa using hv)
    (by simpa [outLen] using hfast)
  refine ⟨_, _, _, autoDifference_ok f t (some n) al none hv, r1,
    autoCorrelate_ok f t (some n) al none hv, ?_, ?_, ?_, ?_⟩
  · simp [startOut, outLen]
  · simp [startOut, outLen]
  · simp [startOut, outLen]
  intro k hk
  have hcr := hv.cross.right
  simp only [startOut, outLen, Option.getD_none, List.getD_eq_getElem?_getD,
    addSeq_zeros_get _ _ k hk, Option.getD_some]
  rw [crossSum_left _ f f t t hcr rfl]
  simp only [show (dist2 : Cx K → Cx K → K) = _ from funext fun a => funext fun b => dist2_expand a b]
  rw [selfSum_add, selfSum_add, selfSum_neg', selfSum_add]
  have hnd : ((stream f t).map Prod.fst).Nodup := by
    rcases t with _ | u
    · have : (stream f none).map Prod.fst = (List.range f.length).map Int.ofNat := by
        apply List.ext_getElem <;> simp [stream, regular]
      rw [this]
      exact List.nodup_range.map (fun a b h => by simpa using h)
    · simp only [stream]
      rw [List.map_fst_zip (by have := hv.1; omega)]
      exact hd u rfl
  by_cases hk0 : k = 0
  · subst hk0
    simp only [if_true]
    rw [pairSum_self_zero _ _ hnd, selfSum_zero _ _ hnd, selfSum_zero _ _ hnd,
      selfSum_zero _ _ hnd]
    ring
  · rw [if_neg hk0, pairSum_self_pos _ _ k hk0, selfSum_add, smul_eq_mul]
    have : (2 : K) * (1 / 2 * (selfSum (fun a _ => Cx.abs2 a) (stream f t) k
        + selfSum (fun _ b => Cx.abs2 b) (stream f t) k))
        = selfSum (fun a _ => Cx.abs2 a) (stream f t) k
        + selfSum (fun _ b => Cx.abs2 b) (stream f t) k := by
      rw [← mul_assoc, mul_one_div_cancel h2, one_mul]
    rw [this]
    ring

example : autoDifference (R := ℚ) [⟨1, 2⟩, ⟨3, 4⟩] (some [3, 1]) (some 3) true none
    = .ok [0, 0, 8] := by
  simp [autoDifference, inspectAuto, npMin, bind, Except.bind, defaultOut, checkDims, orUB,
    autoDiff, forRange, forRange', addAt, pyIdx, List.range_succ, List.range'_succ]
  norm_num

/-! ### C15: real = folded complex -/

/-- **C15.** Entry 0 of the real cross-correlation is the real part of entry 0 of the complex one;
entry `k` is the sum of the real parts of delays `k` and `-k`. -/
theorem C15_cross (f1 f2 : List (Cx R)) (t1 t2 : Option (List Int)) (n : Nat) (al al' : Bool)
    (hv : ValidCross f1.length f2.length t1 t2) (hn : 0 < n)
    (hfast : t1 = none → n ≤ f1.length + 1) :
    ∃ (r : List R) (c : List (Cx R)), crossCorrelate f1 f2 t1 t2 (some n) al none = .ok r
      ∧ crossCorrelateComplex f1 f2 t1 t2 (some n) al' none = .ok c
      ∧ r.length = n ∧ c.length = 2 * n - 1
      ∧ (∃ z, pyGet c 0 = some z ∧ r[0]? = some z.re)
      ∧ ∀ k : Nat, 0 < k → k < n → ∃ p m, pyGet c k = some p ∧ pyGet c (-k) = some m
          ∧ r[k]? = some (p.re + m.re) := by
  have hodd : outLenFull (some n) (none : Option (List (Cx R))) (defaultN f1.length t1 t2) % 2 = 1 := by
    simp only [outLenFull]; omega
  obtain ⟨r, r1, r2, r3⟩ := ok_entries (crossCorrelate_ok f1 f2 t1 t2 (some n) al none hv
    (fun h _ => hfast h)) (startOut_length _ _ _)
  obtain ⟨c, c1, c2, c3⟩ := ok_entries_full (fun d => pairSumAt cxProd (stream f1 t1)
    (stream f2 t2) d) (crossCorrelateComplex_ok f1 f2 t1 t2 (some n) al' none hv hodd
    (fun h _ => by have := hfast h; simp only [outLenFull]; omega)) (startOut_length_full _ _ _)
    (fun _ _ => rfl) hodd
  simp only [outLen, outLenFull] at r2 c2 c3
  have hre : ∀ d, (pairSumAt cxProd (stream f1 t1) (stream f2 t2) d).re
      = pairSumAt reProd (stream f1 t1) (stream f2 t2) d := fun d =>
    pairSumAt_hom (Cx.reHom (R := R)) cxProd (stream f1 t1) (stream f2 t2) d
  refine ⟨r, c, r1, c1, r2, c2, ?_, fun k hk hkn => ?_⟩
  · obtain ⟨i, -, gi⟩ := c3 0 (by simp; omega)
    refine ⟨_, gi, ?_⟩
    rw [List.getElem?_eq_getElem (by omega), r3]
    simp only [start, zero_add, hre, pairSum_split, if_true, add_zero]
    rfl
  · obtain ⟨i, -, gi⟩ := c3 k (by rw [Int.abs_eq_natAbs]; omega)
    obtain ⟨j, -, gj⟩ := c3 (-k) (by rw [Int.abs_eq_natAbs]; omega)
    refine ⟨_, _, gi, gj, ?_⟩
    rw [List.getElem?_eq_getElem (by omega), r3]
    simp only [start, zero_add, hre, pairSum_split, if_neg (show ¬ k = 0 by omega)]

/-- C15, auto-correlation: the real one is the real part of the complex one. -/
theorem C15_auto (f : List (Cx R)) (t : Option (List Int)) (n : Option Nat) (al al' : Bool)
    (hv : ValidAuto f.length t) (hfast : t = none → n.getD f.length ≤ f.length + 1) :
    ∃ c : List (Cx R), autoCorrelateComplex f t n al' none = .ok c
      ∧ autoCorrelate f t n al none = .ok (c.map Cx.re) := by
  have ho : outLen n (none : Option (List (Cx R))) f.length = n.getD f.length := by cases n <;> rfl
  refine ⟨_, autoCorrelateComplex_ok f t n al' none hv (fun h _ => by rw [ho]; exact hfast h), ?_⟩
  rw [autoCorrelate_ok f t n al none hv]
  have e : outLen n (none : Option (List R)) (defaultN f.length t t)
      = outLen n (none : Option (List (Cx R))) (defaultN f.length t t) := by cases n <;> rfl
  simp only [startOut, Option.getD_none, addSeq_zeros, e, List.map_map]
  congr 1
  apply List.map_congr_left
  intro k _
  rw [← selfSumFwd_symm reProd reProd_comm]
  exact (selfSumFwd_hom (Cx.reHom (R := R)) cxProd (stream f t) k).symm

/-- C15, counts: the real counts are the folded complex ones. -/
theorem C15_counts (t1 : TimeArg) (t2 : Option TimeArg) (n : Nat) (hn : 0 < n) :
    ∃ r c : List Nat, crossCount t1 t2 (some n) false none = .ok r
      ∧ crossCount t1 t2 (some n) true none = .ok c
      ∧ r.length = n ∧ c.length = 2 * n - 1
      ∧ (∃ z, pyGet c 0 = some z ∧ r[0]? = some z)
      ∧ ∀ k : Nat, 0 < k → k < n → ∃ p m, pyGet c k = some p ∧ pyGet c (-k) = some m
          ∧ r[k]? = some (p + m) := by
  have hodd : outLenFull (some n) (none : Option (List Nat))
      (defaultN 0 (some t1.times) (some (t2.getD t1).times)) % 2 = 1 := by
    simp only [outLenFull]; omega
  obtain ⟨r, r1, r2, r3⟩ := ok_entries (crossCount_ok t1 t2 (some n) none (by simp))
    (startOut_length _ _ _)
  obtain ⟨c, c1, c2, c3⟩ := ok_entries_full (fun d => pairSumAt (fun _ _ => 1)
    (stamps t1.times) (stamps (t2.getD t1).times) d)
    (crossCountComplex_ok t1 t2 (some n) none (by simp) hodd) (startOut_length_full _ _ _)
    (fun _ _ => rfl) hodd
  simp only [outLen, outLenFull] at r2 c2 c3
  refine ⟨r, c, r1, c1, r2, c2, ?_, fun k hk hkn => ?_⟩
  · obtain ⟨i, -, gi⟩ := c3 0 (by simp; omega)
    refine ⟨_, gi, ?_⟩
    rw [List.getElem?_eq_getElem (by omega), r3]
    simp only [start, zero_add, pairSum_split, if_true, add_zero]
    rfl
  · obtain ⟨i, -, gi⟩ := c3 k (by rw [Int.abs_eq_natAbs]; omega)
    obtain ⟨j, -, gj⟩ := c3 (-k) (by rw [Int.abs_eq_natAbs]; omega)
    refine ⟨_, _, gi, gj, ?_⟩
    rw [List.getElem?_eq_getElem (by omega), r3]
    simp only [start, zero_add, pairSum_split, if_neg (show ¬ k = 0 by omega)]

example : crossCorrelate (R := Int) [⟨1, 2⟩, ⟨3, 4⟩] [⟨5, 6⟩, ⟨0, 1⟩] none none none true none
    = .ok [21, 2 + 39] := rfl
example : autoCorrelateComplex (R := Int) [⟨1, 2⟩, ⟨3, 4⟩] none none true none
    = .ok [⟨30, 0⟩, ⟨11, -2⟩] := rfl

/-! ### C16: auto-correlation as a special case -/

theorem stream_times_nodup {α : Type} (f : List α) (t : Option (List Int))
    (hd : ∀ u, t = some u → u.Nodup) : ((stream f t).map Prod.fst).Nodup := by
  rcases t with _ | u
  · have : (stream f none).map Prod.fst = (List.range f.length).map Int.ofNat := by
      apply List.ext_getElem <;> simp [stream, regular]
    rw [this]
    exact List.nodup_range.map (fun a b h => by simpa using h)
  · have h := hd u rfl
    simp only [stream]
    induction u generalizing f with
    | nil => simp
    | cons a u ih =>
      rcases f with _ | ⟨b, f⟩
      · simp
      · rw [List.nodup_cons] at h
        simp only [List.zip_cons_cons, List.map_cons, List.nodup_cons]
        refine ⟨fun hm => ?_, ih f (fun v hv => by cases hv; exact h.2) h.2⟩
        obtain ⟨p, hp, rfl⟩ := List.mem_map.mp hm
        exact h.1 (List.of_mem_zip (a := p.1) (b := p.2) hp).1

/-- **C16.** A signal against itself: the cross-correlation has the auto-correlation at delay 0 and
twice the auto-correlation at every other delay. -/
theorem C16_correlate (f : List (Cx R)) (t : Option (List Int)) (n : Option Nat) (al al' : Bool)
    (hv : ValidAuto f.length t) (hd : ∀ u, t = some u → u.Nodup)
    (hfast : t = none → n.getD f.length ≤ f.length + 1) :
    ∃ c a : List R, crossCorrelate f f t t n al none = .ok c
      ∧ autoCorrelate f t n al' none = .ok a ∧ c.length = a.length
      ∧ ∀ k, k < a.length → c.getD k 0 = if k = 0 then a.getD k 0 else 2 * a.getD k 0 := by
  have ho : outLen n (none : Option (List R)) f.length = n.getD f.length := by cases n <;> rfl
  refine ⟨_, _, crossCorrelate_ok f f t t n al none hv.cross (fun h _ => by rw [ho]; exact hfast h),
    autoCorrelate_ok f t n al' none hv, by simp, fun k hk => ?_⟩
  simp only [startOut, Option.getD_none, addSeq_zeros, List.length_map, List.length_range] at hk
  simp only [startOut, Option.getD_none, List.getD_eq_getElem?_getD,
    addSeq_zeros_get _ _ k hk, Option.getD_some]
  split
  · next h => subst h; exact pairSum_self_zero _ _ (stream_times_nodup f t hd)
  · next h =>
    rw [pairSum_self_pos _ _ k h, selfSum_add, two_mul]
    congr 1
    exact selfSum_congr (fun a b => reProd_comm b a) _ _

/-- C16, counts: the same relation, so that normalised curves agree. -/
theorem C16_counts (t : List Int) (n : Option Nat) (h0 : n = none → t ≠ []) (hd : t.Nodup) :
    ∃ c a : List Nat, crossCount (.array t) none n false none = .ok c
      ∧ autoCount (.array t) n none = .ok a ∧ c.length = a.length
      ∧ ∀ k, k < a.length → c.getD k 0 = if k = 0 then a.getD k 0 else 2 * a.getD k 0 := by
  refine ⟨_, _, crossCount_ok _ _ n none (fun _ h => ⟨h0 h, h0 h⟩),
    autoCount_ok _ n none (fun _ h => h0 h), by simp [TimeArg.times], fun k hk => ?_⟩
  simp only [startOut, Option.getD_none, addSeq_zeros, List.length_map, List.length_range] at hk
  simp only [startOut, Option.getD_none, List.getD_eq_getElem?_getD,
    addSeq_zeros_get _ _ k hk, Option.getD_some]
  have hnd : ((stamps t).map Prod.fst).Nodup := by simpa [stamps, Function.comp_def] using hd
  split
  · next h => subst h; exact pairSum_self_zero _ _ hnd
  · next h =>
    simp only [TimeArg.times]
    rw [pairSum_self_pos _ _ k h, selfSum_add, two_mul]

/-- C16, sums: entry `k` of `auto_sum` is the sum of `(f_i + f_j)/2` over unordered pairs at
distance `k`, for distinct times. -/
theorem C16_auto_sum {M : Type} [AddCommGroup M] (K : Type) [Field K] [Module K M]
    (h2 : (2 : K) ≠ 0) (f : List M) (t : Option (List Int)) (n : Option Nat)
    (aout : Option (List M)) (hv : ValidAuto f.length t) (hd : ∀ u, t = some u → u.Nodup)
    (hfast : t = none → outLen n aout f.length ≤ f.length + 1) :
    ∃ out, autoSumApi K f t n aout = .ok out
      ∧ out.length = outLen n aout (defaultN f.length t t)
      ∧ ∀ k (hk : k < out.length), out[k] = start aout k
          + selfSum (fun a b => (1 / 2 : K) • (a + b)) (stream f t) k := by
  obtain ⟨out, o1, o2, o3⟩ := ok_entries (autoSumApi_ok K f t n aout hv hfast)
    (startOut_length _ _ _)
  refine ⟨out, o1, o2, fun k hk => ?_⟩
  rw [o3 k hk]
  congr 1
  have hcl := crossSum_left (id : M → M) f f t t hv.cross.right rfl k
  simp only [List.map_id, id_eq] at hcl
  rw [hcl]
  have hsm : selfSum (fun a b => (1 / 2 : K) • (a + b)) (stream f t) k
      = (1 / 2 : K) • selfSum (fun a b => a + b) (stream f t) k :=
    (selfSum_hom (DistribSMul.toAddMonoidHom M (1 / 2 : K)) _ _ _).symm
  rw [hsm]
  have hnd := stream_times_nodup f t hd
  split
  · next h =>
    subst h
    rw [pairSum_self_zero _ _ hnd, selfSum_zero _ _ hnd, selfSum_zero _ _ hnd]
    have : ∀ l : List (Int × M), (l.map fun a => a.2 + a.2).sum = (2 : K) • (l.map fun a => a.2).sum := by
      intro l
      induction l with
      | nil => simp
      | cons a l ih => simp only [List.map_cons, List.sum_cons, ih, smul_add, two_smul]
    rw [this, smul_smul, one_div_mul_cancel h2, one_smul]
  · next h => rw [pairSum_self_pos _ _ k h]

/-- Distinctness is needed: with a repeated time `auto_sum` counts the pair of different frames at
delay 0 twice (2·(1+3) = 8 instead of 1 + 3 + (1+3)/2 = 6). -/
theorem C16_auto_sum_repeated_time :
    autoSumApi ℚ ([1, 3] : List ℚ) (some [0, 0]) (some 1) none = .ok [8] := by
  simp [autoSumApi, autoSumWith, inspectAuto, npMin, bind, Except.bind, defaultOut, checkDims, orUB, crossSum,
    forRange, addAt, pyIdx, List.range_succ]
  norm_num

example : crossCorrelate (R := Int) [⟨1, 2⟩, ⟨3, 4⟩] [⟨1, 2⟩, ⟨3, 4⟩] (some [4, 2]) (some [4, 2])
    none true none = .ok [30, 0, 22] := rfl
example : autoCorrelate (R := Int) [⟨1, 2⟩, ⟨3, 4⟩] (some [4, 2]) none true none
    = .ok [30, 0, 11] := rfl

end
end Cddm
