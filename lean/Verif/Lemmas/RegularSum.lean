import Verif.Lemmas.Regular
import Mathlib.Tactic.Abel

/-! # The regular-time delay sums -/

namespace Cddm
open Spec

theorem forRange_states {σ : Type} (n : Nat) (st : Nat → σ) (body : σ → Nat → Option σ)
    (h : ∀ i, i < n → body (st i) i = some (st (i + 1))) :
    forRange n (st 0) body = some (st n) := by
  unfold forRange
  induction n with
  | zero => simp
  | succ n ih =>
    rw [List.range_succ, List.foldlM_append, ih (fun i hi => h i (by omega))]
    simp [h n (by omega)]

/-- The time stamps `0, 1, ..., n-1`. -/
theorem stamps_range (n : Nat) :
    stamps ((List.range n).map Int.ofNat) = regular (List.replicate n ()) := by
  apply List.ext_getElem
  · simp [stamps, regular]
  · intro i h1 h2
    simp [stamps, regular]

theorem range_zip {α : Type} (x : List α) :
    ((List.range x.length).map Int.ofNat).zip x = regular x := by
  apply List.ext_getElem
  · simp [regular]
  · intro i h1 h2
    simp [regular]

section
variable {M : Type} [AddCommGroup M]

theorem plainSum_eq (x : List M) : plainSum x = some x.sum := by
  unfold plainSum
  have h := forRange_states x.length (fun i => (x.take i).sum) (fun (tmp : M) j => do
    let xj ← x[j]?
    some (tmp + xj)) ?_
  · simpa using h
  · intro i hi
    simp [List.getElem?_eq_getElem hi, List.sum_take_succ _ _ hi]

theorem fst_sum_regular (x : List M) (k : Nat) :
    pairSumAt (fun a _ => a) (regular x) (regular (List.replicate x.length ())) k
      = (x.take (x.length - k)).sum := by
  rw [pairSumAt_regular]
  congr 1
  rw [← zip_take_drop x (List.replicate x.length ()) k x.length (by simp)]
  rw [show (fun p : M × Unit => p.1) = Prod.fst from rfl, List.map_fst_zip]
  simp

theorem snd_sum_regular (x : List M) (k : Nat) :
    pairSumAt (fun a _ => a) (regular x) (regular (List.replicate x.length ())) (-k)
      = (x.drop k).sum := by
  rw [pairSumAt_regular_neg]
  congr 1
  rw [show (fun p : Unit × M => p.2) = Prod.snd from rfl, List.map_snd_zip]
  simp

theorem drop_sum_step (x : List M) (i : Nat) (hi : i < x.length) :
    (x.drop i).sum = x[i] + (x.drop (i + 1)).sum := by
  rw [List.drop_eq_getElem_cons hi, List.sum_cons]

theorem addSeq_step (out : List M) (S : Nat → M) (i : Nat) :
    addSeq (addSeq out fun k => if k < i then S k else 0) (fun k => if k = i then S i else 0)
      = addSeq out fun k => if k < i + 1 then S k else 0 := by
  rw [addSeq_addSeq]
  apply addSeq_congr
  intro k _
  rcases lt_trichotomy k i with h | h | h
  · have h2 : ¬ k = i := by omega
    have h3 : k < i + 1 := by omega
    simp [h, h2, h3]
  · subst h; simp
  · have h2 : ¬ k = i := by omega
    have h3 : ¬ k < i + 1 := by omega
    have h4 : ¬ k < i := by omega
    simp [h2, h3, h4]

theorem crossSumRegular_eq (x out : List M) (hout : out.length ≤ x.length + 1) :
    crossSumRegular x out = some (addSeq out fun k =>
      pairSum (fun a _ => a) (regular x) (regular (List.replicate x.length ())) k) := by
  unfold crossSumRegular
  set S : Nat → M := fun k =>
    pairSum (fun a _ => a) (regular x) (regular (List.replicate x.length ())) k with hS
  set P : Nat → M := fun j => (x.drop j).sum + (x.take (x.length - j)).sum with hP
  have hS0 : S 0 = x.sum := by
    simp only [hS, pairSum_split]
    have := fst_sum_regular x 0
    simpa using this
  have hSk : ∀ k, 0 < k → S k = P k := by
    intro k hk
    simp only [hS, hP, pairSum_split]
    rw [if_neg (by omega), fst_sum_regular, snd_sum_regular, add_comm]
  have h := forRange_states out.length
    (fun i => ((addSeq out fun k => if k < i then S k else 0), if i = 0 then (0 : M) else P (i-1)))
    (fun (s : List M × M) (i : Nat) => (do
      let n : Int := (x.length : Int) - i
      if i = 0 then
        let tmp ← plainSum x
        let out ← addAt s.1 0 tmp
        some (out, tmp + tmp)
      else
        let a ← pyGet x ((i : Int) - 1)
        let b ← pyGet x n
        let prev := s.2 - a - b
        let out ← addAt s.1 i prev
        some (out, prev) : Option (List M × M))) ?_
  · have e0 : (addSeq out fun k => if k < 0 then S k else 0) = out := by
      apply addSeq_zero'; simp
    simp only [e0, if_true] at h
    rw [h]
    simp only [Option.bind_eq_bind, Option.bind_some]
    congr 1
    apply addSeq_congr
    intro k hk
    simp [hk]
  · intro i hi
    by_cases hi0 : i = 0
    · subst hi0
      simp only [if_true, plainSum_eq, Option.bind_eq_bind, Option.bind_some]
      have := addAt_nat (addSeq out fun k => if k < 0 then S k else 0) 0 (by simpa using hi) x.sum
      rw [Nat.cast_zero] at this
      rw [this, Option.bind_some, ← hS0, addSeq_step out S 0]
      simp [hP, hS0]
    · simp only [hi0, if_false, Nat.add_sub_cancel]
      have a1 : pyGet x ((i : Int) - 1) = some (x[i-1]'(by omega)) := by
        unfold pyGet
        rw [pyIdx_nonneg (by omega) (by omega)]
        simp only [Option.bind_some]
        rw [show ((i : Int) - 1).toNat = i - 1 by omega, List.getElem?_eq_getElem (by omega)]
      have a2 : pyGet x ((x.length : Int) - i) = some (x[x.length - i]'(by omega)) := by
        unfold pyGet
        rw [pyIdx_nonneg (by omega) (by omega)]
        simp only [Option.bind_some]
        rw [show ((x.length : Int) - i).toNat = x.length - i by omega,
          List.getElem?_eq_getElem (by omega)]
      have e : P (i-1) - (x[i-1]'(by omega)) - (x[x.length - i]'(by omega)) = S i := by
        rw [hSk i (by omega)]
        simp only [hP]
        have d1 := drop_sum_step x (i-1) (by omega)
        rw [show i - 1 + 1 = i by omega] at d1
        have d2 := List.sum_take_succ x (x.length - i) (by omega)
        rw [show x.length - i + 1 = x.length - (i - 1) by omega] at d2
        rw [d1, d2]
        abel
      rw [a1, a2]
      simp only [Option.bind_eq_bind, Option.bind_some, e]
      rw [addAt_nat _ _ (by simpa using hi), Option.bind_some, addSeq_step]
      simp [hSk i (by omega)]

/-- Common part of the two full-size sums: cell `i` gets `A i`, cell `-i` gets `B i`. -/
theorem signed_loop (x out : List M) (hodd : out.length % 2 = 1)
    (hout : (out.length + 1) / 2 ≤ x.length + 1) (S : Nat → M)
    (swap : Bool)
    (h0 : S 0 = x.sum)
    (hpos : ∀ i, 0 < i → i < (out.length + 1) / 2 →
      S i = if swap then (x.drop i).sum else (x.take (x.length - i)).sum)
    (hneg : ∀ i, 0 < i → i < (out.length + 1) / 2 →
      S (out.length - i) = if swap then (x.take (x.length - i)).sum else (x.drop i).sum) :
    forRange ((out.length + 1) / 2) (out, (0 : M), (0 : M))
      (fun (s : List M × M × M) (i : Nat) => (do
        let n : Int := (x.length : Int) - i
        if i = 0 then
          let tmp ← plainSum x
          let out ← addAt s.1 0 tmp
          some (out, tmp, tmp)
        else
          let a ← pyGet x ((i : Int) - 1)
          let prev1 := s.2.1 - a
          let b ← pyGet x n
          let prev2 := s.2.2 - b
          let out ← addAt s.1 i (if swap then prev1 else prev2)
          let out ← addAt out (-(i : Int)) (if swap then prev2 else prev1)
          some (out, prev1, prev2) : Option (List M × M × M)))
    = some (addSeq out S, (x.drop ((out.length + 1) / 2 - 1)).sum,
        (x.take (x.length - ((out.length + 1) / 2 - 1))).sum) := by
  have h := forRange_states ((out.length + 1) / 2)
    (fun i => ((addSeq out fun k => if k < i ∨ out.length < k + i then S k else 0),
      (if i = 0 then (0 : M) else (x.drop (i-1)).sum),
      (if i = 0 then (0 : M) else (x.take (x.length - (i-1))).sum)))
    (fun (s : List M × M × M) (i : Nat) => (do
        let n : Int := (x.length : Int) - i
        if i = 0 then
          let tmp ← plainSum x
          let out ← addAt s.1 0 tmp
          some (out, tmp, tmp)
        else
          let a ← pyGet x ((i : Int) - 1)
          let prev1 := s.2.1 - a
          let b ← pyGet x n
          let prev2 := s.2.2 - b
          let out ← addAt s.1 i (if swap then prev1 else prev2)
          let out ← addAt out (-(i : Int)) (if swap then prev2 else prev1)
          some (out, prev1, prev2) : Option (List M × M × M))) ?_
  · have e0 : (addSeq out fun k => if k < 0 ∨ out.length < k + 0 then S k else 0) = out := by
      apply addSeq_zero'
      intro k hk
      rw [if_neg (by omega)]
    have hL : ¬ ((out.length + 1) / 2 = 0) := by omega
    simp only [if_true, e0, hL, if_false] at h
    rw [h]
    congr 2
    apply addSeq_congr
    intro k hk
    rw [if_pos (by omega)]
  · intro i hi
    by_cases hi0 : i = 0
    · subst hi0
      simp only [if_true, plainSum_eq, Option.bind_eq_bind, Option.bind_some]
      have := addAt_nat (addSeq out fun k => if k < 0 ∨ out.length < k + 0 then S k else 0) 0
        (by simp; omega) x.sum
      rw [Nat.cast_zero] at this
      rw [this, Option.bind_some, addSeq_addSeq]
      simp only [Nat.zero_add, one_ne_zero, if_false,
        Nat.sub_self, List.drop_zero, Nat.sub_zero, List.take_length]
      congr 2
      apply addSeq_congr
      intro k hk
      rw [if_neg (by omega)]
      by_cases hk0 : k = 0
      · subst hk0; rw [if_pos rfl, if_pos (by omega), h0, zero_add]
      · rw [if_neg hk0, if_neg (by omega), zero_add]
    · simp only [hi0, if_false, Nat.add_sub_cancel]
      have a1 : pyGet x ((i : Int) - 1) = some (x[i-1]'(by omega)) := by
        unfold pyGet
        rw [pyIdx_nonneg (by omega) (by omega)]
        simp only [Option.bind_some]
        rw [show ((i : Int) - 1).toNat = i - 1 by omega, List.getElem?_eq_getElem (by omega)]
      have a2 : pyGet x ((x.length : Int) - i) = some (x[x.length - i]'(by omega)) := by
        unfold pyGet
        rw [pyIdx_nonneg (by omega) (by omega)]
        simp only [Option.bind_some]
        rw [show ((x.length : Int) - i).toNat = x.length - i by omega,
          List.getElem?_eq_getElem (by omega)]
      have e1 : (x.drop (i-1)).sum - (x[i-1]'(by omega)) = (x.drop i).sum := by
        have d1 := drop_sum_step x (i-1) (by omega)
        rw [show i - 1 + 1 = i by omega] at d1
        rw [d1]; abel
      have e2 : (x.take (x.length - (i-1))).sum - (x[x.length - i]'(by omega))
          = (x.take (x.length - i)).sum := by
        have d2 := List.sum_take_succ x (x.length - i) (by omega)
        rw [show x.length - i + 1 = x.length - (i - 1) by omega] at d2
        rw [d2]; abel
      rw [a1, a2]
      simp only [Option.bind_eq_bind, Option.bind_some, e1, e2]
      rw [addAt_nat _ _ (by simp; omega), Option.bind_some,
        addAt_eq (j := out.length - i) (by
          rw [pyIdx_neg (by omega) (by simp; omega)]
          simp only [addSeq_length]
          congr 1
          omega),
        Option.bind_some, addSeq_addSeq, addSeq_addSeq]
      simp only [Nat.add_eq_zero_iff, hi0, one_ne_zero, and_self, if_false]
      rw [← hpos i (by omega) hi, ← hneg i (by omega) hi]
      congr 2
      apply addSeq_congr
      intro k hk
      by_cases h1 : k = i
      · subst h1
        rw [if_neg (show ¬ (k < k ∨ out.length < k + k) by omega), if_pos rfl,
          if_neg (show ¬ (k = out.length - k) by omega), if_pos (by omega)]
        simp
      · by_cases h2 : k = out.length - i
        · rw [if_neg (show ¬ (k < i ∨ out.length < k + i) by omega), if_neg h1, if_pos h2,
            if_pos (by omega), h2]
          simp
        · have : (k < i ∨ out.length < k + i) ↔ (k < i + 1 ∨ out.length < k + (i + 1)) := by
            omega
          rw [if_neg h1, if_neg h2]
          simp only [this, add_zero]

theorem crossSumComplexRegular_eq (x out : List M) (hodd : out.length % 2 = 1)
    (hout : (out.length + 1) / 2 ≤ x.length + 1) :
    crossSumComplexRegular x out = some (addSeq out fun k =>
      pairSumAt (fun a _ => a) (regular x) (regular (List.replicate x.length ()))
        (cellDelay out.length k)) := by
  unfold crossSumComplexRegular
  have h := signed_loop x out hodd hout (fun k =>
      pairSumAt (fun a _ => a) (regular x) (regular (List.replicate x.length ()))
        (cellDelay out.length k)) false ?_ ?_ ?_
  · simp only [Bool.false_eq_true, if_false] at h
    exact (congrArg (fun o => Option.bind o (fun r => some r.1)) h).trans rfl
  · have := fst_sum_regular x 0
    have hc : cellDelay out.length 0 = 0 := by simp [cellDelay]
    simpa [hc] using this
  · intro i _ hi
    have hc : cellDelay out.length i = i := by rw [cellDelay, if_pos hi]
    simpa [hc] using fst_sum_regular x i
  · intro i _ hi
    have hc : cellDelay out.length (out.length - i) = -(i : Int) := by
      rw [cellDelay, if_neg (by omega)]; omega
    simpa [hc] using snd_sum_regular x i

theorem crossSumComplexRegularInverted_eq (x out : List M) (hodd : out.length % 2 = 1)
    (hout : (out.length + 1) / 2 ≤ x.length + 1) :
    crossSumComplexRegularInverted x out = some (addSeq out fun k =>
      pairSumAt (fun a _ => a) (regular x) (regular (List.replicate x.length ()))
        (-cellDelay out.length k)) := by
  unfold crossSumComplexRegularInverted
  have h := signed_loop x out hodd hout (fun k =>
      pairSumAt (fun a _ => a) (regular x) (regular (List.replicate x.length ()))
        (-cellDelay out.length k)) true ?_ ?_ ?_
  · simp only [if_true] at h
    exact (congrArg (fun o => Option.bind o (fun r => some r.1)) h).trans rfl
  · have := fst_sum_regular x 0
    have hc : cellDelay out.length 0 = 0 := by simp [cellDelay]
    simpa [hc] using this
  · intro i _ hi
    have hc : cellDelay out.length i = i := by rw [cellDelay, if_pos hi]
    simpa [hc] using snd_sum_regular x i
  · intro i _ hi
    have hc : cellDelay out.length (out.length - i) = -(i : Int) := by
      rw [cellDelay, if_neg (by omega)]; omega
    simpa [hc] using fst_sum_regular x i

end
end Cddm
