import Verif.Model.LogAvg
import Verif.Spec.LogAvg
import Verif.Lemmas.Filters
import Verif.Lemmas.Slice
import Verif.Lemmas.Acc
import Mathlib.Algebra.BigOperators.Intervals
import Mathlib.Algebra.BigOperators.Module
import Mathlib.Tactic.Module

namespace Cddm
open Spec

/-! ### triangular sums -/
section tri
variable {V : Type} [AddCommGroup V]

/-- Sum of `g` over all differences of two numbers below `w`. -/
def dsum (w : Nat) (g : ℤ → V) : V :=
  ∑ a ∈ Finset.range w, ∑ b ∈ Finset.range w, g ((a : ℤ) - b)

theorem sum_Ioo_succ (w : Nat) (g : ℤ → V) :
    ∑ d ∈ Finset.Ioo (-((w + 1 : Nat) : ℤ)) ((w + 1 : Nat) : ℤ), g d
      = (∑ b ∈ Finset.range w, g ((w : ℤ) - b)) + (∑ a ∈ Finset.range w, g ((a : ℤ) - w)) + g 0 := by
  induction w generalizing g with
  | zero =>
    have : Finset.Ioo (-((0 + 1 : Nat) : ℤ)) ((0 + 1 : Nat) : ℤ) = {0} := by
      ext x; simp; omega
    rw [this]; simp
  | succ w ih =>
    have : Finset.Ioo (-((w + 1 + 1 : Nat) : ℤ)) ((w + 1 + 1 : Nat) : ℤ)
        = insert ((w : ℤ) + 1) (insert (-((w : ℤ) + 1))
          (Finset.Ioo (-((w + 1 : Nat) : ℤ)) ((w + 1 : Nat) : ℤ))) := by
      ext x; simp; omega
    rw [this, Finset.sum_insert (by simp; omega), Finset.sum_insert (by simp), ih g]
    rw [Finset.sum_range_succ' (fun b => g (((w + 1 : Nat) : ℤ) - b)),
      Finset.sum_range_succ' (fun a => g ((a : ℤ) - ((w + 1 : Nat) : ℤ)))]
    have e1 : ∀ b : Nat, ((w + 1 : Nat) : ℤ) - ((b + 1 : Nat) : ℤ) = (w : ℤ) - b := by
      intro b; push_cast; ring
    have e2 : ∀ b : Nat, ((b + 1 : Nat) : ℤ) - ((w + 1 : Nat) : ℤ) = (b : ℤ) - w := by
      intro b; push_cast; ring
    simp only [e1, e2]
    have e3 : ((w + 1 : Nat) : ℤ) - ((0 : Nat) : ℤ) = (w : ℤ) + 1 := by push_cast; ring
    have e4 : ((0 : Nat) : ℤ) - ((w + 1 : Nat) : ℤ) = -((w : ℤ) + 1) := by push_cast; ring
    rw [e3, e4]
    abel

theorem dsum_eq (w : Nat) (g : ℤ → V) :
    dsum w g = ∑ d ∈ Finset.Ioo (-(w : ℤ)) w, ((w : ℤ) - |d|) • g d := by
  induction w with
  | zero => simp [dsum]
  | succ w ih =>
    have e1 : dsum (w + 1) g = dsum w g + ((∑ b ∈ Finset.range w, g ((w : ℤ) - b))
        + (∑ a ∈ Finset.range w, g ((a : ℤ) - w)) + g 0) := by
      unfold dsum
      rw [Finset.sum_range_succ]
      simp only [Finset.sum_range_succ, Finset.sum_add_distrib]
      rw [sub_self]
      abel
    rw [e1, ih, ← sum_Ioo_succ]
    have e2 : ∑ d ∈ Finset.Ioo (-(w : ℤ)) w, ((w : ℤ) - |d|) • g d
        = ∑ d ∈ Finset.Ioo (-((w + 1 : Nat) : ℤ)) ((w + 1 : Nat) : ℤ), ((w : ℤ) - |d|) • g d := by
      apply Finset.sum_subset
      · intro x; simp only [Finset.mem_Ioo]; omega
      · intro x h1 h2
        simp only [Finset.mem_Ioo] at h1 h2
        have : |x| = w := by rw [abs_eq (by omega)]; omega
        rw [this, sub_self, zero_smul]
    rw [e2, ← Finset.sum_add_distrib]
    apply Finset.sum_congr rfl
    intro d _
    push_cast
    rw [show (w : ℤ) + 1 - |d| = ((w : ℤ) - |d|) + 1 by ring, add_smul, one_smul]

theorem dsum_double (w : Nat) (g : ℤ → V) :
    dsum (2 * w) g = dsum w (fun d => g (d - w)) + 2 • dsum w g + dsum w (fun d => g (d + w)) := by
  unfold dsum
  rw [two_mul, Finset.sum_range_add]
  simp only [Finset.sum_range_add, Finset.sum_add_distrib]
  have e1 : ∀ a b : Nat, (a : ℤ) - ((w + b : Nat) : ℤ) = a - b - w := by
    intro a b; push_cast; ring
  have e2 : ∀ a b : Nat, ((w + a : Nat) : ℤ) - (b : ℤ) = a - b + w := by
    intro a b; push_cast; ring
  have e3 : ∀ a b : Nat, ((w + a : Nat) : ℤ) - ((w + b : Nat) : ℤ) = a - b := by
    intro a b; push_cast; ring
  simp only [e3]
  simp only [e1, e2]
  generalize (∑ x ∈ Finset.range w, ∑ y ∈ Finset.range w, g ((x : ℤ) - y)) = A
  generalize (∑ x ∈ Finset.range w, ∑ y ∈ Finset.range w, g ((x : ℤ) - y - w)) = B
  generalize (∑ x ∈ Finset.range w, ∑ y ∈ Finset.range w, g ((x : ℤ) - y + w)) = C
  rw [two_smul]
  abel

variable (K : Type) [Field K] [Module K V]

theorem triangularMean_eq (data : List V) (t w : Nat) :
    triangularMean K data t w
      = (1 / (w : K) ^ 2) • dsum w (fun d => sampleAt data (t + d)) := by
  rw [dsum_eq, Finset.smul_sum]
  unfold triangularMean
  apply Finset.sum_congr rfl
  intro d _
  rw [← Int.cast_smul_eq_zsmul K, smul_smul]
  congr 1
  push_cast
  ring

/-- Filtering three neighbouring triangular averages gives the one of doubled width. -/
theorem conv3_triangularMean (data : List V) (t w : Nat) (h : w ≤ t) :
    conv3 K (triangularMean K data (t - w) w) (triangularMean K data t w)
      (triangularMean K data (t + w) w) = triangularMean K data t (2 * w) := by
  rw [triangularMean_eq, triangularMean_eq, triangularMean_eq, triangularMean_eq, dsum_double]
  unfold conv3
  have e1 : ∀ d : ℤ, (((t - w : Nat) : ℤ) + d) = (t : ℤ) + (d - w) := by intro d; omega
  have e2 : ∀ d : ℤ, (((t + w : Nat) : ℤ) + d) = (t : ℤ) + (d + w) := by intro d; push_cast; ring
  simp only [e1, e2]
  generalize dsum w (fun d => sampleAt data ((t : ℤ) + (d - w))) = A
  generalize dsum w (fun d => sampleAt data ((t : ℤ) + (d + w))) = B
  generalize dsum w (fun d => sampleAt data ((t : ℤ) + d)) = C
  have : (1 / ((2 * w : Nat) : K) ^ 2) = (1 / 4) * (1 / (w : K) ^ 2) := by
    push_cast
    rw [mul_pow, one_div, one_div, one_div, mul_inv]
    norm_num
  rw [this]
  module

end tri

/-! ### levels -/

theorem levelLoop_spec (size len : Nat) (hs : 0 < size) (level : Nat)
    (h : ∀ l, l < level → size * 2 ^ l < len) : IsDoublings size len (levelLoop size len level) := by
  induction level using levelLoop.induct size len with
  | case1 level hc ih =>
    rw [levelLoop, if_pos hc]
    apply ih
    intro l hl
    rcases Nat.lt_succ_iff_lt_or_eq.mp hl with h' | h'
    · exact h l h'
    · rw [h']; exact hc.2
  | case2 level hc =>
    rw [levelLoop, if_neg hc]
    exact ⟨by by_contra h'; exact hc ⟨hs, by omega⟩, h⟩

section every
variable {α : Type}

theorem takeIdx_range' (x : List α) (a n s : Nat) (h : ∀ i, i < n → a + s * i < x.length) :
    (takeIdx x (List.range' a n s)).length = n ∧
      ∀ j, j < n → (takeIdx x (List.range' a n s))[j]? = x[a + s * j]? := by
  obtain ⟨h1, h2⟩ := takeIdx_eq x (List.range' a n s) (by
    intro i hi
    rw [List.mem_range'] at hi
    obtain ⟨k, hk, rfl⟩ := hi
    exact h k hk)
  refine ⟨by simpa using h1, fun j hj => ?_⟩
  exact h2 j _ (by rw [List.getElem?_range' hj])

theorem everySecond_length (x : List α) : (everySecond x).length = (x.length + 1) / 2 := by
  unfold everySecond sliceBy
  have := (takeIdx_range' x 0 ((min x.length x.length - 0 + 2 - 1) / 2) 2 (by omega)).1
  rw [this]; omega

theorem everySecond_get (x : List α) (j : Nat) : (everySecond x)[j]? = x[2 * j]? := by
  by_cases h : j < (x.length + 1) / 2
  · have := (takeIdx_range' x 0 ((min x.length x.length - 0 + 2 - 1) / 2) 2 (by omega)).2 j
      (by omega)
    unfold everySecond sliceBy
    rw [this]; congr 1; omega
  · rw [List.getElem?_eq_none (by rw [everySecond_length]; omega),
      List.getElem?_eq_none (by omega)]

theorem chooseData_length (low : Bool) (x : List α) : (chooseData low x).length = x.length / 2 := by
  unfold chooseData sliceBy
  cases low
  · have := (takeIdx_range' x 0 ((min (x.length - 1) x.length - 0 + 2 - 1) / 2) 2 (by omega)).1
    simp only [Bool.false_eq_true, if_false, this]; omega
  · have := (takeIdx_range' x 1 ((min x.length x.length - 1 + 2 - 1) / 2) 2 (by omega)).1
    simp only [if_true, this]; omega

theorem chooseData_get (low : Bool) (x : List α) (j : Nat) (hj : j < x.length / 2) :
    (chooseData low x)[j]? = x[2 * j + if low then 1 else 0]? := by
  unfold chooseData sliceBy
  cases low
  · have := (takeIdx_range' x 0 ((min (x.length - 1) x.length - 0 + 2 - 1) / 2) 2 (by omega)).2 j
      (by omega)
    simp only [Bool.false_eq_true, if_false, this]; congr 1; omega
  · have := (takeIdx_range' x 1 ((min x.length x.length - 1 + 2 - 1) / 2) 2 (by omega)).2 j
      (by omega)
    simp only [if_true, this]; congr 1; omega

end every

section rows
variable {V : Type} (K : Type) [Field K] [AddCommGroup V] [Module K V]

omit [AddCommGroup V] in
theorem levelRow_length (size : Nat) (data : List V) : (levelRow size data).length = size := by
  simp [levelRow]

omit [AddCommGroup V] in
theorem levelRow_get (size : Nat) (data : List V) (j : Nat) (hj : j < size) :
    (levelRow size data)[j]? = some data[j]? := by
  unfold levelRow
  by_cases h : j < data.length
  · rw [List.getElem?_append_left (by simp; omega)]
    simp [hj, List.getElem?_eq_getElem h]
  · rw [List.getElem?_append_right (by simp; omega), List.getElem?_eq_none (l := data) (by omega)]
    rw [List.getElem?_replicate, if_pos (by simp; omega)]

theorem levelRows_spec (size : Nat) (binning : Int) (low : Nat → Bool) (Q : Nat → List V → Prop)
    (k l : Nat) (data : List V) (h0 : Q l data)
    (hstep : ∀ i d, l ≤ i → i < l + k → Q i d →
      ∃ d', nextLevel K binning (low i) d = .ok d' ∧ Q (i + 1) d') :
    ∃ rows, levelRows K size binning low k l data = .ok rows ∧ rows.length = k + 1 ∧
      ∀ i row, rows[i]? = some row → ∃ d, Q (l + i) d ∧ row = levelRow size d := by
  induction k generalizing l data with
  | zero =>
    refine ⟨_, rfl, rfl, ?_⟩
    intro i row h
    match i with
    | 0 => exact ⟨data, h0, by simpa using h.symm⟩
    | i + 1 => simp at h
  | succ k ih =>
    obtain ⟨d', e, hq⟩ := hstep l data (le_refl _) (by omega) h0
    obtain ⟨rows, e2, hl, hr⟩ := ih (l + 1) d' hq (fun i d h1 h2 hd =>
      hstep i d (by omega) (by omega) hd)
    refine ⟨levelRow size data :: rows, ?_, by simp [hl], ?_⟩
    · simp only [levelRows, e]
      change (levelRows K size binning low k (l + 1) d').bind _ = _
      rw [e2]; rfl
    · intro i row h
      match i with
      | 0 => exact ⟨data, h0, by simpa using h.symm⟩
      | i + 1 =>
        obtain ⟨d, hd, er⟩ := hr i row (by simpa using h)
        exact ⟨d, by rwa [show l + (i + 1) = l + 1 + i by omega], er⟩

/-- The invariant for mean binning. -/
def MeanLevel (data : List V) (l : Nat) (d : List V) : Prop :=
  d.length = (data.length + 2 ^ l - 1) / 2 ^ l ∧ d[0]? = data[0]? ∧
    ∀ j, 1 ≤ j → (j + 1) * 2 ^ l ≤ data.length →
      d[j]? = some (triangularMean K data (j * 2 ^ l) (2 ^ l))

/-- The invariant for first binning. -/
def FirstLevel (data : List V) (l : Nat) (d : List V) : Prop :=
  d.length = (data.length + 2 ^ l - 1) / 2 ^ l ∧ ∀ j, d[j]? = data[j * 2 ^ l]?

/-- The invariant for random selection. -/
def ChooseLevel (data : List V) (l : Nat) (d : List V) : Prop :=
  d.length = data.length / 2 ^ l ∧ ∃ c, c < 2 ^ l ∧
    ∀ j, j < data.length / 2 ^ l → d[j]? = data[j * 2 ^ l + c]?

theorem ceil_half (N l : Nat) : ((N + 2 ^ l - 1) / 2 ^ l + 1) / 2 = (N + 2 ^ (l + 1) - 1) / 2 ^ (l + 1) := by
  have hp : 0 < 2 ^ l := Nat.two_pow_pos l
  rw [show (N + 2 ^ l - 1) / 2 ^ l + 1 = (N + 2 ^ (l + 1) - 1) / 2 ^ l by
    rw [show N + 2 ^ (l + 1) - 1 = (N + 2 ^ l - 1) + 2 ^ l by rw [pow_succ]; omega,
      Nat.add_div_right _ hp], Nat.div_div_eq_div_mul, ← pow_succ]

theorem meanLevel_step (data : List V) (size l : Nat) (hs : 2 ≤ size) (d : List V)
    (hN : size * 2 ^ l < data.length) (h : MeanLevel K data l d) (low : Bool) :
    ∃ d', nextLevel K 1 low d = .ok d' ∧ MeanLevel K data (l + 1) d' := by
  obtain ⟨h1, h2, h3⟩ := h
  have hp : 0 < 2 ^ l := Nat.two_pow_pos l
  have hd : 2 < d.length := by
    rw [h1, Nat.lt_div_iff_mul_lt hp]
    have := Nat.mul_le_mul_right (2 ^ l) hs
    omega
  refine ⟨everySecond (stencil (conv3 K) d), ?_, ?_, ?_, ?_⟩
  · unfold nextLevel
    rw [if_pos rfl, convolveInto_eq K d d rfl hd]; rfl
  · rw [everySecond_length, stencil_length, h1, ceil_half]
  · rw [everySecond_get, Nat.mul_zero, stencil_zero, h2]
  · intro j hj hjN
    rw [everySecond_get]
    have hjd : 2 * j + 1 < d.length := by
      rw [h1, Nat.lt_div_iff_mul_lt hp]
      rw [pow_succ] at hjN
      have : (2 * j + 1) * 2 ^ l + 2 ^ l = (j + 1) * (2 ^ l * 2) := by ring
      have : (2 * j + 1) * 2 ^ l = 2 * j * 2 ^ l + 2 ^ l := by ring
      omega
    rw [stencil_mid (conv3 K) d (2 * j) (by omega) hjd]
    have hw : ∀ i, i ≤ 2 * j + 1 → (i + 1) * 2 ^ l ≤ data.length := by
      intro i hi
      calc (i + 1) * 2 ^ l ≤ (2 * j + 1 + 1) * 2 ^ l := Nat.mul_le_mul_right _ (by omega)
        _ = (j + 1) * 2 ^ (l + 1) := by rw [pow_succ]; ring
        _ ≤ _ := hjN
    have g1 := h3 (2 * j - 1) (by omega) (hw _ (by omega))
    have g2 := h3 (2 * j) (by omega) (hw _ (by omega))
    have g3 := h3 (2 * j + 1) (by omega) (hw _ (by omega))
    rw [List.getElem?_eq_getElem (by omega), Option.some.injEq] at g1 g2 g3
    rw [g1, g2, g3]
    have e1 : (2 * j - 1) * 2 ^ l = j * 2 ^ (l + 1) - 2 ^ l := by
      rw [Nat.sub_mul, pow_succ, Nat.one_mul]; congr 1; ring
    have e2 : 2 * j * 2 ^ l = j * 2 ^ (l + 1) := by rw [pow_succ]; ring
    have e3 : (2 * j + 1) * 2 ^ l = j * 2 ^ (l + 1) + 2 ^ l := by rw [pow_succ]; ring
    rw [e1, e2, e3, conv3_triangularMean K data _ _ (by
      rw [pow_succ]; nlinarith), ← Nat.pow_succ']

theorem firstLevel_step (data : List V) (l : Nat) (d : List V) (h : FirstLevel data l d)
    (low : Bool) : ∃ d', nextLevel K 0 low d = .ok d' ∧ FirstLevel data (l + 1) d' := by
  obtain ⟨h1, h2⟩ := h
  refine ⟨everySecond d, rfl, ?_, ?_⟩
  · rw [everySecond_length, h1, ceil_half]
  · intro j
    rw [everySecond_get, h2, show 2 * j * 2 ^ l = j * 2 ^ (l + 1) by rw [pow_succ]; ring]

theorem chooseLevel_step (data : List V) (l : Nat) (d : List V) (h : ChooseLevel data l d)
    (low : Bool) : ∃ d', nextLevel K 2 low d = .ok d' ∧ ChooseLevel data (l + 1) d' := by
  obtain ⟨h1, c, hc, h2⟩ := h
  have hdd : data.length / 2 ^ l / 2 = data.length / 2 ^ (l + 1) := by
    rw [Nat.div_div_eq_div_mul, ← pow_succ]
  refine ⟨chooseData low d, rfl, ?_, c + (if low then 2 ^ l else 0), ?_, ?_⟩
  · rw [chooseData_length, h1, hdd]
  · rw [pow_succ]; split <;> omega
  · intro j hj
    rw [← hdd, ← h1] at hj
    rw [chooseData_get low d j hj, h2 _ (by rw [← h1]; split <;> omega)]
    congr 1
    cases low <;> simp <;> ring

end rows

/-! ### merging -/
section merge
variable {α : Type}

/-- Times of merged rows, the first row having spacing `2^i0`. -/
def mergeTimes (n : Nat) : Nat → List (List α) → List Nat
  | _, [] => []
  | i0, _ :: r => (List.range' (n / 2) (n - n / 2)).map (· * 2 ^ i0) ++ mergeTimes n (i0 + 1) r

/-- Values of merged rows. -/
def mergeValues (n : Nat) (data : List (List α)) : List α := (data.map (List.drop (n / 2))).flatten

theorem drop_range_map (n i h : Nat) : ((List.range n).map (· * 2 ^ i)).drop h
    = (List.range' h (n - h)).map (· * 2 ^ i) := by
  rw [← List.map_drop, List.range_eq_range', List.drop_range']
  simp

theorem mergeTimes_eq (n i0 : Nat) (data : List (List α)) :
    ((data.mapIdx fun i _ => (List.range n).map (· * 2 ^ (i0 + i))).map (List.drop (n / 2))).flatten
      = mergeTimes n i0 data := by
  induction data generalizing i0 with
  | nil => rfl
  | cons r data ih =>
    rw [List.mapIdx_cons, List.map_cons, List.flatten_cons, drop_range_map]
    unfold mergeTimes
    congr 1
    rw [← ih (i0 + 1)]
    congr 2
    apply List.mapIdx_eq_mapIdx_iff.mpr
    intro i _
    rw [show i0 + (i + 1) = i0 + 1 + i by omega]

theorem mergeTimes_double (n i0 : Nat) (data : List (List α)) :
    (mergeTimes n i0 data).map (· * 2) = mergeTimes n (i0 + 1) data := by
  induction data generalizing i0 with
  | nil => rfl
  | cons r data ih =>
    simp only [mergeTimes, List.map_append, List.map_map, ih]
    congr 1
    apply List.map_congr_left
    intro x _
    simp only [Function.comp, pow_succ, mul_assoc]

theorem mergeHalf_eq (data : List (List α)) (n : Nat) (hn : n % 2 = 0) :
    mergeHalf data n = .ok (mergeTimes n 0 data, mergeValues n data) := by
  unfold mergeHalf
  rw [if_neg (by omega)]
  have := mergeTimes_eq n 0 data
  simp only [Nat.zero_add] at this
  rw [← this]
  rfl

theorem mem_mergeTimes (n i0 : Nat) (data : List (List α)) (t : Nat) :
    t ∈ mergeTimes n i0 data ↔ ∃ i j, i < data.length ∧ n / 2 ≤ j ∧ j < n ∧ t = j * 2 ^ (i0 + i) := by
  induction data generalizing i0 with
  | nil => simp [mergeTimes]
  | cons r data ih =>
    simp only [mergeTimes, List.mem_append, List.mem_map, List.mem_range'_1, ih]
    constructor
    · rintro (⟨j, ⟨h1, h2⟩, rfl⟩ | ⟨i, j, hi, h1, h2, rfl⟩)
      · exact ⟨0, j, by simp, h1, by omega, rfl⟩
      · exact ⟨i + 1, j, by simpa using hi, h1, h2, by rw [show i0 + (i + 1) = i0 + 1 + i by omega]⟩
    · rintro ⟨i, j, hi, h1, h2, rfl⟩
      match i with
      | 0 => exact Or.inl ⟨j, ⟨h1, by omega⟩, rfl⟩
      | i + 1 =>
        exact Or.inr ⟨i, j, by simpa using hi, h1, h2,
          by rw [show i0 + (i + 1) = i0 + 1 + i by omega]⟩

theorem mergeTimes_sorted (n i0 : Nat) (hn : n % 2 = 0) (data : List (List α)) :
    (mergeTimes n i0 data).Pairwise (· < ·) := by
  induction data generalizing i0 with
  | nil => exact List.Pairwise.nil
  | cons r data ih =>
    rw [mergeTimes, List.pairwise_append]
    refine ⟨?_, ih _, ?_⟩
    · rw [List.pairwise_map]
      refine List.Pairwise.imp ?_ List.pairwise_lt_range'
      intro a b hab
      exact Nat.mul_lt_mul_of_pos_right hab (Nat.two_pow_pos _)
    · intro a ha b hb
      rw [List.mem_map] at ha
      obtain ⟨j, hj, rfl⟩ := ha
      rw [List.mem_range'_1] at hj
      rw [mem_mergeTimes] at hb
      obtain ⟨i, j', _, h1, h2, rfl⟩ := hb
      calc j * 2 ^ i0 < n * 2 ^ i0 := Nat.mul_lt_mul_of_pos_right (by omega) (Nat.two_pow_pos _)
        _ = (n / 2) * 2 ^ (i0 + 1) := by
          rw [pow_succ, Nat.mul_comm (2 ^ i0) 2, ← Nat.mul_assoc]; congr 1; omega
        _ ≤ j' * 2 ^ (i0 + 1 + i) :=
          Nat.mul_le_mul h1 (Nat.pow_le_pow_right (by omega) (by omega))

theorem mergeTimes_length (n i0 : Nat) (data : List (List α)) (h : ∀ r ∈ data, r.length = n) :
    (mergeTimes n i0 data).length = (mergeValues n data).length := by
  induction data generalizing i0 with
  | nil => rfl
  | cons r data ih =>
    have h1 := h r (by simp)
    have h2 := ih (i0 + 1) (fun r hr => h r (by simp [hr]))
    simp only [mergeValues, mergeTimes, List.map_cons, List.flatten_cons, List.length_append] at h2 ⊢
    simp [h2, h1]

theorem mem_zip_merge (n i0 : Nat) (data : List (List α)) (h : ∀ r ∈ data, r.length = n) (t : Nat)
    (v : α) : (t, v) ∈ (mergeTimes n i0 data).zip (mergeValues n data) ↔
      ∃ i row j, data[i]? = some row ∧ n / 2 ≤ j ∧ row[j]? = some v ∧ t = j * 2 ^ (i0 + i) := by
  induction data generalizing i0 with
  | nil => simp [mergeTimes]
  | cons r data ih =>
    have h1 := h r (by simp)
    have ih := ih (i0 + 1) (fun r hr => h r (by simp [hr]))
    rw [mergeValues, List.map_cons, List.flatten_cons, mergeTimes, List.zip_append (by simp [h1]),
      List.mem_append]
    unfold mergeValues at ih
    rw [ih]
    have key : (t, v) ∈ ((List.range' (n / 2) (n - n / 2)).map (· * 2 ^ i0)).zip (r.drop (n / 2)) ↔
        ∃ j, n / 2 ≤ j ∧ r[j]? = some v ∧ t = j * 2 ^ i0 := by
      rw [List.mem_iff_getElem?]
      constructor
      · rintro ⟨k, hk⟩
        rw [List.getElem?_zip_eq_some] at hk
        obtain ⟨hk1, hk2⟩ := hk
        rw [List.getElem?_drop] at hk2
        rw [List.getElem?_map, Option.map_eq_some_iff] at hk1
        obtain ⟨a, ha, rfl⟩ := hk1
        have hkn : k < n - n / 2 := by
          by_contra hc
          rw [List.getElem?_eq_none (by simp; omega)] at ha; cases ha
        rw [getElem?_range' _ _ _ hkn, Option.some.injEq] at ha
        subst ha
        exact ⟨n / 2 + k, by omega, hk2, rfl⟩
      · rintro ⟨j, hj, hv, rfl⟩
        have hjn : j < n := by
          rw [← h1]; by_contra hc
          rw [List.getElem?_eq_none (by omega)] at hv; cases hv
        refine ⟨j - n / 2, ?_⟩
        rw [List.getElem?_zip_eq_some, List.getElem?_map, getElem?_range' _ _ _ (by omega),
          List.getElem?_drop, show n / 2 + (j - n / 2) = j by omega]
        exact ⟨rfl, hv⟩
    rw [key]
    constructor
    · rintro (⟨j, h1, h2, rfl⟩ | ⟨i, row, j, h1, h2, h3, rfl⟩)
      · exact ⟨0, r, j, rfl, h1, h2, rfl⟩
      · exact ⟨i + 1, row, j, by simpa using h1, h2, h3,
          by rw [show i0 + (i + 1) = i0 + 1 + i by omega]⟩
    · rintro ⟨i, row, j, h1, h2, h3, rfl⟩
      match i with
      | 0 =>
        simp only [List.getElem?_cons_zero, Option.some.injEq] at h1
        exact Or.inl ⟨j, h2, by rwa [h1], rfl⟩
      | i + 1 =>
        exact Or.inr ⟨i, row, j, by simpa using h1, h2, h3,
          by rw [show i0 + (i + 1) = i0 + 1 + i by omega]⟩

theorem mergeFull_eq (r : List α) (data : List (List α)) (n : Nat) (hn : n % 2 = 0) :
    mergeMultilevel (r :: data) n "full"
      = .ok (List.range n ++ mergeTimes n 1 data, r ++ mergeValues n data) := by
  unfold mergeMultilevel
  rw [if_pos rfl]
  simp only [mergeHalf_eq data n hn, ← mergeTimes_double]
  rfl

theorem tMultilevel_eq (levels n period : Nat) :
    tMultilevel levels n period
      = (List.range levels).map fun (i : Nat) => (List.range n).map fun (j : Nat) =>
        2 * period * (j * 2 ^ i) := by
  unfold tMultilevel
  have : ∀ L, (List.range L).foldl (fun (s : List (List Nat) × List Nat) _ =>
      (s.1 ++ [s.2], s.2.map (· * 2))) ([], (List.range n).map (· * period * 2))
      = ((List.range L).map fun (i : Nat) => (List.range n).map fun (j : Nat) =>
        2 * period * (j * 2 ^ i), (List.range n).map fun (j : Nat) => 2 * period * (j * 2 ^ L)) := by
    intro L
    induction L with
    | zero =>
      simp only [List.range_zero, List.foldl_nil, List.map_nil, Prod.mk.injEq, true_and]
      apply List.map_congr_left
      intro j _; ring
    | succ L ih =>
      rw [List.range_succ, List.foldl_append, ih, List.map_append]
      simp only [List.foldl_cons, List.foldl_nil, List.map_cons, List.map_nil, List.map_map,
        Prod.mk.injEq, true_and]
      apply List.map_congr_left
      intro j _
      simp only [Function.comp]; ring
  rw [this]

end merge

/-! ### the triangular kernel -/
section kernel
variable (K : Type) [Field K]

theorem kernelSize (n : Nat) : (List.range n).foldl (fun s _ => s * 2 + 1) 1 = 2 ^ (n + 1) - 1 := by
  induction n with
  | zero => rfl
  | succ n ih =>
    rw [List.range_succ, List.foldl_append, ih]
    simp only [List.foldl_cons, List.foldl_nil]
    have : 0 < 2 ^ n := Nat.two_pow_pos n
    rw [pow_succ 2 (n + 1), pow_succ 2 n]; omega

/-- Weight number `i` of the kernel of level `n`. -/
def kernelWeight (n i : Nat) : K := ((min (i + 1) (2 ^ (n + 1) - 1 - i) : Nat) : K) / (2 ^ n) ^ 2

theorem triangularKernel_eq (h2 : (2 : K) ≠ 0) (n : Nat) :
    triangularKernel K n = some ((List.range (2 ^ (n + 1) - 1)).map fun (i : Nat) => kernelWeight K n i) := by
  unfold triangularKernel
  rw [kernelSize]
  have hp : 0 < 2 ^ n := Nat.two_pow_pos n
  set p := 2 ^ n with hpd
  have hs : 2 ^ (n + 1) - 1 = 2 * p - 1 := by rw [pow_succ]; omega
  have hcast : ((p : Nat) : K) = 2 ^ n := by rw [hpd]; push_cast; rfl
  have hne : ((2 : K) ^ n) ≠ 0 := pow_ne_zero _ h2
  simp only [hs]
  obtain ⟨s', e, hl, hv⟩ := forRange_inv
    (fun i (s : List K) => s.length = 2 * p - 1 ∧
      ∀ k, k < i ∨ (2 * p - 1 - i ≤ k ∧ k < 2 * p - 1) → s[k]? = some (kernelWeight K n k))
    ((2 * p - 1) / 2) (List.replicate (2 * p - 1) 0)
    (fun out i => do
      let out ← setAt out i (((i + 1 : Nat) : K) / (p : Nat) / (p : Nat))
      let v ← pyGet out i
      setAt out (-i - 1) v)
    ⟨by simp, by intro k hk; omega⟩
    (by
      rintro i s hi ⟨h1, h2⟩
      have hw1 : (((i + 1 : Nat) : K) / (p : Nat) / (p : Nat)) = kernelWeight K n i := by
        unfold kernelWeight
        rw [hs, show min (i + 1) (2 * p - 1 - i) = i + 1 by omega, div_div, hcast, pow_two]
      have hw2 : kernelWeight K n (2 * p - 1 - (i + 1)) = kernelWeight K n i := by
        unfold kernelWeight
        rw [hs]
        congr 2
        omega
      rw [setAt_nat s i _ (by omega)]
      simp only [Option.bind_eq_bind, Option.bind_some, pyGet_nat]
      rw [List.getElem?_set_self (by omega)]
      simp only [Option.bind_some, hw1]
      unfold setAt
      rw [pyIdx_neg (by simp; omega) (by simp; omega)]
      simp only [Option.bind_some, List.length_set, h1]
      refine ⟨_, rfl, by simp [h1], ?_⟩
      intro k hk
      have ei : (((2 * p - 1 : Nat) : Int) + (-(i : Int) - 1)).toNat = 2 * p - 1 - (i + 1) := by omega
      rw [ei]
      by_cases hk1 : k = 2 * p - 1 - (i + 1)
      · rw [hk1, List.getElem?_set_self (by simp; omega), hw2]
      · rw [List.getElem?_set_ne (by omega)]
        by_cases hk2 : k = i
        · rw [hk2, List.getElem?_set_self (by omega)]
        · rw [List.getElem?_set_ne (by omega), h2 k (by omega)])
  simp only [Option.bind_eq_bind] at e ⊢
  rw [e]
  simp only [Option.bind_some]
  rw [setAt_nat _ _ _ (by omega)]
  congr 1
  apply List.ext_getElem?
  intro k
  by_cases hk : k < 2 * p - 1
  · rw [List.getElem?_map, List.getElem?_range hk]
    by_cases hm : k = (2 * p - 1) / 2
    · rw [hm, List.getElem?_set_self (by omega)]
      simp only [Option.map_some, kernelWeight, hs]
      rw [show min ((2 * p - 1) / 2 + 1) (2 * p - 1 - (2 * p - 1) / 2) = p by omega, hcast]
      congr 1
      field_simp
    · rw [List.getElem?_set_ne (by omega), hv k (by omega)]
      rfl
  · rw [List.getElem?_eq_none (by simp; omega), List.getElem?_eq_none (by simp; omega)]

theorem kernel_sum (h2 : (2 : K) ≠ 0) (n : Nat) :
    ((List.range (2 ^ (n + 1) - 1)).map fun (i : Nat) => kernelWeight K n i).sum = 1 := by
  have hp : 0 < 2 ^ n := Nat.two_pow_pos n
  have hne : ((2 : K) ^ n) ≠ 0 := pow_ne_zero _ h2
  have e1 : (∑ i ∈ Finset.range (2 ^ (n + 1) - 1), kernelWeight K n i)
      = triangularMean K (List.replicate (2 ^ (n + 1)) (1 : K)) (2 ^ n) (2 ^ n) := by
    unfold triangularMean
    apply Finset.sum_bij' (fun (i : Nat) _ => (i : ℤ) - (2 ^ n - 1 : Nat))
      (fun d _ => (d + (2 ^ n - 1 : Nat)).toNat)
    · intro i hi
      rw [Finset.mem_range, pow_succ] at hi
      rw [Finset.mem_Ioo]
      omega
    · intro d hd
      rw [Finset.mem_Ioo] at hd
      rw [Finset.mem_range, pow_succ]
      omega
    · intro i _; omega
    · intro d hd
      rw [Finset.mem_Ioo] at hd
      omega
    · intro i hi
      rw [Finset.mem_range, pow_succ] at hi
      have : sampleAt (List.replicate (2 ^ (n + 1)) (1 : K))
          (((2 ^ n : Nat) : ℤ) + ((i : ℤ) - (2 ^ n - 1 : Nat))) = 1 := by
        unfold sampleAt
        rw [List.getD_eq_getElem?_getD, List.getElem?_replicate, if_pos (by rw [pow_succ]; omega)]
        rfl
      rw [this, smul_eq_mul, mul_one, kernelWeight]
      congr 1
      · have : ((min (i + 1) (2 ^ (n + 1) - 1 - i) : Nat) : ℤ)
            = ((2 ^ n : Nat) : ℤ) - |(i : ℤ) - (2 ^ n - 1 : Nat)| := by
          rw [pow_succ, Int.abs_eq_natAbs]; omega
        have h3 := congrArg (Int.cast : ℤ → K) this
        push_cast at h3 ⊢
        exact_mod_cast h3
      · push_cast; rfl
  have e2 : ((List.range (2 ^ (n + 1) - 1)).map fun (i : Nat) => kernelWeight K n i).sum
      = ∑ i ∈ Finset.range (2 ^ (n + 1) - 1), kernelWeight K n i := rfl
  rw [e2, e1, triangularMean_eq]
  have : dsum (2 ^ n) (fun d => sampleAt (List.replicate (2 ^ (n + 1)) (1 : K)) (((2 ^ n : Nat) : ℤ) + d))
      = (2 ^ n) ^ 2 := by
    unfold dsum
    have : ∀ a ∈ Finset.range (2 ^ n), ∀ b ∈ Finset.range (2 ^ n),
        sampleAt (List.replicate (2 ^ (n + 1)) (1 : K)) (((2 ^ n : Nat) : ℤ) + ((a : ℤ) - b)) = 1 := by
      intro a ha b hb
      rw [Finset.mem_range] at ha hb
      unfold sampleAt
      rw [List.getD_eq_getElem?_getD, List.getElem?_replicate, if_pos (by rw [pow_succ]; omega)]
      rfl
    rw [Finset.sum_congr rfl (fun a ha => Finset.sum_congr rfl (this a ha))]
    simp [pow_two]
  rw [this, smul_eq_mul]
  push_cast
  field_simp

end kernel
end Cddm
