import Verif.Lemmas.LogAvg
import Mathlib.Algebra.Order.Field.Rat
import Mathlib.Tactic.Positivity
import Mathlib.Tactic.NormNum.Pow

/-!
# C41-C44: log averaging and merging
-/

namespace Cddm
open Spec

/-! ## C41 -/

/-- `triangular_kernel(n)` never leaves its array, has `2^(n+1)-1` entries, the `i`-th one
`(2^n - |i - (2^n-1)|) / 4^n`, is symmetric and sums to 1. -/
theorem C41_kernel (K : Type) [Field K] (h2 : (2 : K) ≠ 0) (n : Nat) :
    ∃ ker, triangularKernel K n = some ker ∧ ker.length = 2 ^ (n + 1) - 1 ∧
      (∀ i : Nat, i < 2 ^ (n + 1) - 1 → ker[i]? =
        some ((((2 : ℤ) ^ n - |(i : ℤ) - (2 ^ n - 1)| : ℤ) : K) / (2 ^ n) ^ 2)) ∧
      ker.reverse = ker ∧ ker.sum = 1 := by
  refine ⟨_, triangularKernel_eq K h2 n, by simp, ?_, ?_, kernel_sum K h2 n⟩
  · intro i hi
    rw [List.getElem?_map, List.getElem?_range hi]
    simp only [Option.map_some, kernelWeight]
    congr 2
    have hp : 0 < 2 ^ n := Nat.two_pow_pos n
    have : ((min (i + 1) (2 ^ (n + 1) - 1 - i) : Nat) : ℤ)
        = (2 : ℤ) ^ n - |(i : ℤ) - (2 ^ n - 1)| := by
      rw [pow_succ] at hi ⊢
      have e : ((2 : ℤ) ^ n) = ((2 ^ n : Nat) : ℤ) := by push_cast; rfl
      rw [e, Int.abs_eq_natAbs]; omega
    rw [← this, Int.cast_natCast]
  · apply List.ext_getElem
    · simp
    · intro i h1 h3
      simp only [List.length_map, List.length_range] at h3
      simp only [List.getElem_reverse, List.getElem_map, List.getElem_range, List.length_map,
        List.length_range, kernelWeight]
      congr 2
      omega

/-- All weights are positive; they strictly increase up to the middle one and strictly decrease
after it. -/
theorem C41_unimodal (K : Type) [Field K] [LinearOrder K] [IsStrictOrderedRing K] (n : Nat) :
    ∃ ker, triangularKernel K n = some ker ∧ (∀ x ∈ ker, 0 < x) ∧
      (∀ (i : Nat) (x y : K), i + 1 < 2 ^ n → ker[i]? = some x → ker[i + 1]? = some y → x < y) ∧
      (∀ (i : Nat) (x y : K), 2 ^ n ≤ i + 1 → ker[i]? = some x → ker[i + 1]? = some y → y < x) := by
  refine ⟨_, triangularKernel_eq K two_ne_zero n, ?_, ?_, ?_⟩
  · intro x hx
    rw [List.mem_map] at hx
    obtain ⟨i, hi, rfl⟩ := hx
    rw [List.mem_range] at hi
    unfold kernelWeight
    have : 0 < min (i + 1) (2 ^ (n + 1) - 1 - i) := by omega
    have : (0 : K) < ((min (i + 1) (2 ^ (n + 1) - 1 - i) : Nat) : K) := by exact_mod_cast this
    positivity
  · intro i x y hi hx hy
    have hp : 2 ^ (n + 1) = 2 * 2 ^ n := by rw [pow_succ]; ring
    rw [List.getElem?_map, List.getElem?_range (by omega)] at hx hy
    simp only [Option.map_some, Option.some.injEq] at hx hy
    rw [← hx, ← hy]
    unfold kernelWeight
    apply div_lt_div_of_pos_right _ (by positivity)
    exact_mod_cast (show min (i + 1) (2 ^ (n + 1) - 1 - i) <
      min (i + 1 + 1) (2 ^ (n + 1) - 1 - (i + 1)) by omega)
  · intro i x y hi hx hy
    have hp : 2 ^ (n + 1) = 2 * 2 ^ n := by rw [pow_succ]; ring
    have hil : i + 1 < 2 ^ (n + 1) - 1 := by
      by_contra hc
      rw [List.getElem?_eq_none (by simp; omega)] at hy; cases hy
    rw [List.getElem?_map, List.getElem?_range (by omega)] at hx hy
    simp only [Option.map_some, Option.some.injEq] at hx hy
    rw [← hx, ← hy]
    unfold kernelWeight
    apply div_lt_div_of_pos_right _ (by positivity)
    exact_mod_cast (show min (i + 1 + 1) (2 ^ (n + 1) - 1 - (i + 1)) <
      min (i + 1) (2 ^ (n + 1) - 1 - i) by omega)

example : triangularKernel ℚ 1 = some [1 / 4, 1 / 2, 1 / 4] := by
  rw [triangularKernel_eq ℚ (by norm_num)]
  simp [kernelWeight, List.range_succ]
  norm_num

/-! ## C42 -/

theorem isSome_getElem?_iff {α : Type} (x : List α) (k : Nat) : x[k]?.isSome = true ↔ k < x.length := by
  simp

section levels
variable {V : Type} (K : Type) [Field K] [AddCommGroup V] [Module K V]

theorem multilevel_go (data : List V) (size : Nat) (hs : 2 ≤ size) (binning : Int)
    (hb : binning ∈ ([2, 1, 0] : List Int)) (low : Nat → Bool) :
    multilevel K data size binning low
      = levelRows K size binning low (levelLoop size data.length 0) 0 data := by
  unfold multilevel
  rw [if_neg (not_not_intro hb), if_neg (by omega)]
  simp

/-- Mean binning: there are as many levels as doublings of `size` that fit the data; level `l`,
entry `j` is present exactly if time `j*2^l` lies inside the data; entry 0 is the first sample and
entry `j ≥ 1` is the triangular average of half-width `2^l` around time `j*2^l` if that window lies
inside the data.  In particular the length assertion of the filter never fails. -/
theorem C42_mean (data : List V) (size : Nat) (hs : 2 ≤ size) (low : Nat → Bool) :
    ∃ L rows, IsDoublings size data.length L ∧ multilevel K data size 1 low = .ok rows ∧
      rows.length = L + 1 ∧ ∀ l row, rows[l]? = some row → row.length = size ∧
        ∀ j, j < size → (∃ c : Option V, row[j]? = some c ∧
          (c.isSome ↔ j * 2 ^ l < data.length) ∧ (j = 0 → c = data[0]?) ∧
          (1 ≤ j → (j + 1) * 2 ^ l ≤ data.length →
            c = some (triangularMean K data (j * 2 ^ l) (2 ^ l)))) := by
  have hd := levelLoop_spec size data.length (by omega) 0 (by omega)
  obtain ⟨rows, e, hl, hr⟩ := levelRows_spec K size 1 low (MeanLevel K data)
    (levelLoop size data.length 0) 0 data
    ⟨by simp, rfl, by
      intro j hj hN
      simp only [pow_zero, mul_one] at hN ⊢
      rw [List.getElem?_eq_getElem (by omega), triangularMean]
      have : Finset.Ioo (-((1 : Nat) : ℤ)) ((1 : Nat) : ℤ) = {0} := by ext x; simp; omega
      rw [this]
      simp [sampleAt, List.getD_eq_getElem?_getD, List.getElem?_eq_getElem (show j < data.length by omega)]⟩
    (fun i d _ hi hq => meanLevel_step K data size i hs d (hd.2 i (by omega)) hq (low i))
  refine ⟨_, rows, hd, by rw [multilevel_go K data size hs 1 (by simp), e], hl, ?_⟩
  intro l row hrow
  obtain ⟨d, ⟨h1, h2, h3⟩, rfl⟩ := hr l row hrow
  rw [Nat.zero_add] at h1 h3
  refine ⟨levelRow_length _ _, fun j hj => ⟨d[j]?, levelRow_get _ _ _ hj, ?_, ?_, ?_⟩⟩
  · have hp : 0 < 2 ^ l := Nat.two_pow_pos l
    rw [isSome_getElem?_iff, h1, Nat.lt_div_iff_mul_lt hp]
    omega
  · rintro rfl; exact h2
  · exact h3 j

/-- First binning: entry `j` of level `l` is exactly the sample at time `j*2^l`, NaN if there is no
such sample. -/
theorem C42_first (data : List V) (size : Nat) (hs : 2 ≤ size) (low : Nat → Bool) :
    ∃ L rows, IsDoublings size data.length L ∧ multilevel K data size 0 low = .ok rows ∧
      rows.length = L + 1 ∧ ∀ l row, rows[l]? = some row → row.length = size ∧
        ∀ j, j < size → row[j]? = some data[j * 2 ^ l]? := by
  have hd := levelLoop_spec size data.length (by omega) 0 (by omega)
  obtain ⟨rows, e, hl, hr⟩ := levelRows_spec K size 0 low (FirstLevel data)
    (levelLoop size data.length 0) 0 data ⟨by simp, by simp⟩
    (fun i d _ _ hq => firstLevel_step K data i d hq (low i))
  refine ⟨_, rows, hd, by rw [multilevel_go K data size hs 0 (by simp), e], hl, ?_⟩
  intro l row hrow
  obtain ⟨d, ⟨h1, h2⟩, rfl⟩ := hr l row hrow
  rw [Nat.zero_add] at h2
  exact ⟨levelRow_length _ _, fun j hj => by rw [levelRow_get _ _ _ hj, h2]⟩

/-- Random selection: entry `j` of level `l` is one of the samples at times
`j*2^l ... (j+1)*2^l-1` (the same position in every block), NaN if that block is incomplete. -/
theorem C42_choose (data : List V) (size : Nat) (hs : 2 ≤ size) (low : Nat → Bool) :
    ∃ L rows, IsDoublings size data.length L ∧ multilevel K data size 2 low = .ok rows ∧
      rows.length = L + 1 ∧ ∀ l row, rows[l]? = some row → row.length = size ∧
        ∃ c, c < 2 ^ l ∧ ∀ j, j < size → row[j]? =
          some (if (j + 1) * 2 ^ l ≤ data.length then data[j * 2 ^ l + c]? else none) := by
  have hd := levelLoop_spec size data.length (by omega) 0 (by omega)
  obtain ⟨rows, e, hl, hr⟩ := levelRows_spec K size 2 low (ChooseLevel data)
    (levelLoop size data.length 0) 0 data ⟨by simp, 0, by simp, by simp⟩
    (fun i d _ _ hq => chooseLevel_step K data i d hq (low i))
  refine ⟨_, rows, hd, by rw [multilevel_go K data size hs 2 (by simp), e], hl, ?_⟩
  intro l row hrow
  obtain ⟨d, ⟨h1, c, hc, h2⟩, rfl⟩ := hr l row hrow
  rw [Nat.zero_add] at h1 h2 hc
  have hp : 0 < 2 ^ l := Nat.two_pow_pos l
  refine ⟨levelRow_length _ _, c, hc, fun j hj => ?_⟩
  rw [levelRow_get _ _ _ hj]
  congr 1
  split_ifs with h
  · exact h2 j (by rw [Nat.lt_div_iff_mul_lt hp, Nat.add_mul] at *; omega)
  · exact List.getElem?_eq_none (by
      rw [h1, Nat.div_le_iff_le_mul_add_pred hp]; rw [Nat.add_mul] at h
      rw [Nat.mul_comm]; omega)

/-- With mean binning every entry that is present stays within the bounds of the data. -/
theorem C42_mean_bounds [LinearOrder K] [IsStrictOrderedRing K] (data : List K) (size : Nat) (hs : 2 ≤ size) (low : Nat → Bool)
    (lo hi : K) (h : ∀ x ∈ data, lo ≤ x ∧ x ≤ hi) (rows : List (List (Option K)))
    (hr : multilevel K data size 1 low = .ok rows) :
    ∀ row ∈ rows, ∀ x : K, some x ∈ row → lo ≤ x ∧ x ≤ hi := by
  have hd := levelLoop_spec size data.length (by omega) 0 (by omega)
  obtain ⟨rows', e, hl, hr'⟩ := levelRows_spec K size 1 low
    (fun l d => MeanLevel K data l d ∧ ∀ x ∈ d, lo ≤ x ∧ x ≤ hi)
    (levelLoop size data.length 0) 0 data
    ⟨⟨by simp, rfl, by
      intro j hj hN
      simp only [pow_zero, mul_one] at hN ⊢
      rw [List.getElem?_eq_getElem (by omega), triangularMean]
      have : Finset.Ioo (-((1 : Nat) : ℤ)) ((1 : Nat) : ℤ) = {0} := by ext x; simp; omega
      rw [this]
      simp [sampleAt, List.getD_eq_getElem?_getD, List.getElem?_eq_getElem (show j < data.length by omega)]⟩, h⟩
    (by
      rintro i d _ hi' ⟨hq, hb⟩
      obtain ⟨d', e1, hq'⟩ := meanLevel_step K data size i hs d (hd.2 i (by omega)) hq (low i)
      refine ⟨d', e1, hq', ?_⟩
      have hp : 0 < 2 ^ i := Nat.two_pow_pos i
      have hdl : 2 < d.length := by
        rw [hq.1, Nat.lt_div_iff_mul_lt hp]
        have := Nat.mul_le_mul_right (2 ^ i) hs
        have := hd.2 i (by omega)
        omega
      unfold nextLevel at e1
      rw [if_pos rfl, convolveInto_eq K d d rfl hdl] at e1
      have e1 : everySecond (stencil (conv3 K) d) = d' := by
        simpa [bind, Except.bind] using e1
      rw [← e1]
      intro x hx
      obtain ⟨k, hk⟩ := List.mem_iff_getElem?.mp hx
      rw [everySecond_get] at hk
      have hm : ∀ (m : Nat) (y : K), d[m]? = some y → lo ≤ y ∧ y ≤ hi := fun m y hy =>
        hb y (List.mem_of_getElem? hy)
      by_cases h0 : 2 * k = 0
      · rw [h0, stencil_zero] at hk; exact hm _ _ hk
      · have hlt : 2 * k < d.length := by
          by_contra hc
          rw [List.getElem?_eq_none (by simp; omega)] at hk; cases hk
        by_cases h1 : 2 * k + 1 < d.length
        · rw [stencil_mid (conv3 K) d (2 * k) (by omega) h1, Option.some.injEq] at hk
          have g1 := hm (2 * k - 1) _ (List.getElem?_eq_getElem (by omega))
          have g2 := hm (2 * k) _ (List.getElem?_eq_getElem (by omega))
          have g3 := hm (2 * k + 1) _ (List.getElem?_eq_getElem (by omega))
          rw [← hk]
          simp only [conv3, smul_eq_mul]
          constructor <;> linarith [g1.1, g1.2, g2.1, g2.2, g3.1, g3.2]
        · rw [show 2 * k = d.length - 1 by omega, stencil_last] at hk
          exact hm _ _ hk)
  rw [multilevel_go K data size hs 1 (by simp), e, Except.ok.injEq] at hr
  subst hr
  intro row hrow x hx
  obtain ⟨l, hl'⟩ := List.mem_iff_getElem?.mp hrow
  obtain ⟨d, ⟨_, hb⟩, rfl⟩ := hr' l row hl'
  apply hb
  unfold levelRow at hx
  rw [List.mem_append, List.mem_map] at hx
  rcases hx with ⟨y, hy, hxy⟩ | hx
  · rw [Option.some.injEq] at hxy
    subst hxy
    exact List.mem_of_mem_take hy
  · rw [List.mem_replicate] at hx; exact absurd hx.2 (by simp)

/-- The last level always fits: it has at most `size` samples (nothing is cut off). -/
theorem C42_last_level (size N L : Nat) (h : IsDoublings size N L) (t : Nat) (ht : t < N) :
    t / 2 ^ L < size := by
  rw [Nat.div_lt_iff_lt_mul (Nat.two_pow_pos L)]
  exact lt_of_lt_of_le ht h.1

/-- Other binning modes and sizes below 2 are refused. -/
theorem C42_rejects (data : List V) (size binning : Int) (low : Nat → Bool)
    (h : binning ∉ ([2, 1, 0] : List Int) ∨ size < 2) :
    multilevel K data size binning low = .error .valueError := by
  unfold multilevel
  by_cases hb : binning ∉ ([2, 1, 0] : List Int)
  · rw [if_pos hb]
  · rw [if_neg hb, if_pos (by tauto)]

end levels

/-- Complex data: `fold` must be given; with `fold = False` the data are treated like real data,
with `fold = True` they are first folded. -/
theorem C42_complex (data : List (Cx ℝ)) (size : Nat) (hs : 2 ≤ size) (binning : Int)
    (hb : binning ∈ ([2, 1, 0] : List Int)) (low : Nat → Bool) :
    multilevelComplex data size binning low none = .error .valueError ∧
    multilevelComplex data size binning low (some false) = multilevel ℝ data size binning low ∧
    ∀ d, foldData (.cplx data) 0 = .ok d →
      multilevelComplex data size binning low (some true) = multilevel ℝ d size binning low := by
  unfold multilevelComplex
  rw [if_neg (not_not_intro hb), if_neg (by omega), if_neg (not_not_intro hb), if_neg (by omega),
    if_neg (not_not_intro hb), if_neg (by omega)]
  refine ⟨rfl, rfl, fun d hd => ?_⟩
  simp only [foldIfAsked, hd]
  rfl

example : multilevel ℚ [1, 2, 4, 8, (16 : ℚ)] 2 0 (fun _ => false)
    = .ok [[some 1, some 2], [some 1, some 4], [some 1, some 16]] := by
  have : levelLoop 2 5 0 = 2 := by
    rw [levelLoop, if_pos (by norm_num), levelLoop, if_pos (by norm_num), levelLoop,
      if_neg (by norm_num)]
  rw [show (2 : Int) = ((2 : Nat) : Int) from rfl, multilevel_go ℚ _ 2 (by omega) 0 (by simp)]
  simp only [List.length_cons, List.length_nil, Nat.zero_add, Nat.reduceAdd, this]
  rfl

/-- Three data points per level: `3` at level 1 is the triangular average of `2, 4, 6`. -/
example : triangularMean ℚ [1, 2, 4, 6, 16, (32 : ℚ)] 2 2 = 4 := by
  rw [triangularMean_eq]
  simp [dsum, Finset.sum_range_succ, sampleAt]
  norm_num

/-! ## C43 -/
section merge
variable {α : Type}

/-- mode 'full': the merged times are strictly increasing, and the (time, value) pairs are exactly
all entries of level 0 with time `j` and the entries `j ≥ n/2` of the levels `l ≥ 1` with time
`j*2^l`. -/
theorem C43_merge_full (data : List (List α)) (n : Nat) (hn : n % 2 = 0) (h0 : data ≠ [])
    (hr : ∀ r ∈ data, r.length = n) :
    ∃ x y, mergeMultilevel data n "full" = .ok (x, y) ∧ x.length = y.length ∧
      x.Pairwise (· < ·) ∧ ∀ t v, (t, v) ∈ x.zip y ↔
        ∃ l row j, data[l]? = some row ∧ row[j]? = some v ∧ t = j * 2 ^ l ∧ (l = 0 ∨ n / 2 ≤ j) := by
  match data, h0 with
  | r :: data, _ =>
    have hr0 : r.length = n := hr r (by simp)
    have hrest : ∀ r ∈ data, r.length = n := fun r hr' => hr r (by simp [hr'])
    refine ⟨_, _, mergeFull_eq r data n hn, ?_, ?_, ?_⟩
    · simp [mergeTimes_length n 1 data hrest, hr0]
    · rw [List.pairwise_append]
      refine ⟨List.pairwise_lt_range, mergeTimes_sorted n 1 hn data, ?_⟩
      intro a ha b hb
      rw [List.mem_range] at ha
      rw [mem_mergeTimes] at hb
      obtain ⟨i, j, _, h1, h2, rfl⟩ := hb
      calc a < n := ha
        _ = (n / 2) * 2 ^ 1 := by omega
        _ ≤ j * 2 ^ (1 + i) := Nat.mul_le_mul h1 (Nat.pow_le_pow_right (by omega) (by omega))
    · intro t v
      rw [List.zip_append (by simp [hr0]), List.mem_append, mem_zip_merge n 1 data hrest]
      have key : (t, v) ∈ (List.range n).zip r ↔ r[t]? = some v := by
        rw [List.mem_iff_getElem?]
        constructor
        · rintro ⟨k, hk⟩
          rw [List.getElem?_zip_eq_some] at hk
          have hkn : k < n := by
            by_contra hc
            rw [List.getElem?_eq_none (by simp; omega)] at hk; exact absurd hk.1 (by simp)
          rw [List.getElem?_range hkn, Option.some.injEq] at hk
          obtain ⟨rfl, h⟩ := hk
          exact h
        · intro h
          have htn : t < n := by
            rw [← hr0]; by_contra hc
            rw [List.getElem?_eq_none (by omega)] at h; cases h
          exact ⟨t, by rw [List.getElem?_zip_eq_some, List.getElem?_range htn]; exact ⟨rfl, h⟩⟩
      rw [key]
      constructor
      · rintro (h | ⟨i, row, j, h1, h2, h3, rfl⟩)
        · exact ⟨0, r, t, rfl, h, by simp, Or.inl rfl⟩
        · exact ⟨i + 1, row, j, by simpa using h1, h3, by rw [Nat.add_comm i 1], Or.inr h2⟩
      · rintro ⟨l, row, j, h1, h2, rfl, h4⟩
        match l with
        | 0 =>
          simp only [List.getElem?_cons_zero, Option.some.injEq] at h1
          exact Or.inl (by simpa [h1] using h2)
        | l + 1 =>
          exact Or.inr ⟨l, row, j, by simpa using h1, by omega, h2, by rw [Nat.add_comm l 1]⟩

/-- mode 'half': the same for the second halves of all levels. -/
theorem C43_merge_half (data : List (List α)) (n : Nat) (hn : n % 2 = 0)
    (hr : ∀ r ∈ data, r.length = n) :
    ∃ x y, mergeMultilevel data n "half" = .ok (x, y) ∧ x.length = y.length ∧
      x.Pairwise (· < ·) ∧ ∀ t v, (t, v) ∈ x.zip y ↔
        ∃ l row j, data[l]? = some row ∧ row[j]? = some v ∧ t = j * 2 ^ l ∧ n / 2 ≤ j := by
  refine ⟨_, _, ?_, mergeTimes_length n 0 data hr, mergeTimes_sorted n 0 hn data, ?_⟩
  · unfold mergeMultilevel
    rw [if_neg (by simp), if_pos rfl, mergeHalf_eq data n hn]
  · intro t v
    rw [mem_zip_merge n 0 data hr]
    simp only [Nat.zero_add]
    constructor
    · rintro ⟨i, row, j, h1, h2, h3, h4⟩; exact ⟨i, row, j, h1, h3, h4, h2⟩
    · rintro ⟨i, row, j, h1, h2, h3, h4⟩; exact ⟨i, row, j, h1, h4, h2, h3⟩

/-- Odd sizes and unknown modes are refused, and there must be at least one level. -/
theorem C43_rejects (data : List (List α)) (n : Nat) :
    (n % 2 = 1 → mergeMultilevel data n "half" = .error .valueError) ∧
    (n % 2 = 1 → data ≠ [] → mergeMultilevel data n "full" = .error .valueError) ∧
    (∀ mode, mode ≠ "full" → mode ≠ "half" → mergeMultilevel data n mode = .error .valueError) ∧
    (mergeMultilevel ([] : List (List α)) n "full" = .error .indexError) := by
  have hh : n % 2 = 1 → ∀ d : List (List α), mergeHalf d n = .error .valueError := by
    intro h d; unfold mergeHalf; rw [if_pos (by omega)]
  refine ⟨fun h => ?_, fun h h0 => ?_, fun mode h1 h2 => ?_, rfl⟩
  · unfold mergeMultilevel
    rw [if_neg (by simp), if_pos rfl, hh h]
  · match data, h0 with
    | r :: data, _ =>
      unfold mergeMultilevel
      rw [if_pos rfl]
      simp only [hh h]
      rfl
  · unfold mergeMultilevel
    rw [if_neg h1, if_neg h2]

example : mergeMultilevel [[10, 11, 12, 13], [20, 21, 22, 23], [30, 31, 32, 33]] 4 "full"
    = .ok ([0, 1, 2, 3, 4, 6, 8, 12], [10, 11, 12, 13, 22, 23, 32, 33]) := rfl

end merge

section average
variable {V : Type} (K : Type) [Field K] [AddCommGroup V] [Module K V]

/-- First binning followed by merging: every returned value is the sample at the returned time,
NaN if there is no such sample. -/
theorem C43_first (data : List V) (size : Nat) (hs : 2 ≤ size) (he : size % 2 = 0)
    (low : Nat → Bool) :
    ∃ rows x y, multilevel K data size 0 low = .ok rows ∧
      mergeMultilevel rows size "full" = .ok (x, y) ∧ x.length = y.length ∧
      x.Pairwise (· < ·) ∧ ∀ t v, (t, v) ∈ x.zip y → v = data[t]? := by
  obtain ⟨L, rows, _, e, hl, hr⟩ := C42_first K data size hs low
  obtain ⟨x, y, e2, h1, h2, h3⟩ := C43_merge_full rows size he
    (by rintro rfl; simp at hl) (by
      intro r hr'
      obtain ⟨l, hl'⟩ := List.mem_iff_getElem?.mp hr'
      exact (hr l r hl').1)
  refine ⟨rows, x, y, e, e2, h1, h2, ?_⟩
  intro t v htv
  obtain ⟨l, row, j, g1, g2, rfl, _⟩ := (h3 t v).mp htv
  have hj : j < size := by
    rw [← (hr l row g1).1]; by_contra hc
    rw [List.getElem?_eq_none (by omega)] at g2; cases g2
  rw [(hr l row g1).2 j hj, Option.some.injEq] at g2
  exact g2.symm

/-- `log_average(data, size)`: strictly increasing times; a value is NaN exactly if its time is
beyond the data; the first `2*size` values are the samples themselves, and a later value at time
`t = j*2^l` (`size ≤ j < 2*size`) is the triangular average of half-width `2^l` around `t` if that
window lies inside the data. -/
theorem C43_log_average (data : List V) (size : Nat) (hs : 1 ≤ size) :
    ∃ x y, logAverage K data size = .ok (x, y) ∧ x.length = y.length ∧ x.Pairwise (· < ·) ∧
      (∀ t v, (t, v) ∈ x.zip y → (v.isSome ↔ t < data.length) ∧ (t < 2 * size → v = data[t]?) ∧
        (2 * size ≤ t → ∃ l j, 1 ≤ l ∧ size ≤ j ∧ j < 2 * size ∧ t = j * 2 ^ l ∧
          (t + 2 ^ l ≤ data.length → v = some (triangularMean K data t (2 ^ l))))) ∧
      (∀ t, t < 2 * size → t ∈ x) := by
  obtain ⟨L, rows, hL, e, hl, hr⟩ := C42_mean K data (2 * size) (by omega) (fun _ => false)
  obtain ⟨x, y, e2, h1, h2, h3⟩ := C43_merge_full rows (2 * size) (by omega)
    (by rintro rfl; simp at hl) (by
      intro r hr'
      obtain ⟨l, hl'⟩ := List.mem_iff_getElem?.mp hr'
      exact (hr l r hl').1)
  refine ⟨x, y, ?_, h1, h2, ?_, ?_⟩
  · unfold logAverage
    rw [if_neg (by omega), show (size : Int) * 2 = ((2 * size : Nat) : Int) by push_cast; ring, e]
    exact e2
  · intro t v htv
    obtain ⟨l, row, j, g1, g2, rfl, g4⟩ := (h3 t v).mp htv
    obtain ⟨hrl, hrj⟩ := hr l row g1
    have hj : j < 2 * size := by
      rw [← hrl]; by_contra hc
      rw [List.getElem?_eq_none (by omega)] at g2; cases g2
    obtain ⟨c, k1, k2, k3, k4⟩ := hrj j hj
    rw [g2, Option.some.injEq] at k1
    subst k1
    have hp : 1 ≤ 2 ^ l := Nat.one_le_two_pow
    refine ⟨k2, fun ht => ?_, fun ht => ?_⟩
    · by_cases hl0 : l = 0
      · subst hl0
        simp only [pow_zero, mul_one] at *
        by_cases hj0 : j = 0
        · subst hj0; exact k3 rfl
        · by_cases hjN : j < data.length
          · rw [k4 (by omega) (by omega), triangularMean]
            have : Finset.Ioo (-((1 : Nat) : ℤ)) ((1 : Nat) : ℤ) = {0} := by ext x; simp; omega
            rw [this]
            simp [sampleAt, List.getD_eq_getElem?_getD, List.getElem?_eq_getElem hjN]
          · rw [List.getElem?_eq_none (by omega)]
            cases v with
            | none => rfl
            | some w => simp at k2; omega
      · exfalso
        have hj2 : size ≤ j := by omega
        have : 2 ^ 1 ≤ 2 ^ l := Nat.pow_le_pow_right (by omega) (by omega)
        nlinarith
    · have hl0 : l ≠ 0 := by rintro rfl; simp at ht; omega
      refine ⟨l, j, by omega, by omega, hj, rfl, fun hw => ?_⟩
      exact k4 (by omega) (by rw [Nat.add_mul, Nat.one_mul]; exact hw)
  · intro t ht
    have h0 : 0 < rows.length := by omega
    obtain ⟨hrl, hrj⟩ := hr 0 rows[0] (List.getElem?_eq_getElem h0)
    obtain ⟨c, k1, _⟩ := hrj t ht
    have : (t, c) ∈ x.zip y := (h3 t c).mpr ⟨0, rows[0], t, List.getElem?_eq_getElem h0, k1, by simp, Or.inl rfl⟩
    exact (List.of_mem_zip this).1

/-- `size` must be positive. -/
theorem C43_log_average_rejects (data : List V) (size : Int) (h : size < 1) :
    logAverage K data size = .error .valueError := by
  unfold logAverage; rw [if_pos h]

/-- Complex data: `fold` must be given; otherwise as for real data, after folding if asked for. -/
theorem C43_log_average_complex (data : List (Cx ℝ)) (size : Nat) (hs : 1 ≤ size) :
    logAverageComplex data size none = .error .valueError ∧
    logAverageComplex data size (some false) = logAverage ℝ data size ∧
    ∀ d, foldData (.cplx data) 0 = .ok d →
      logAverageComplex data size (some true) = logAverage ℝ d size := by
  have h := C42_complex data (2 * size) (by omega) 1 (by simp) (fun _ => false)
  have e : (size : Int) * 2 = ((2 * size : Nat) : Int) := by push_cast; ring
  unfold logAverageComplex logAverage
  simp only [show ¬ ((size : Int) < 1) by omega, if_false, e, h.1, h.2.1]
  refine ⟨rfl, trivial, fun d hd => ?_⟩
  rw [h.2.2 d hd]

/-! ## C44 -/

/-- All binning modes: the fast part of `log_merge`. -/
theorem multilevel_valid (data : List V) (size : Nat) (hs : 2 ≤ size) (binning : Int)
    (hb : binning ∈ ([2, 1, 0] : List Int)) (low : Nat → Bool) :
    ∃ L rows, IsDoublings size data.length L ∧ multilevel K data size binning low = .ok rows ∧
      rows.length = L + 1 ∧ ∀ l row, rows[l]? = some row → row.length = size ∧
        ∀ j v, row[j]? = some (some v) → j * 2 ^ l < data.length := by
  have hlt : ∀ (row : List (Option V)) (j : Nat) (c : Option V), row[j]? = some c → j < row.length := by
    intro row j c h
    by_contra hc
    rw [List.getElem?_eq_none (by omega)] at h; cases h
  simp only [List.mem_cons, List.not_mem_nil, or_false] at hb
  rcases hb with rfl | rfl | rfl
  · obtain ⟨L, rows, hL, e, hl, hr⟩ := C42_choose K data size hs low
    refine ⟨L, rows, hL, e, hl, fun l row h => ⟨(hr l row h).1, fun j v hv => ?_⟩⟩
    obtain ⟨h1, c, hc, h2⟩ := hr l row h
    rw [h2 j (by rw [← h1]; exact hlt _ _ _ hv), Option.some.injEq] at hv
    split_ifs at hv with hw
    · have := Nat.two_pow_pos l
      rw [Nat.add_mul] at hw; omega
  · obtain ⟨L, rows, hL, e, hl, hr⟩ := C42_mean K data size hs low
    refine ⟨L, rows, hL, e, hl, fun l row h => ⟨(hr l row h).1, fun j v hv => ?_⟩⟩
    obtain ⟨h1, h2⟩ := hr l row h
    obtain ⟨c, k1, k2, _⟩ := h2 j (by rw [← h1]; exact hlt _ _ _ hv)
    rw [hv, Option.some.injEq] at k1
    subst k1
    exact k2.mp rfl
  · obtain ⟨L, rows, hL, e, hl, hr⟩ := C42_first K data size hs low
    refine ⟨L, rows, hL, e, hl, fun l row h => ⟨(hr l row h).1, fun j v hv => ?_⟩⟩
    obtain ⟨h1, h2⟩ := hr l row h
    rw [h2 j (by rw [← h1]; exact hlt _ _ _ hv), Option.some.injEq] at hv
    by_contra hc
    rw [List.getElem?_eq_none (by omega)] at hv; cases hv

theorem pairwise_zip_fst {β : Type} (x : List Nat) (y : List β) (h : x.Pairwise (· < ·)) :
    (x.zip y).Pairwise (fun p q => p.1 < q.1) := by
  induction x generalizing y with
  | nil => simp
  | cons a x ih =>
    cases y with
    | nil => simp
    | cons b y =>
      rw [List.zip_cons_cons, List.pairwise_cons]
      rw [List.pairwise_cons] at h
      exact ⟨fun p hp => h.1 p.1 (List.of_mem_zip (by simpa using hp)).1, ih y h.2⟩

/-- What `log_merge` returns, for every binning mode: fast data averaged and merged, then the
second halves of the slow levels at the delays `2*period*j*2^l`. -/
theorem C44_log_merge (lin : List V) (multi : List (List V)) (period n : Nat)
    (hn : 2 ≤ n) (he : n % 2 = 0) (hlin : lin.length = period * n) (hm : ∀ r ∈ multi, r.length = n)
    (binning : Int) (hb : binning ∈ ([2, 1, 0] : List Int)) (low : Nat → Bool) :
    ∃ L rows xf yf xs ys, IsDoublings n lin.length L ∧
      multilevel K lin n binning low = .ok rows ∧ rows.length = L + 1 ∧
      mergeMultilevel rows n "full" = .ok (xf, yf) ∧
      logMerge K lin multi n binning low = .ok (xf ++ xs, yf ++ ys) ∧
      xf.length = yf.length ∧ xs.length = ys.length ∧
      (∀ t v, (t, v) ∈ xs.zip ys ↔ ∃ l row j w, multi[l]? = some row ∧ row[j]? = some w ∧ v = some w ∧
        n / 2 ≤ j ∧ t = 2 * period * (j * 2 ^ l)) ∧
      xf.Pairwise (· < ·) ∧ (1 ≤ period → xs.Pairwise (· < ·)) ∧
      (∀ t v, (t, some v) ∈ xf.zip yf → t < period * n) ∧
      (∀ t, t ∈ xs → period * n ≤ t) ∧
      xf.getLast? = some ((n - 1) * 2 ^ L) ∧ (multi ≠ [] → xs.head? = some (period * n)) := by
  obtain ⟨L, rows, hL, e, hl, hr⟩ := multilevel_valid K lin n hn binning hb low
  have hrl : ∀ r ∈ rows, r.length = n := by
    intro r hr'
    obtain ⟨l, hl'⟩ := List.mem_iff_getElem?.mp hr'
    exact (hr l r hl').1
  obtain ⟨xf, yf, e2, h1, h2, h3⟩ := C43_merge_full rows n he (by rintro rfl; simp at hl) hrl
  have e3 : mergeMultilevel multi n "half" = .ok (mergeTimes n 0 multi, mergeValues n multi) := by
    unfold mergeMultilevel
    rw [if_neg (by simp), if_pos rfl, mergeHalf_eq multi n he]
  have hper : period * n = 2 * period * (n / 2) := by
    have : n = 2 * (n / 2) := by omega
    calc period * n = period * (2 * (n / 2)) := by rw [← this]
      _ = _ := by ring
  refine ⟨L, rows, xf, yf, (mergeTimes n 0 multi).map (2 * period * ·),
    (mergeValues n multi).map some, hL, e, hl, e2, ?_, h1, ?_, ?_, h2, ?_, ?_, ?_, ?_, ?_⟩
  · unfold logMerge
    rw [if_neg (not_not_intro hb)]
    unfold logMergeCore periodFromData
    rw [if_neg (by omega), if_neg (by rw [hlin]; simp), hlin, Nat.mul_div_cancel _ (by omega)]
    change (multilevel K lin n binning low).bind _ = _
    rw [e]
    change (mergeMultilevel rows n "full").bind _ = _
    rw [e2]
    change (mergeMultilevel multi n "half").bind _ = _
    rw [e3]
    rfl
  · simp [mergeTimes_length n 0 multi hm]
  · intro t v
    rw [List.zip_map, List.mem_map]
    constructor
    · rintro ⟨⟨t', w⟩, hmem, heq⟩
      rw [mem_zip_merge n 0 multi hm] at hmem
      obtain ⟨i, row, j, g1, g2, g3, g4⟩ := hmem
      simp only [Prod.map_apply, Prod.mk.injEq] at heq
      exact ⟨i, row, j, w, g1, g3, heq.2.symm, g2, by rw [← heq.1, g4, Nat.zero_add]⟩
    · rintro ⟨l, row, j, w, g1, g2, rfl, g4, rfl⟩
      exact ⟨(j * 2 ^ l, w), (mem_zip_merge n 0 multi hm _ _).mpr
        ⟨l, row, j, g1, g4, g2, by rw [Nat.zero_add]⟩, rfl⟩
  · intro hp
    rw [List.pairwise_map]
    exact (mergeTimes_sorted n 0 he multi).imp fun h => Nat.mul_lt_mul_of_pos_left h (by omega)
  · intro t v htv
    obtain ⟨l, row, j, g1, g2, rfl, _⟩ := (h3 t (some v)).mp htv
    rw [← hlin]
    exact (hr l row g1).2 j v g2
  · intro t ht
    rw [List.mem_map] at ht
    obtain ⟨t', ht', rfl⟩ := ht
    rw [mem_mergeTimes] at ht'
    obtain ⟨i, j, _, g1, _, rfl⟩ := ht'
    rw [hper]
    exact Nat.mul_le_mul_left _ (le_trans g1 (Nat.le_mul_of_pos_right _ (Nat.two_pow_pos _)))
  · -- the last time is the largest one, which belongs to entry `n-1` of the last level
    have hlast : (rows[L]?).isSome := by rw [isSome_getElem?_iff]; omega
    obtain ⟨row, hrow⟩ := Option.isSome_iff_exists.mp hlast
    have hrn := (hr L row hrow).1
    have hmem : (((n - 1) * 2 ^ L), row[n - 1]'(by omega)) ∈ xf.zip yf := (h3 _ _).mpr
      ⟨L, row, n - 1, hrow, List.getElem?_eq_getElem (by omega), rfl, Or.inr (by omega)⟩
    have hx := (List.of_mem_zip hmem).1
    have hmax : ∀ t ∈ xf, t ≤ (n - 1) * 2 ^ L := by
      intro t ht
      obtain ⟨k, hk⟩ := List.mem_iff_getElem?.mp ht
      have hkl : k < xf.length := by
        by_contra hc
        rw [List.getElem?_eq_none (by omega)] at hk; cases hk
      have : (t, yf[k]'(by omega)) ∈ xf.zip yf := by
        rw [List.mem_iff_getElem?]
        exact ⟨k, by rw [List.getElem?_zip_eq_some]; exact ⟨hk, List.getElem?_eq_getElem (by omega)⟩⟩
      obtain ⟨l, row', j, g1, g2, rfl, _⟩ := (h3 _ _).mp this
      have hlL : l < rows.length := by
        by_contra hc
        rw [List.getElem?_eq_none (by omega)] at g1; cases g1
      have hjn : j < n := by
        rw [← (hr l row' g1).1]; by_contra hc
        rw [List.getElem?_eq_none (by omega)] at g2; cases g2
      exact Nat.mul_le_mul (by omega) (Nat.pow_le_pow_right (by omega) (by omega))
    have hne : xf ≠ [] := List.ne_nil_of_mem hx
    rw [List.getLast?_eq_some_getLast hne]
    congr 1
    apply le_antisymm (hmax _ (List.getLast_mem hne))
    obtain ⟨k, hk, hkx⟩ := List.mem_iff_getElem.mp hx
    rw [← hkx, List.getLast_eq_getElem]
    by_cases hkl : k = xf.length - 1
    · subst hkl; exact le_refl _
    · exact le_of_lt (List.pairwise_iff_getElem.mp h2 k (xf.length - 1) hk (by omega) (by omega))
  · intro hne
    match multi, hne with
    | r :: multi, _ =>
      rw [mergeTimes, List.map_append]
      have : n - n / 2 = (n - n / 2 - 1) + 1 := by omega
      rw [this, List.range'_succ]
      simp [hper]

/-- Points that hold a value have strictly increasing delays, whatever the period. -/
theorem C44_valid_increasing (lin : List V) (multi : List (List V)) (period n : Nat)
    (hp : 1 ≤ period) (hn : 2 ≤ n) (he : n % 2 = 0) (hlin : lin.length = period * n)
    (hm : ∀ r ∈ multi, r.length = n) (binning : Int) (hb : binning ∈ ([2, 1, 0] : List Int))
    (low : Nat → Bool) :
    ∃ x y, logMerge K lin multi n binning low = .ok (x, y) ∧ x.length = y.length ∧
      (((x.zip y).filter fun p => p.2.isSome).map Prod.fst).Pairwise (· < ·) := by
  obtain ⟨L, rows, xf, yf, xs, ys, _, _, _, _, e, h1, h2, _, h4, h5, h6, h7, _, _⟩ :=
    C44_log_merge K lin multi period n hn he hlin hm binning hb low
  refine ⟨_, _, e, by simp [h1, h2], ?_⟩
  rw [List.pairwise_map, List.zip_append h1, List.filter_append, List.pairwise_append]
  refine ⟨(pairwise_zip_fst _ _ h4).filter _, (pairwise_zip_fst _ _ (h5 hp)).filter _, ?_⟩
  rintro ⟨t, v⟩ ha ⟨t', v'⟩ hb'
  rw [List.mem_filter] at ha hb'
  obtain ⟨w, hw⟩ := Option.isSome_iff_exists.mp ha.2
  simp only at hw
  subst hw
  exact lt_of_lt_of_le (h6 t w ha.1) (h7 t' (List.of_mem_zip hb'.1).1)

/-- The whole axis, including points without a value, is strictly increasing exactly if the last
fast point comes before the first slow one. -/
theorem C44_increasing_iff (lin : List V) (multi : List (List V)) (period n : Nat)
    (hp : 1 ≤ period) (hn : 2 ≤ n) (he : n % 2 = 0) (hlin : lin.length = period * n)
    (hm : ∀ r ∈ multi, r.length = n) (h0 : multi ≠ []) (binning : Int)
    (hb : binning ∈ ([2, 1, 0] : List Int)) (low : Nat → Bool) :
    ∃ L x y, IsDoublings 1 period L ∧ logMerge K lin multi n binning low = .ok (x, y) ∧
      (x.Pairwise (· < ·) ↔ (n - 1) * 2 ^ L < period * n) := by
  obtain ⟨L, rows, xf, yf, xs, ys, hL, _, _, _, e, h1, h2, _, h4, h5, h6, h7, h8, h9⟩ :=
    C44_log_merge K lin multi period n hn he hlin hm binning hb low
  refine ⟨L, _, _, ⟨?_, ?_⟩, e, ?_⟩
  · have := hL.1
    rw [hlin, Nat.mul_comm n] at this
    rw [Nat.one_mul]; exact Nat.le_of_mul_le_mul_right this (by omega)
  · intro l hl
    have := hL.2 l hl
    rw [hlin, Nat.mul_comm n] at this
    rw [Nat.one_mul]; exact Nat.lt_of_mul_lt_mul_right this
  · rw [List.pairwise_append]
    have hlast : (n - 1) * 2 ^ L ∈ xf := List.mem_of_getLast? h8
    have hhead : period * n ∈ xs := List.mem_of_head? (h9 h0)
    constructor
    · rintro ⟨_, _, h⟩; exact h _ hlast _ hhead
    · intro h
      refine ⟨h4, h5 hp, fun a ha b hb' => ?_⟩
      refine lt_of_le_of_lt ?_ (lt_of_lt_of_le h (h7 b hb'))
      have hne : xf ≠ [] := List.ne_nil_of_mem ha
      rw [List.getLast?_eq_some_getLast hne, Option.some.injEq] at h8
      rw [← h8]
      obtain ⟨k, hk, hkx⟩ := List.mem_iff_getElem.mp ha
      rw [← hkx, List.getLast_eq_getElem]
      by_cases hkl : k = xf.length - 1
      · subst hkl; exact le_refl _
      · exact le_of_lt (List.pairwise_iff_getElem.mp h4 k (xf.length - 1) hk (by omega) (by omega))

/-- Partial form of C44: if the period is a power of two the merged times are strictly increasing.
Missing: other periods, for which it can fail (`C44_increasing_refuted`). -/
theorem C44_increasing_partial (lin : List V) (multi : List (List V)) (p n : Nat)
    (hn : 2 ≤ n) (he : n % 2 = 0) (hlin : lin.length = 2 ^ p * n)
    (hm : ∀ r ∈ multi, r.length = n) (binning : Int)
    (hb : binning ∈ ([2, 1, 0] : List Int)) (low : Nat → Bool) :
    ∃ x y, logMerge K lin multi n binning low = .ok (x, y) ∧ x.length = y.length ∧
      x.Pairwise (· < ·) := by
  obtain ⟨L, rows, xf, yf, xs, ys, hL, _, _, _, e, h1, h2, _, h4, h5, h6, h7, h8, h9⟩ :=
    C44_log_merge K lin multi (2 ^ p) n hn he hlin hm binning hb low
  refine ⟨_, _, e, by simp [h1, h2], ?_⟩
  by_cases h0 : multi = []
  · subst h0
    have hmx : xs = [] := by
      rw [List.eq_nil_iff_forall_not_mem]
      intro t ht
      obtain ⟨k, hk⟩ := List.mem_iff_getElem?.mp ht
      have hkl : k < xs.length := by
        by_contra hc
        rw [List.getElem?_eq_none (by omega)] at hk; cases hk
      rename_i hzip
      have : (t, ys[k]'(by omega)) ∈ xs.zip ys := by
        rw [List.mem_iff_getElem?]
        exact ⟨k, by rw [List.getElem?_zip_eq_some]; exact ⟨hk, List.getElem?_eq_getElem (by omega)⟩⟩
      obtain ⟨l, row, j, w, g, _⟩ := (hzip _ _).mp this
      simp at g
    rw [hmx, List.append_nil]; exact h4
  · obtain ⟨L', x, y, hL', e', hiff⟩ := C44_increasing_iff K lin multi (2 ^ p) n
      Nat.one_le_two_pow hn he hlin hm h0 binning hb low
    rw [e, Except.ok.injEq, Prod.mk.injEq] at e'
    rw [e'.1, hiff]
    have hLp : L' ≤ p := by
      by_contra hc
      have := hL'.2 p (by omega)
      omega
    calc (n - 1) * 2 ^ L' ≤ (n - 1) * 2 ^ p :=
          Nat.mul_le_mul_left _ (Nat.pow_le_pow_right (by omega) hLp)
      _ < n * 2 ^ p := Nat.mul_lt_mul_of_pos_right (by omega) (Nat.two_pow_pos _)
      _ = 2 ^ p * n := Nat.mul_comm _ _

end average

/-- Period 3, level size 4: the merged times contain the delay 12 twice (the first of the two
carries no value). -/
theorem C44_increasing_refuted :
    logMerge ℚ (List.replicate 12 (1 : ℚ)) [[1, 1, 1, 1]] 4 0 (fun _ => false)
      = .ok ([0, 1, 2, 3, 4, 6, 8, 12, 12, 18],
        [some 1, some 1, some 1, some 1, some 1, some 1, some 1, none, some 1, some 1]) ∧
    ¬ ([0, 1, 2, 3, 4, 6, 8, 12, 12, 18] : List Nat).Pairwise (· < ·) := by
  constructor
  · have hl : levelLoop 4 12 0 = 2 := by
      rw [levelLoop, if_pos (by norm_num), levelLoop, if_pos (by norm_num), levelLoop,
        if_neg (by norm_num)]
    unfold logMerge
    rw [if_neg (by simp)]
    unfold logMergeCore
    rw [multilevel_go ℚ _ 4 (by omega) 0 (by simp)]
    simp only [List.length_replicate, hl]
    rfl
  · decide

/-- `t_multilevel` gives the same delays as `log_merge`: entry `j` of level `l` has the delay
`2*period*j*2^l`. -/
theorem C44_t_multilevel (levels n period : Nat) :
    (tMultilevel levels n period).length = levels ∧
    ∀ l row, (tMultilevel levels n period)[l]? = some row → row.length = n ∧
      ∀ j, j < n → row[j]? = some (2 * period * (j * 2 ^ l)) := by
  rw [tMultilevel_eq]
  refine ⟨by simp, ?_⟩
  intro l row h
  rw [List.getElem?_map, Option.map_eq_some_iff] at h
  obtain ⟨i, hi, rfl⟩ := h
  have hll : l < levels := by
    by_contra hc
    rw [List.getElem?_eq_none (by simp; omega)] at hi; cases hi
  rw [List.getElem?_range hll, Option.some.injEq] at hi
  subst hi
  exact ⟨by simp, fun j hj => by rw [List.getElem?_map, List.getElem?_range hj]; rfl⟩

/-- Incompatible lengths are refused. -/
theorem C44_rejects {V : Type} (K : Type) [Field K] [AddCommGroup V] [Module K V]
    (lin : List V) (multi : List (List V)) (n : Nat) (binning : Int) (low : Nat → Bool) :
    (n ≠ 0 → lin.length % n ≠ 0 → logMerge K lin multi n binning low = .error .valueError) ∧
    (n % 2 = 1 → logMerge K lin multi n binning low = .error .valueError) ∧
    (binning ∉ ([2, 1, 0] : List Int) → logMerge K lin multi n binning low = .error .valueError) := by
  refine ⟨fun h0 h => ?_, fun h => ?_, fun h => by unfold logMerge; rw [if_pos h]⟩
  · unfold logMerge
    split_ifs with hb
    · unfold logMergeCore periodFromData
      rw [if_neg h0, if_pos h]; rfl
    · rfl
  · unfold logMerge
    split_ifs with hb
    · unfold logMergeCore periodFromData
      rw [if_neg (by omega)]
      by_cases h' : lin.length % n ≠ 0
      · rw [if_pos h']; rfl
      · rw [if_neg h']
        change (multilevel K lin n binning low).bind _ = _
        by_cases hn : n = 1
        · subst hn
          rw [C42_rejects K lin ((1 : Nat) : Int) binning low (Or.inr (by norm_num))]
          rfl
        · obtain ⟨L, rows, _, e, hl, _⟩ := multilevel_valid K lin n (by omega) binning
            hb low
          rw [e]
          change (mergeMultilevel rows n "full").bind _ = _
          rw [(C43_rejects rows n).2.1 h (by rintro rfl; simp at hl)]
          rfl
    · rfl

example : logMerge ℚ [1, 2, 3, 4, 5, 6, 7, (8 : ℚ)] [[0, 0, 9, 10], [0, 0, 11, 12]] 4 0
    (fun _ => false) = .ok ([0, 1, 2, 3, 4, 6, 8, 12, 16, 24],
      [some 1, some 2, some 3, some 4, some 5, some 7, some 9, some 10, some 11, some 12]) := by
  have hl : levelLoop 4 8 0 = 1 := by
    rw [levelLoop, if_pos (by norm_num), levelLoop, if_neg (by norm_num)]
  unfold logMerge
  rw [if_neg (by simp)]
  unfold logMergeCore
  rw [multilevel_go ℚ _ 4 (by omega) 0 (by simp)]
  simp only [List.length_cons, List.length_nil, Nat.zero_add, Nat.reduceAdd, hl]
  rfl

end Cddm
