import Verif.Props.Counts
import Verif.Props.Multitau

/-!
# C74: count arrays for multiple-tau data
-/

namespace Cddm
open Spec
open scoped BigOperators

section
variable {K : Type} [Field K] [LinearOrder K] [IsStrictOrderedRing K]

omit [LinearOrder K] [IsStrictOrderedRing K] in
theorem linspace_length (a b : K) (n : Nat) : (linspace a b n).length = n := by simp [linspace]

omit [IsStrictOrderedRing K] [LinearOrder K] in
theorem linspace_get [CharZero K] (a b : K) (n i : Nat) (hi : i < n) (hn : n ≠ 1) :
    (linspace a b n)[i]? = some (a + i * (b - a) / (n - 1)) := by
  simp only [linspace, List.getElem?_map, List.getElem?_range hi, Option.map_some, if_neg hn]
  congr 2
  ring

omit [LinearOrder K] [IsStrictOrderedRing K] in
/-- The counts of a linear axis: at delay `i` there are `N - i`. -/
theorem linspace_count [CharZero K] (N : Nat) : linspace (N : K) 1 N = (List.range N).map fun (i : Nat) => (N : K) - i := by
  unfold linspace
  apply List.map_congr_left
  intro i hi
  rw [List.mem_range] at hi
  by_cases hN : N = 1
  · rw [if_pos hN]
    have : i = 0 := by omega
    subst this
    simp
  · rw [if_neg hN]
    have h1 : (N : K) - 1 ≠ 0 := by
      have : (N : K) - 1 = ((N - 1 : Nat) : K) := by rw [Nat.cast_sub (by omega)]; simp
      rw [this]
      exact_mod_cast (by omega : N - 1 ≠ 0)
    field_simp
    ring

/-- The slow part without averaging, for `c` measurements per pair. -/
theorem slowCount_pick (N n : Nat) (hN : 0 < N) (hn : 2 ≤ n) (c : K) (hc : 0 < c) (binning : Int) (hb : binning ≠ 1) :
    ∃ L slow, IsDoublings n N L ∧
      slowCount ((List.range N).map fun (i : Nat) => ((N : K) - i) * c) n binning = .ok slow ∧ slow.length = L ∧
      ∀ (j : Nat) row, slow[j]? = some row → row.length = n ∧ ∀ k, k < n → row[k]? =
        some (if k * 2 ^ (j + 1) < N then some (((N : K) - (k * 2 ^ (j + 1) : Nat)) * c / (2 ^ (j + 1) : Nat)) else none) := by
  obtain ⟨L, rows, hL, e, hl, hr⟩ := C73_pick ((List.range N).map fun (i : Nat) => ((N : K) - i) * c)
    (by rw [ne_eq, List.map_eq_nil_iff, List.range_eq_nil]; omega) (by
      intro x hx
      rw [List.mem_map] at hx
      obtain ⟨i, hi, rfl⟩ := hx
      rw [List.mem_range] at hi
      have : (i : K) < N := by exact_mod_cast hi
      exact mul_pos (by linarith) hc) n hn binning hb
  refine ⟨L, (rows.mapIdx fun l row => row.map fun c => c.map (· / ((2 ^ l : Nat) : K))).drop 1, by simpa using hL, ?_, ?_, ?_⟩
  · unfold slowCount
    rw [e]
    simp only
    rw [if_neg hb]
  · simp [hl]
  · intro j row hrow
    rw [List.getElem?_drop, List.getElem?_mapIdx, Option.map_eq_some_iff] at hrow
    obtain ⟨r, hr1, rfl⟩ := hrow
    obtain ⟨h1, h2⟩ := hr _ r hr1
    refine ⟨by simpa using h1, fun k hk => ?_⟩
    rw [List.getElem?_map, h2 k hk, Nat.add_comm 1 j]
    simp only [Option.map_some]
    congr 1
    by_cases hk' : k * 2 ^ (j + 1) < N
    · rw [if_pos hk', List.getElem?_map, List.getElem?_range hk']
      rfl
    · rw [if_neg hk', List.getElem?_eq_none (by simp; omega)]
      rfl

/-! ## C74 -/

/-- `ccorr_multi_count` without averaging: `period*n` linear cells falling linearly from `2N/period` to
`2(N-n)/period`, and slow cells holding two measurements for each of the `N/2^l - k` pairs of samples. -/
theorem C74_cross (N period n : Nat) (hN : 0 < N) (hp : 0 < period) (hn : 2 ≤ n) (binning : Int) (hb : binning ≠ 1) :
    ∃ L fast slow, IsDoublings n N L ∧ ccorrMultiCount K N period n binning = .ok (fast, slow) ∧
      fast.length = period * n ∧
      (∀ i, i < period * n → fast[i]? = some (2 / period * ((N : K) - i * n / ((period * n : Nat) - 1)))) ∧
      slow.length = L ∧ ∀ (j : Nat) row, slow[j]? = some row → row.length = n ∧ ∀ k, k < n → row[k]? =
        some (if k * 2 ^ (j + 1) < N then some (2 * ((N : K) / (2 ^ (j + 1) : Nat) - k)) else none) := by
  obtain ⟨L, slow, hL, e, hl, hr⟩ := slowCount_pick (K := K) N n hN hn 2 two_pos binning hb
  have hpn : period * n ≠ 1 := by
    have : 1 * 2 ≤ period * n := Nat.mul_le_mul hp hn
    omega
  have hpn0 : 1 ≤ period * n := Nat.mul_pos hp (by omega)
  have hpK : (period : K) ≠ 0 := by exact_mod_cast (by omega : period ≠ 0)
  refine ⟨L, linspace ((N : K) / period * 2) (((N : K) - n) / period * 2) (period * n), slow, hL, ?_,
    linspace_length _ _ _, ?_, hl, ?_⟩
  · unfold ccorrMultiCount
    rw [if_neg (by omega), linspace_count, List.map_map]
    simp only [Function.comp_def, e]
  · intro i hi
    rw [linspace_get _ _ _ _ hi hpn]
    congr 1
    field_simp
    ring
  · intro j row hrow
    obtain ⟨h1, h2⟩ := hr j row hrow
    refine ⟨h1, fun k hk => ?_⟩
    rw [h2 k hk]
    congr 1
    split
    · congr 1
      have : ((2 ^ (j + 1) : Nat) : K) ≠ 0 := by exact_mod_cast (Nat.two_pow_pos (j + 1)).ne'
      push_cast at this ⊢
      field_simp
    · rfl

/-- `acorr_multi_count` without averaging: the linear cells rise from 0 to delay `period` and then fall linearly, and
slow cells hold one measurement for each of the `N/2^l - k` pairs. -/
theorem C74_auto (N period n : Nat) (hN : 0 < N) (hp : 0 < period) (hn : 2 ≤ n) (binning : Int) (hb : binning ≠ 1) :
    ∃ L fast slow, IsDoublings n N L ∧ acorrMultiCount K N period n binning = .ok (fast, slow) ∧
      fast.length = period * n ∧
      (∀ i, i < period * n → fast[i]? = some (
        if i ≤ period then i / period * (1 / period * ((N : K) - period * n / ((period * n : Nat) - 1)))
        else 1 / period * ((N : K) - i * n / ((period * n : Nat) - 1)))) ∧
      slow.length = L ∧ ∀ (j : Nat) row, slow[j]? = some row → row.length = n ∧ ∀ k, k < n → row[k]? =
        some (if k * 2 ^ (j + 1) < N then some ((N : K) / (2 ^ (j + 1) : Nat) - k) else none) := by
  obtain ⟨L, slow, hL, e, hl, hr⟩ := slowCount_pick (K := K) N n hN hn 1 one_pos binning hb
  have h12 : period * 2 ≤ period * n := Nat.mul_le_mul (le_refl _) hn
  have hpK : (period : K) ≠ 0 := by exact_mod_cast (by omega : period ≠ 0)
  have hget : ∀ i, i < period * n → (linspace ((N : K) / period) (((N : K) - n) / period) (period * n))[i]?
      = some (1 / period * ((N : K) - i * n / ((period * n : Nat) - 1))) := by
    intro i hi
    rw [linspace_get _ _ _ _ hi (by omega)]
    congr 1
    field_simp
    ring
  refine ⟨L, linspace 0 (1 / period * ((N : K) - period * n / ((period * n : Nat) - 1))) (period + 1) ++
    (linspace ((N : K) / period) (((N : K) - n) / period) (period * n)).drop (period + 1), slow, hL, ?_, ?_, ?_, hl, ?_⟩
  · unfold acorrMultiCount
    rw [if_neg (by omega)]
    simp only [hget period (by omega)]
    rw [linspace_count]
    simp only [mul_one] at e
    simp only [e]
  · simp only [List.length_append, linspace_length, List.length_drop]
    omega
  · intro i hi
    by_cases hip : i ≤ period
    · rw [if_pos hip, List.getElem?_append_left (by rw [linspace_length]; omega),
        linspace_get _ _ _ _ (by omega) (by omega)]
      congr 1
      push_cast
      rw [sub_zero, zero_add, add_sub_cancel_right, mul_div_right_comm]
    · rw [if_neg hip, List.getElem?_append_right (by rw [linspace_length]; omega), linspace_length, List.getElem?_drop,
        Nat.add_sub_cancel' (by omega), hget i hi]
  · intro j row hrow
    obtain ⟨h1, h2⟩ := hr j row hrow
    refine ⟨h1, fun k hk => ?_⟩
    rw [h2 k hk]
    congr 1
    split
    · congr 1
      have : ((2 ^ (j + 1) : Nat) : K) ≠ 0 := by exact_mod_cast (Nat.two_pow_pos (j + 1)).ne'
      push_cast at this ⊢
      field_simp
    · rfl

end

/-- The number of levels of the counts and of the data (for the default number of levels) agree exactly if the number
of frames is `n` times a power of two; otherwise the counts have one level more. -/
theorem C74_levels (N n period L : Nat) (hn : 5 ≤ n) (hN : n ≤ N) (hL : IsDoublings n N L) :
    ∃ nl, determineLengths N n period none = .ok (period * n, n, nl) ∧ (L = nl ∨ L = nl + 1) ∧
      (L = nl ↔ ∃ k, N = n * 2 ^ k) := by
  obtain ⟨nl, h1, h2, h3⟩ := determineLengths_none N n period (by omega) hN
  have a1 : n * 2 ^ nl ≤ N := (Nat.le_div_iff_mul_le (Nat.two_pow_pos nl)).mp h2
  have a2 : N < n * 2 ^ (nl + 1) := (Nat.div_lt_iff_lt_mul (Nat.two_pow_pos (nl + 1))).mp h3
  have hmono : ∀ a b : Nat, n * 2 ^ a < n * 2 ^ b ↔ a < b := by
    intro a b
    rw [Nat.mul_lt_mul_left (by omega), Nat.pow_lt_pow_iff_right (by omega)]
  have b1 : nl ≤ L := by
    by_contra hc
    have := (hmono L nl).mpr (by omega)
    have := hL.1
    omega
  have b2 : L ≤ nl + 1 := by
    by_contra hc
    have := hL.2 (nl + 1) (by omega)
    omega
  refine ⟨nl, h1, by omega, ?_, ?_⟩
  · rintro rfl
    exact ⟨L, by have := hL.1; omega⟩
  · rintro ⟨k, hk⟩
    have c1 : k < nl + 1 := (hmono k (nl + 1)).mp (by omega)
    by_contra hc
    have : L = nl + 1 := by omega
    subst this
    have := hL.2 nl (by omega)
    have := (hmono nl k).mp (by omega)
    omega

/-- For 100 frames and the default level size there are 2 slow levels of data, but 3 of counts. -/
theorem C74_levels_refuted : determineLengths 100 16 1 none = .ok (16, 16, 2) ∧
    ∃ fast slow, ccorrMultiCount ℚ 100 1 16 0 = .ok (fast, slow) ∧ slow.length = 3 := by
  refine ⟨by decide, ?_⟩
  obtain ⟨L, fast, slow, hL, e, -, -, hl, -⟩ := C74_cross (K := ℚ) 100 1 16 (by decide) (by decide) (by decide) 0 (by decide)
  have : L = 3 := isDoublings_unique hL ⟨by decide, by decide⟩
  exact ⟨fast, slow, e, by omega⟩

/-! ### Comparison with the counts of the data -/

/-- Number of pairs at distance `k` of two regular signals of `m` samples. -/
theorem pairs_regular {α β : Type} (x : List α) (y : List β) (m k : Nat) (hx : x.length = m) (hy : y.length = m)
    (L : Nat) : (cellSum false (fun _ _ => 1) (regular x) (regular y) L k : Nat)
      = if k = 0 then m else 2 * (m - k) := by
  unfold cellSum
  rw [if_neg (by decide), pairSum_split, pairSumAt_regular, pairSumAt_regular_neg]
  simp only [List.map_const', List.sum_replicate, List.length_zip, List.length_drop, hx, hy, smul_eq_mul, mul_one]
  split <;> omega

theorem selfPairs_regular {α : Type} (x : List α) (k : Nat) :
    (selfSum (fun _ _ => 1) (regular x) k : Nat) = x.length - k := by
  rw [selfSum_regular]
  simp only [List.map_const', List.sum_replicate, List.length_zip, List.length_drop, smul_eq_mul, mul_one]
  omega

theorem ceil_bounds (N m : Nat) (hm : 0 < m) :
    (N : ℚ) / m ≤ ((N + m - 1) / m : Nat) ∧ (((N + m - 1) / m : Nat) : ℚ) < (N : ℚ) / m + 1 ∧
      (m ∣ N → (N : ℚ) / m = ((N + m - 1) / m : Nat)) := by
  have hmq : (0 : ℚ) < m := by exact_mod_cast hm
  have h1 := Nat.div_mul_le_self (N + m - 1) m
  have h2 := Nat.lt_div_mul_add (a := N + m - 1) hm
  generalize (N + m - 1) / m = q at h1 h2
  have h1' : (q : ℚ) * m < N + m := by exact_mod_cast (by omega : q * m < N + m)
  have h2' : (N : ℚ) ≤ q * m := by exact_mod_cast (by omega : N ≤ q * m)
  refine ⟨by rwa [div_le_iff₀ hmq], ?_, ?_⟩
  · rw [← sub_lt_iff_lt_add, lt_div_iff₀ hmq]; linarith
  · rintro ⟨c, rfl⟩
    have : q = c := by
      apply le_antisymm
      · by_contra hc
        have : (c + 1) * m ≤ q * m := Nat.mul_le_mul_right _ (by omega)
        rw [Nat.mul_comm m c] at h1
        rw [Nat.add_mul] at this
        omega
      · by_contra hc
        have : (q + 1) * m ≤ c * m := Nat.mul_le_mul_right _ (by omega)
        rw [Nat.mul_comm m c] at h2
        rw [Nat.add_mul] at this
        omega
    subst this
    push_cast
    field_simp

/-- BINNING_FIRST, slow levels, delays other than 0: `ccorr_multi_count` is at most 2 below the count in the data
returned by `ccorr_multi`, and equal to it if the block length divides the number of frames.  Missing: delay 0
(`C74_cross_zero_refuted`) and the linear part (`C74_fast_refuted`). -/
theorem C74_cross_slow_partial (f1 f2 : List (Cx ℝ)) (t1 t2 : Option (List Int)) (n : Nat) (norm : Option Int)
    (method : Option String) (period : Nat) (binning : Option Int) (al : Nat → Bool) (r : Nat → ℚ) (m : String) (v : Int)
    (hm : m = method.getD "corr") (hb : binning = some 0 ∨ m = "diff" ∧ binning = none) (hv : v = effNorm norm m true)
    (hargs : CrossArgs m v f1.length f2.length t1 t2 (period * n)) (hn : 5 ≤ n) (hN : n ≤ f1.length)
    (hp : 0 < period) :
    ∃ fd sd fast slow, ccorrMulti f1 f2 t1 t2 n norm method period binning none al r = .ok (fd, sd) ∧
      ccorrMultiCount ℚ f1.length period n 0 = .ok (fast, slow) ∧
      ∀ j d, sd[j]? = some d → ∃ cnt row, d.count = some cnt ∧ slow[j]? = some row ∧ cnt.length = row.length ∧
        ∀ k, 1 ≤ k → k < n → ∃ (a : Nat) (c : ℚ), cnt[k]? = some a ∧ row[k]? = some (some c) ∧ c ≤ (a : ℚ) ∧ (a : ℚ) < c + 2 ∧
          (2 ^ (j + 1) ∣ f1.length → c = (a : ℚ)) := by
  obtain ⟨nl, g1, g2, e⟩ := C38_cross_first f1 f2 t1 t2 n norm method period binning al r m v hm hb hv hargs hn hN
  obtain ⟨L, fast, slow, hL, e', -, -, hl, hs⟩ := C74_cross (K := ℚ) f1.length period n (by omega) hp (by omega) 0
    (by decide)
  have hlen := hargs.lengths
  refine ⟨_, _, fast, slow, e, e', ?_⟩
  intro j d hd
  rw [List.getElem?_map, Option.map_eq_some_iff] at hd
  obtain ⟨j', hj', rfl⟩ := hd
  have hj : j < nl := by
    by_contra hc
    rw [List.getElem?_eq_none (by simpa using hc)] at hj'
    cases hj'
  rw [List.getElem?_range hj, Option.some.injEq] at hj'
  subst hj'
  have hmul : ∀ k, k < n → k * 2 ^ (j + 1) < f1.length := by
    intro k hk
    have a1 : n * 2 ^ nl ≤ f1.length := (Nat.le_div_iff_mul_le (Nat.two_pow_pos nl)).mp g1
    have a2 : 2 ^ (j + 1) ≤ 2 ^ nl := Nat.pow_le_pow_right (by omega) (by omega)
    have a3 : n * 2 ^ (j + 1) ≤ n * 2 ^ nl := Nat.mul_le_mul_left _ a2
    have a4 : k * 2 ^ (j + 1) < n * 2 ^ (j + 1) := Nat.mul_lt_mul_of_pos_right hk (Nat.two_pow_pos _)
    omega
  have hjL : j < slow.length := by
    rw [hl]
    by_contra hc
    have := hL.1
    have a1 : n * 2 ^ nl ≤ f1.length := (Nat.le_div_iff_mul_le (Nat.two_pow_pos nl)).mp g1
    have a2 : 2 ^ (L + 1) ≤ 2 ^ nl := Nat.pow_le_pow_right (by omega) (by omega)
    have a3 : n * 2 ^ (L + 1) ≤ n * 2 ^ nl := Nat.mul_le_mul_left _ a2
    have a4 : 0 < n * 2 ^ L := Nat.mul_pos (by omega) (Nat.two_pow_pos _)
    rw [pow_succ, ← Nat.mul_assoc] at a3
    omega
  obtain ⟨w1, w2⟩ := hs j slow[j] (List.getElem?_eq_getElem hjL)
  refine ⟨_, slow[j], rfl, List.getElem?_eq_getElem hjL, by simp [cells, w1], ?_⟩
  intro k hk1 hkn
  have hB := blockFirsts_length (2 ^ (j + 1)) (Nat.two_pow_pos _) f1
  have hB2 := blockFirsts_length (2 ^ (j + 1)) (Nat.two_pow_pos _) f2
  rw [hlen] at hB2
  obtain ⟨b1, b2, b3⟩ := ceil_bounds f1.length (2 ^ (j + 1)) (Nat.two_pow_pos _)
  have hkq : k ≤ (f1.length + 2 ^ (j + 1) - 1) / 2 ^ (j + 1) := by
    rw [Nat.le_div_iff_mul_le (Nat.two_pow_pos _)]
    have := hmul k hkn
    have := Nat.two_pow_pos (j + 1)
    omega
  refine ⟨2 * ((f1.length + 2 ^ (j + 1) - 1) / 2 ^ (j + 1) - k), 2 * ((f1.length : ℚ) / (2 ^ (j + 1) : Nat) - k),
    ?_, ?_, ?_, ?_, ?_⟩
  · unfold cells
    rw [List.getElem?_map, List.getElem?_range hkn]
    simp only [Option.map_some]
    rw [pairs_regular _ _ _ k hB hB2, if_neg (by omega)]
  · rw [w2 k hkn, if_pos (hmul k hkn)]
  · rw [Nat.cast_mul, Nat.cast_sub hkq]; push_cast at *; linarith
  · rw [Nat.cast_mul, Nat.cast_sub hkq]; push_cast at *; linarith
  · intro hd
    rw [Nat.cast_mul, Nat.cast_sub hkq, b3 hd]; push_cast; ring

/-- The same for auto-correlation, delay 0 included: at most 1 below, and equal if the block length divides the number
of frames.  Missing: the linear part (`C74_fast_refuted`). -/
theorem C74_auto_slow_partial (f : List (Cx ℝ)) (t : Option (List Int)) (n : Nat) (norm : Option Int)
    (method : Option String) (period : Nat) (binning : Option Int) (al : Nat → Bool) (r : Nat → ℚ) (m : String) (v : Int)
    (hm : m = method.getD "corr") (hb : binning = some 0 ∨ m = "diff" ∧ binning = none) (hv : v = effNorm norm m false)
    (hargs : AutoArgs m v f.length t (period * n)) (hn : 5 ≤ n) (hN : n ≤ f.length) (hp : 0 < period) :
    ∃ fd sd fast slow, acorrMulti f t n norm method period binning none al r = .ok (fd, sd) ∧
      acorrMultiCount ℚ f.length period n 0 = .ok (fast, slow) ∧
      ∀ j d, sd[j]? = some d → ∃ cnt row, d.count = some cnt ∧ slow[j]? = some row ∧ cnt.length = row.length ∧
        ∀ k, k < n → ∃ (a : Nat) (c : ℚ), cnt[k]? = some a ∧ row[k]? = some (some c) ∧ c ≤ (a : ℚ) ∧ (a : ℚ) < c + 1 ∧
          (2 ^ (j + 1) ∣ f.length → c = (a : ℚ)) := by
  obtain ⟨nl, g1, g2, e⟩ := C38_auto_first f t n norm method period binning al r m v hm hb hv hargs hn hN
  obtain ⟨L, fast, slow, hL, e', -, -, hl, hs⟩ := C74_auto (K := ℚ) f.length period n (by omega) hp (by omega) 0
    (by decide)
  refine ⟨_, _, fast, slow, e, e', ?_⟩
  intro j d hd
  rw [List.getElem?_map, Option.map_eq_some_iff] at hd
  obtain ⟨j', hj', rfl⟩ := hd
  have hj : j < nl := by
    by_contra hc
    rw [List.getElem?_eq_none (by simpa using hc)] at hj'
    cases hj'
  rw [List.getElem?_range hj, Option.some.injEq] at hj'
  subst hj'
  have hmul : ∀ k, k < n → k * 2 ^ (j + 1) < f.length := by
    intro k hk
    have a1 : n * 2 ^ nl ≤ f.length := (Nat.le_div_iff_mul_le (Nat.two_pow_pos nl)).mp g1
    have a2 : 2 ^ (j + 1) ≤ 2 ^ nl := Nat.pow_le_pow_right (by omega) (by omega)
    have a3 : n * 2 ^ (j + 1) ≤ n * 2 ^ nl := Nat.mul_le_mul_left _ a2
    have a4 : k * 2 ^ (j + 1) < n * 2 ^ (j + 1) := Nat.mul_lt_mul_of_pos_right hk (Nat.two_pow_pos _)
    omega
  have hjL : j < slow.length := by
    rw [hl]
    by_contra hc
    have := hL.1
    have a1 : n * 2 ^ nl ≤ f.length := (Nat.le_div_iff_mul_le (Nat.two_pow_pos nl)).mp g1
    have a2 : 2 ^ (L + 1) ≤ 2 ^ nl := Nat.pow_le_pow_right (by omega) (by omega)
    have a3 : n * 2 ^ (L + 1) ≤ n * 2 ^ nl := Nat.mul_le_mul_left _ a2
    have a4 : 0 < n * 2 ^ L := Nat.mul_pos (by omega) (Nat.two_pow_pos _)
    rw [pow_succ, ← Nat.mul_assoc] at a3
    omega
  obtain ⟨w1, w2⟩ := hs j slow[j] (List.getElem?_eq_getElem hjL)
  refine ⟨_, slow[j], rfl, List.getElem?_eq_getElem hjL, by simp [cells, w1], ?_⟩
  intro k hkn
  have hB := blockFirsts_length (2 ^ (j + 1)) (Nat.two_pow_pos _) f
  obtain ⟨b1, b2, b3⟩ := ceil_bounds f.length (2 ^ (j + 1)) (Nat.two_pow_pos _)
  have hkq : k ≤ (f.length + 2 ^ (j + 1) - 1) / 2 ^ (j + 1) := by
    rw [Nat.le_div_iff_mul_le (Nat.two_pow_pos _)]
    have := hmul k hkn
    have := Nat.two_pow_pos (j + 1)
    omega
  refine ⟨(f.length + 2 ^ (j + 1) - 1) / 2 ^ (j + 1) - k, (f.length : ℚ) / (2 ^ (j + 1) : Nat) - k,
    ?_, ?_, ?_, ?_, ?_⟩
  · unfold cells
    rw [List.getElem?_map, List.getElem?_range hkn]
    simp only [Option.map_some]
    rw [selfPairs_regular, hB]
  · rw [w2 k hkn, if_pos (hmul k hkn)]
  · rw [Nat.cast_sub hkq]; push_cast at *; linarith
  · rw [Nat.cast_sub hkq]; push_cast at *; linarith
  · intro hd
    rw [Nat.cast_sub hkq, b3 hd]

/-- At delay 0 there are as many pairs as blocks, but `ccorr_multi_count` returns twice that. -/
theorem C74_cross_zero_refuted {α : Type} (x y : List α) (hx : x.length = 10) (hy : y.length = 10) (L : Nat) :
    (cellSum false (fun _ _ => 1) (regular (blockFirsts 2 x)) (regular (blockFirsts 2 y)) L 0 : Nat) = 5 ∧
    ∃ fast slow row, ccorrMultiCount ℚ 10 1 5 0 = .ok (fast, slow) ∧ slow[0]? = some row ∧
      row[0]? = some (some 10) := by
  constructor
  · rw [pairs_regular _ _ 5 0 (by rw [blockFirsts_length _ (by decide), hx])
      (by rw [blockFirsts_length _ (by decide), hy])]
    rfl
  · obtain ⟨D, fast, slow, hL, e, -, -, hl, hs⟩ := C74_cross (K := ℚ) 10 1 5 (by decide) (by decide) (by decide) 0
      (by decide)
    have : D = 1 := isDoublings_unique hL ⟨by decide, by decide⟩
    have h0 : 0 < slow.length := by omega
    refine ⟨fast, slow, slow[0], e, List.getElem?_eq_getElem h0, ?_⟩
    rw [(hs 0 slow[0] (List.getElem?_eq_getElem h0)).2 0 (by decide)]
    norm_num

/-- In the linear part of auto-correlation counts delay 0 has count 0, though there are as many pairs as frames; and
the last cell is below the number of pairs, both for cross- and auto-correlation (here 10 regular samples in levels
of 5, period 1). -/
theorem C74_fast_refuted {α : Type} (x y : List α) (hx : x.length = 10) (hy : y.length = 10) (L : Nat) :
    ((selfSum (fun _ _ => 1) (regular x) 0 : Nat) = 10 ∧
      (selfSum (fun _ _ => 1) (regular x) 4 : Nat) = 6 ∧
      ∃ fast slow, acorrMultiCount ℚ 10 1 5 0 = .ok (fast, slow) ∧ fast[0]? = some 0 ∧ fast[4]? = some 5) ∧
    ((cellSum false (fun _ _ => 1) (regular x) (regular y) L 4 : Nat) = 12 ∧
      ∃ fast slow, ccorrMultiCount ℚ 10 1 5 0 = .ok (fast, slow) ∧ fast[4]? = some 10) := by
  refine ⟨⟨by rw [selfPairs_regular, hx], by rw [selfPairs_regular, hx], ?_⟩, by rw [pairs_regular _ _ 10 4 hx hy]; rfl, ?_⟩
  · obtain ⟨D, fast, slow, -, e, -, hf, -⟩ := C74_auto (K := ℚ) 10 1 5 (by decide) (by decide) (by decide) 0 (by decide)
    refine ⟨fast, slow, e, ?_, ?_⟩
    · rw [hf 0 (by decide)]; norm_num
    · rw [hf 4 (by decide)]; norm_num
  · obtain ⟨D, fast, slow, -, e, -, hf, -⟩ := C74_cross (K := ℚ) 10 1 5 (by decide) (by decide) (by decide) 0 (by decide)
    refine ⟨fast, slow, e, ?_⟩
    rw [hf 4 (by decide)]; norm_num

/-- `log_merge_count` returns the times of `log_merge` of data of that shape, the effective counts of the linear part,
then the second halves of the levels. -/
theorem C74_log_merge {K : Type} [Field K] [LinearOrder K] [IsStrictOrderedRing K] (lin : List K)
    (multi : List (List (Option K))) (period n : Nat) (hp : 0 < period) (hn : 2 ≤ n) (he : n % 2 = 0)
    (hlin : lin.length = period * n) (h0 : ∀ c ∈ lin, 0 < c) (hm : ∀ r ∈ multi, r.length = n) (binning : Int) :
    ∃ rows x xf yf, multilevelCount lin n binning = .ok rows ∧ mergeMultilevel rows n "full" = .ok (xf, yf) ∧
      logMergeCount lin multi n binning = .ok (x, yf ++ (multi.map (List.drop (n / 2))).flatten) ∧
      x.length = (yf ++ (multi.map (List.drop (n / 2))).flatten).length ∧
      (∀ {V : Type} [AddCommGroup V] [Module K V] (dlin : List V) (dmulti : List (List V)) (b : Int) (low : Nat → Bool),
        b ∈ ([2, 1, 0] : List Int) → dlin.length = lin.length → dmulti.length = multi.length →
        (∀ r ∈ dmulti, r.length = n) → ∃ y', logMerge K dlin dmulti n b low = .ok (x, y')) := by
  have hne : lin ≠ [] := by
    rintro rfl
    have : 0 < period * n := Nat.mul_pos hp (by omega)
    simp at hlin
    omega
  obtain ⟨L, rows, hL, e, hl, hr⟩ := multilevelCount_rows (two_ne_zero (α := K)) lin hne n hn binning
  have hrows : ∀ r ∈ rows, r.length = n := by
    intro r hr'
    obtain ⟨l, hl'⟩ := List.mem_iff_getElem?.mp hr'
    have h := (hr l r hl').2
    by_cases hb : binning = 1
    · subst hb
      obtain ⟨row, h1, h2, -⟩ := countRow_mean two_ne_zero lin _ hne n l (triangularKernel_eq K two_ne_zero l)
      rw [h, Except.ok.injEq] at h1
      rw [h1, h2]
    · obtain ⟨row, h1, h2, -⟩ := countRow_pick lin hne n l binning hb
      rw [h, Except.ok.injEq] at h1
      rw [h1, h2]
  obtain ⟨xf, yf, e2, g1, g2, g3⟩ := C43_merge_full rows n he (by rintro rfl; simp at hl) hrows
  have e3 : mergeMultilevel multi n "half" = .ok (mergeTimes n 0 multi, mergeValues n multi) := by
    unfold mergeMultilevel
    rw [if_neg (by simp), if_pos rfl, mergeHalf_eq multi n he]
  have hper : periodFromData lin.length n = .ok period := by
    unfold periodFromData
    rw [if_neg (by omega), if_neg (by rw [hlin]; simp), hlin, Nat.mul_div_cancel _ (by omega)]
  refine ⟨rows, xf ++ (mergeTimes n 0 multi).map (2 * period * ·), xf, yf, e, e2, ?_, ?_, ?_⟩
  · unfold logMergeCount
    rw [hper]
    change (multilevelCount lin n binning).bind _ = _
    rw [e]
    change (mergeMultilevel rows n "full").bind _ = _
    rw [e2]
    change (mergeMultilevel multi n "half").bind _ = _
    rw [e3]
    rfl
  · have := mergeTimes_length n 0 multi hm
    simp only [List.length_append, List.length_map, g1, this]
    rfl
  · intro V _ _ dlin dmulti b low hb hdl hdm hdr
    obtain ⟨L', rows', hL', e', hl', hr'⟩ := multilevel_valid K dlin n hn b hb low
    rw [hdl] at hL'
    have hLL : L' = L := isDoublings_unique hL' hL
    rw [hLL] at hl'
    have e3' : mergeMultilevel dmulti n "half" = .ok (mergeTimes n 0 dmulti, mergeValues n dmulti) := by
      unfold mergeMultilevel
      rw [if_neg (by simp), if_pos rfl, mergeHalf_eq dmulti n he]
    match rows, rows', hl, hl' with
    | r :: rest, r' :: rest', hl, hl' =>
      rw [mergeFull_eq _ _ _ he, Except.ok.injEq, Prod.mk.injEq] at e2
      have e2' : mergeMultilevel (r' :: rest') n "full" = .ok (xf, r' ++ mergeValues n rest') := by
        rw [mergeFull_eq _ _ _ he, ← e2.1, mergeTimes_length_congr n 1 rest' rest (by simp at hl hl'; omega)]
      refine ⟨(r' ++ mergeValues n rest') ++ (mergeValues n dmulti).map some, ?_⟩
      unfold logMerge
      rw [if_neg (not_not_intro hb)]
      unfold logMergeCore
      rw [hdl, hper]
      change (multilevel K dlin n b low).bind _ = _
      rw [e']
      change (mergeMultilevel (r' :: rest') n "full").bind _ = _
      rw [e2']
      change (mergeMultilevel dmulti n "half").bind _ = _
      rw [e3', mergeTimes_length_congr n 0 dmulti multi hdm]
      rfl

/-- Non-vacuity of the comparison: twenty regular frames in levels of 5. -/
example : CrossArgs "corr" 3 20 20 none none (1 * 5) ∧ effNorm (some 3) "corr" true = 3 ∧
    AutoArgs "corr" 2 20 none (1 * 5) ∧ effNorm (some 2) "corr" false = 2 := by
  refine ⟨⟨.inl rfl, by simp [SupportedNorm], rfl, ?_, by simp⟩, rfl,
    ⟨.inl rfl, by simp [SupportedNorm], trivial, by simp [Distinct], ?_, by simp⟩, rfl⟩
  · intro _
    simp [defaultN]
  · intro _
    simp [defaultN]

/-- Non-vacuity of `C74_log_merge`: eight linear counts in levels of 4 with period 2, and one slow level. -/
example : ∃ x y, logMergeCount [(8 : ℚ), 7, 6, 5, 4, 3, 2, 1] [[some 4, some 3, some 2, none]] 4 0 = .ok (x, y) := by
  obtain ⟨rows, x, xf, yf, -, -, e, -⟩ := C74_log_merge [(8 : ℚ), 7, 6, 5, 4, 3, 2, 1] [[some 4, some 3, some 2, none]] 2 4
    (by decide) (by decide) (by decide) (by decide) (by decide) (by decide) 0
  exact ⟨_, _, e⟩

end Cddm
