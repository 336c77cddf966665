import Verif.Lemmas.MultiApi

/-!
# C38: in-memory multiple tau (`ccorr_multi`, `acorr_multi`)

`crossData`, `autoData` (Spec/Multitau) are the arrays of correlation data written as sums over
pairs of samples; `blockMeans m x` are the means of the complete blocks of `m` samples.
-/

namespace Cddm
open Spec

/-! ### Averaging -/

/-- With the automatic number of levels `nl`, level `j` is the correlation of the block averages of
`2^(j+1)` frames, and of the block averages of the squares; every level has at least `n` samples,
and one more level would not. -/
theorem C38_cross_mean (f1 f2 : List (Cx ℝ)) (t1 t2 : Option (List Int)) (n : Nat)
    (norm : Option Int) (method : Option String) (period : Nat) (binning : Option Int)
    (al : Nat → Bool) (r : Nat → ℚ) (m : String) (v : Int)
    (hm : m = method.getD "corr") (hm' : m = "corr" ∨ m = "fft") (hb : binning.getD 1 = 1)
    (hv : v = effNorm norm m true)
    (hargs : CrossArgs m v f1.length f2.length t1 t2 (period * n)) (hn : 5 ≤ n)
    (hN : n ≤ f1.length) :
    ∃ nl, n ≤ f1.length / 2 ^ nl ∧ f1.length / 2 ^ (nl + 1) < n ∧
      (∀ j, j < nl → n ≤ (blockMeans (2 ^ (j + 1)) f1).length ∧
        (blockMeans (2 ^ (j + 1)) f2).length = (blockMeans (2 ^ (j + 1)) f1).length) ∧
      ccorrMulti f1 f2 t1 t2 n norm method period binning none al r = .ok
        (crossData false (productOf m) m v (period * n) (stream f1 t1) (stream f2 t2)
          (stream (f1.map Cx.abs2) t1) (stream (f2.map Cx.abs2) t2),
        (List.range nl).map fun j => crossData false (productOf m) m v n
          (regular (blockMeans (2 ^ (j + 1)) f1)) (regular (blockMeans (2 ^ (j + 1)) f2))
          (regular (blockMeans (2 ^ (j + 1)) (f1.map Cx.abs2)))
          (regular (blockMeans (2 ^ (j + 1)) (f2.map Cx.abs2)))) := by
  obtain ⟨nl, h1, h2, h3⟩ := determineLengths_none f1.length n period (by omega) hN
  have e := hargs.lengths
  refine ⟨nl, h2, h3, fun j hj => ?_, ?_⟩
  · rw [blockMeans_length, blockMeans_length, e]
    exact ⟨level_enough h2 (by omega), rfl⟩
  · exact ccorrMulti_levels f1 f2 t1 t2 n norm method period binning none al r m 1 v nl
      (defaultMethodBinning_mean hm hm' hb) hv hargs hn h1 (fun j => blockMeans (2 ^ j) f1)
      (fun j => blockMeans (2 ^ j) f2) (fun j => blockMeans (2 ^ j) (f1.map Cx.abs2))
      (fun j => blockMeans (2 ^ j) (f2.map Cx.abs2)) (blockMeans_one _) (blockMeans_one _)
      (blockMeans_one _) (blockMeans_one _) (fun i => binMean_seq _ _ _)
      (fun i => binMean_seq _ _ _) (fun i => binMean_seq _ _ _) (fun i => binMean_seq _ _ _)
      (fun j hj => by
        simp only [blockMeans_length, List.length_map, e, and_self, and_true]
        exact level_enough h2 hj)

/-- The same for an explicit number of levels that leaves at least `n` samples in each. -/
theorem C38_cross_mean_nlevel (f1 f2 : List (Cx ℝ)) (t1 t2 : Option (List Int)) (n : Nat)
    (norm : Option Int) (method : Option String) (period : Nat) (binning : Option Int) (nl : Nat)
    (al : Nat → Bool) (r : Nat → ℚ) (m : String) (v : Int)
    (hm : m = method.getD "corr") (hm' : m = "corr" ∨ m = "fft") (hb : binning.getD 1 = 1)
    (hv : v = effNorm norm m true)
    (hargs : CrossArgs m v f1.length f2.length t1 t2 (period * n)) (hn : 5 ≤ n)
    (hN : n ≤ f1.length / 2 ^ nl) :
    ccorrMulti f1 f2 t1 t2 n norm method period binning (some nl) al r = .ok
      (crossData false (productOf m) m v (period * n) (stream f1 t1) (stream f2 t2)
        (stream (f1.map Cx.abs2) t1) (stream (f2.map Cx.abs2) t2),
      (List.range nl).map fun j => crossData false (productOf m) m v n
        (regular (blockMeans (2 ^ (j + 1)) f1)) (regular (blockMeans (2 ^ (j + 1)) f2))
        (regular (blockMeans (2 ^ (j + 1)) (f1.map Cx.abs2)))
        (regular (blockMeans (2 ^ (j + 1)) (f2.map Cx.abs2)))) := by
  have e := hargs.lengths
  exact ccorrMulti_levels f1 f2 t1 t2 n norm method period binning (some nl) al r m 1 v nl
      (defaultMethodBinning_mean hm hm' hb) hv hargs hn
      (determineLengths_some _ _ _ (by omega) _) (fun j => blockMeans (2 ^ j) f1)
      (fun j => blockMeans (2 ^ j) f2) (fun j => blockMeans (2 ^ j) (f1.map Cx.abs2))
      (fun j => blockMeans (2 ^ j) (f2.map Cx.abs2)) (blockMeans_one _) (blockMeans_one _)
      (blockMeans_one _) (blockMeans_one _) (fun i => binMean_seq _ _ _)
      (fun i => binMean_seq _ _ _) (fun i => binMean_seq _ _ _) (fun i => binMean_seq _ _ _)
      (fun j hj => by
        simp only [blockMeans_length, List.length_map, e, and_self, and_true]
        exact level_enough hN hj)

/-- `acorr_multi`: likewise. -/
theorem C38_auto_mean (f : List (Cx ℝ)) (t : Option (List Int)) (n : Nat)
    (norm : Option Int) (method : Option String) (period : Nat) (binning : Option Int)
    (al : Nat → Bool) (r : Nat → ℚ) (m : String) (v : Int)
    (hm : m = method.getD "corr") (hm' : m = "corr" ∨ m = "fft") (hb : binning.getD 1 = 1)
    (hv : v = effNorm norm m false)
    (hargs : AutoArgs m v f.length t (period * n)) (hn : 5 ≤ n) (hN : n ≤ f.length) :
    ∃ nl, n ≤ f.length / 2 ^ nl ∧ f.length / 2 ^ (nl + 1) < n ∧
      (∀ j, j < nl → n ≤ (blockMeans (2 ^ (j + 1)) f).length) ∧
      acorrMulti f t n norm method period binning none al r = .ok
        (autoData (productOf m) m v (period * n) (stream f t) (stream (f.map Cx.abs2) t),
        (List.range nl).map fun j => autoData (productOf m) m v n
          (regular (blockMeans (2 ^ (j + 1)) f))
          (regular (blockMeans (2 ^ (j + 1)) (f.map Cx.abs2)))) := by
  obtain ⟨nl, h1, h2, h3⟩ := determineLengths_none f.length n period (by omega) hN
  refine ⟨nl, h2, h3, fun j hj => ?_, ?_⟩
  · rw [blockMeans_length]
    exact level_enough h2 (by omega)
  · exact acorrMulti_levels f t n norm method period binning none al r m 1 v nl
      (defaultMethodBinning_mean hm hm' hb) hv hargs hn h1 (fun j => blockMeans (2 ^ j) f)
      (fun j => blockMeans (2 ^ j) (f.map Cx.abs2)) (blockMeans_one _) (blockMeans_one _)
      (fun i => binMean_seq _ _ _) (fun i => binMean_seq _ _ _)
      (fun j hj => by
        simp only [blockMeans_length, List.length_map, and_true]
        exact level_enough h2 hj)

/-- `acorr_multi` with an explicit number of levels that leaves at least `n` samples in each. -/
theorem C38_auto_mean_nlevel (f : List (Cx ℝ)) (t : Option (List Int)) (n : Nat)
    (norm : Option Int) (method : Option String) (period : Nat) (binning : Option Int) (nl : Nat)
    (al : Nat → Bool) (r : Nat → ℚ) (m : String) (v : Int)
    (hm : m = method.getD "corr") (hm' : m = "corr" ∨ m = "fft") (hb : binning.getD 1 = 1)
    (hv : v = effNorm norm m false)
    (hargs : AutoArgs m v f.length t (period * n)) (hn : 5 ≤ n) (hN : n ≤ f.length / 2 ^ nl) :
    acorrMulti f t n norm method period binning (some nl) al r = .ok
      (autoData (productOf m) m v (period * n) (stream f t) (stream (f.map Cx.abs2) t),
      (List.range nl).map fun j => autoData (productOf m) m v n
        (regular (blockMeans (2 ^ (j + 1)) f))
        (regular (blockMeans (2 ^ (j + 1)) (f.map Cx.abs2)))) := by
  exact acorrMulti_levels f t n norm method period binning (some nl) al r m 1 v nl
      (defaultMethodBinning_mean hm hm' hb) hv hargs hn
      (determineLengths_some _ _ _ (by omega) _) (fun j => blockMeans (2 ^ j) f)
      (fun j => blockMeans (2 ^ j) (f.map Cx.abs2)) (blockMeans_one _) (blockMeans_one _)
      (fun i => binMean_seq _ _ _) (fun i => binMean_seq _ _ _)
      (fun j hj => by
        simp only [blockMeans_length, List.length_map, and_true]
        exact level_enough hN hj)

/-- Non-trivial case: 12 frames, level size 5: one slow level of 6 averages of 2 frames. -/
example (f : List (Cx ℝ)) (hf : f.length = 12) :
    CrossArgs "corr" 3 f.length f.length none none (2 * 5) ∧ effNorm (some 3) "corr" true = 3 ∧
      5 ≤ f.length / 2 ^ 1 ∧ f.length / 2 ^ (1 + 1) < 5 ∧
      (blockMeans (2 ^ (0 + 1)) f).length = 6 := by
  refine ⟨⟨.inl rfl, by simp [SupportedNorm], rfl, ?_, by simp⟩, rfl, by omega, by omega, ?_⟩
  · intro _
    simp [defaultN, hf]
  · rw [blockMeans_length, hf]; norm_num

/-- Non-trivial case: irregular times. -/
example : AutoArgs "fft" 2 7 (some [0, 1, 3, 4, 6, 7, 9]) (1 * 6) := by
  refine ⟨.inr (.inl rfl), by simp [SupportedNorm], ⟨rfl, by simp⟩, by simp [Distinct], ?_, by simp⟩
  intro _
  simp [defaultN]

/-- The averages of blocks of two of `1, 2, 3, 4, 5`. -/
example : blockMeans 2 [(1 : ℝ), 2, 3, 4, 5] = [3 / 2, 7 / 2] := by
  simp [blockMeans, blockMean, List.range_succ]
  norm_num

/-! ### Slicing: the first frame of each block -/

/-- Binning FIRST (the default of method 'diff'): level `j` correlates the first frames of the
blocks of `2^(j+1)` frames. -/
theorem C38_cross_first (f1 f2 : List (Cx ℝ)) (t1 t2 : Option (List Int)) (n : Nat)
    (norm : Option Int) (method : Option String) (period : Nat) (binning : Option Int)
    (al : Nat → Bool) (r : Nat → ℚ) (m : String) (v : Int)
    (hm : m = method.getD "corr") (hb : binning = some 0 ∨ m = "diff" ∧ binning = none)
    (hv : v = effNorm norm m true)
    (hargs : CrossArgs m v f1.length f2.length t1 t2 (period * n)) (hn : 5 ≤ n)
    (hN : n ≤ f1.length) :
    ∃ nl, n ≤ f1.length / 2 ^ nl ∧ f1.length / 2 ^ (nl + 1) < n ∧
      ccorrMulti f1 f2 t1 t2 n norm method period binning none al r = .ok
        (crossData false (productOf m) m v (period * n) (stream f1 t1) (stream f2 t2)
          (stream (f1.map Cx.abs2) t1) (stream (f2.map Cx.abs2) t2),
        (List.range nl).map fun j => crossData false (productOf m) m v n
          (regular (blockFirsts (2 ^ (j + 1)) f1)) (regular (blockFirsts (2 ^ (j + 1)) f2))
          (regular (blockFirsts (2 ^ (j + 1)) (f1.map Cx.abs2)))
          (regular (blockFirsts (2 ^ (j + 1)) (f2.map Cx.abs2)))) := by
  obtain ⟨nl, h1, h2, h3⟩ := determineLengths_none f1.length n period (by omega) hN
  have e := hargs.lengths
  refine ⟨nl, h2, h3, ?_⟩
  exact ccorrMulti_levels f1 f2 t1 t2 n norm method period binning none al r m 0 v nl
      (defaultMethodBinning_first hm hargs.method hb) hv hargs hn h1
      (fun j => blockFirsts (2 ^ j) f1)
      (fun j => blockFirsts (2 ^ j) f2) (fun j => blockFirsts (2 ^ j) (f1.map Cx.abs2))
      (fun j => blockFirsts (2 ^ j) (f2.map Cx.abs2)) (blockFirsts_one _) (blockFirsts_one _)
      (blockFirsts_one _) (blockFirsts_one _) (fun i => binFirst_seq _ _ _)
      (fun i => binFirst_seq _ _ _) (fun i => binFirst_seq _ _ _) (fun i => binFirst_seq _ _ _)
      (fun j hj => by
        simp only [blockFirsts_length _ (Nat.two_pow_pos j), List.length_map, e, and_self, and_true]
        exact (level_enough h2 hj).trans (Nat.div_le_div_right (by have := Nat.two_pow_pos j; omega)))

/-- `acorr_multi`: likewise. -/
theorem C38_auto_first (f : List (Cx ℝ)) (t : Option (List Int)) (n : Nat)
    (norm : Option Int) (method : Option String) (period : Nat) (binning : Option Int)
    (al : Nat → Bool) (r : Nat → ℚ) (m : String) (v : Int)
    (hm : m = method.getD "corr") (hb : binning = some 0 ∨ m = "diff" ∧ binning = none)
    (hv : v = effNorm norm m false)
    (hargs : AutoArgs m v f.length t (period * n)) (hn : 5 ≤ n) (hN : n ≤ f.length) :
    ∃ nl, n ≤ f.length / 2 ^ nl ∧ f.length / 2 ^ (nl + 1) < n ∧
      acorrMulti f t n norm method period binning none al r = .ok
        (autoData (productOf m) m v (period * n) (stream f t) (stream (f.map Cx.abs2) t),
        (List.range nl).map fun j => autoData (productOf m) m v n
          (regular (blockFirsts (2 ^ (j + 1)) f))
          (regular (blockFirsts (2 ^ (j + 1)) (f.map Cx.abs2)))) := by
  obtain ⟨nl, h1, h2, h3⟩ := determineLengths_none f.length n period (by omega) hN
  refine ⟨nl, h2, h3, ?_⟩
  exact acorrMulti_levels f t n norm method period binning none al r m 0 v nl
      (defaultMethodBinning_first hm hargs.method hb) hv hargs hn h1
      (fun j => blockFirsts (2 ^ j) f)
      (fun j => blockFirsts (2 ^ j) (f.map Cx.abs2)) (blockFirsts_one _) (blockFirsts_one _)
      (fun i => binFirst_seq _ _ _) (fun i => binFirst_seq _ _ _)
      (fun j hj => by
        simp only [blockFirsts_length _ (Nat.two_pow_pos j), List.length_map, and_true]
        exact (level_enough h2 hj).trans (Nat.div_le_div_right (by have := Nat.two_pow_pos j; omega)))

example : blockFirsts 2 [1, 2, 3, 4, 5] = [1, 3, 5] := rfl

/-! ### Random choice -/

/-- Binning RANDOM: at level `j` each of the four signals is one frame out of each block of
`2^(j+1)` frames, at the same offset in all blocks. -/
theorem C38_cross_choose (f1 f2 : List (Cx ℝ)) (t1 t2 : Option (List Int)) (n : Nat)
    (norm : Option Int) (method : Option String) (period : Nat)
    (al : Nat → Bool) (r : Nat → ℚ) (m : String) (v : Int)
    (hm : m = method.getD "corr") (hv : v = effNorm norm m true)
    (hargs : CrossArgs m v f1.length f2.length t1 t2 (period * n)) (hn : 5 ≤ n)
    (hN : n ≤ f1.length) :
    ∃ (nl : Nat) (a b c d : Nat → Nat), n ≤ f1.length / 2 ^ nl ∧ f1.length / 2 ^ (nl + 1) < n ∧
      (∀ j, a j < 2 ^ j ∧ b j < 2 ^ j ∧ c j < 2 ^ j ∧ d j < 2 ^ j) ∧
      ccorrMulti f1 f2 t1 t2 n norm method period (some 2) none al r = .ok
        (crossData false (productOf m) m v (period * n) (stream f1 t1) (stream f2 t2)
          (stream (f1.map Cx.abs2) t1) (stream (f2.map Cx.abs2) t2),
        (List.range nl).map fun j => crossData false (productOf m) m v n
          (regular (blockPicks (2 ^ (j + 1)) (a (j + 1)) f1))
          (regular (blockPicks (2 ^ (j + 1)) (b (j + 1)) f2))
          (regular (blockPicks (2 ^ (j + 1)) (c (j + 1)) (f1.map Cx.abs2)))
          (regular (blockPicks (2 ^ (j + 1)) (d (j + 1)) (f2.map Cx.abs2)))) := by
  obtain ⟨nl, h1, h2, h3⟩ := determineLengths_none f1.length n period (by omega) hN
  have e := hargs.lengths
  have hl := fun (p : Nat → Nat) j => pickOffset_lt r p j
  refine ⟨nl, pickOffset r (fun i => 4 * i), pickOffset r (fun i => 4 * i + 1),
    pickOffset r (fun i => 4 * i + 2), pickOffset r (fun i => 4 * i + 3), h2, h3,
    fun j => ⟨hl _ j, hl _ j, hl _ j, hl _ j⟩, ?_⟩
  exact ccorrMulti_levels f1 f2 t1 t2 n norm method period (some 2) none al r m 2 v nl
      (defaultMethodBinning_choose hm hargs.method) hv hargs hn h1
      (fun j => blockPicks (2 ^ j) (pickOffset r (fun i => 4 * i) j) f1)
      (fun j => blockPicks (2 ^ j) (pickOffset r (fun i => 4 * i + 1) j) f2)
      (fun j => blockPicks (2 ^ j) (pickOffset r (fun i => 4 * i + 2) j) (f1.map Cx.abs2))
      (fun j => blockPicks (2 ^ j) (pickOffset r (fun i => 4 * i + 3) j) (f2.map Cx.abs2))
      (blockPicks_one _) (blockPicks_one _) (blockPicks_one _) (blockPicks_one _)
      (fun i => binChoose_seq f1 r (fun i => 4 * i) i)
      (fun i => binChoose_seq f2 r (fun i => 4 * i + 1) i)
      (fun i => binChoose_seq (f1.map Cx.abs2) r (fun i => 4 * i + 2) i)
      (fun i => binChoose_seq (f2.map Cx.abs2) r (fun i => 4 * i + 3) i)
      (fun j hj => by
        simp only [blockPicks_length _ _ (hl _ j), List.length_map, e, and_self, and_true]
        exact level_enough h2 hj)

example : blockPicks 2 1 [1, 2, 3, 4, 5] = [2, 4] := rfl

/-! ### Rejections -/

/-- Unknown method, or a binning the method does not have: ValueError. -/
theorem C38_rejects_binning (f1 f2 : List (Cx ℝ)) (t1 t2 : Option (List Int)) (n : Nat)
    (norm : Option Int) (method : Option String) (period : Nat) (binning nlevel : Option Int)
    (al : Nat → Bool) (r : Nat → ℚ)
    (h : (∃ m, method = some m ∧ m ≠ "corr" ∧ m ≠ "fft" ∧ m ≠ "diff") ∨
      (∃ b, binning = some b ∧ b ≠ 0 ∧ b ≠ 1 ∧ b ≠ 2) ∨
      (method = some "diff" ∧ binning = some 1)) :
    ccorrMulti f1 f2 t1 t2 n norm method period binning nlevel al r = .error .valueError ∧
    acorrMulti f1 t1 n norm method period binning nlevel al r = .error .valueError := by
  have e : defaultMethodBinning method binning = .error .valueError := by
    unfold defaultMethodBinning
    rcases h with ⟨m, rfl, h1, h2, h3⟩ | ⟨b, rfl, h0, h1, h2⟩ | ⟨rfl, rfl⟩
    · simp [h1, h2, h3]
    · simp only [Option.getD_some]
      split
      · simp [h0, h1, h2]
      · split <;> simp [h0, h2]
    · decide
  unfold ccorrMulti acorrMulti ccorrMultiBody acorrMultiBody
  simp only [e, bind, Except.bind, and_self]

/-- A level size of at most 4, fewer frames than the level size (automatic number of levels), or a
negative number of levels: AssertionError. -/
theorem C38_rejects_levels (f1 f2 : List (Cx ℝ)) (t1 t2 : Option (List Int)) (n : Nat)
    (norm : Option Int) (method : Option String) (period : Nat) (binning nlevel : Option Int)
    (al : Nat → Bool) (r : Nat → ℚ) (m : String) (b v : Int)
    (hmb : defaultMethodBinning method binning = .ok (m, b)) (hv : v = effNorm norm m true)
    (hargs : CrossArgs m v f1.length f2.length t1 t2 (period * n))
    (h : n ≤ 4 ∨ (nlevel = none ∧ f1.length < n) ∨ (∃ k, nlevel = some k ∧ k < 0)) :
    ccorrMulti f1 f2 t1 t2 n norm method period binning nlevel al r = .error .assertionError := by
  have hn : defaultNorm norm m true = .ok v.toNat := by
    rw [hv]; exact defaultNorm_ok (hv ▸ hargs.norm)
  obtain ⟨c, t, e, et1, et2, -⟩ := inspectCross_sub f1.length f2.length t1 t2 (some n) none false _
    rfl hargs.valid
  have hd : delays false (some n) none (defaultN f1.length t1 t2) = n := rfl
  rw [hd] at e
  have hdl : determineLengths f1.length n period nlevel = .error .assertionError := by
    unfold determineLengths
    by_cases h4 : n > 4
    · rw [if_neg (not_not_intro h4)]
      rcases h with h | ⟨rfl, h⟩ | ⟨k, rfl, h⟩
      · omega
      · have : whileUp (fun d => decide (f1.length / 2 ^ d ≥ n)) (f1.length + 1) 0 = 0 := by
          unfold whileUp
          rw [if_neg (by simpa using h)]
        simp [this]
      · simp only [Option.getD_some]
        rw [if_neg (by omega)]
    · rw [if_pos h4]
  unfold ccorrMulti ccorrMultiBody
  simp only [hmb, hn, e, hdl, bind, Except.bind]

end Cddm
