import Verif.Lemmas.FrameShow

/-!
# C102, C103: images that are shown
-/

namespace Cddm
open Spec

theorem greyLevel_range (mode : String) (c x : ℝ) : 0 ≤ greyLevel mode c x ∧ greyLevel mode c x ≤ 1 := toUnit_range _

/-- **C102, given clip.** The image shown of a frame: the zero frequency in the middle row, every component at the grey level of its value
relative to the clip. -/
theorem C102_clip (lib : String) (hl : lib ∈ fftLibs) (mode : String) (hm : mode = "real" ∨ mode = "imag" ∨ mode = "abs") (c : ℝ)
    (hc : c ≠ 0) : ∃ norm, normRfft2 lib (some c) mode = .ok norm ∧ ∀ im : Arr2 (Cx ℝ), RealFrame im → 0 < im.h → 0 < im.w →
      ∃ out, norm im = .ok out ∧ out.h = im.h ∧ out.w = im.w / 2 + 1 ∧ ∀ (a : Int) (b : Nat), b ≤ im.w / 2 →
        out.get (wrap im.h (a + im.h / 2)) b = some (greyLevel mode c (shownAt mode im a b)) := by
  refine ⟨clipFft lib (some c) mode, ?_, ?_⟩
  · unfold normRfft2
    rw [if_pos hm]
  · intro im hr hh hw
    obtain ⟨v, v1, v2, v3, e⟩ := clipFft_run lib hl (some c) mode im hr hh hw
    refine ⟨_, e, v1, v2, fun a b hb => ?_⟩
    have := fftshift0_get (⟨v.h, v.w, fun i j => showLevel mode ((some c).getD (frameMax v)) (v.get i j)⟩ : Arr2 (Option ℝ)) (by dsimp only; omega) a b
    dsimp only at this
    rw [← v1, this, v1, v3 a b hb]
    exact showLevel_eq mode hc _

/-- The largest value shown is the maximum that the code finds. -/
theorem frameMax_brightest {mode : String} {im : Arr2 (Cx ℝ)} {v : Arr2 ℝ} (hh : 0 < im.h) (v1 : v.h = im.h) (v2 : v.w = im.w / 2 + 1)
    (v3 : ∀ (a : Int) (b : Nat), b ≤ im.w / 2 → v.get (wrap im.h a) b = shownAt mode im a b) : IsBrightest mode im (frameMax v) := by
  obtain ⟨⟨i, j, hi, hj, e⟩, h2⟩ := frameMax_spec v (by omega) (by omega)
  refine ⟨⟨i, j, by omega, ?_⟩, fun a b hb => ?_⟩
  · rw [← v3 i j (by omega), wrap_nat (by omega), e]
  · rw [← v3 a b hb]
    exact h2 _ b (by rw [v1]; exact wrap_lt hh a) (by omega)

/-- **C102, automatic clip.** Without a clip the largest value is white.  Missing: if nothing is positive, in particular for 'abs' if all
components but the mean are zero, pixels are not numbers. -/
theorem C102_auto_partial (lib : String) (hl : lib ∈ fftLibs) (mode : String) (hm : mode = "real" ∨ mode = "imag" ∨ mode = "abs") :
    ∃ norm, normRfft2 lib none mode = .ok norm ∧ ∀ im : Arr2 (Cx ℝ), RealFrame im → 0 < im.h → 0 < im.w →
      ∃ out M, norm im = .ok out ∧ out.h = im.h ∧ out.w = im.w / 2 + 1 ∧ IsBrightest mode im M ∧ 0 ≤ M ∧
        (0 < M → (∀ (a : Int) (b : Nat), b ≤ im.w / 2 →
          out.get (wrap im.h (a + im.h / 2)) b = some (greyLevel mode M (shownAt mode im a b))) ∧
          (∃ (a : Int) (b : Nat), b ≤ im.w / 2 ∧ out.get (wrap im.h (a + im.h / 2)) b = some 1) ∧
          (mode = "abs" → ∀ (a : Int) (b : Nat), b ≤ im.w / 2 → greyLevel mode M (shownAt mode im a b) = shownAt mode im a b / M)) ∧
        (M = 0 → ∀ (a : Int) (b : Nat), b ≤ im.w / 2 →
          out.get (wrap im.h (a + im.h / 2)) b = if shownAt mode im a b = 0 then none else some 0) := by
  refine ⟨clipFft lib none mode, ?_, ?_⟩
  · unfold normRfft2
    rw [if_pos hm]
  · intro im hr hh hw
    obtain ⟨v, v1, v2, v3, e⟩ := clipFft_run lib hl none mode im hr hh hw
    have hb := frameMax_brightest hh v1 v2 v3
    have h0 : 0 ≤ frameMax v := by
      have := hb.2 0 0 (by omega)
      unfold shownAt at this
      rwa [if_pos ⟨dvd_zero _, rfl⟩] at this
    have hget : ∀ (a : Int) (b : Nat), b ≤ im.w / 2 →
        (fftshift0 (⟨v.h, v.w, fun i j => showLevel mode (frameMax v) (v.get i j)⟩ : Arr2 (Option ℝ))).get (wrap im.h (a + im.h / 2)) b =
          showLevel mode (frameMax v) (shownAt mode im a b) := by
      intro a b hb
      have := fftshift0_get (⟨v.h, v.w, fun i j => showLevel mode (frameMax v) (v.get i j)⟩ : Arr2 (Option ℝ)) (by dsimp only; omega) a b
      dsimp only at this
      rw [← v1, this, v1, v3 a b hb]
    refine ⟨_, frameMax v, e, v1, v2, hb, h0, fun hpos => ⟨fun a b hb => ?_, ?_, fun hm' a b hb' => ?_⟩, fun hz a b hb' => ?_⟩
    · exact (hget a b hb).trans (showLevel_eq mode hpos.ne' _)
    · obtain ⟨a, b, hb', e'⟩ := hb.1
      refine ⟨a, b, hb', (hget a b hb').trans ?_⟩
      rw [showLevel_eq mode hpos.ne', e']
      unfold greyLevel toUnit
      congr 1
      have : frameMax v / frameMax v = 1 := div_self hpos.ne'
      split_ifs with k1 k2 k3 k4 k5 <;> first | rfl | skip
      · rw [this] at k2; linarith
      · rw [this]
      · have e : frameMax v / (2 * frameMax v) = 1 / 2 := by field_simp
        rw [e] at k4; linarith
      · have e : frameMax v / (2 * frameMax v) = 1 / 2 := by field_simp
        rw [e]; norm_num
    · unfold greyLevel toUnit
      rw [if_pos hm']
      have h1 : 0 ≤ shownAt mode im a b := by
        unfold shownAt
        rw [hm']
        split_ifs with k1 k2 k3
        · exact le_refl _
        · simp at k2
        · simp at k3
        · exact Real.sqrt_nonneg _
      have h2 := hb.2 a b hb'
      rw [if_neg (by have := div_nonneg h1 hpos.le; linarith), if_neg (by rw [not_lt, div_le_one hpos]; exact h2)]
    · refine (hget a b hb').trans ?_
      have h2 := hb.2 a b hb'
      unfold showLevel
      rw [if_pos hz]
      split_ifs with k1 k2
      · rfl
      · rw [hz] at h2; linarith
      · rfl

/-- **C102 is false of the code for flat frames**: of a frame of ones and one row no pixel is a number. -/
theorem C102_flat_refuted : ∃ norm out, normRfft2 "numpy" none "abs" = .ok norm ∧ norm ⟨1, 1, fun _ _ => 1⟩ = .ok out ∧ out.h = 1 ∧ out.w = 1 ∧
    out.get 0 0 = none := by
  obtain ⟨norm, e, h⟩ := C102_auto_partial "numpy" (by simp [fftLibs]) "abs" (by simp)
  obtain ⟨out, M, e', h1, h2, hb, -, -, hz⟩ := h ⟨1, 1, fun _ _ => 1⟩ (fun _ _ _ _ => rfl) (by simp) (by simp)
  have hs : ∀ (a : Int) (b : Nat), b ≤ 1 / 2 → shownAt "abs" (⟨1, 1, fun _ _ => 1⟩ : Arr2 (Cx ℝ)) a b = 0 := by
    intro a b hb
    unfold shownAt
    exact if_pos ⟨by simp, by omega⟩
  obtain ⟨a, b, hb', hM⟩ := hb.1
  rw [hs a b hb'] at hM
  refine ⟨norm, out, e, e', h1, h2, ?_⟩
  have := hz hM.symm 0 0 (by simp)
  rw [if_pos (hs 0 0 (by simp))] at this
  exact this

/-- **C102, errors.** -/
theorem C102_errors (lib : String) (clip : Option ℝ) (mode : String) :
    (¬(mode = "real" ∨ mode = "imag" ∨ mode = "abs") → normRfft2 lib clip mode = .error .valueError) ∧
    ∀ im : Arr2 (Cx ℝ), im.h = 0 ∨ im.w = 0 → lib ∈ fftLibs → clipFft lib clip mode im = .error .valueError := by
  constructor
  · intro h
    unfold normRfft2
    rw [if_neg h]
  · intro im h hl
    have h1 := C75_fft2_empty im h
    have h2 := C75_fft2_empty (realPart im) h
    unfold clipFft npRfft2
    simp only [fftLibs, List.mem_cons, List.not_mem_nil, or_false] at hl
    rcases hl with rfl | rfl | rfl | rfl <;> simp [h1, h2] <;> rfl

/-! ### Differences -/

theorem mean_list (x : Arr2 ℝ) : ((List.range x.h ×ˢ List.range x.w).map fun p => x.get p.1 p.2).sum / (x.h * x.w) = meanLevel x := by
  unfold meanLevel
  congr 1
  rw [← List.sum_toFinset _ (List.nodup_range.product List.nodup_range), ← Finset.sum_product']
  refine Finset.sum_congr ?_ fun _ _ => rfl
  ext ⟨a, b⟩
  rw [List.mem_toFinset, Finset.mem_product, Finset.mem_range, Finset.mem_range]
  rw [show ((a, b) ∈ List.range x.h ×ˢ List.range x.w) ↔ _ from List.pair_mem_product, List.mem_range, List.mem_range]

theorem diffLevels_get (x y : Arr2 ℝ) {M N : ℝ} (hx : frameMax x = M) (hy : frameMax y = N) (hp : max M N ≠ 0) (i j : Nat) :
    (diffLevels x y).get i j = some (1 / 2 + (x.get i j - y.get i j) / (2 * max M N)) := by
  unfold diffLevels
  dsimp only
  rw [hx, hy, if_neg (by simpa using hp)]
  congr 1
  ring

/-- **C103.** Of two frames without negative values, not both black, `show_diff` shows `1/2 + (x-y)/2m`, `m` the largest value of both:
a level between 0 and 1, grey exactly where the frames agree; the frames exchanged give the negative image. -/
theorem C103_difference_partial (x y : Arr2 ℝ) (hh : 0 < x.h) (hw : 0 < x.w) (e1 : x.h = y.h) (e2 : x.w = y.w)
    (hx : ∀ i j, i < x.h → j < x.w → 0 ≤ x.get i j) (hy : ∀ i j, i < x.h → j < x.w → 0 ≤ y.get i j)
    (hp : ∃ i j, i < x.h ∧ j < x.w ∧ (0 < x.get i j ∨ 0 < y.get i j)) :
    ∃ (out out' : Arr2 (Option ℝ)) (m : ℝ), diffImage false x y = .ok out ∧ diffImage false y x = .ok out' ∧ out.h = x.h ∧ out.w = x.w ∧
      (IsFrameMax x m ∧ (∀ i j, i < x.h → j < x.w → y.get i j ≤ m) ∨ IsFrameMax y m ∧ ∀ i j, i < x.h → j < x.w → x.get i j ≤ m) ∧
      ∀ i j, i < x.h → j < x.w → ∃ l : ℝ, out.get i j = some l ∧ l = 1 / 2 + (x.get i j - y.get i j) / (2 * m) ∧ 0 ≤ l ∧ l ≤ 1 ∧
        (l = 1 / 2 ↔ x.get i j = y.get i j) ∧ out'.get i j = some (1 - l) := by
  have mx := frameMax_spec x hh hw
  have my := frameMax_spec y (by omega) (by omega)
  have hpos : 0 < max (frameMax x) (frameMax y) := by
    obtain ⟨i, j, hi, hj, h | h⟩ := hp
    · exact lt_of_lt_of_le h (le_trans (mx.2 i j hi hj) (le_max_left _ _))
    · exact lt_of_lt_of_le h (le_trans (my.2 i j (by omega) (by omega)) (le_max_right _ _))
  have r1 : diffImage false x y = .ok (diffLevels x y) := by
    unfold diffImage
    rw [if_neg (by omega), if_neg (by omega)]
    rfl
  have r2 : diffImage false y x = .ok (diffLevels y x) := by
    unfold diffImage
    rw [if_neg (by omega), if_neg (by omega)]
    rfl
  refine ⟨_, _, max (frameMax x) (frameMax y), r1, r2, rfl, rfl, ?_, fun i j hi hj => ?_⟩
  · rcases le_total (frameMax y) (frameMax x) with h | h
    · left
      rw [max_eq_left h]
      exact ⟨mx, fun i j hi hj => le_trans (my.2 i j (by omega) (by omega)) h⟩
    · right
      rw [max_eq_right h]
      exact ⟨my, fun i j hi hj => le_trans (mx.2 i j hi hj) h⟩
  · refine ⟨_, diffLevels_get x y rfl rfl hpos.ne' i j, rfl, ?_⟩
    have hxm : x.get i j ≤ max (frameMax x) (frameMax y) := le_trans (mx.2 i j hi hj) (le_max_left _ _)
    have hym : y.get i j ≤ max (frameMax x) (frameMax y) := le_trans (my.2 i j (by omega) (by omega)) (le_max_right _ _)
    have hx0 := hx i j hi hj
    have hy0 := hy i j hi hj
    have hswap := diffLevels_get y x rfl rfl (by rw [max_comm]; exact hpos.ne') i j
    rw [max_comm] at hswap
    generalize max (frameMax x) (frameMax y) = m at *
    have hb1 : -(1 / 2) ≤ (x.get i j - y.get i j) / (2 * m) := by rw [le_div_iff₀ (by positivity)]; linarith
    have hb2 : (x.get i j - y.get i j) / (2 * m) ≤ 1 / 2 := by rw [div_le_iff₀ (by positivity)]; linarith
    refine ⟨by linarith, by linarith, ?_, ?_⟩
    · constructor
      · intro h
        have h0 : (x.get i j - y.get i j) / (2 * m) = 0 := by linarith
        rw [div_eq_zero_iff] at h0
        rcases h0 with h0 | h0 <;> linarith
      · intro h
        rw [h, sub_self, zero_div, add_zero]
    · rw [hswap]
      congr 1
      ring

/-- **C103 is false of the code for frames with negative values**, for instance after a background is subtracted: the level of this
pixel is -1. -/
theorem C103_negative_refuted : ∃ out, diffImage false ⟨1, 2, fun _ j => if j = 0 then 1 else -2⟩ ⟨1, 2, fun _ _ => 1⟩ = .ok out ∧
    out.get 0 1 = some (-1) := by
  have m1 : frameMax (⟨1, 2, fun _ j => if j = 0 then 1 else -2⟩ : Arr2 ℝ) = 1 := by
    unfold frameMax
    norm_num [List.range_succ, List.product]
  have m2 : frameMax (⟨1, 2, fun _ _ => 1⟩ : Arr2 ℝ) = 1 := by
    unfold frameMax
    norm_num [List.range_succ, List.product]
  refine ⟨_, rfl, (diffLevels_get _ _ m1 m2 (by norm_num) 0 1).trans ?_⟩
  norm_num

theorem overMean_some (x : Arr2 ℝ) (hm : meanLevel x ≠ 0) : overMean x = some ⟨x.h, x.w, fun i j => x.get i j / meanLevel x⟩ := by
  unfold overMean
  dsimp only
  rw [mean_list, if_neg hm]

/-- **C103, normalized.** With `normalize` the brightness of each frame does not matter: frames multiplied by factors give the same
image. -/
theorem C103_normalize (x y : Arr2 ℝ) (c d : ℝ) (hc : c ≠ 0) (hd : d ≠ 0) :
    diffImage true ⟨x.h, x.w, fun i j => c * x.get i j⟩ ⟨y.h, y.w, fun i j => d * y.get i j⟩ = diffImage true x y := by
  have key : ∀ (z : Arr2 ℝ) (c : ℝ), c ≠ 0 → overMean ⟨z.h, z.w, fun i j => c * z.get i j⟩ = overMean z := by
    intro z c hc
    have hm : meanLevel ⟨z.h, z.w, fun i j => c * z.get i j⟩ = c * meanLevel z := by
      unfold meanLevel
      dsimp only
      simp only [← Finset.mul_sum]
      ring
    unfold overMean
    dsimp only
    have hl := mean_list (⟨z.h, z.w, fun i j => c * z.get i j⟩ : Arr2 ℝ)
    dsimp only at hl
    rw [hl, mean_list, hm]
    by_cases h0 : meanLevel z = 0
    · rw [h0, mul_zero, if_pos rfl, if_pos rfl]
    · rw [if_neg h0, if_neg (mul_ne_zero hc h0)]
      congr 2
      funext i j
      rw [mul_div_mul_left _ _ hc]
  unfold diffImage
  rw [key x c hc, key y d hd]
  rfl

/-- **C103, normalized.** The image is that of the frames divided by their means. -/
theorem C103_means (x y : Arr2 ℝ) (hh : 0 < x.h) (hw : 0 < x.w) (e1 : x.h = y.h) (e2 : x.w = y.w) :
    (meanLevel x ≠ 0 → meanLevel y ≠ 0 → diffImage true x y =
      diffImage false ⟨x.h, x.w, fun i j => x.get i j / meanLevel x⟩ ⟨y.h, y.w, fun i j => y.get i j / meanLevel y⟩) ∧
    (meanLevel x = 0 ∨ meanLevel y = 0 → ∃ out, diffImage true x y = .ok out ∧ ∀ i j, out.get i j = none) := by
  constructor
  · intro hx hy
    unfold diffImage
    rw [overMean_some x hx, overMean_some y hy]
    rfl
  · intro h
    have hn : ∀ z : Arr2 ℝ, meanLevel z = 0 → overMean z = none := by
      intro z hz
      unfold overMean
      dsimp only
      rw [mean_list, if_pos hz]
    unfold diffImage
    rw [if_neg (by omega), if_neg (by omega), if_pos rfl]
    rcases h with h | h
    · rw [hn x h]
      exact ⟨_, rfl, fun _ _ => rfl⟩
    · rw [hn y h]
      cases overMean x <;> exact ⟨_, rfl, fun _ _ => rfl⟩

/-! ### Examples -/

/-- One bright pixel: the transform is 1 everywhere. -/
def dotFrame : Arr2 (Cx ℝ) := ⟨1, 2, fun _ j => if j = 0 then 1 else 0⟩

theorem dotFrame_shown : shownAt "abs" dotFrame 0 1 = 1 := by
  unfold shownAt
  rw [if_neg (by simp), if_neg (by simp), if_neg (by simp)]
  have : fourierAt dotFrame 0 ((1 : Nat) : Int) = 1 := by
    unfold fourierAt dotFrame
    dsimp only
    rw [Finset.sum_range_one, Finset.sum_range_succ, Finset.sum_range_one, if_pos rfl, if_neg (by omega), zero_mul, add_zero, one_mul]
    rw [planeWave_comm]
    exact planeWave_zero ..
  rw [this]
  simp

example : ∃ norm, normRfft2 "numpy" (some 5) "real" = .ok norm ∧ ∀ im : Arr2 (Cx ℝ), RealFrame im → 0 < im.h → 0 < im.w →
    ∃ out, norm im = .ok out ∧ out.h = im.h ∧ out.w = im.w / 2 + 1 ∧ ∀ (a : Int) (b : Nat), b ≤ im.w / 2 →
      out.get (wrap im.h (a + im.h / 2)) b = some (greyLevel "real" 5 (shownAt "real" im a b)) :=
  C102_clip "numpy" (by simp [fftLibs]) "real" (by simp) 5 (by norm_num)

/-- Something positive is shown of `dotFrame`. -/
example : RealFrame dotFrame ∧ ∀ M, IsBrightest "abs" dotFrame M → 0 < M := by
  constructor
  · intro p q _ _
    unfold dotFrame
    dsimp only
    split_ifs <;> rfl
  · intro M h
    have := h.2 0 1 (by simp [dotFrame])
    rw [dotFrame_shown] at this
    linarith

example : ∃ (out out' : Arr2 (Option ℝ)) (m : ℝ), diffImage false ⟨1, 2, fun _ j => j⟩ ⟨1, 2, fun _ _ => 3⟩ = .ok out ∧
    diffImage false ⟨1, 2, fun _ _ => 3⟩ ⟨1, 2, fun _ j => j⟩ = .ok out' ∧ out.h = 1 ∧ out.w = 2 ∧
    (IsFrameMax ⟨1, 2, fun _ j => j⟩ m ∧ (∀ i j : Nat, i < 1 → j < 2 → (3 : ℝ) ≤ m) ∨
      IsFrameMax ⟨1, 2, fun _ _ => 3⟩ m ∧ ∀ i j : Nat, i < 1 → j < 2 → (j : ℝ) ≤ m) ∧
    ∀ i j : Nat, i < 1 → j < 2 → ∃ l : ℝ, out.get i j = some l ∧ l = 1 / 2 + ((j : ℝ) - 3) / (2 * m) ∧ 0 ≤ l ∧ l ≤ 1 ∧
      (l = 1 / 2 ↔ (j : ℝ) = 3) ∧ out'.get i j = some (1 - l) :=
  C103_difference_partial ⟨1, 2, fun _ j => j⟩ ⟨1, 2, fun _ _ => 3⟩ (by simp) (by simp) rfl rfl (by intros; positivity)
    (by intros; norm_num) ⟨0, 0, by simp, by simp, .inr (by norm_num)⟩

end Cddm
