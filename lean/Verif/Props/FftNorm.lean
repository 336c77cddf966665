import Verif.Props.Fft2

/-!
# C76: normalization of frames to their intensity
-/

namespace Cddm
open Spec
open scoped BigOperators

theorem cxDiv_some {a b c : Cx ℝ} (hb : b ≠ 0) (h : c * b = a) : cxDiv a b = some c := by
  have h3 : b.abs2 ≠ 0 := by
    intro h0
    apply hb
    unfold Cx.abs2 at h0
    have hr : b.re = 0 := by nlinarith [mul_self_nonneg b.re, mul_self_nonneg b.im]
    have hi : b.im = 0 := by nlinarith [mul_self_nonneg b.re, mul_self_nonneg b.im]
    ext <;> simp [hr, hi]
  unfold cxDiv
  rw [if_neg hb, ← h, smul_eq_ofR, mul_assoc c, show b * b.conj = Cx.ofR b.abs2 by
    ext <;> simp [Cx.abs2]; ring, mul_left_comm, ← ofR_mul, one_div, inv_mul_cancel₀ h3, ofR_one, mul_one]

theorem cxDiv_exists (a : Cx ℝ) {b : Cx ℝ} (hb : b ≠ 0) : ∃ c, cxDiv a b = some c ∧ c * b = a := by
  have h3 : b.abs2 ≠ 0 := by
    intro h0
    apply hb
    unfold Cx.abs2 at h0
    have hr : b.re = 0 := by nlinarith [mul_self_nonneg b.re, mul_self_nonneg b.im]
    have hi : b.im = 0 := by nlinarith [mul_self_nonneg b.re, mul_self_nonneg b.im]
    ext <;> simp [hr, hi]
  have hc : (1 / b.abs2) • (a * b.conj) * b = a := by
    rw [smul_eq_ofR, mul_assoc, mul_assoc, mul_comm b.conj, show b * b.conj = Cx.ofR b.abs2 by
      ext <;> simp [Cx.abs2]; ring, mul_left_comm, ← ofR_mul, one_div, inv_mul_cancel₀ h3, ofR_one, mul_one]
  exact ⟨_, cxDiv_some hb hc, hc⟩

/-- Division of a frame by a number: finite with quotient `y`. -/
theorem divideFrame_some (x : Arr2 (Cx ℝ)) {v : Cx ℝ} (hv : v ≠ 0) :
    ∃ y : Arr2 (Cx ℝ), y.h = x.h ∧ y.w = x.w ∧ ∀ p q : Nat, (divideFrame x v).get p q = some (y.get p q) ∧
      y.get p q * v = x.get p q := by
  refine ⟨⟨x.h, x.w, fun p q => ((cxDiv_exists (x.get p q) hv).choose)⟩, rfl, rfl, ?_⟩
  intro p q
  exact (cxDiv_exists (x.get p q) hv).choose_spec

/-- The mean is the component at `(0, 0)` divided by the number of pixels. -/
theorem frameMean_fourier (x : Arr2 (Cx ℝ)) :
    frameMean x = (1 / ((x.h : ℝ) * (x.w : ℝ))) • fourierAt x 0 0 := by
  unfold frameMean fourierAt
  simp only [planeWave_zero, mul_one]

theorem fourierAt_scale (x y : Arr2 (Cx ℝ)) (v : Cx ℝ) (h1 : y.h = x.h) (h2 : y.w = x.w)
    (h : ∀ p q : Nat, p < x.h → q < x.w → y.get p q * v = x.get p q) (a b : Int) :
    fourierAt y a b * v = fourierAt x a b := by
  unfold fourierAt
  rw [h1, h2, Finset.sum_mul]
  refine Finset.sum_congr rfl fun p hp => ?_
  rw [Finset.sum_mul]
  refine Finset.sum_congr rfl fun q hq => ?_
  rw [← h p q (Finset.mem_range.mp hp) (Finset.mem_range.mp hq)]
  ring

theorem frameMean_scale (x y : Arr2 (Cx ℝ)) (v : Cx ℝ) (h1 : y.h = x.h) (h2 : y.w = x.w)
    (h : ∀ p q : Nat, p < x.h → q < x.w → y.get p q * v = x.get p q) :
    frameMean y * v = frameMean x := by
  rw [frameMean_fourier, frameMean_fourier, ← fourierAt_scale x y v h1 h2 h, h1, h2, smul_eq_ofR, smul_eq_ofR]
  ring

theorem cx_cancel {a b v : Cx ℝ} (hv : v ≠ 0) (h : a * v = b * v) : a = b := by
  have : v * (a - b) = 0 := by rw [mul_sub, mul_comm v a, mul_comm v b, h, sub_self]
  exact sub_eq_zero.mp (cx_mul_eq_zero this hv)

/-- **C76, `normalize_video`.**  Every frame whose mean is not zero is divided by its mean, and has mean one then. -/
theorem C76_normalize_video (video : List (List (Arr2 (Cx ℝ)))) (hv : ∀ fs ∈ video, ∀ x ∈ fs, frameMean x ≠ 0) :
    ∃ out, normalizeVideo video = (out, none) ∧
      List.Forall₂ (List.Forall₂ fun x r => r.h = x.h ∧ r.w = x.w ∧ ∃ y : Arr2 (Cx ℝ), y.h = x.h ∧ y.w = x.w ∧
        frameMean y = 1 ∧ ∀ p q : Nat, p < x.h → q < x.w →
          r.get p q = some (y.get p q) ∧ y.get p q * frameMean x = x.get p q) video out := by
  apply mapVideo_ok
  intro fs hfs x hx
  have hm := hv fs hfs x hx
  obtain ⟨y, h1, h2, h3⟩ := divideFrame_some x hm
  refine ⟨_, rfl, rfl, rfl, y, h1, h2, ?_, fun p q _ _ => h3 p q⟩
  apply cx_cancel hm
  rw [frameMean_scale x y _ h1 h2 (fun p q _ _ => (h3 p q).2), one_mul]

/-- **C76, `normalize_fft`.**  Every frame whose component `[0,0]` is not zero is divided by it, so that it becomes one. -/
theorem C76_normalize_fft (video : List (List (Arr2 (Cx ℝ))))
    (hv : ∀ fs ∈ video, ∀ x ∈ fs, 0 < x.h ∧ 0 < x.w ∧ x.get 0 0 ≠ 0) :
    ∃ out, normalizeFft video = (out, none) ∧
      List.Forall₂ (List.Forall₂ fun x r => r.h = x.h ∧ r.w = x.w ∧ r.get 0 0 = some 1 ∧
        ∀ p q : Nat, p < x.h → q < x.w → ∃ v, r.get p q = some v ∧ v * x.get 0 0 = x.get p q) video out := by
  apply mapVideo_ok
  intro fs hfs x hx
  obtain ⟨hh, hw, hz⟩ := hv fs hfs x hx
  refine ⟨divideFrame x (x.get 0 0), ?_, rfl, rfl, cxDiv_some hz (one_mul _), ?_⟩
  · unfold normalizeFftFrame
    rw [if_neg (by omega)]
  · intro p q _ _
    exact cxDiv_exists _ hz

/-- With mean (or component `[0,0]`) zero no value is finite. -/
theorem C76_zero (x : Arr2 (Cx ℝ)) :
    (frameMean x = 0 → ∃ r, normalizeVideoFrame x = .ok r ∧ ∀ p q : Nat, r.get p q = none) ∧
    (0 < x.h → 0 < x.w → x.get 0 0 = 0 → ∃ r, normalizeFftFrame x = .ok r ∧ ∀ p q : Nat, r.get p q = none) := by
  constructor
  · intro h
    refine ⟨_, rfl, ?_⟩
    intro p q
    simp [divideFrame, cxDiv, h]
  · intro hh hw h
    refine ⟨divideFrame x (x.get 0 0), ?_, ?_⟩
    · unfold normalizeFftFrame
      rw [if_neg (by omega)]
    · intro p q
      simp [divideFrame, cxDiv, h]

/-- Empty spectra raise an exception. -/
theorem C76_empty (x : Arr2 (Cx ℝ)) (h : x.h = 0 ∨ x.w = 0) : normalizeFftFrame x = .error .indexError := by
  unfold normalizeFftFrame
  rw [if_pos h]

/-- **C76, independence of the intensity.**  Frames that differ by a factor are normalized to the same frame; in
particular normalizing twice is normalizing once. -/
theorem C76_scale (x y : Arr2 (Cx ℝ)) (v : Cx ℝ) (hv : v ≠ 0) (h1 : y.h = x.h) (h2 : y.w = x.w)
    (h : ∀ p q : Nat, p < x.h → q < x.w → y.get p q * v = x.get p q) :
    ∃ r s, normalizeVideoFrame x = .ok r ∧ normalizeVideoFrame y = .ok s ∧ SameArr r s := by
  refine ⟨_, _, rfl, rfl, h1.symm, h2.symm, ?_⟩
  intro p q hp hq
  have hm := frameMean_scale x y v h1 h2 h
  have hxy := h p q hp hq
  show cxDiv (x.get p q) (frameMean x) = cxDiv (y.get p q) (frameMean y)
  by_cases h0 : frameMean y = 0
  · rw [← hm, h0, zero_mul]
    simp [cxDiv]
  · obtain ⟨c, hc, hc'⟩ := cxDiv_exists (y.get p q) h0
    rw [hc]
    apply cxDiv_some
    · rw [← hm]
      intro hz
      rw [mul_comm] at hz
      exact h0 (cx_mul_eq_zero hz hv)
    · rw [← hm, ← mul_assoc, hc', hxy]

/-- **C76, both normalizations.**  Normalizing the frames before the transform, to the frame `y`, or the spectra after
it gives the same up to the number of pixels, and the same after `normalize_fft`. -/
theorem C76_commute (x y : Arr2 (Cx ℝ)) (hh : 0 < x.h) (hw : 0 < x.w) (hm : frameMean x ≠ 0) (h1 : y.h = x.h)
    (h2 : y.w = x.w) (h : ∀ p q : Nat, p < x.h → q < x.w → (divideFrame x (frameMean x)).get p q = some (y.get p q))
    (a b : Int) :
    fourierAt y a b * fourierAt x 0 0 = ((x.h : ℝ) * (x.w : ℝ)) • fourierAt x a b ∧
    cxDiv (fourierAt y a b) (fourierAt y 0 0) = cxDiv (fourierAt x a b) (fourierAt x 0 0) := by
  obtain ⟨y', g1, g2, g3⟩ := divideFrame_some x hm
  have hy : ∀ p q : Nat, p < x.h → q < x.w → y.get p q * frameMean x = x.get p q := by
    intro p q hp hq
    rw [Option.some.inj ((h p q hp hq).symm.trans (g3 p q).1)]
    exact (g3 p q).2
  have hf := fourierAt_scale x y _ h1 h2 hy
  have hn : ((x.h : ℝ) * (x.w : ℝ)) ≠ 0 := by positivity
  have hx0 : fourierAt x 0 0 = Cx.ofR ((x.h : ℝ) * (x.w : ℝ)) * frameMean x := by
    rw [frameMean_fourier, smul_eq_ofR, ← mul_assoc, ← ofR_mul, one_div, mul_inv_cancel₀ hn, ofR_one, one_mul]
  constructor
  · rw [hx0, smul_eq_ofR, ← hf a b]
    ring
  · by_cases h0 : fourierAt y 0 0 = 0
    · have : fourierAt x 0 0 = 0 := by rw [← hf 0 0, h0, zero_mul]
      rw [h0, this]
      simp [cxDiv]
    · obtain ⟨c, hc, hc'⟩ := cxDiv_exists (fourierAt y a b) h0
      rw [hc]
      symm
      apply cxDiv_some
      · rw [← hf 0 0]
        intro hz
        rw [mul_comm] at hz
        exact h0 (cx_mul_eq_zero hz hm)
      · rw [← hf 0 0, ← mul_assoc, hc', hf]

/-- A frame with values 1, 2, 3: its mean is 2. -/
example : frameMean ⟨1, 3, fun _ q => ⟨(q : ℝ) + 1, 0⟩⟩ = ⟨2, 0⟩ := by
  ext <;> simp [frameMean, Finset.sum_range_succ]
  norm_num

end Cddm
