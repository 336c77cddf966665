import Verif.Spec.Fft2
import Verif.Lemmas.Dft
import Verif.Lemmas.Arr2
import Mathlib.Algebra.BigOperators.Intervals

/-! # Two-dimensional discrete Fourier transform -/

namespace Cddm
open Spec
open scoped BigOperators

theorem twiddle_mod {N : Nat} (hN : 0 < N) {a b : Int} (h : (N : Int) ∣ a - b) : twiddle N a = twiddle N b := by
  rw [show a = b + (a - b) by ring, twiddle_add, twiddle_dvd hN h, mul_one]

theorem planeWave_eq (h w : Nat) (a b p q : Int) :
    planeWave h w a b p q = twiddle h (-(p * a)) * twiddle w (-(q * b)) := by
  have e : 2 * Real.pi * ((a : ℝ) * p / h + (b : ℝ) * q / w)
      = -(2 * Real.pi * ((-(p * a) : Int) : ℝ) / h + 2 * Real.pi * ((-(q * b) : Int) : ℝ) / w) := by
    push_cast; ring
  unfold planeWave twiddle
  rw [e, Real.cos_neg, Real.sin_neg, neg_neg]
  ext
  · simp only [Cx.mul_re, Real.cos_add]
  · simp only [Cx.mul_im, Real.sin_add]; ring

theorem fourierAt_eq (x : Arr2 (Cx ℝ)) (a b : Int) : fourierAt x a b =
    ∑ p ∈ Finset.range x.h, ∑ q ∈ Finset.range x.w,
      twiddle x.h (-((p : Int) * a)) * (twiddle x.w (-((q : Int) * b)) * x.get p q) := by
  unfold fourierAt
  refine Finset.sum_congr rfl fun p _ => Finset.sum_congr rfl fun q _ => ?_
  rw [planeWave_eq]
  ring

theorem wrap_dvd' (n : Nat) (a : Int) (hn : 0 < n) : (n : Int) ∣ ((wrap n a : Nat) : Int) - a := by
  unfold wrap
  have h1 : 0 ≤ a % (n : Int) := Int.emod_nonneg _ (by omega)
  rw [Int.toNat_of_nonneg h1]
  refine ⟨-(a / n), ?_⟩
  have := Int.emod_add_mul_ediv a n
  linarith

theorem wrap_eq_of_dvd {n : Nat} {a b : Int} (h : (n : Int) ∣ a - b) : wrap n a = wrap n b := by
  unfold wrap
  rw [(Int.emod_eq_emod_iff_emod_sub_eq_zero).mpr (Int.emod_eq_zero_of_dvd h)]

theorem smul_eq_ofR (r : ℝ) (z : Cx ℝ) : r • z = Cx.ofR r * z := by
  ext <;> simp

theorem ofR_mul (r s : ℝ) : (Cx.ofR (r * s) : Cx ℝ) = Cx.ofR r * Cx.ofR s := by
  ext <;> simp

theorem ofR_one : (Cx.ofR 1 : Cx ℝ) = 1 := by
  ext <;> simp

theorem sum_delta {n : Nat} (hn : 0 < n) (a : Int) (f : Nat → Cx ℝ) :
    ∑ p ∈ Finset.range n, (if (n : Int) ∣ (p : Int) - a then f p else 0) = f (wrap n a) := by
  have h : ∀ p ∈ Finset.range n, (if (n : Int) ∣ (p : Int) - a then f p else 0) = if p = wrap n a then f p else 0 := by
    intro p hp
    rw [Finset.mem_range] at hp
    have : ((n : Int) ∣ (p : Int) - a) ↔ p = wrap n a := by
      constructor
      · intro hd
        rw [← wrap_eq_of_dvd hd, wrap_nat hp]
      · rintro rfl
        exact wrap_dvd' n a hn
    by_cases hc : p = wrap n a
    · rw [if_pos hc, if_pos (this.mpr hc)]
    · rw [if_neg hc, if_neg (fun hd => hc (this.mp hd))]
  rw [Finset.sum_congr rfl h, Finset.sum_ite_eq' (Finset.range n) (wrap n a),
    if_pos (Finset.mem_range.mpr (wrap_lt hn a))]

theorem sum_shift {n : Nat} (hn : 0 < n) (c : Int) (f : Nat → Cx ℝ) :
    ∑ p ∈ Finset.range n, f (wrap n ((p : Int) - c)) = ∑ p ∈ Finset.range n, f p := by
  refine Finset.sum_bij' (fun p _ => wrap n ((p : Int) - c)) (fun p _ => wrap n ((p : Int) + c)) ?_ ?_ ?_ ?_ ?_
  · intro p _; exact Finset.mem_range.mpr (wrap_lt hn _)
  · intro p _; exact Finset.mem_range.mpr (wrap_lt hn _)
  · intro p hp
    have h1 : wrap n (((wrap n ((p : Int) - c) : Nat) : Int) + c) = wrap n (p : Int) := by
      apply wrap_eq_of_dvd
      have := wrap_dvd' n ((p : Int) - c) hn
      rwa [show ((wrap n ((p : Int) - c) : Nat) : Int) - ((p : Int) - c)
        = ((wrap n ((p : Int) - c) : Nat) : Int) + c - p by ring] at this
    rw [h1, wrap_nat (Finset.mem_range.mp hp)]
  · intro p hp
    have h1 : wrap n (((wrap n ((p : Int) + c) : Nat) : Int) - c) = wrap n (p : Int) := by
      apply wrap_eq_of_dvd
      have := wrap_dvd' n ((p : Int) + c) hn
      rwa [show ((wrap n ((p : Int) + c) : Nat) : Int) - ((p : Int) + c)
        = ((wrap n ((p : Int) + c) : Nat) : Int) - c - p by ring] at this
    rw [h1, wrap_nat (Finset.mem_range.mp hp)]
  · intro p _; rfl

/-- The transform of the inverse transform. -/
theorem dft_idft {n : Nat} (hn : 0 < n) (a : Int) (g : Nat → Cx ℝ) :
    ∑ p ∈ Finset.range n, twiddle n (-((p : Int) * a)) *
      (Cx.ofR (1 / (n : ℝ)) * ∑ i ∈ Finset.range n, twiddle n ((i : Int) * p) * g i) = g (wrap n a) := by
  have h1 : ∀ p ∈ Finset.range n, twiddle n (-((p : Int) * a)) *
      (Cx.ofR (1 / (n : ℝ)) * ∑ i ∈ Finset.range n, twiddle n ((i : Int) * p) * g i)
      = ∑ i ∈ Finset.range n, Cx.ofR (1 / (n : ℝ)) * g i * twiddle n (((i : Int) - a) * p) := by
    intro p _
    rw [Finset.mul_sum, Finset.mul_sum]
    refine Finset.sum_congr rfl fun i _ => ?_
    rw [show ((i : Int) - a) * p = -((p : Int) * a) + (i : Int) * p by ring, twiddle_add]
    ring
  rw [Finset.sum_congr rfl h1, Finset.sum_comm]
  have h2 : ∀ i ∈ Finset.range n,
      ∑ p ∈ Finset.range n, Cx.ofR (1 / (n : ℝ)) * g i * twiddle n (((i : Int) - a) * p)
      = if (n : Int) ∣ (i : Int) - a then g i else 0 := by
    intro i _
    rw [← Finset.mul_sum, twiddle_sum hn]
    have hn' : (n : ℝ) ≠ 0 := by positivity
    split_ifs
    · rw [mul_right_comm, ← ofR_mul, one_div, inv_mul_cancel₀ hn', ofR_one, one_mul]
    · rw [mul_zero]
  rw [Finset.sum_congr rfl h2, sum_delta hn]

/-- The inverse transform of the transform. -/
theorem idft_dft {n : Nat} (hn : 0 < n) (p : Nat) (hp : p < n) (g : Nat → Cx ℝ) :
    Cx.ofR (1 / (n : ℝ)) * ∑ i ∈ Finset.range n, twiddle n ((i : Int) * p) *
      (∑ q ∈ Finset.range n, twiddle n (-((q : Int) * i)) * g q) = g p := by
  have h1 : ∀ i ∈ Finset.range n, twiddle n ((i : Int) * p) *
      (∑ q ∈ Finset.range n, twiddle n (-((q : Int) * i)) * g q)
      = ∑ q ∈ Finset.range n, g q * twiddle n (((p : Int) - q) * i) := by
    intro i _
    rw [Finset.mul_sum]
    refine Finset.sum_congr rfl fun q _ => ?_
    rw [show ((p : Int) - q) * i = (i : Int) * p + -((q : Int) * i) by ring, twiddle_add]
    ring
  rw [Finset.sum_congr rfl h1, Finset.sum_comm, Finset.mul_sum]
  have h2 : ∀ q ∈ Finset.range n,
      Cx.ofR (1 / (n : ℝ)) * ∑ i ∈ Finset.range n, g q * twiddle n (((p : Int) - q) * i)
      = if (n : Int) ∣ (q : Int) - p then g q else 0 := by
    intro q _
    rw [← Finset.mul_sum, twiddle_sum hn]
    have hn' : (n : ℝ) ≠ 0 := by positivity
    have hiff : ((n : Int) ∣ (p : Int) - q) ↔ (n : Int) ∣ (q : Int) - p := by
      rw [show (p : Int) - q = -((q : Int) - p) by ring, Int.dvd_neg]
    by_cases hd : (n : Int) ∣ (q : Int) - p
    · rw [if_pos hd, if_pos (hiff.mpr hd), mul_left_comm, ← ofR_mul, one_div, inv_mul_cancel₀ hn', ofR_one, mul_one]
    · rw [if_neg hd, if_neg (fun h => hd (hiff.mp h)), mul_zero, mul_zero]
  rw [Finset.sum_congr rfl h2, sum_delta hn, wrap_nat hp]

/-! ### Two dimensions -/

theorem fourierAt_mod (x : Arr2 (Cx ℝ)) {a a' b b' : Int} (hh : 0 < x.h) (hw : 0 < x.w) (ha : (x.h : Int) ∣ a - a')
    (hb : (x.w : Int) ∣ b - b') : fourierAt x a b = fourierAt x a' b' := by
  rw [fourierAt_eq, fourierAt_eq]
  refine Finset.sum_congr rfl fun p _ => Finset.sum_congr rfl fun q _ => ?_
  rw [twiddle_mod hh (a := -((p : Int) * a)) (b := -((p : Int) * a')), twiddle_mod hw (a := -((q : Int) * b)) (b := -((q : Int) * b'))]
  · rw [show -((q : Int) * b) - -((q : Int) * b') = (b - b') * -(q : Int) by ring]
    exact Dvd.dvd.mul_right hb _
  · rw [show -((p : Int) * a) - -((p : Int) * a') = (a - a') * -(p : Int) by ring]
    exact Dvd.dvd.mul_right ha _

theorem npFft2_ok (x : Arr2 (Cx ℝ)) (hh : 0 < x.h) (hw : 0 < x.w) :
    npFft2 x = .ok ⟨x.h, x.w, fun (i j : Nat) => fourierAt x i j⟩ := by
  unfold npFft2
  rw [if_neg (by omega)]
  congr 2
  funext i j
  rw [fourierAt_eq]

theorem npIfft2_ok (x : Arr2 (Cx ℝ)) (hh : 0 < x.h) (hw : 0 < x.w) :
    npIfft2 x = .ok ⟨x.h, x.w, fun (p q : Nat) => Cx.ofR (1 / (x.h : ℝ)) *
      ∑ i ∈ Finset.range x.h, twiddle x.h ((i : Int) * p) *
        (Cx.ofR (1 / (x.w : ℝ)) * ∑ j ∈ Finset.range x.w, twiddle x.w ((j : Int) * q) * x.get i j)⟩ := by
  unfold npIfft2
  rw [if_neg (by omega)]
  congr 2
  funext p q
  rw [smul_eq_ofR, ← one_div_mul_one_div, ofR_mul, mul_assoc]
  congr 1
  rw [Finset.mul_sum]
  refine Finset.sum_congr rfl fun i _ => ?_
  rw [← Finset.mul_sum]
  ring

theorem fourierAt_ifft2 (x y : Arr2 (Cx ℝ)) (hh : 0 < x.h) (hw : 0 < x.w) (h : npIfft2 x = .ok y) (a b : Int) :
    y.h = x.h ∧ y.w = x.w ∧ fourierAt y a b = x.get (wrap x.h a) (wrap x.w b) := by
  rw [npIfft2_ok x hh hw] at h
  cases h
  refine ⟨rfl, rfl, ?_⟩
  rw [fourierAt_eq]
  dsimp only
  have e : ∀ p ∈ Finset.range x.h, (∑ q ∈ Finset.range x.w, twiddle x.h (-((p : Int) * a)) *
      (twiddle x.w (-((q : Int) * b)) * (Cx.ofR (1 / (x.h : ℝ)) * ∑ i ∈ Finset.range x.h, twiddle x.h ((i : Int) * p) *
        (Cx.ofR (1 / (x.w : ℝ)) * ∑ j ∈ Finset.range x.w, twiddle x.w ((j : Int) * q) * x.get i j))))
      = twiddle x.h (-((p : Int) * a)) * (Cx.ofR (1 / (x.h : ℝ)) *
        ∑ i ∈ Finset.range x.h, twiddle x.h ((i : Int) * p) * x.get i (wrap x.w b)) := by
    intro p _
    rw [← Finset.mul_sum]
    congr 1
    have e2 : ∀ q ∈ Finset.range x.w, (twiddle x.w (-((q : Int) * b)) * (Cx.ofR (1 / (x.h : ℝ)) *
        ∑ i ∈ Finset.range x.h, twiddle x.h ((i : Int) * p) *
        (Cx.ofR (1 / (x.w : ℝ)) * ∑ j ∈ Finset.range x.w, twiddle x.w ((j : Int) * q) * x.get i j)))
        = Cx.ofR (1 / (x.h : ℝ)) * ∑ i ∈ Finset.range x.h, twiddle x.h ((i : Int) * p) *
          (twiddle x.w (-((q : Int) * b)) * (Cx.ofR (1 / (x.w : ℝ)) *
            ∑ j ∈ Finset.range x.w, twiddle x.w ((j : Int) * q) * x.get i j)) := by
      intro q _
      rw [mul_left_comm, Finset.mul_sum]
      congr 1
      refine Finset.sum_congr rfl fun i _ => ?_
      ring
    rw [Finset.sum_congr rfl e2, ← Finset.mul_sum, Finset.sum_comm]
    congr 1
    refine Finset.sum_congr rfl fun i _ => ?_
    rw [← Finset.mul_sum, dft_idft hw]
  rw [Finset.sum_congr rfl e, dft_idft hh]

theorem ifft2_fourierAt (x : Arr2 (Cx ℝ)) (hh : 0 < x.h) (hw : 0 < x.w) :
    ∃ y, npIfft2 ⟨x.h, x.w, fun (i j : Nat) => fourierAt x i j⟩ = .ok y ∧ SameArr y x := by
  refine ⟨_, npIfft2_ok _ hh hw, rfl, rfl, ?_⟩
  intro p q hp hq
  dsimp only at hp hq ⊢
  have e : ∀ i ∈ Finset.range x.h, twiddle x.h ((i : Int) * p) * (Cx.ofR (1 / (x.w : ℝ)) *
      ∑ j ∈ Finset.range x.w, twiddle x.w ((j : Int) * q) * fourierAt x i j)
      = twiddle x.h ((i : Int) * p) * ∑ p' ∈ Finset.range x.h, twiddle x.h (-((p' : Int) * i)) * x.get p' q := by
    intro i _
    congr 1
    have e2 : ∀ j ∈ Finset.range x.w, twiddle x.w ((j : Int) * q) * fourierAt x i j
        = ∑ p' ∈ Finset.range x.h, twiddle x.h (-((p' : Int) * i)) * (twiddle x.w ((j : Int) * q) *
          ∑ q' ∈ Finset.range x.w, twiddle x.w (-((q' : Int) * j)) * x.get p' q') := by
      intro j _
      rw [fourierAt_eq, Finset.mul_sum]
      refine Finset.sum_congr rfl fun p' _ => ?_
      rw [← Finset.mul_sum]
      ring
    rw [Finset.sum_congr rfl e2, Finset.sum_comm, Finset.mul_sum]
    refine Finset.sum_congr rfl fun p' _ => ?_
    rw [← Finset.mul_sum, mul_left_comm, idft_dft hw q hq]
  rw [Finset.sum_congr rfl e, idft_dft hh p hp (fun p' => x.get p' q)]

/-- Cyclic convolution. -/
noncomputable def cconv (x y : Arr2 (Cx ℝ)) : Arr2 (Cx ℝ) :=
  ⟨x.h, x.w, fun (p q : Nat) => ∑ p' ∈ Finset.range x.h, ∑ q' ∈ Finset.range x.w,
    x.get p' q' * y.get (wrap x.h ((p : Int) - p')) (wrap x.w ((q : Int) - q'))⟩

theorem twiddle_shift {n : Nat} (hn : 0 < n) (p p' a : Int) :
    twiddle n (-(p * a)) = twiddle n (-(p' * a)) * twiddle n (-(((wrap n (p - p') : Nat) : Int) * a)) := by
  rw [← twiddle_add]
  apply twiddle_mod hn
  have := wrap_dvd' n (p - p') hn
  rw [show -(p * a) - (-(p' * a) + -(((wrap n (p - p') : Nat) : Int) * a))
    = (((wrap n (p - p') : Nat) : Int) - (p - p')) * a by ring]
  exact Dvd.dvd.mul_right this _

theorem fourierAt_cconv (x y : Arr2 (Cx ℝ)) (hh : 0 < x.h) (hw : 0 < x.w) (h1 : y.h = x.h) (h2 : y.w = x.w) (a b : Int) :
    fourierAt (cconv x y) a b = fourierAt x a b * fourierAt y a b := by
  rw [fourierAt_eq (cconv x y)]
  dsimp only [cconv]
  have e1 : ∀ p ∈ Finset.range x.h, ∀ q ∈ Finset.range x.w,
      twiddle x.h (-((p : Int) * a)) * (twiddle x.w (-((q : Int) * b)) *
        ∑ p' ∈ Finset.range x.h, ∑ q' ∈ Finset.range x.w,
          x.get p' q' * y.get (wrap x.h ((p : Int) - p')) (wrap x.w ((q : Int) - q')))
      = ∑ p' ∈ Finset.range x.h, ∑ q' ∈ Finset.range x.w,
        (twiddle x.h (-((p' : Int) * a)) * (twiddle x.w (-((q' : Int) * b)) * x.get p' q')) *
        (twiddle x.h (-(((wrap x.h ((p : Int) - p') : Nat) : Int) * a)) *
          (twiddle x.w (-(((wrap x.w ((q : Int) - q') : Nat) : Int) * b)) *
            y.get (wrap x.h ((p : Int) - p')) (wrap x.w ((q : Int) - q')))) := by
    intro p _ q _
    rw [Finset.mul_sum, Finset.mul_sum]
    refine Finset.sum_congr rfl fun p' _ => ?_
    rw [Finset.mul_sum, Finset.mul_sum]
    refine Finset.sum_congr rfl fun q' _ => ?_
    rw [twiddle_shift hh p p' a, twiddle_shift hw q q' b]
    ring
  rw [Finset.sum_congr rfl fun p hp => Finset.sum_congr rfl (e1 p hp)]
  have e2 : ∀ p ∈ Finset.range x.h, (∑ q ∈ Finset.range x.w, ∑ p' ∈ Finset.range x.h, ∑ q' ∈ Finset.range x.w,
        (twiddle x.h (-((p' : Int) * a)) * (twiddle x.w (-((q' : Int) * b)) * x.get p' q')) *
        (twiddle x.h (-(((wrap x.h ((p : Int) - p') : Nat) : Int) * a)) *
          (twiddle x.w (-(((wrap x.w ((q : Int) - q') : Nat) : Int) * b)) *
            y.get (wrap x.h ((p : Int) - p')) (wrap x.w ((q : Int) - q')))))
      = ∑ p' ∈ Finset.range x.h, ∑ q' ∈ Finset.range x.w,
        (twiddle x.h (-((p' : Int) * a)) * (twiddle x.w (-((q' : Int) * b)) * x.get p' q')) *
        ∑ q ∈ Finset.range x.w, (twiddle x.h (-(((wrap x.h ((p : Int) - p') : Nat) : Int) * a)) *
          (twiddle x.w (-((q : Int) * b)) * y.get (wrap x.h ((p : Int) - p')) q)) := by
    intro p _
    rw [Finset.sum_comm]
    refine Finset.sum_congr rfl fun p' _ => ?_
    rw [Finset.sum_comm]
    refine Finset.sum_congr rfl fun q' _ => ?_
    rw [← Finset.mul_sum]
    congr 1
    exact sum_shift hw (q' : Int) (fun q => twiddle x.h (-(((wrap x.h ((p : Int) - p') : Nat) : Int) * a)) *
          (twiddle x.w (-((q : Int) * b)) * y.get (wrap x.h ((p : Int) - p')) q))
  rw [Finset.sum_congr rfl e2, Finset.sum_comm]
  have e3 : ∀ p' ∈ Finset.range x.h, (∑ p ∈ Finset.range x.h, ∑ q' ∈ Finset.range x.w,
        (twiddle x.h (-((p' : Int) * a)) * (twiddle x.w (-((q' : Int) * b)) * x.get p' q')) *
        ∑ q ∈ Finset.range x.w, (twiddle x.h (-(((wrap x.h ((p : Int) - p') : Nat) : Int) * a)) *
          (twiddle x.w (-((q : Int) * b)) * y.get (wrap x.h ((p : Int) - p')) q)))
      = ∑ q' ∈ Finset.range x.w,
        (twiddle x.h (-((p' : Int) * a)) * (twiddle x.w (-((q' : Int) * b)) * x.get p' q')) * fourierAt y a b := by
    intro p' _
    rw [Finset.sum_comm]
    refine Finset.sum_congr rfl fun q' _ => ?_
    rw [← Finset.mul_sum]
    congr 1
    rw [fourierAt_eq, h1, h2]
    exact sum_shift hh (p' : Int) (fun p => ∑ q ∈ Finset.range x.w, (twiddle x.h (-((p : Int) * a)) *
          (twiddle x.w (-((q : Int) * b)) * y.get p q)))
  rw [Finset.sum_congr rfl e3, fourierAt_eq x, Finset.sum_mul]
  refine Finset.sum_congr rfl fun p' _ => ?_
  rw [Finset.sum_mul]

theorem planeWave_wrap (h w : Nat) (hh : 0 < h) (hw : 0 < w) (a b p q : Int) :
    planeWave h w a b (wrap h p : Nat) (wrap w q : Nat) = planeWave h w a b p q := by
  rw [planeWave_eq, planeWave_eq]
  congr 1
  · apply twiddle_mod hh
    rw [show -(((wrap h p : Nat) : Int) * a) - -(p * a) = (((wrap h p : Nat) : Int) - p) * -a by ring]
    exact Dvd.dvd.mul_right (wrap_dvd' h p hh) _
  · apply twiddle_mod hw
    rw [show -(((wrap w q : Nat) : Int) * b) - -(q * b) = (((wrap w q : Nat) : Int) - q) * -b by ring]
    exact Dvd.dvd.mul_right (wrap_dvd' w q hw) _

theorem planeWave_comm (h w : Nat) (a b p q : Int) : planeWave h w a b p q = planeWave h w p q a b := by
  unfold planeWave
  rw [mul_comm (a : ℝ), mul_comm (b : ℝ)]

theorem planeWave_add (h w : Nat) (a a' b b' p q : Int) :
    planeWave h w (a + a') (b + b') p q = planeWave h w a b p q * planeWave h w a' b' p q := by
  rw [planeWave_eq, planeWave_eq, planeWave_eq, mul_add, mul_add, neg_add, neg_add, twiddle_add, twiddle_add]
  ring

theorem planeWave_zero (h w : Nat) (p q : Int) : planeWave h w 0 0 p q = 1 := by
  ext <;> simp [planeWave]

theorem resolveIdx_wrap {n : Nat} {k : Int} (h1 : -(n : Int) ≤ k) (h2 : k < n) : resolveIdx n k = some (wrap n k) := by
  unfold resolveIdx
  by_cases h0 : 0 ≤ k
  · rw [if_pos h0, if_pos h2]
    congr 1
    rw [← wrap_nat (n := n) (i := k.toNat) (by omega)]
    congr 1
    omega
  · rw [if_neg h0, if_pos (by omega)]
    congr 1
    rw [← wrap_nat (n := n) (i := (k + n).toNat) (by omega)]
    apply wrap_eq_of_dvd
    exact ⟨1, by omega⟩

theorem resolveIdx_none {n : Nat} {k : Int} (h : k < -(n : Int) ∨ (n : Int) ≤ k) : resolveIdx n k = none := by
  unfold resolveIdx
  by_cases h0 : 0 ≤ k
  · rw [if_pos h0, if_neg (by omega)]
  · rw [if_neg h0, if_neg (by omega)]

theorem buildKf_ok (window : Arr2 (Cx ℝ)) (ki kj : Int) (hi : -(window.h : Int) ≤ ki ∧ ki < window.h)
    (hj : -(window.w : Int) ≤ kj ∧ kj < window.w) :
    buildKf window [ki, kj] = .ok ⟨window.h, window.w, fun (i j : Nat) => planeWave window.h window.w ki kj i j⟩ := by
  have hh : 0 < window.h := by omega
  have hw : 0 < window.w := by omega
  unfold buildKf
  dsimp only
  rw [resolveIdx_wrap hi.1 hi.2, resolveIdx_wrap hj.1 hj.2]
  dsimp only
  refine Eq.trans (npFft2_ok _ (by exact hh) (by exact hw)) ?_
  congr 2
  funext i j
  unfold fourierAt
  dsimp only
  rw [Finset.sum_eq_single (wrap window.h ki)]
  · rw [Finset.sum_eq_single (wrap window.w kj)]
    · rw [if_pos ⟨rfl, rfl⟩, one_mul, planeWave_wrap _ _ hh hw, planeWave_comm]
    · intro q _ hq
      rw [if_neg (fun h => hq h.2), zero_mul]
    · intro h
      exact absurd (Finset.mem_range.mpr (wrap_lt hw _)) h
  · intro p _ hp
    apply Finset.sum_eq_zero
    intro q _
    rw [if_neg (fun h => hp h.1), zero_mul]
  · intro h
    exact absurd (Finset.mem_range.mpr (wrap_lt hh _)) h

/-- The image of which the kernel is the transform. -/
noncomputable def kernelImage (window : Arr2 (Cx ℝ)) (ki kj : Int) : Arr2 (Cx ℝ) :=
  ⟨window.h, window.w, fun (i j : Nat) => window.get i j * planeWave window.h window.w ki kj i j⟩

theorem buildKernel_ok (window : Arr2 (Cx ℝ)) (ki kj : Int) (hi : -(window.h : Int) ≤ ki ∧ ki < window.h)
    (hj : -(window.w : Int) ≤ kj ∧ kj < window.w) :
    (do let kf ← buildKf window [ki, kj]; buildKernel window kf) =
      .ok ⟨window.h, window.w, fun (i j : Nat) => fourierAt (kernelImage window ki kj) i j⟩ := by
  rw [buildKf_ok window ki kj hi hj]
  simp only [bind, Except.bind]
  unfold buildKernel
  exact npFft2_ok _ (by dsimp only; omega) (by dsimp only; omega)

theorem fourierAt_kernelImage (window : Arr2 (Cx ℝ)) (ki kj a b : Int) :
    fourierAt (kernelImage window ki kj) a b = fourierAt window (a + ki) (b + kj) := by
  unfold fourierAt kernelImage
  dsimp only
  refine Finset.sum_congr rfl fun p _ => Finset.sum_congr rfl fun q _ => ?_
  rw [planeWave_add]
  ring

theorem broadcastLen_self (n : Nat) : broadcastLen n n = some n := by
  unfold broadcastLen
  rw [if_pos rfl]

/-- The product of two arrays of the same shape. -/
theorem npMul2_same {h w : Nat} (f g : Nat → Nat → Cx ℝ) :
    ∃ r, npMul2 ⟨h, w, f⟩ ⟨h, w, g⟩ = .ok r ∧ SameArr r ⟨h, w, fun i j => f i j * g i j⟩ := by
  unfold npMul2
  dsimp only
  rw [broadcastLen_self, broadcastLen_self]
  refine ⟨_, rfl, rfl, rfl, ?_⟩
  intro i j hi hj
  dsimp only at hi hj ⊢
  by_cases h1 : h = 1
  · rw [if_pos h1, show i = 0 by omega]
    by_cases h2 : w = 1
    · rw [if_pos h2, show j = 0 by omega]
    · rw [if_neg h2]
  · rw [if_neg h1]
    by_cases h2 : w = 1
    · rw [if_pos h2, show j = 0 by omega]
    · rw [if_neg h2]

theorem npIfft2_congr {x y : Arr2 (Cx ℝ)} (h : SameArr x y) : npIfft2 x = npIfft2 y := by
  obtain ⟨xh, xw, xg⟩ := x
  obtain ⟨yh, yw, yg⟩ := y
  obtain ⟨h1, h2, h3⟩ := h
  dsimp only at h1 h2 h3
  subst h1 h2
  unfold npIfft2
  dsimp only
  congr 2
  congr 1
  funext p q
  congr 1
  refine Finset.sum_congr rfl fun i hi => Finset.sum_congr rfl fun j hj => ?_
  rw [h3 i j (Finset.mem_range.mp hi) (Finset.mem_range.mp hj)]

/-! ### Videos -/

theorem mapVideo_ok {F G : Type} (f : F → Py G) (P : F → G → Prop) (video : List (List F))
    (h : ∀ fs ∈ video, ∀ x ∈ fs, ∃ r, f x = .ok r ∧ P x r) :
    ∃ out, mapVideo f video = (out, none) ∧ List.Forall₂ (List.Forall₂ P) video out := by
  have hrow : ∀ fs : List F, (∀ x ∈ fs, ∃ r, f x = .ok r ∧ P x r) → ∃ gs, fs.mapM f = .ok gs ∧ List.Forall₂ P fs gs := by
    intro fs
    induction fs with
    | nil => intro _; exact ⟨[], rfl, .nil⟩
    | cons x xs ih =>
      intro hx
      obtain ⟨r, hr, hp⟩ := hx x (by simp)
      obtain ⟨gs, hg, hps⟩ := ih (fun y hy => hx y (by simp [hy]))
      refine ⟨r :: gs, ?_, .cons hp hps⟩
      rw [List.mapM_cons, hr, hg]
      rfl
  induction video with
  | nil => exact ⟨[], rfl, .nil⟩
  | cons fs rest ih =>
    obtain ⟨gs, hg, hps⟩ := hrow fs (h fs (by simp))
    obtain ⟨out, ho, hp⟩ := ih (fun gs hgs => h gs (by simp [hgs]))
    refine ⟨gs :: out, ?_, .cons hps hp⟩
    unfold mapVideo
    rw [hg]
    dsimp only
    rw [ho]

end Cddm
