import Verif.Model.Sim
import Verif.Spec.Adc
import Mathlib.Tactic.Linarith
import Mathlib.Tactic.Ring
import Mathlib.Tactic.Positivity

/-!
# Analogue to digital conversion (C55)
-/

namespace Cddm
open Spec

theorem scaled_eq (top : Nat) (s b f : ℝ) : (f - b) / s * top = scaled top s b f := by
  unfold scaled
  ring

/-- C55: `adc_clean` digitizes the scaled signal. -/
theorem C55_clean (frame saturation blackLevel : ℝ) (top : Nat) :
    Digitized top (scaled top saturation blackLevel frame) (adcClean frame saturation blackLevel top) := by
  unfold adcClean Digitized
  rw [scaled_eq]
  generalize scaled top saturation blackLevel frame = x
  have ht : (0 : ℝ) ≤ top := Nat.cast_nonneg _
  dsimp only
  split
  · rename_i h
    exact ⟨Nat.zero_le _, fun _ => rfl, fun h' => by linarith, fun h' => by linarith⟩
  · rename_i h
    split
    · rename_i h'
      exact ⟨le_refl _, fun h => by linarith, fun _ => rfl, fun _ h => by linarith⟩
    · rename_i h'
      refine ⟨?_, fun h => by linarith, fun h => by linarith, fun h0 _ => ⟨Nat.floor_le h0, Nat.lt_floor_add_one x⟩⟩
      exact Nat.floor_le_of_le (not_lt.mp h')

/-- C55: a digitized signal determines the value, and larger signals have larger values. -/
theorem C55_monotone_digitized (top : Nat) (x y : ℝ) (v w : Nat) (hx : Digitized top x v)
    (hy : Digitized top y w) (h : x ≤ y) : v ≤ w := by
  obtain ⟨a1, a2, a3, a4⟩ := hx
  obtain ⟨b1, b2, b3, b4⟩ := hy
  rcases lt_or_ge x 0 with c | c
  · rw [a2 c]; exact Nat.zero_le _
  · rcases lt_or_ge (top : ℝ) y with d | d
    · rw [b3 d]; exact a1
    · obtain ⟨p, _⟩ := a4 c (h.trans d)
      obtain ⟨_, q⟩ := b4 (c.trans h) d
      have : (v : ℝ) < (w + 1 : ℕ) := by push_cast; linarith
      have := Nat.cast_lt.mp this
      omega

/-- C55: `adc_clean` is monotone for every positive saturation level. -/
theorem C55_clean_monotone (saturation blackLevel : ℝ) (top : Nat) (hs : 0 < saturation) (f g : ℝ) (h : f ≤ g) :
    adcClean f saturation blackLevel top ≤ adcClean g saturation blackLevel top := by
  refine C55_monotone_digitized top _ _ _ _ (C55_clean f _ _ _) (C55_clean g _ _ _) ?_
  unfold scaled
  have ht : (0 : ℝ) ≤ top := Nat.cast_nonneg _
  gcongr

/-- C55: `adc` without noise is a monotone digitization to `0..2 ^ bits - 1`. -/
theorem C55_adc (frame saturation blackLevel readout z : ℝ) (bits p1 p2 : Nat) (hb : bits ≤ 16)
    (hs : saturation ≠ 0) :
    ∃ v, adc frame saturation blackLevel bits readout .none z p1 p2 = .ok v ∧
      Digitized (2 ^ bits - 1) (scaled (2 ^ bits - 1) saturation blackLevel frame) v := by
  refine ⟨_, ?_, C55_clean frame saturation blackLevel (2 ^ bits - 1)⟩
  unfold adc
  have : ¬ (bits > 16 ∨ saturation = 0) := by
    rintro (h | h)
    · omega
    · exact hs h
  simp [this, bind, Except.bind]

/-- C55: with noise it is the digitization of the noisy signal, whatever the random numbers. -/
theorem C55_adc_noise (frame saturation blackLevel readout z : ℝ) (bits p1 p2 : Nat) (hb : bits ≤ 16)
    (hs : saturation ≠ 0) :
    (0 ≤ frame + readout →
      ∃ v, adc frame saturation blackLevel bits readout .gaussian z p1 p2 = .ok v ∧
        Digitized (2 ^ bits - 1) (scaled (2 ^ bits - 1) saturation blackLevel
          (frame + readout + z * Real.sqrt (frame + readout))) v) ∧
    ∃ v, adc frame saturation blackLevel bits readout .poisson z p1 p2 = .ok v ∧
      Digitized (2 ^ bits - 1) (scaled (2 ^ bits - 1) saturation blackLevel
        (((if 0 < frame then p1 else 0 : Nat) : ℝ) + (if 0 < readout then p2 else 0 : Nat))) v := by
  have hc : ¬ (bits > 16 ∨ saturation = 0) := by
    rintro (h | h)
    · omega
    · exact hs h
  constructor
  · intro h
    refine ⟨_, ?_, C55_clean _ saturation blackLevel (2 ^ bits - 1)⟩
    unfold adc
    have h' : ¬ frame + readout < 0 := not_lt.mpr h
    simp only [h', hc, bind, Except.bind, if_false]
  · refine ⟨_, ?_, C55_clean _ saturation blackLevel (2 ^ bits - 1)⟩
    unfold adc
    simp only [hc, bind, Except.bind, if_false]
    push_cast
    simp

/-- C55: an unknown noise model is a ValueError. -/
theorem C55_rejected (frame saturation blackLevel readout z : ℝ) (bits p1 p2 : Nat) :
    adc frame saturation blackLevel bits readout .other z p1 p2 = .error .valueError := by
  unfold adc
  rfl

/-- C55: also with Gaussian noise a larger signal gives a larger output for the same random number, if the
black level is not negative: where the noise makes the signal decrease it is below zero. -/
theorem C55_gaussian_monotone (f g saturation blackLevel readout z : ℝ) (bits p1 p2 v w : Nat)
    (hs : 0 < saturation) (hb : 0 ≤ blackLevel) (hf : 0 ≤ f + readout) (h : f ≤ g)
    (hv : adc f saturation blackLevel bits readout .gaussian z p1 p2 = .ok v)
    (hw : adc g saturation blackLevel bits readout .gaussian z p1 p2 = .ok w) : v ≤ w := by
  have hbits : bits ≤ 16 := by
    by_contra hc
    unfold adc at hv
    have h' : ¬ f + readout < 0 := not_lt.mpr hf
    simp [h', bind, Except.bind, show 16 < bits by omega] at hv
  obtain ⟨v', e, dv⟩ := (C55_adc_noise f saturation blackLevel readout z bits p1 p2 hbits hs.ne').1 hf
  rw [hv] at e
  cases e
  obtain ⟨w', e, dw⟩ := (C55_adc_noise g saturation blackLevel readout z bits p1 p2 hbits hs.ne').1 (by linarith)
  rw [hw] at e
  cases e
  have ht : (0 : ℝ) ≤ ((2 ^ bits - 1 : ℕ) : ℝ) := Nat.cast_nonneg _
  obtain ⟨a, ha0, ha⟩ : ∃ a, 0 ≤ a ∧ Real.sqrt (f + readout) = a := ⟨_, Real.sqrt_nonneg _, rfl⟩
  obtain ⟨c, hc0, hc⟩ : ∃ c, 0 ≤ c ∧ Real.sqrt (g + readout) = c := ⟨_, Real.sqrt_nonneg _, rfl⟩
  have ea : f + readout = a ^ 2 := by rw [← ha, Real.sq_sqrt hf]
  have ec : g + readout = c ^ 2 := by rw [← hc, Real.sq_sqrt (by linarith)]
  have hac : a ≤ c := by rw [← ha, ← hc]; exact Real.sqrt_le_sqrt (by linarith)
  rw [ha, ea] at dv
  rw [hc, ec] at dw
  rcases le_or_gt 0 (a + z) with hz | hz
  · refine C55_monotone_digitized _ _ _ _ _ dv dw ?_
    unfold scaled
    have : a ^ 2 + z * a ≤ c ^ 2 + z * c := by nlinarith
    gcongr
  · have neg : scaled (2 ^ bits - 1) saturation blackLevel (a ^ 2 + z * a) ≤ 0 := by
      unfold scaled
      refine div_nonpos_of_nonpos_of_nonneg (mul_nonpos_of_nonneg_of_nonpos ht ?_) hs.le
      nlinarith
    obtain ⟨_, d2, _, d4⟩ := dv
    rcases lt_or_eq_of_le neg with n | n
    · rw [d2 n]; exact Nat.zero_le _
    · have := (d4 n.ge (n.le.trans ht)).1
      rw [n] at this
      have : v = 0 := by exact_mod_cast le_antisymm this (Nat.cast_nonneg v)
      rw [this]; exact Nat.zero_le _

/-- C55: with a negative black level this fails: with black level -10 and the random number -4 the signal 0
gives 10 and the signal 4 gives 6. -/
theorem C55_gaussian_not_monotone :
    ∃ (f g z : ℝ), 0 ≤ f ∧ f ≤ g ∧
      ∃ v w, adc f 255 (-10) 8 0 .gaussian z 0 0 = .ok v ∧ adc g 255 (-10) 8 0 .gaussian z 0 0 = .ok w ∧ w < v := by
  refine ⟨0, 4, -4, le_refl _, by norm_num, 10, 6, ?_, ?_, by norm_num⟩
  · unfold adc adcClean
    norm_num [bind, Except.bind]
  · unfold adc adcClean
    have : Real.sqrt 4 = 2 := by
      rw [show (4 : ℝ) = 2 ^ 2 by norm_num]
      exact Real.sqrt_sq (by norm_num)
    norm_num [bind, Except.bind, this]

/-- C55: the fixed conversions `adc_8bit` to `adc_16bit` also stay in the range and are monotone; inside
they scale by `2 ^ bits` instead of the largest value. -/
theorem C55_bit (bits : Nat) (saturation blackLevel : ℝ) (hs : 0 < saturation) :
    (∀ f, adcBit bits f saturation blackLevel ≤ 2 ^ bits - 1) ∧
    (∀ f g, f ≤ g → adcBit bits f saturation blackLevel ≤ adcBit bits g saturation blackLevel) ∧
    (∀ f, blackLevel ≤ f → f < blackLevel + saturation →
      (adcBit bits f saturation blackLevel : ℝ) ≤ scaled (2 ^ bits) saturation blackLevel f ∧
      scaled (2 ^ bits) saturation blackLevel f < adcBit bits f saturation blackLevel + 1) ∧
    (∀ f, f ≤ blackLevel → adcBit bits f saturation blackLevel = 0) ∧
    ∀ f, blackLevel + saturation ≤ f → adcBit bits f saturation blackLevel = 2 ^ bits - 1 := by
  have hp : (0 : ℝ) < 2 ^ bits := by positivity
  have range : ∀ f, adcBit bits f saturation blackLevel ≤ 2 ^ bits - 1 := by
    intro f
    unfold adcBit
    dsimp only
    generalize (if (f - blackLevel) / saturation < 0 then (0 : ℝ) else (f - blackLevel) / saturation) = u
    split
    · rename_i h
      have : u * 2 ^ bits < (2 ^ bits : ℕ) := by
        push_cast
        nlinarith
      rcases Nat.eq_zero_or_pos ⌊u * 2 ^ bits⌋₊ with c | c
      · rw [c]; exact Nat.zero_le _
      · have := (Nat.floor_lt' (by positivity)).mpr this
        omega
    · exact le_refl _
  refine ⟨range, ?_, ?_, ?_, ?_⟩
  · intro f g h
    have h' : (f - blackLevel) / saturation ≤ (g - blackLevel) / saturation := by gcongr
    by_cases c : (if (g - blackLevel) / saturation < 0 then (0 : ℝ) else (g - blackLevel) / saturation) < 1
    · have m : (if (f - blackLevel) / saturation < 0 then (0 : ℝ) else (f - blackLevel) / saturation) ≤
          (if (g - blackLevel) / saturation < 0 then (0 : ℝ) else (g - blackLevel) / saturation) := by
        split <;> split <;> linarith
      unfold adcBit
      dsimp only
      rw [if_pos c, if_pos (m.trans_lt c)]
      exact Nat.floor_le_floor (by gcongr)
    · have : adcBit bits g saturation blackLevel = 2 ^ bits - 1 := by
        unfold adcBit
        dsimp only
        rw [if_neg c]
      rw [this]
      exact range f
  · intro f h1 h2
    have u0 : 0 ≤ (f - blackLevel) / saturation := div_nonneg (by linarith) hs.le
    have u1 : (f - blackLevel) / saturation < 1 := by rw [div_lt_one hs]; linarith
    have e : adcBit bits f saturation blackLevel = ⌊scaled (2 ^ bits) saturation blackLevel f⌋₊ := by
      unfold adcBit
      dsimp only
      rw [if_neg (not_lt.mpr u0), if_pos u1, ← scaled_eq]
      push_cast
      rfl
    rw [e]
    refine ⟨Nat.floor_le ?_, Nat.lt_floor_add_one _⟩
    rw [← scaled_eq]
    positivity
  · intro f h
    have : (f - blackLevel) / saturation ≤ 0 := div_nonpos_of_nonpos_of_nonneg (by linarith) hs.le
    have e : (if (f - blackLevel) / saturation < 0 then (0 : ℝ) else (f - blackLevel) / saturation) = 0 := by
      split
      · rfl
      · linarith
    unfold adcBit
    dsimp only
    rw [e]
    simp
  · intro f h
    have : 1 ≤ (f - blackLevel) / saturation := by rw [le_div_iff₀ hs]; linarith
    unfold adcBit
    dsimp only
    rw [if_neg (show ¬ (f - blackLevel) / saturation < 0 by linarith), if_neg (by linarith)]

/-- The hypotheses can be met: half of the saturation level in 8 bits is 127. -/
example : adcClean 16384 32768 0 (2 ^ 8 - 1) = 127 := by
  unfold adcClean
  norm_num
  rw [Nat.floor_eq_iff (by norm_num)]
  norm_num

example : adcBit 8 16384 32768 0 = 128 := by
  unfold adcBit
  norm_num

end Cddm
