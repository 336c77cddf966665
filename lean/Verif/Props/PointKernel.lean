import Verif.Model.PointKernel
import Verif.Lemmas.Fft2

/-!
# C129: the kernel of one wave vector
-/

namespace Cddm
open Spec
open scoped BigOperators

/-- C129: the kernel is the window times the plane wave of the wave vector, which may be given with negative
indices. -/
theorem C129_kernel (window : Arr2 (Cx ℝ)) (ki kj : Int) (hi : -(window.h : Int) ≤ ki ∧ ki < window.h)
    (hj : -(window.w : Int) ≤ kj ∧ kj < window.w) :
    ∃ k, kPointKernel window ki kj = .ok k ∧ k.h = window.h ∧ k.w = window.w ∧
      ∀ p q : Nat, p < window.h → q < window.w →
        k.get p q = window.get p q * planeWave window.h window.w ki kj p q := by
  have h := buildKf_ok window ki kj hi hj
  unfold buildKf at h
  dsimp only at h
  rw [resolveIdx_wrap hi.1 hi.2, resolveIdx_wrap hj.1 hj.2] at h
  dsimp only at h
  refine ⟨⟨window.h, window.w, fun (p q : Nat) => planeWave window.h window.w ki kj p q * window.get p q⟩, ?_, rfl, rfl,
    fun p q _ _ => mul_comm _ _⟩
  · unfold kPointKernel kWindow
    rw [resolveIdx_wrap hi.1 hi.2, resolveIdx_wrap hj.1 hj.2]
    simp only [bind, Except.bind]
    rw [h]

/-- C129: the sum of a frame times the kernel is the Fourier component, at the wave vector, of the frame seen through
the window. -/
theorem C129_component (window frame k : Arr2 (Cx ℝ)) (ki kj : Int) (hh : frame.h = window.h) (hw : frame.w = window.w)
    (hk : kPointKernel window ki kj = .ok k) :
    (∑ p ∈ Finset.range frame.h, ∑ q ∈ Finset.range frame.w, frame.get p q * k.get p q) =
      fourierAt ⟨frame.h, frame.w, fun p q => frame.get p q * window.get p q⟩ ki kj := by
  by_cases hi : -(window.h : Int) ≤ ki ∧ ki < window.h
  · by_cases hj : -(window.w : Int) ≤ kj ∧ kj < window.w
    · obtain ⟨k', e, -, -, hv⟩ := C129_kernel window ki kj hi hj
      rw [e] at hk
      cases hk
      unfold fourierAt
      refine Finset.sum_congr rfl fun p hp => Finset.sum_congr rfl fun q hq => ?_
      rw [hv p q (by rw [← hh]; exact Finset.mem_range.mp hp) (by rw [← hw]; exact Finset.mem_range.mp hq)]
      dsimp only
      rw [hh, hw, mul_assoc]
    · unfold kPointKernel kWindow at hk
      rw [resolveIdx_none (n := window.w) (k := kj) (by omega)] at hk
      cases h : resolveIdx window.h ki <;> rw [h] at hk <;> cases hk
  · unfold kPointKernel kWindow at hk
    rw [resolveIdx_none (n := window.h) (k := ki) (by omega)] at hk
    cases hk

/-- C129: the same as the entry of `fft2` of the frame times the window, at the wave vector counted from the end when
negative. -/
theorem C129_fft2_entry (window frame k y : Arr2 (Cx ℝ)) (ki kj : Int) (hh : frame.h = window.h)
    (hw : frame.w = window.w) (hk : kPointKernel window ki kj = .ok k)
    (hy : npFft2 ⟨frame.h, frame.w, fun p q => frame.get p q * window.get p q⟩ = .ok y) :
    (∑ p ∈ Finset.range frame.h, ∑ q ∈ Finset.range frame.w, frame.get p q * k.get p q) =
      y.get (ki % frame.h).toNat (kj % frame.w).toNat := by
  rw [C129_component window frame k ki kj hh hw hk]
  by_cases h0 : frame.h = 0 ∨ frame.w = 0
  · unfold npFft2 at hy
    rw [if_pos (by exact h0)] at hy
    cases hy
  · push Not at h0
    have h1 : 0 < frame.h := by omega
    have h2 : 0 < frame.w := by omega
    rw [npFft2_ok _ (by exact h1) (by exact h2)] at hy
    cases hy
    dsimp only
    refine fourierAt_mod _ (by exact h1) (by exact h2) ?_ ?_
    · rw [Int.toNat_of_nonneg (Int.emod_nonneg _ (by omega))]
      exact Int.dvd_self_sub_emod
    · rw [Int.toNat_of_nonneg (Int.emod_nonneg _ (by omega))]
      exact Int.dvd_self_sub_emod

/-- C129: a wave vector beyond either end of the window is an IndexError, so for an empty window every one is. -/
theorem C129_error (window : Arr2 (Cx ℝ)) (ki kj : Int)
    (h : ki < -(window.h : Int) ∨ (window.h : Int) ≤ ki ∨ kj < -(window.w : Int) ∨ (window.w : Int) ≤ kj) :
    kPointKernel window ki kj = .error .indexError := by
  unfold kPointKernel kWindow
  by_cases hi : ki < -(window.h : Int) ∨ (window.h : Int) ≤ ki
  · rw [resolveIdx_none hi]; rfl
  · rw [resolveIdx_none (n := window.w) (k := kj) (by omega)]
    cases resolveIdx window.h ki <;> rfl

/-- C129: the kernel of DLS-like imaging is the transform of this one. -/
theorem C129_dls_kernel (window : Arr2 (Cx ℝ)) (ki kj : Int) (hi : -(window.h : Int) ≤ ki ∧ ki < window.h)
    (hj : -(window.w : Int) ≤ kj ∧ kj < window.w) :
    (do let kf ← buildKf window [ki, kj]; buildKernel window kf) =
      (do let k ← kPointKernel window ki kj; npFft2 k) := by
  obtain ⟨k, e, h1, h2, hv⟩ := C129_kernel window ki kj hi hj
  rw [buildKernel_ok window ki kj hi hj, e]
  simp only [bind, Except.bind]
  rw [npFft2_ok k (by omega) (by omega), h1, h2]
  congr 2
  funext i j
  unfold fourierAt kernelImage
  dsimp only
  rw [h1, h2]
  refine Finset.sum_congr rfl fun p hp => Finset.sum_congr rfl fun q hq => ?_
  rw [hv p q (Finset.mem_range.mp hp) (Finset.mem_range.mp hq)]

/-- A window of two rows and four columns, and the wave vector (-1, 3). -/
example : ∃ k, kPointKernel ⟨2, 4, fun i j => ⟨(i : ℝ) + j, 0⟩⟩ (-1) 3 = .ok k ∧
    k.get 1 2 = (⟨((1 : Nat) : ℝ) + ((2 : Nat) : ℝ), 0⟩ : Cx ℝ) * planeWave 2 4 (-1) 3 (1 : Nat) (2 : Nat) := by
  obtain ⟨k, e, -, -, h⟩ := C129_kernel ⟨2, 4, fun i j => ⟨(i : ℝ) + j, 0⟩⟩ (-1) 3 (by simp) (by simp)
  exact ⟨k, e, h 1 2 (by simp) (by simp)⟩

/-- The wave vector (2, 0) is beyond the two rows of that window. -/
example : kPointKernel ⟨2, 4, fun i j => ⟨(i : ℝ) + j, 0⟩⟩ 2 0 = .error .indexError :=
  C129_error _ _ _ (by simp)

end Cddm
