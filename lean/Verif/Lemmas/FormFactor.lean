import Verif.Model.FormFactor
import Verif.Spec.FormFactor
import Verif.Lemmas.Fft2
import Verif.Props.SimDraw
import Verif.Props.Fft2

/-!
# Lemmas about images of particles and their transforms
-/

namespace Cddm
open Spec

theorem pixelLight_le (light : Nat) (sigma y x : ℝ) (a b : ℤ) : pixelLight light sigma y x a b ≤ light := by
  unfold pixelLight
  refine Nat.floor_le_of_le ?_
  have : Real.exp (-(((a + 1 / 2 - y) ^ 2 + (b + 1 / 2 - x) ^ 2) / (2 * sigma ^ 2))) ≤ 1 := by
    rw [Real.exp_le_one_iff]
    have : 0 ≤ ((a + 1 / 2 - y) ^ 2 + (b + 1 / 2 - x) ^ 2) / (2 * sigma ^ 2) := by positivity
    linarith
  calc (light : ℝ) * _ ≤ light * 1 := mul_le_mul_of_nonneg_left this (by positivity)
    _ = light := mul_one _

theorem eq_of_modEq_near {n : Nat} {c r a a' i : ℤ} (hr : 2 * r + 1 ≤ n) (h1 : c - r ≤ a ∧ a ≤ c + r)
    (h2 : c - r ≤ a' ∧ a' ≤ c + r) (h3 : a ≡ i [ZMOD n]) (h4 : a' ≡ i [ZMOD n]) : a = a' := by
  have hd : (n : ℤ) ∣ a' - a := (h3.trans h4.symm).dvd
  have : a' - a = 0 := Int.eq_zero_of_abs_lt_dvd hd (by rw [abs_lt]; omega)
  omega

/-- A particle smaller than the frame gives no pixel more than its peak intensity. -/
theorem lightAt_le {H W : Nat} {r : ℤ} (hH : 2 * r + 1 ≤ H) (hW : 2 * r + 1 ≤ W) (light : Nat) (sigma y x : ℝ) (i j : Nat) :
    lightAt (H, W) r light sigma y x i j ≤ light := by
  unfold lightAt
  dsimp only
  rw [← Finset.sum_product', ← Finset.sum_filter]
  refine le_trans (Finset.sum_le_card_nsmul _ _ light fun p _ => pixelLight_le _ _ _ _ _ _) ?_
  have : (Finset.filter (fun p : ℤ × ℤ => (p.1 ≡ i [ZMOD H]) ∧ p.2 ≡ j [ZMOD W])
      (Finset.Icc (⌊y⌋ - r) (⌊y⌋ + r) ×ˢ Finset.Icc (⌊x⌋ - r) (⌊x⌋ + r))).card ≤ 1 := by
    rw [Finset.card_le_one]
    rintro ⟨a, b⟩ h ⟨a', b'⟩ h'
    simp only [Finset.mem_filter, Finset.mem_product, Finset.mem_Icc] at h h'
    rw [eq_of_modEq_near hH h.1.1 h'.1.1 h.2.1 h'.2.1, eq_of_modEq_near hW h.1.2 h'.1.2 h.2.2 h'.2.2]
  calc _ ≤ 1 • light := nsmul_le_nsmul_left (Nat.zero_le _) this
    _ = light := one_nsmul _

/-! ### Transforms of shifted images -/

/-- The component of a periodically shifted image. -/
theorem fourierAt_shift {h w : Nat} (hh : 0 < h) (hw : 0 < w) (f g : Nat → Nat → Cx ℝ) (m n : Int)
    (hg : ∀ i j : Nat, i < h → j < w → g i j = f (wrap h ((i : Int) - m)) (wrap w ((j : Int) - n))) (a b : Int) :
    fourierAt ⟨h, w, g⟩ a b = fourierAt ⟨h, w, f⟩ a b * planeWave h w a b m n := by
  unfold fourierAt
  dsimp only
  have e : ∀ p ∈ Finset.range h, ∑ q ∈ Finset.range w, g p q * planeWave h w a b p q =
      (fun p' : Nat => (∑ q ∈ Finset.range w, f p' q * planeWave h w a b p' q) * planeWave h w a b m n) (wrap h ((p : Int) - m)) := by
    intro p hp
    have e2 : ∀ q ∈ Finset.range w, g p q * planeWave h w a b p q =
        (fun q' : Nat => f (wrap h ((p : Int) - m)) q' * planeWave h w a b (wrap h ((p : Int) - m) : Nat) q' * planeWave h w a b m n)
          (wrap w ((q : Int) - n)) := by
      intro q hq
      dsimp only
      rw [hg p q (Finset.mem_range.mp hp) (Finset.mem_range.mp hq), planeWave_wrap h w hh hw, mul_assoc,
        planeWave_comm h w a b (p - m), planeWave_comm h w a b m, ← planeWave_add, planeWave_comm]
      simp
    rw [Finset.sum_congr rfl e2, sum_shift hw n (fun q' : Nat => f (wrap h ((p : Int) - m)) q' *
      planeWave h w a b (wrap h ((p : Int) - m) : Nat) q' * planeWave h w a b m n)]
    dsimp only
    rw [Finset.sum_mul]
  rw [Finset.sum_congr rfl e, sum_shift hh m (fun p' : Nat => (∑ q ∈ Finset.range w, f p' q * planeWave h w a b p' q) *
    planeWave h w a b m n), Finset.sum_mul]

theorem planeWave_norm (h w : Nat) (a b p q : Int) :
    (planeWave h w a b p q).re ^ 2 + (planeWave h w a b p q).im ^ 2 = 1 := by
  unfold planeWave
  dsimp only
  rw [neg_sq]
  exact Real.cos_sq_add_sin_sq _

theorem cx_norm_mul (x y : Cx ℝ) : (x * y).re ^ 2 + (x * y).im ^ 2 = (x.re ^ 2 + x.im ^ 2) * (y.re ^ 2 + y.im ^ 2) := by
  show (x.re * y.re - x.im * y.im) ^ 2 + (x.re * y.im + x.im * y.re) ^ 2 = _
  ring

/-- The light of a particle moved by whole pixels. -/
theorem lightAt_moved {H W : Nat} (hH : 0 < H) (hW : 0 < W) (r : ℤ) (light : Nat) (sigma y x : ℝ) (m n : ℤ) (i j : Nat) :
    lightAt (H, W) r light sigma (y + m) (x + n) i j =
      lightAt (H, W) r light sigma y x (wrap H ((i : Int) - m)) (wrap W ((j : Int) - n)) := by
  refine (C54_position_partial r light sigma y x m n).2 (H, W) _ _ i j ?_ ?_
  · have := (Int.modEq_iff_dvd.mpr (wrap_dvd' H ((i : Int) - m) hH)).add_right m
    rwa [sub_add_cancel] at this
  · have := (Int.modEq_iff_dvd.mpr (wrap_dvd' W ((j : Int) - n) hW)).add_right n
    rwa [sub_add_cancel] at this

theorem fourierAt_moved {H W : Nat} (hH : 0 < H) (hW : 0 < W) (r : ℤ) (light : Nat) (sigma y x : ℝ) (m n : ℤ) (c : ℝ) (a b : Int) :
    fourierAt ⟨H, W, fun i j => ⟨lightAt (H, W) r light sigma (y + m) (x + n) i j * c, 0⟩⟩ a b =
      fourierAt ⟨H, W, fun i j => ⟨lightAt (H, W) r light sigma y x i j * c, 0⟩⟩ a b * planeWave H W a b m n :=
  fourierAt_shift hH hW _ _ m n (fun i j _ _ => by rw [lightAt_moved hH hW]) a b

/-! ### The terms of the form factor -/

/-- The place in the frame where the particle of the mesh point `(i, j)` is drawn. -/
theorem mesh_inBox {H W navg i j : Nat} (hH : 0 < H) (hW : 0 < W) (hi : i < navg) (hj : j < navg) :
    InBox (H, W) ((i * H : ℝ) / navg, (j * W : ℝ) / navg) := by
  have hn : (0 : ℝ) < navg := by
    have : 0 < navg := by omega
    exact_mod_cast this
  have h1 : (i : ℝ) < navg := by exact_mod_cast hi
  have h2 : (j : ℝ) < navg := by exact_mod_cast hj
  have h3 : (0 : ℝ) < H := by exact_mod_cast hH
  have h4 : (0 : ℝ) < W := by exact_mod_cast hW
  refine ⟨⟨by positivity, ?_⟩, by positivity, ?_⟩
  · dsimp only
    rw [div_lt_iff₀ hn]
    nlinarith
  · dsimp only
    rw [div_lt_iff₀ hn]
    nlinarith

theorem formFactorTerm_ok (bits : Nat) (window : Arr2 ℝ) (sigma : ℝ) (light navg i j : Nat) (r : ℤ) (hr : Nearest (3 * sigma) r)
    (hr0 : 0 ≤ r) (hH : 2 * r + 1 ≤ window.h) (hW : 2 * r + 1 ≤ window.w) (hl : light < 2 ^ bits) (hi : i < navg) (hj : j < navg) :
    (∃ o, formFactorTerm bits window sigma light navg "fft2" i j = .ok o ∧ o.h = window.h ∧ o.w = window.w ∧
      ∀ a b : Int, o.get (wrap window.h a) (wrap window.w b) = power (psfSeen window r light sigma (i * window.h / navg) (j * window.w / navg)) a b) ∧
    ∃ o, formFactorTerm bits window sigma light navg "rfft2" i j = .ok o ∧ o.h = window.h ∧ o.w = window.w / 2 + 1 ∧
      ∀ (a : Int) (b : Nat), b ≤ window.w / 2 → o.get (wrap window.h a) b = power (psfSeen window r light sigma (i * window.h / navg) (j * window.w / navg)) a b := by
  have hH0 : 0 < window.h := by omega
  have hW0 : 0 < window.w := by omega
  have hbox := mesh_inBox hH0 hW0 hi hj
  obtain ⟨im, e, e1, e2, e3⟩ := C54_draw_psf bits (zeroImage window.h window.w)
    [((i * window.h / navg, j * window.w / navg), light, sigma)] sigma r
    (by simpa [zeroImage] using hbox) (by simp) (by simp) hr (by simp [zeroImage]; omega) (by simp [zeroImage]; omega)
    (by intros; simp [zeroImage])
  simp only [List.map_cons, List.map_nil, List.sum_cons, List.sum_nil, Nat.add_zero] at e e3
  have e' : drawPsf bits ⟨window.h, window.w, fun _ _ => 0⟩
      [(((i * window.h : Nat) : ℝ) * 1 / navg, ((j * window.w : Nat) : ℝ) * 1 / navg)] [light] [sigma] = .ok im := by
    rw [← e]
    unfold zeroImage
    push_cast
    rw [mul_one, mul_one]
  have hseen : ∀ a b : Int, fourierAt ⟨window.h, window.w, fun p q => ⟨im.get p q * window.get p q, 0⟩⟩ a b =
      fourierAt (psfSeen window r light sigma (i * window.h / navg) (j * window.w / navg)) a b := by
    intro a b
    unfold fourierAt psfSeen
    dsimp only
    refine Finset.sum_congr rfl fun p hp => Finset.sum_congr rfl fun q hq => ?_
    rw [e3 p q (Finset.mem_range.mp hp) (Finset.mem_range.mp hq)]
    have : lightAt (window.h, window.w) r light sigma (i * window.h / navg) (j * window.w / navg) p q < 2 ^ bits :=
      lt_of_le_of_lt (lightAt_le hH hW _ _ _ _ _ _) hl
    simp only [zeroImage, Nat.zero_add]
    rw [Nat.mod_eq_of_lt this]
  have hreal : RealFrame (⟨window.h, window.w, fun p q => ⟨im.get p q * window.get p q, 0⟩⟩ : Arr2 (Cx ℝ)) := fun _ _ _ _ => rfl
  constructor
  · obtain ⟨f, ef, f1, f2, f3⟩ := C75_fft2 ⟨window.h, window.w, fun p q => ⟨im.get p q * window.get p q, 0⟩⟩ hH0 hW0
    refine ⟨⟨f.h, f.w, fun p q => (f.get p q).abs2⟩, ?_, f1, f2, fun a b => ?_⟩
    · unfold formFactorTerm
      rw [e']
      have : formFactorTransform "fft2" ⟨window.h, window.w, fun p q => ⟨im.get p q * window.get p q, 0⟩⟩ = .ok f := by
        unfold formFactorTransform
        rw [if_neg (by decide), if_pos rfl, ef]
      show Except.bind (formFactorTransform "fft2" ⟨window.h, window.w, fun p q => ⟨im.get p q * window.get p q, 0⟩⟩) _ = _
      rw [this]
      rfl
    · have := f3 a b
      dsimp only at this ⊢
      rw [this, hseen]
      unfold power Cx.abs2
      ring
  · have hrf : npRfft2 "numpy" ⟨window.h, window.w, fun p q => ⟨im.get p q * window.get p q, 0⟩⟩ =
        .ok (asRfft2Data ⟨window.h, window.w, fun (p q : Nat) =>
          fourierAt ⟨window.h, window.w, fun p q => ⟨im.get p q * window.get p q, 0⟩⟩ p q⟩) := by
      rw [C75_libraries _ hreal "numpy" "scipy" (by simp [fftLibs]) (by simp [fftLibs])]
      unfold npRfft2
      rw [if_pos rfl, npFft2_ok _ hH0 hW0]
      rfl
    obtain ⟨g1, g2, g3⟩ := C49_as_rfft2_data (⟨window.h, window.w, fun (p q : Nat) =>
          fourierAt ⟨window.h, window.w, fun p q => ⟨im.get p q * window.get p q, 0⟩⟩ p q⟩ : Arr2 (Cx ℝ))
    dsimp only at g1 g2 g3
    refine ⟨⟨_, _, fun p q => ((asRfft2Data (⟨window.h, window.w, fun (p q : Nat) =>
          fourierAt ⟨window.h, window.w, fun p q => ⟨im.get p q * window.get p q, 0⟩⟩ p q⟩ : Arr2 (Cx ℝ))).get p q).abs2⟩, ?_, g1,
            g2.trans (by omega), fun a b hb => ?_⟩
    · unfold formFactorTerm
      rw [e']
      show Except.bind (formFactorTransform "rfft2" ⟨window.h, window.w, fun p q => ⟨im.get p q * window.get p q, 0⟩⟩) _ = _
      have := hrf
      rw [show npRfft2 "numpy" ⟨window.h, window.w, fun p q => ⟨im.get p q * window.get p q, 0⟩⟩ =
        formFactorTransform "rfft2" ⟨window.h, window.w, fun p q => ⟨im.get p q * window.get p q, 0⟩⟩ by
          unfold formFactorTransform; rw [if_pos rfl]] at this
      rw [this]
      rfl
    · dsimp only
      rw [g3 _ b (wrap_lt hH0 a) hb (by omega), fourierAt_mod (⟨window.h, window.w, _⟩ : Arr2 (Cx ℝ)) hH0 hW0 (a' := a) (b' := b) (wrap_dvd' window.h a hH0) (by simp), hseen]
      unfold power Cx.abs2
      ring

end Cddm
