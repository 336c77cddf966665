import Verif.Lemmas.Draw

/-!
# Rendering of particles (C54)
-/

namespace Cddm
open Spec

/-- C54: `draw_psf` of particles in the box, with a psf (half-width `r`, the rounded triple of the
largest sigma) not larger than the image: it adds to every pixel, modulo `2 ^ bits`, exactly the light
of the pixels around the particles that are congruent to it, and never leaves the image. -/
theorem C54_draw_psf (bits : Nat) (im : Arr2 Nat) (particles : List ((ℝ × ℝ) × Nat × ℝ)) (s : ℝ) (r : ℤ)
    (hbox : ∀ p ∈ particles, InBox (im.h, im.w) p.1) (hs : ∀ p ∈ particles, p.2.2 ≤ s)
    (hs' : ∃ p ∈ particles, p.2.2 = s) (hr : Nearest (3 * s) r) (hH : r ≤ im.h) (hW : r ≤ im.w)
    (him : ∀ i j : Nat, i < im.h → j < im.w → im.get i j < 2 ^ bits) :
    ∃ out, drawPsf bits im (particles.map (·.1)) (particles.map (·.2.1)) (particles.map (·.2.2)) = .ok out ∧
      out.h = im.h ∧ out.w = im.w ∧ ∀ i j : Nat, i < im.h → j < im.w →
        out.get i j = (im.get i j +
          (particles.map fun p => lightAt (im.h, im.w) r p.2.1 p.2.2 p.1.1 p.1.2 i j).sum) % 2 ^ bits := by
  obtain ⟨p0, rest, rfl⟩ : ∃ p0 rest, particles = p0 :: rest := by
    obtain ⟨p, hp, _⟩ := hs'
    cases particles with
    | nil => cases hp
    | cons a l => exact ⟨a, l, rfl⟩
  have hsize : pyRound (3 * (rest.map (·.2.2)).foldl max p0.2.2) = r := by
    rw [foldl_max_spec (m := s)]
    · exact Nearest.unique (pyRound_nearest _) hr
    · intro x hx
      rw [← List.map_cons (f := fun p : (ℝ × ℝ) × Nat × ℝ => p.2.2)] at hx
      obtain ⟨p, hp, rfl⟩ := List.mem_map.mp hx
      exact hs p hp
    · obtain ⟨p, hp, rfl⟩ := hs'
      rw [← List.map_cons (f := fun p : (ℝ × ℝ) × Nat × ℝ => p.2.2)]
      exact List.mem_map_of_mem hp
  obtain ⟨out, e, a⟩ := foldlM_adds (bits := bits) (H := im.h) (W := im.w)
    (fun im (p : (ℝ × ℝ) × Nat × ℝ) => drawOnePsf bits r im p.1 p.2.1 p.2.2)
    (fun p => lightAt (im.h, im.w) r p.2.1 p.2.2 p.1.1 p.1.2) (p0 :: rest)
    (fun p hp im' him' => drawOnePsf_adds him' (hbox p hp) _ _ hH hW) im ⟨rfl, rfl, him⟩
  refine ⟨out, ?_, a⟩
  unfold drawPsf
  rw [if_neg (by simp)]
  simp only [List.map_cons, hsize]
  rw [← List.map_cons (f := fun p : (ℝ × ℝ) × Nat × ℝ => p.1),
    ← List.map_cons (f := fun p : (ℝ × ℝ) × Nat × ℝ => p.2.1),
    ← List.map_cons (f := fun p : (ℝ × ℝ) × Nat × ℝ => p.2.2), List.zip_map', List.zip_map', List.foldlM_map, e]
  rfl

/-- C54: every pixel around a particle is one pixel of the image, so the light added to the image is the
sum of the light of the particles, if no pixel overflows. -/
theorem C54_total (bits : Nat) (im out : Arr2 Nat) (particles : List ((ℝ × ℝ) × Nat × ℝ)) (s : ℝ) (r : ℤ)
    (hbox : ∀ p ∈ particles, InBox (im.h, im.w) p.1) (hs : ∀ p ∈ particles, p.2.2 ≤ s)
    (hs' : ∃ p ∈ particles, p.2.2 = s) (hr : Nearest (3 * s) r) (hH : r ≤ im.h) (hW : r ≤ im.w)
    (hov : ∀ i j : Nat, i < im.h → j < im.w → im.get i j +
      (particles.map fun p => lightAt (im.h, im.w) r p.2.1 p.2.2 p.1.1 p.1.2 i j).sum < 2 ^ bits)
    (hout : drawPsf bits im (particles.map (·.1)) (particles.map (·.2.1)) (particles.map (·.2.2)) = .ok out) :
    ∑ i ∈ Finset.range im.h, ∑ j ∈ Finset.range im.w, out.get i j =
      ∑ i ∈ Finset.range im.h, ∑ j ∈ Finset.range im.w, im.get i j +
        (particles.map fun p => totalLight r p.2.1 p.2.2 p.1.1 p.1.2).sum := by
  obtain ⟨out', e, _, _, a⟩ := C54_draw_psf bits im particles s r hbox hs hs' hr hH hW
    (fun i j hi hj => lt_of_le_of_lt (Nat.le_add_right _ _) (hov i j hi hj))
  rw [hout] at e
  cases e
  have H0 : 0 < im.h ∧ 0 < im.w := by
    obtain ⟨p, hp, _⟩ := hs'
    obtain ⟨⟨h1, h2⟩, h3, h4⟩ := hbox p hp
    exact ⟨by exact_mod_cast h1.trans_lt h2, by exact_mod_cast h3.trans_lt h4⟩
  rw [Finset.sum_congr rfl fun i hi => Finset.sum_congr rfl fun j hj => by
    rw [a i j (Finset.mem_range.mp hi) (Finset.mem_range.mp hj),
      Nat.mod_eq_of_lt (hov i j (Finset.mem_range.mp hi) (Finset.mem_range.mp hj))]]
  simp only [Finset.sum_add_distrib]
  congr 1
  clear hout a hov hr hH hW hs hs' hbox
  induction particles with
  | nil => simp
  | cons p l ih =>
    simp only [List.map_cons, List.sum_cons, Finset.sum_add_distrib]
    rw [ih, sum_lightAt H0.1 H0.2]

/-- The full claim would be that the light of a particle is the same everywhere; what holds is that it
only depends on where in its pixel the particle is: shifts by whole pixels do not change the light, and
move its picture, periodically. -/
theorem C54_position_partial (r : ℤ) (light : Nat) (sigma y x : ℝ) (m n : ℤ) :
    totalLight r light sigma (y + m) (x + n) = totalLight r light sigma y x ∧
    ∀ (shape : Nat × Nat) (i j i' j' : Nat), (i' : ℤ) ≡ i + m [ZMOD shape.1] → (j' : ℤ) ≡ j + n [ZMOD shape.2] →
      lightAt shape r light sigma (y + m) (x + n) i' j' = lightAt shape r light sigma y x i j := by
  constructor
  · unfold totalLight
    simp only [Int.floor_add_intCast]
    rw [sum_Icc_shift]
    refine Finset.sum_congr rfl fun a _ => ?_
    rw [sum_Icc_shift]
    exact Finset.sum_congr rfl fun b _ => pixelLight_shift _ _ _ _ _ _ _ _
  · intro shape i j i' j' hi hj
    unfold lightAt
    simp only [Int.floor_add_intCast]
    rw [sum_Icc_shift]
    refine Finset.sum_congr rfl fun a _ => ?_
    rw [sum_Icc_shift]
    refine Finset.sum_congr rfl fun b _ => ?_
    rw [pixelLight_shift]
    refine if_congr (and_congr ?_ ?_) rfl rfl
    · exact ⟨fun h => (h.trans hi).add_right_cancel' m, fun h => (h.add_right m).trans hi.symm⟩
    · exact ⟨fun h => (h.trans hj).add_right_cancel' n, fun h => (h.add_right n).trans hj.symm⟩

/-- An image of zeros. -/
def zeroImage (h w : Nat) : Arr2 Nat := ⟨h, w, fun _ _ => 0⟩

theorem total_centre : totalLight 0 5 (1 / 10) (1 / 2) (1 / 2) = 5 := by
  unfold totalLight pixelLight
  norm_num

theorem total_corner : totalLight 0 5 (1 / 10) 0 0 = 0 := by
  unfold totalLight pixelLight
  have h : (5 : ℝ) * Real.exp (-25) < 1 := by
    rw [Real.exp_neg, mul_inv_lt_iff₀ (Real.exp_pos _)]
    have := Real.add_one_le_exp (25 : ℝ)
    linarith
  norm_num
  exact h

theorem lightAt_le_total {H W : Nat} (r : ℤ) (light : Nat) (sigma y x : ℝ) {i j : Nat} :
    lightAt (H, W) r light sigma y x i j ≤ totalLight r light sigma y x := by
  unfold lightAt totalLight
  refine Finset.sum_le_sum fun a _ => Finset.sum_le_sum fun b _ => ?_
  split
  · exact le_refl _
  · exact Nat.zero_le _

/-- C54: the light does depend on the place in the pixel.  A particle of sigma 0.1 and intensity 5 gives
light 5 in the middle of a pixel and none at its corner. -/
theorem C54_position_refuted :
    ∃ out1 out2, drawPsf 8 (zeroImage 4 4) [(1 / 2, 1 / 2)] [5] [1 / 10] = .ok out1 ∧
      drawPsf 8 (zeroImage 4 4) [(0, 0)] [5] [1 / 10] = .ok out2 ∧
      ∑ i ∈ Finset.range 4, ∑ j ∈ Finset.range 4, out1.get i j = 5 ∧
      ∑ i ∈ Finset.range 4, ∑ j ∈ Finset.range 4, out2.get i j = 0 := by
  have key : ∀ (y x : ℝ) (t : Nat), InBox (4, 4) (y, x) → totalLight 0 5 (1 / 10) y x = t → t < 256 →
      ∃ out, drawPsf 8 (zeroImage 4 4) [(y, x)] [5] [1 / 10] = .ok out ∧
        ∑ i ∈ Finset.range 4, ∑ j ∈ Finset.range 4, out.get i j = t := by
    intro y x t hb ht ht'
    have hr : Nearest (3 * (1 / 10 : ℝ)) 0 := by
      left; norm_num [abs_lt]
    obtain ⟨out, e, _⟩ := C54_draw_psf 8 (zeroImage 4 4) [((y, x), 5, 1 / 10)] (1 / 10) 0
      (by simpa [zeroImage] using hb) (by simp) (by simp) hr (by simp) (by simp) (by intros; simp [zeroImage])
    refine ⟨out, e, ?_⟩
    have := C54_total 8 (zeroImage 4 4) out [((y, x), 5, 1 / 10)] (1 / 10) 0
      (by simpa [zeroImage] using hb) (by simp) (by simp) hr (by simp) (by simp)
      (fun i j _ _ => by
        have := lightAt_le_total (H := 4) (W := 4) 0 5 (1 / 10) y x (i := i) (j := j)
        rw [ht] at this
        simp only [zeroImage, List.map_cons, List.map_nil, List.sum_cons, List.sum_nil]
        omega) e
    rw [← ht]
    simpa [zeroImage] using this
  obtain ⟨o1, e1, s1⟩ := key (1 / 2) (1 / 2) 5 (by norm_num [InBox]) total_centre (by norm_num)
  obtain ⟨o2, e2, s2⟩ := key 0 0 0 (by norm_num [InBox]) total_corner (by norm_num)
  exact ⟨o1, o2, e1, e2, s1, s2⟩

/-- C54: a psf larger than the image does leave it: whatever the image, a particle in the last row is drawn
outside if `r` exceeds the height. -/
theorem C54_too_large (bits : Nat) (im : Arr2 Nat) (x sigma : ℝ) (light : Nat) (r : ℤ) (h0 : 0 < im.h)
    (hr : Nearest (3 * sigma) r) (hH : im.h < r) :
    drawPsf bits im [((im.h : ℝ) - 1, x)] [light] [sigma] = .error .undefined := by
  have e1 : pyRound (3 * sigma) = r := Nearest.unique (pyRound_nearest _) hr
  have e2 : truncInt ((im.h : ℝ) - 1) = (im.h : Int) - 1 := by
    rw [truncInt_of_nonneg (by have : (1 : ℝ) ≤ im.h := by exact_mod_cast h0
                               linarith)]
    rw [show (im.h : ℝ) - 1 = (((im.h : Int) - 1 : Int) : ℝ) by push_cast; rfl, Int.floor_intCast]
  unfold drawPsf
  simp only [List.length_cons, List.length_nil, ne_eq, not_true, or_self, if_false, List.foldl_nil, e1,
    List.zip_cons_cons, List.zip_nil_left, List.foldlM_cons, List.foldlM_nil]
  have : drawOnePsf bits r im ((im.h : ℝ) - 1, x) light sigma = none := by
    unfold drawOnePsf
    dsimp only
    rw [e2]
    refine foldlM_fails _ (fun s => s.h = im.h) (fun s q s' hs hq => ?_) _ ((im.h : Int) - 1 + r, truncInt x)
      ?_ (fun s hs => ?_) im rfl
    · unfold addPixel at hq
      cases a : resolveIdx s.h (wrapOnce s.h q.1) with
      | none => simp [a] at hq
      | some i =>
        cases b : resolveIdx s.w (wrapOnce s.w q.2) with
        | none => simp [b] at hq
        | some j =>
          simp [a, b] at hq
          subst hq
          exact hs
    · refine List.pair_mem_product.mpr ⟨?_, ?_⟩ <;> rw [mem_psfRange] <;> omega
    · have : resolveIdx s.h (wrapOnce s.h ((im.h : Int) - 1 + r)) = none := by
        have : wrapOnce s.h ((im.h : Int) - 1 + r) = r - 1 := by
          unfold wrapOnce
          rw [hs, if_pos (by omega)]
          omega
        rw [this]
        unfold resolveIdx
        rw [hs, if_pos (by omega), if_neg (by omega)]
      dsimp only
      unfold addPixel
      rw [this]
      rfl
  rw [this]
  rfl

/-- C54: arrays of different lengths and no particles are rejected. -/
theorem C54_rejected (bits : Nat) (im : Arr2 Nat) (points : List (ℝ × ℝ)) (intensity : List Nat) (sigma : List ℝ) :
    (points.length ≠ intensity.length ∨ points.length ≠ sigma.length →
      drawPsf bits im points intensity sigma = .error .assertionError) ∧
    drawPsf bits im [] [] [] = .error .valueError := by
  constructor
  · intro h
    unfold drawPsf
    rw [if_pos h]
  · rfl

/-- C54: `draw_points` (no psf) adds the intensity to the pixel that contains the particle. -/
theorem C54_draw_points (bits : Nat) (im : Arr2 Nat) (particles : List ((ℝ × ℝ) × Nat))
    (hbox : ∀ p ∈ particles, InBox (im.h, im.w) p.1)
    (him : ∀ i j : Nat, i < im.h → j < im.w → im.get i j < 2 ^ bits) :
    ∃ out, drawPoints bits im (particles.map (·.1)) (particles.map (·.2)) = .ok out ∧
      out.h = im.h ∧ out.w = im.w ∧ ∀ i j : Nat, i < im.h → j < im.w →
        out.get i j = (im.get i j + (particles.map fun p =>
          if ⌊p.1.1⌋ = (i : ℤ) ∧ ⌊p.1.2⌋ = (j : ℤ) then p.2 else 0).sum) % 2 ^ bits := by
  obtain ⟨out, e, a⟩ := foldlM_adds (bits := bits) (H := im.h) (W := im.w)
    (fun im (p : (ℝ × ℝ) × Nat) => addPixel bits im (truncInt p.1.1) (truncInt p.1.2) p.2)
    (fun p i j => if ⌊p.1.1⌋ = (i : ℤ) ∧ ⌊p.1.2⌋ = (j : ℤ) then p.2 else 0) particles
    (fun p hp im' him' => by
      obtain ⟨⟨y0, y1⟩, x0, x1⟩ := hbox p hp
      dsimp only at y1 x1 ⊢
      have fy0 : 0 ≤ ⌊p.1.1⌋ := Int.floor_nonneg.mpr y0
      have fy1 : ⌊p.1.1⌋ < (im.h : Int) := Int.floor_lt.mpr (by exact_mod_cast y1)
      have fx0 : 0 ≤ ⌊p.1.2⌋ := Int.floor_nonneg.mpr x0
      have fx1 : ⌊p.1.2⌋ < (im.w : Int) := Int.floor_lt.mpr (by exact_mod_cast x1)
      rw [truncInt_of_nonneg y0, truncInt_of_nonneg x0]
      obtain ⟨i, hi⟩ := Int.eq_ofNat_of_zero_le fy0
      obtain ⟨j, hj⟩ := Int.eq_ofNat_of_zero_le fx0
      rw [hi, hj]
      obtain ⟨out, e, a1, a2, a3⟩ := addPixel_adds him' (i := i) (j := j) (by omega) (by omega) p.2
      refine ⟨out, e, a1, a2, fun r c hr hc => ?_⟩
      rw [a3 r c hr hc]
      congr 2
      refine if_congr ?_ rfl rfl
      omega) im ⟨rfl, rfl, him⟩
  refine ⟨out, ?_, a⟩
  unfold drawPoints
  rw [if_neg (by simp), List.zip_map', List.foldlM_map, e]
  rfl

/-- The hypotheses can be met: two particles near the edges of a 16 × 16 image, sigma 3. -/
example : ∃ out, drawPsf 8 (zeroImage 16 16) [(0.3, 15.9), (7, 0)] [5, 8] [3, 2] = .ok out ∧
    out.h = 16 ∧ out.w = 16 := by
  obtain ⟨out, e, h1, h2, _⟩ := C54_draw_psf 8 (zeroImage 16 16) [((0.3, 15.9), 5, 3), ((7, 0), 8, 2)] 3 9
    (by intro p hp
        simp only [List.mem_cons, List.not_mem_nil, or_false] at hp
        rcases hp with rfl | rfl <;> norm_num [InBox, zeroImage])
    (by norm_num) (by norm_num) (by left; norm_num) (by norm_num [zeroImage]) (by norm_num [zeroImage])
    (by intros; simp [zeroImage])
  exact ⟨out, e, h1, h2⟩

end Cddm
