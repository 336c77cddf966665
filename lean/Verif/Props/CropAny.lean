import Verif.Model.CropAny
import Verif.Props.Crop

/-!
# C50 for arrays with leading axes: the spectra of several frames are cropped at once
-/

namespace Cddm
open Spec
variable {α : Type}

theorem withLeading_get (lead : List Nat) (r : Arr2 (List Nat → α)) (p : List Nat) (i j : Nat) :
    (withLeading lead r).get (p ++ [i, j]) = r.get i j p := by
  simp [withLeading, List.getD_eq_getElem?_getD]

theorem lastTwo_of {x : Tensor α} {lead : List Nat} {h w : Nat} (hs : x.shape = lead ++ [h, w]) :
    (lastTwo x).h = h ∧ (lastTwo x).w = w ∧ x.shape.take (x.shape.length - 2) = lead ∧ ¬ x.shape.length < 2 := by
  rw [hs]
  simp [lastTwo, hs, List.getD_eq_getElem?_getD]

/-- C50 for `rfft2_crop` of arrays of any number of axes: in every frame, every kept wave vector has its value, and every cell is that of a kept
wave vector. -/
theorem C50_rfft2_crop_frames_partial (junk : List Nat → α) (x : Tensor α) (lead : List Nat) (h w : Nat) (hs : x.shape = lead ++ [h, w])
    (kimax kjmax : Option Int) (ki kj H W : Nat) (hh : 1 ≤ h) (hi : SignedCut h kimax ki H)
    (hj : HalfCut w kjmax kj W) (hz : kimax = some 0 → h = 1) :
    ∃ r, rfft2CropAny junk x kimax kjmax = .ok r ∧ r.shape = lead ++ [H, W] ∧
      (∀ (p : List Nat) (a : Int) (j : Nat), |a| ≤ (ki : Int) → j ≤ kj →
        r.get (p ++ [wrap H a, j]) = x.get (p ++ [wrap h a, j])) ∧
      (∀ i j : Nat, i < H → j < W → j ≤ kj ∧ ∃ a : Int, |a| ≤ (ki : Int) ∧ i = wrap H a) := by
  obtain ⟨e1, e2, e3, e4⟩ := lastTwo_of hs
  obtain ⟨r, h1, h2, h3, h4, h5⟩ := C50_rfft2_crop_partial (fun i j p => junk (p ++ [i, j])) (lastTwo x) kimax kjmax ki kj H W
    (by rwa [e1]) (by rwa [e1]) (by rwa [e2]) (by rwa [e1])
  by_cases hn : kimax = none ∧ kjmax = none
  · unfold rfft2CropAny
    rw [if_pos hn]
    unfold rfft2Crop at h1
    rw [if_pos hn] at h1
    cases h1
    refine ⟨x, rfl, by rw [hs, ← h2, ← h3, e1, e2], fun p a j ha hj => ?_, h5⟩
    have := congrFun (h4 a j ha hj) p
    rw [e1] at this
    exact this
  · refine ⟨withLeading lead r, ?_, by simp [withLeading, h2, h3], fun p a j ha hj => ?_, h5⟩
    · unfold rfft2CropAny
      rw [if_neg hn, if_neg e4, h1, e3]
      rfl
    · rw [withLeading_get, h4 a j ha hj, e1]
      rfl

/-- C50 for `fft2_crop` of arrays of any number of axes. -/
theorem C50_fft2_crop_frames_partial (junk : List Nat → α) (x : Tensor α) (lead : List Nat) (h w : Nat) (hs : x.shape = lead ++ [h, w])
    (kimax kjmax : Option Int) (ki kj H W : Nat) (hh : 1 ≤ h) (hw : 1 ≤ w) (hi : SignedCut h kimax ki H)
    (hj : SignedCut w kjmax kj W) (hzi : kimax = some 0 → h = 1) (hzj : kjmax = some 0 → w = 1) :
    ∃ r, fft2CropAny junk x kimax kjmax = .ok r ∧ r.shape = lead ++ [H, W] ∧
      (∀ (p : List Nat) (a b : Int), |a| ≤ (ki : Int) → |b| ≤ (kj : Int) →
        r.get (p ++ [wrap H a, wrap W b]) = x.get (p ++ [wrap h a, wrap w b])) ∧
      (∀ i j : Nat, i < H → j < W →
        ∃ a b : Int, |a| ≤ (ki : Int) ∧ |b| ≤ (kj : Int) ∧ i = wrap H a ∧ j = wrap W b) := by
  obtain ⟨e1, e2, e3, e4⟩ := lastTwo_of hs
  obtain ⟨r, h1, h2, h3, h4, h5⟩ := C50_fft2_crop_partial (fun i j p => junk (p ++ [i, j])) (lastTwo x) kimax kjmax ki kj H W
    (by rwa [e1]) (by rwa [e2]) (by rwa [e1]) (by rwa [e2]) (by rwa [e1]) (by rwa [e2])
  by_cases hn : kimax = none ∧ kjmax = none
  · unfold fft2CropAny
    rw [if_pos hn]
    unfold fft2Crop at h1
    rw [if_pos hn] at h1
    cases h1
    refine ⟨x, rfl, by rw [hs, ← h2, ← h3, e1, e2], fun p a b ha hb => ?_, h5⟩
    have := congrFun (h4 a b ha hb) p
    rw [e1, e2] at this
    exact this
  · refine ⟨withLeading lead r, ?_, by simp [withLeading, h2, h3], fun p a b ha hb => ?_, h5⟩
    · unfold fft2CropAny
      rw [if_neg hn, if_neg e4, h1, e3]
      rfl
    · rw [withLeading_get, h4 a b ha hb, e1, e2]
      rfl

/-- Too large or negative cutoffs raise ValueError for any number of frames; so does the cutoff 0 along an axis of signed frequencies. -/
theorem C50_rfft2_crop_frames_error (junk : List Nat → α) (x : Tensor α) (lead : List Nat) (h w : Nat) (hs : x.shape = lead ++ [h, w])
    (kimax kjmax : Option Int)
    (hk : (∃ k, kimax = some k ∧ (((h / 2 : Nat) : Int) < k ∨ k < 0)) ∨ (∃ k, kjmax = some k ∧ (w : Int) ≤ k)) :
    rfft2CropAny junk x kimax kjmax = .error .valueError := by
  obtain ⟨e1, e2, e3, e4⟩ := lastTwo_of hs
  have h1 := C50_rfft2_crop_error (fun i j p => junk (p ++ [i, j])) (lastTwo x) kimax kjmax (by rwa [e1, e2])
  unfold rfft2CropAny
  rw [if_neg (by rcases hk with ⟨k, rfl, -⟩ | ⟨k, rfl, -⟩ <;> simp), if_neg e4, h1]
  rfl

theorem C50_fft2_crop_frames_error (junk : List Nat → α) (x : Tensor α) (lead : List Nat) (h w : Nat) (hs : x.shape = lead ++ [h, w])
    (kimax kjmax : Option Int)
    (hk : (∃ k, kimax = some k ∧ (((h / 2 : Nat) : Int) < k ∨ k < 0)) ∨ (∃ k, kjmax = some k ∧ (((w / 2 : Nat) : Int) < k ∨ k < 0))) :
    fft2CropAny junk x kimax kjmax = .error .valueError := by
  obtain ⟨e1, e2, e3, e4⟩ := lastTwo_of hs
  have h1 := C50_fft2_crop_error (fun i j p => junk (p ++ [i, j])) (lastTwo x) kimax kjmax (by rwa [e1, e2])
  unfold fft2CropAny
  rw [if_neg (by rcases hk with ⟨k, rfl, -⟩ | ⟨k, rfl, -⟩ <;> simp), if_neg e4, h1]
  rfl

/-- The spectra of a single row cannot be cropped, not even by a cutoff that keeps everything. -/
theorem C50_rfft2_crop_one_axis_false (junk : List Nat → α) (x : Tensor α) (hs : x.shape.length < 2) (kimax kjmax : Option Int)
    (hk : kimax ≠ none ∨ kjmax ≠ none) :
    rfft2CropAny junk x kimax kjmax = .error .indexError ∧ fft2CropAny junk x kimax kjmax = .error .indexError := by
  have hn : ¬ (kimax = none ∧ kjmax = none) := by tauto
  unfold rfft2CropAny fft2CropAny
  rw [if_neg hn, if_neg hn, if_pos hs, if_pos hs]
  exact ⟨rfl, rfl⟩

/-- Seven frames from each of two cameras, 512 rows and 257 columns, cut at 31 and 15: in each frame the wave vector (-3, 7) is in row 60. -/
example (junk x : List Nat → α) :
    ∃ r, rfft2CropAny junk ⟨[7, 2, 512, 257], x⟩ (some 31) (some 15) = .ok r ∧ r.shape = [7, 2, 63, 16] ∧
      ∀ f c, r.get [f, c, 60, 7] = x [f, c, 509, 7] := by
  obtain ⟨r, h1, h2, h3, -⟩ := C50_rfft2_crop_frames_partial junk ⟨[7, 2, 512, 257], x⟩ [7, 2] 512 257 rfl (some 31) (some 15) 31 15 63 16
    (by decide) (.inr ⟨rfl, by decide, rfl⟩) (.inr ⟨rfl, by decide, rfl⟩) (by simp)
  exact ⟨r, h1, h2, fun f c => by
    simpa [wrap] using h3 [f, c] (-3) 7 (by decide) (by decide)⟩

end Cddm
