import Verif.Lemmas.RandomVideo
import Verif.Props.Video
import Mathlib.Algebra.Order.Field.Basic
import Mathlib.Tactic.NormNum

/-!
# C131: random videos

`random_video` gives the requested number of multi-frames of the requested shape, each pixel made of its own random number.
-/

namespace Cddm
open Spec

/-- C131: the number of multi-frames, of cameras, the shape, and the pixels: the pixel `p` of camera `c` in multi-frame `i` is made
of the random number `(i * cameras + c) * pixels + p`. -/
theorem C131_video {u : Nat → Rat} (hu : UnitNumbers u) (shape : List Nat) (count : Int) {dtype : PixDtype} {m : Rat} (hm : 0 < m)
    (hs : Stores dtype m) (dual : Bool) :
    ∃ video, randomVideo u (shape.map Int.ofNat) count dtype m (if dual then 1 else 0) = .ok video ∧
      video.length = count.toNat ∧ HasCameras video (if dual then 2 else 1) ∧
      (∀ fs ∈ video, ∀ f ∈ fs, f.shape = shape ∧ f.pixels.length = shape.prod) ∧
      ∀ i < count.toNat, ∀ c < (if dual then 2 else 1), ∀ p < shape.prod,
        ∃ fs f, video[i]? = some fs ∧ fs[c]? = some f ∧
          f.pixels[p]? = some (drawnPixel dtype (u ((i * (if dual then 2 else 1) + c) * shape.prod + p) * m)) := by
  have hn : (if (if dual then (1 : Rat) else 0) = 1 then 2 else 1) = if dual then 2 else 1 := by cases dual <;> simp
  unfold randomVideo
  simp only [hn]
  generalize (if dual then 2 else 1) = cams
  refine ⟨_, randomLoop_ok hu shape hm hs cams count.toNat 0, by simp, ?_, ?_, ?_⟩
  · intro fs hfs
    obtain ⟨i, -, rfl⟩ := List.mem_map.1 hfs
    simp
  · intro fs hfs f hf
    obtain ⟨i, -, rfl⟩ := List.mem_map.1 hfs
    obtain ⟨c, -, rfl⟩ := List.mem_map.1 hf
    simp
  · intro i hi c hc p hp
    refine ⟨(List.range cams).map fun c => ⟨shape, (List.range shape.prod).map fun p =>
        drawnPixel dtype (u (0 + (i * cams + c) * shape.prod + p) * m)⟩,
      ⟨shape, (List.range shape.prod).map fun p => drawnPixel dtype (u (0 + (i * cams + c) * shape.prod + p) * m)⟩, ?_, ?_, ?_⟩
    · simp [hi]
    · simp [hc]
    · simp [hp]

/-- C131: no random number is used for two pixels. -/
theorem C131_own_number {cams size i c p i' c' p' : Nat} (hc : c < cams) (hc' : c' < cams) (hp : p < size) (hp' : p' < size)
    (h : (i * cams + c) * size + p = (i' * cams + c') * size + p') : i = i' ∧ c = c' ∧ p = p' := by
  have h1 : i * cams + c = i' * cams + c' := by
    have := congrArg (· / size) h
    simpa [Nat.mul_comm _ size, Nat.mul_add_div (by omega : 0 < size), Nat.div_eq_of_lt hp, Nat.div_eq_of_lt hp'] using this
  have h2 : i = i' := by
    have := congrArg (· / cams) h1
    simpa [Nat.mul_comm _ cams, Nat.mul_add_div (by omega : 0 < cams), Nat.div_eq_of_lt hc, Nat.div_eq_of_lt hc'] using this
  subst h2
  refine ⟨rfl, by omega, ?_⟩
  rw [h1] at h
  omega

/-- C131: all pixels are at least 0 and below the maximal value. -/
theorem C131_range {u : Nat → Rat} (hu : UnitNumbers u) (shape : List Nat) (count : Int) {dtype : PixDtype} {m : Rat} (hm : 0 < m)
    (hs : Stores dtype m) (dual : Rat) {video : List (List RandFrame)}
    (h : randomVideo u (shape.map Int.ofNat) count dtype m dual = .ok video) :
    ∀ fs ∈ video, ∀ f ∈ fs, ∀ x ∈ f.pixels, 0 ≤ x ∧ x < m := by
  unfold randomVideo at h
  dsimp only at h
  rw [randomLoop_ok hu shape hm hs] at h
  cases h
  intro fs hfs f hf x hx
  obtain ⟨i, -, rfl⟩ := List.mem_map.1 hfs
  obtain ⟨c, -, rfl⟩ := List.mem_map.1 hf
  obtain ⟨p, -, rfl⟩ := List.mem_map.1 hx
  obtain ⟨h0, h1⟩ := unit_scaled hu hm (0 + (i * (if dual = 1 then 2 else 1) + c) * shape.prod + p)
  rcases dtype with _ | bits
  · exact ⟨h0, h1⟩
  · refine ⟨?_, lt_of_le_of_lt (Int.floor_le _) h1⟩
    have := Int.floor_nonneg.2 h0
    simp only [drawnPixel]
    exact_mod_cast this

/-- C131: with a whole number as the maximal value, each of the whole numbers below it is made of the same share `1 / m` of the random
numbers; the maximal value itself never occurs (255 for 8 bits with `max_value = 255`). -/
theorem C131_levels (bits : Nat) {m : Nat} (hm : 0 < m) (x : Rat) (v : Int) :
    drawnPixel (.uint bits) (x * m) = v ↔ (v : Rat) / m ≤ x ∧ x < (v : Rat) / m + 1 / m := by
  have hm' : (0 : Rat) < m := by exact_mod_cast hm
  simp only [drawnPixel, Int.cast_inj]
  rw [Int.floor_eq_iff, div_le_iff₀ hm', ← add_div, lt_div_iff₀ hm']

/-- C131: a size below zero raises ValueError, when the first frame is asked for. -/
theorem C131_negative_size (u : Nat → Rat) {shape : List Int} (h : ∃ n ∈ shape, n < 0) {count : Int} (hc : 0 < count)
    (dtype : PixDtype) (m dual : Rat) : randomVideo u shape count dtype m dual = .error .valueError := by
  obtain ⟨k, hk⟩ : ∃ k, count.toNat = k + 1 := ⟨count.toNat - 1, by omega⟩
  have hany : shape.any (· < 0) = true := by simpa using h
  have hf : randomFrame u shape dtype m 0 = .error .valueError := by
    unfold randomFrame; rw [if_pos hany]
  unfold randomVideo
  by_cases hd : dual = 1 <;> simp [hd, hk, randomLoop, randomMultiFrame, hf, bind, Except.bind]

/-- C131: a count of zero or less gives an empty video. -/
theorem C131_empty (u : Nat → Rat) (shape : List Int) {count : Int} (hc : count ≤ 0) (dtype : PixDtype) (m dual : Rat) :
    randomVideo u shape count dtype m dual = .ok [] := by
  unfold randomVideo
  rw [show count.toNat = 0 by omega]
  rfl

/-- C131: only `dual = True` (or 1) gives two cameras; other true values, such as 2, give one. -/
theorem C131_dual_other (u : Nat → Rat) (shape : List Int) (count : Int) (dtype : PixDtype) (m : Rat) {dual : Rat} (h : dual ≠ 1) :
    randomVideo u shape count dtype m dual = randomVideo u shape count dtype m 0 := by
  unfold randomVideo
  simp [h]

/-- C131 with C59: loading the video gives back all its frames. -/
theorem C131_load {u : Nat → Rat} (hu : UnitNumbers u) (shape : List Nat) (count : Nat) (hc : 0 < count) {dtype : PixDtype} {m : Rat}
    (hm : 0 < m) (hs : Stores dtype m) (dual : Bool) (verbose : Int) :
    ∃ video, randomVideo u (shape.map Int.ofNat) count dtype m (if dual then 1 else 0) = .ok video ∧ video.length = count ∧
      load (fun f g => if f.shape = g.shape then .ok g else .error .valueError) verbose ⟨video, false, true⟩ (some count)
        = .ok (video.map (·.map some)) := by
  obtain ⟨video, e, hl, hC, hsh, -⟩ := C131_video hu shape count hm hs dual
  rw [Int.toNat_natCast] at hl
  refine ⟨video, e, hl, ?_⟩
  have := C59_load (put := fun (f g : RandFrame) => if f.shape = g.shape then .ok g else .error .valueError) verbose ⟨video, false, true⟩
    (C := if dual then 2 else 1) (by cases dual <;> simp) (by intro h; rw [show video = [] from h] at hl; simp at hl; omega) hC
    (by
      intro c f g hf hg
      obtain ⟨fs, hfs, hf⟩ := List.mem_filterMap.1 hf
      obtain ⟨gs, hgs, hg⟩ := List.mem_filterMap.1 hg
      dsimp only; rw [if_pos]
      rw [(hsh fs hfs f (List.mem_of_getElem? hf)).1, (hsh gs hgs g (List.mem_of_getElem? hg)).1])
  rw [← hl]
  exact this

/-- The hypotheses are met: 8-bit frames with `max_value = 255`. -/
example : UnitNumbers (fun k => (k % 7 : Nat) / 7) ∧ Stores (.uint 8) 255 ∧ (0 : Rat) < 255 := by
  refine ⟨fun k => ⟨by positivity, ?_⟩, ?_, by norm_num⟩
  · have : k % 7 < 7 := Nat.mod_lt _ (by norm_num)
    rw [div_lt_one (by norm_num)]
    exact_mod_cast this
  · norm_num [Stores]

/-- A video of two multi-frames of two cameras, 1 × 2 pixels of 8 bits. -/
example : randomVideo (fun k => (k % 7 : Nat) / 7) [1, 2] 2 (.uint 8) 255 1
    = .ok [[⟨[1, 2], [0, 36]⟩, ⟨[1, 2], [72, 109]⟩], [⟨[1, 2], [145, 182]⟩, ⟨[1, 2], [218, 0]⟩]] := by
  decide +kernel

end Cddm
