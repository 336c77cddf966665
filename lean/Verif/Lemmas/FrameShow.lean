import Verif.Model.FrameShow
import Verif.Spec.FrameShow
import Verif.Lemmas.Fft2
import Verif.Props.Fft2
import Verif.Props.Rfft2
import Mathlib.Tactic.Linarith
import Mathlib.Tactic.FieldSimp

/-!
# Lemmas about shown images
-/

namespace Cddm
open Spec

theorem foldl_max_ge (l : List ℝ) (a : ℝ) : a ≤ l.foldl max a ∧ (∀ x ∈ l, x ≤ l.foldl max a) ∧
    (l.foldl max a = a ∨ l.foldl max a ∈ l) := by
  induction l generalizing a with
  | nil => simp
  | cons y l ih =>
    rw [List.foldl_cons]
    obtain ⟨h1, h2, h3⟩ := ih (max a y)
    refine ⟨le_trans (le_max_left _ _) h1, ?_, ?_⟩
    · intro x hx
      rcases List.mem_cons.mp hx with rfl | hx
      · exact le_trans (le_max_right _ _) h1
      · exact h2 x hx
    · rcases h3 with h3 | h3
      · rcases max_choice a y with h | h
        · left; rw [h3, h]
        · right; rw [h3, h]; exact List.mem_cons_self
      · right; exact List.mem_cons_of_mem _ h3

theorem frameMax_spec (x : Arr2 ℝ) (hh : 0 < x.h) (hw : 0 < x.w) : IsFrameMax x (frameMax x) := by
  obtain ⟨h1, h2, h3⟩ := foldl_max_ge ((List.range x.h ×ˢ List.range x.w).map fun p => x.get p.1 p.2) (x.get 0 0)
  have hm : ∀ i j, (i, j) ∈ List.range x.h ×ˢ List.range x.w ↔ i < x.h ∧ j < x.w := by
    intro i j
    rw [show ((i, j) ∈ List.range x.h ×ˢ List.range x.w) ↔ _ from List.pair_mem_product, List.mem_range, List.mem_range]
  refine ⟨?_, fun i j hi hj => h2 _ (List.mem_map.mpr ⟨(i, j), (hm i j).mpr ⟨hi, hj⟩, rfl⟩)⟩
  rcases h3 with h3 | h3
  · exact ⟨0, 0, hh, hw, h3.symm⟩
  · obtain ⟨⟨i, j⟩, hp, e⟩ := List.mem_map.mp h3
    exact ⟨i, j, ((hm i j).mp hp).1, ((hm i j).mp hp).2, e⟩

theorem clip01_eq (x : ℝ) : clip01 x = toUnit x := by
  unfold clip01 toUnit
  split_ifs with h1 h2
  · rw [max_eq_right h1.le, min_eq_left zero_le_one]
  · rw [max_eq_left (by linarith), min_eq_right h2.le]
  · rw [max_eq_left (by linarith), min_eq_left (by linarith)]

theorem toUnit_range (x : ℝ) : 0 ≤ toUnit x ∧ toUnit x ≤ 1 := by
  unfold toUnit
  split_ifs with h1 h2
  · exact ⟨le_refl _, zero_le_one⟩
  · exact ⟨zero_le_one, le_refl _⟩
  · exact ⟨by linarith, by linarith⟩

theorem showLevel_eq (mode : String) {c : ℝ} (hc : c ≠ 0) (x : ℝ) : showLevel mode c x = some (greyLevel mode c x) := by
  unfold showLevel greyLevel
  rw [if_neg hc]
  split_ifs
  · rw [clip01_eq]
  · rw [clip01_eq, add_comm, mul_comm c 2]

/-- Where the row of the wave number `a` is shown. -/
theorem fftshift0_get {α : Type} (x : Arr2 α) (hh : 0 < x.h) (a : Int) (b : Nat) :
    (fftshift0 x).get (wrap x.h (a + x.h / 2)) b = x.get (wrap x.h a) b := by
  unfold fftshift0
  dsimp only
  congr 1
  have h1 := wrap_lt hh (a + x.h / 2)
  have h2 := wrap_lt hh a
  have d1 := wrap_dvd' x.h (a + x.h / 2) hh
  have d2 := wrap_dvd' x.h a hh
  have key : (x.h : Int) ∣ ((wrap x.h (a + x.h / 2) + (x.h - x.h / 2)) % x.h : Nat) - (wrap x.h a : Int) := by
    have d3 : (x.h : Int) ∣ ((wrap x.h (a + x.h / 2) + (x.h - x.h / 2)) % x.h : Nat) - ((wrap x.h (a + x.h / 2) + (x.h - x.h / 2) : Nat) : Int) := by
      rw [Int.natCast_emod]
      exact ⟨_, (Int.emod_def _ _ ▸ by ring : _ = (x.h : Int) * (-(((wrap x.h (a + x.h / 2) + (x.h - x.h / 2) : Nat) : Int) / x.h)))⟩
    have d4 : (x.h : Int) ∣ ((wrap x.h (a + x.h / 2) + (x.h - x.h / 2) : Nat) : Int) - (a + x.h) := by
      have e : ((x.h - x.h / 2 : Nat) : Int) = x.h - x.h / 2 := by omega
      push_cast [e]
      have : ((wrap x.h (a + x.h / 2) : Nat) : Int) + ((x.h : Int) - x.h / 2) - (a + x.h) = (wrap x.h (a + x.h / 2) : Nat) - (a + x.h / 2) := by ring
      rw [this]
      exact d1
    generalize ((wrap x.h (a + x.h / 2) + (x.h - x.h / 2)) % x.h : Nat) = X at d3
    generalize ((wrap x.h (a + x.h / 2) + (x.h - x.h / 2) : Nat) : Int) = Y at d3 d4
    have := dvd_sub (dvd_add (dvd_add d3 d4) (dvd_refl (x.h : Int))) d2
    have e : ((X : Int) - Y + (Y - (a + x.h)) + x.h - ((wrap x.h a : Nat) - a)) = X - (wrap x.h a : Nat) := by ring
    rwa [e] at this
  have h3 := Nat.mod_lt (wrap x.h (a + x.h / 2) + (x.h - x.h / 2)) hh
  have h0 := Int.eq_zero_of_abs_lt_dvd key (by rw [abs_lt]; constructor <;> omega)
  omega

/-- The values that `_clip_fft` shows before scaling. -/
theorem clipFft_run (lib : String) (hl : lib ∈ fftLibs) (clip : Option ℝ) (mode : String) (im : Arr2 (Cx ℝ)) (hr : RealFrame im) (hh : 0 < im.h)
    (hw : 0 < im.w) : ∃ v : Arr2 ℝ, v.h = im.h ∧ v.w = im.w / 2 + 1 ∧
      (∀ (a : Int) (b : Nat), b ≤ im.w / 2 → v.get (wrap im.h a) b = shownAt mode im a b) ∧
      clipFft lib clip mode im = .ok (fftshift0 ⟨v.h, v.w, fun i j => showLevel mode (clip.getD (frameMax v)) (v.get i j)⟩) := by
  obtain ⟨s1, s2, s3⟩ := C49_as_rfft2_data (⟨im.h, im.w, fun (i j : Nat) => fourierAt im i j⟩ : Arr2 (Cx ℝ))
  dsimp only at s1 s2 s3
  refine ⟨⟨(asRfft2Data (⟨im.h, im.w, fun (i j : Nat) => fourierAt im i j⟩ : Arr2 (Cx ℝ))).h,
    (asRfft2Data (⟨im.h, im.w, fun (i j : Nat) => fourierAt im i j⟩ : Arr2 (Cx ℝ))).w, fun i j => if i = 0 ∧ j = 0 then 0 else
      shownPart mode ((asRfft2Data (⟨im.h, im.w, fun (i j : Nat) => fourierAt im i j⟩ : Arr2 (Cx ℝ))).get i j)⟩, s1, ?_, ?_, ?_⟩
  · dsimp only
    rw [s2]
    omega
  · intro a b hb
    dsimp only
    unfold shownAt
    have e0 : (wrap im.h a = 0 ∧ b = 0) ↔ ((im.h : Int) ∣ a ∧ b = 0) := by
      have : wrap im.h a = 0 ↔ (im.h : Int) ∣ a := by
        have d := wrap_dvd' im.h a hh
        constructor
        · intro h
          rw [h] at d
          simpa using d
        · intro h
          have h2 := wrap_lt hh a
          have d' : (im.h : Int) ∣ ((wrap im.h a : Nat) : Int) := by
            have := dvd_add d h
            simpa using this
          have := Int.eq_zero_of_abs_lt_dvd d' (by rw [abs_lt]; omega)
          omega
      rw [this]
    simp only [e0]
    by_cases h0 : (im.h : Int) ∣ a ∧ b = 0
    · rw [if_pos h0, if_pos h0]
    · rw [if_neg h0, if_neg h0, s3 _ b (wrap_lt hh a) hb (by omega)]
      have : fourierAt im ((wrap im.h a : Nat) : Int) (b : Int) = fourierAt im a b :=
        fourierAt_mod im hh hw (wrap_dvd' im.h a hh) (by simp)
      rw [this]
      unfold shownPart Cx.abs2
      split_ifs
      · rfl
      · rfl
      · congr 1
        ring
  · unfold clipFft
    rw [npRfft2_real im hr lib hl hh hw]
    rfl

end Cddm
