import Verif.Lemmas.Arr2
import Verif.Model.Cx
import Mathlib.Tactic.IntervalCases

/-!
# C49: half-space and full-space FFT data
-/

namespace Cddm
open Spec
variable {α : Type}

/-! ### Shapes -/

/-- The original shape is recovered from the half-space shape. -/
theorem C49_shape (h w : Nat) :
    asFft2Shape (some h) (some (w / 2 + 1)) (some (h, w)) = .ok (h, (w : Int)) := by
  unfold asFft2Shape
  simp only [bind, Except.bind]
  by_cases he : w % 2 = 0
  · rw [if_pos (by push_cast; omega)]
    simp
  · rw [if_neg (by push_cast; omega), if_neg (by push_cast; omega)]
    simp only [gt_iff_lt, lt_self_iff_false, if_false]
    congr 2
    push_cast
    omega

/-- Cropped data: `kj` columns hold the frequencies 0 .. kj-1, so the full space has `2 kj - 1`
columns. -/
theorem C49_shape_cropped (h w ki kj : Nat) (h1 : ki ≤ h) (h2 : 2 * kj ≤ w + 1) :
    asFft2Shape (some ki) (some kj) (some (h, w)) = .ok (ki, 2 * (kj : Int) - 1) := by
  unfold asFft2Shape
  simp only [bind, Except.bind]
  rw [if_neg (by omega), if_neg (by omega), if_neg (by omega)]
  congr 2
  omega

/-- Shapes that cannot come from data of the given shape are refused. -/
theorem C49_shape_error (h w ki kj : Nat) (hbad : h < ki ∨ w / 2 + 1 < kj) :
    asFft2Shape (some ki) (some kj) (some (h, w)) = .error .valueError := by
  unfold asFft2Shape
  simp only [bind, Except.bind]
  by_cases h2 : w / 2 + 1 < kj
  · rw [if_neg (by omega), if_pos (by omega)]
  · have h1 : h < ki := by omega
    by_cases e1 : (kj : Int) * 2 - 1 = w + 1
    · rw [if_pos e1]
      simp [h1]
    · rw [if_neg e1, if_neg (by omega)]
      simp [h1]

/-! ### Full space to half space -/

theorem C49_as_rfft2_data (a : Arr2 α) :
    (asRfft2Data a).h = a.h ∧ (asRfft2Data a).w = min (a.w / 2 + 1) a.w ∧
      ∀ i j : Nat, i < a.h → j ≤ a.w / 2 → j < a.w → (asRfft2Data a).get i j = a.get i j := by
  have hs : sliceUp a.w 0 ((a.w / 2 + 1 : Nat) : Int) = List.range' 0 (min (a.w / 2 + 1) a.w) := by
    rcases Nat.eq_zero_or_pos a.w with h0 | h0
    · rw [h0]; rfl
    · rw [sliceUp_to _ _ (by omega)]
      congr 1
      omega
  unfold asRfft2Data take2
  simp only [hs]
  refine ⟨by simp, by simp, ?_⟩
  intro i j hi hj hj'
  rw [getD_range' _ _ _ (by omega), range_eq_range', getD_range' _ _ _ hi]
  simp

theorem C49_as_rfft2_conj (invalid : α) (a : Arr2 α) (hh : 1 ≤ a.h) (hw : 1 ≤ a.w) :
    ∃ r, asRfft2Conj invalid a = .ok r ∧ r.h = a.h ∧ r.w = a.w / 2 + 1 ∧
      (∀ i j : Nat, i < a.h → 1 ≤ j → j ≤ a.w / 2 →
        r.get i j = a.get (wrap a.h (-(i : Int))) (wrap a.w (-(j : Int)))) ∧
      (∀ i : Nat, r.get i 0 = invalid) := by
  unfold asRfft2Conj
  simp only [bind, Except.bind]
  rw [sliceUp_to _ _ (by omega), List.length_range', sliceDown_rows _ hh,
    show (-1 : Int) = -((1 : Nat) : Int) from rfl,
    sliceDown_neg a.w 1 (a.w / 2 + 1) le_rfl (by omega) (by omega)]
  rw [show (1 : Int) = ((1 : Nat) : Int) from rfl, sliceUp_from _ _ hh,
    sliceUp_from _ _ (by omega : 1 ≤ a.w / 2 + 1)]
  rw [assign2_block _ _ _ _ _ _ (by simp [take2]) (by simp [take2])]
  simp only
  rw [if_neg (by omega), sliceUp_from _ _ (by omega : 1 ≤ a.w / 2 + 1),
    show ([0] : List Nat) = List.range' 0 1 from rfl,
    assign2_block _ _ _ _ _ _ (by simp [take2]) (by simp [take2])]
  refine ⟨_, rfl, rfl, rfl, ?_, ?_⟩
  · intro i j hi hj1 hj2
    unfold take2
    simp only
    rw [wrap_neg hj1 (by omega)]
    rcases Nat.eq_zero_or_pos i with rfl | h0
    · rw [if_pos (by omega), wrap_zero, getD_range' _ _ _ (by omega), getD_down _ _ _ _ (by omega)]
      congr 1
      omega
    · rw [if_neg (by omega), if_pos (by omega), getD_down _ _ _ _ (by omega),
        getD_down _ _ _ _ (by omega), wrap_neg h0 hi.le]
      congr 1 <;> omega
  · intro i
    simp only
    rw [if_neg (by omega), if_neg (by omega)]

/-- No row: an error. -/
theorem C49_as_rfft2_conj_empty (invalid : α) (a : Arr2 α) (hh : a.h = 0) :
    ∃ e, asRfft2Conj invalid a = .error e := by
  unfold asRfft2Conj
  simp only [bind, Except.bind]
  cases assign2 _ _ _ _ with
  | error e => exact ⟨e, rfl⟩
  | ok m => exact ⟨.indexError, by simp [hh]⟩

/-- The half-space mask selects a wave vector if the full-space mask selects it or its opposite (the
column of zero frequency holds both). -/
theorem C49_as_rfft2_mask (a : Arr2 Bool) (hh : 1 ≤ a.h) (hw : 1 ≤ a.w) :
    ∃ r, asRfft2Mask a = .ok r ∧ r.h = a.h ∧ r.w = a.w / 2 + 1 ∧
      (∀ i j : Nat, i < a.h → 1 ≤ j → j ≤ a.w / 2 → (r.get i j = true ↔
        a.get i j = true ∨ a.get (wrap a.h (-(i : Int))) (wrap a.w (-(j : Int))) = true)) ∧
      (∀ i : Nat, i < a.h → r.get i 0 = a.get i 0) := by
  obtain ⟨d1, d2, d3⟩ := C49_as_rfft2_data a
  obtain ⟨c, c1, c2, c3, c4, c5⟩ := C49_as_rfft2_conj false a hh hw
  unfold asRfft2Mask
  simp only [c1, bind, Except.bind]
  refine ⟨_, rfl, d1, by simp only [d2]; omega, ?_, ?_⟩
  · intro i j hi hj1 hj2
    simp only
    rw [d3 i j hi hj2 (by omega), c4 i j hi hj1 hj2, Bool.or_eq_true]
  · intro i hi
    simp only
    rw [d3 i 0 hi (Nat.zero_le _) (by omega), c5, Bool.or_false]

/-! ### Half space to full space -/

/-- What `from_rfft2_data` returns: the columns of non-negative frequency are the data, the others the
conjugate of the opposite wave vector; for even width this holds for the last data column too. -/
theorem C49_from_rfft2_data (conj : α → α) (junk : Nat → Nat → α) (a : Arr2 α)
    (shape : Option (Nat × Nat)) (w : Nat) (hh : 1 ≤ a.h) (hw : 1 ≤ w)
    (hs : asFft2Shape (some a.h) (some a.w) shape = .ok (a.h, (w : Int)))
    (haw : a.w = w / 2 + 1) :
    ∃ r, fromRfft2Data conj junk a shape = .ok r ∧ r.h = a.h ∧ r.w = w ∧
      (∀ i j : Nat, i < a.h → 2 * j < w → r.get i j = a.get i j) ∧
      (∀ i j : Nat, i < a.h → w ≤ 2 * j → j < w → r.get i j
        = conj (a.get (wrap a.h (-(i : Int))) (wrap w (-(j : Int))))) := by
  unfold fromRfft2Data
  simp only [hs, bind, Except.bind]
  rw [if_neg (by omega), Int.toNat_natCast, range_eq_range', sliceUp_to _ _ (by omega),
    assign2_block _ _ _ _ _ _ rfl haw]
  simp only
  rw [sliceDown_rows _ hh, show (-1 : Int) = -((1 : Nat) : Int) from rfl,
    sliceDown_neg a.w 1 (w / 2 + 1) le_rfl (by omega) (by omega),
    show (1 : Int) = ((1 : Nat) : Int) from rfl, sliceUp_from _ _ hh,
    sliceUp_from w ((w + 1) / 2) (by omega),
    assign2_block _ _ _ _ _ _ (by simp [take2]) (by simp [take2]; omega)]
  simp only
  rw [if_neg (by omega), show ([0] : List Nat) = List.range' 0 1 from rfl,
    assign2_block _ _ _ _ _ _ (by simp [take2]) (by simp [take2]; omega)]
  refine ⟨_, rfl, rfl, rfl, ?_, ?_⟩
  · intro i j hi hj
    simp only
    rw [if_neg (by omega), if_neg (by omega), if_pos (by omega)]
    simp
  · intro i j hi hj1 hj2
    unfold take2
    simp only
    rw [wrap_neg (show 0 < j by omega) hj2.le]
    rcases Nat.eq_zero_or_pos i with rfl | h0
    · rw [if_pos (by omega), wrap_zero, getD_range' _ _ _ (by omega), getD_down _ _ _ _ (by omega)]
      congr 2
      omega
    · rw [if_neg (by omega), if_pos (by omega), getD_down _ _ _ _ (by omega),
        getD_down _ _ _ _ (by omega), wrap_neg h0 hi.le]
      congr 2 <;> omega

/-- Round trip: the spectrum of a real image, of even or odd width. -/
theorem C49_round_trip (conj : α → α) (junk : Nat → Nat → α) (f : Arr2 α) (hh : 1 ≤ f.h)
    (hw : 1 ≤ f.w) (hf : Hermitian conj f) :
    ∃ r, fromRfft2Data conj junk (asRfft2Data f) (some (f.h, f.w)) = .ok r ∧ SameArr r f := by
  obtain ⟨d1, d2, d3⟩ := C49_as_rfft2_data f
  have d2' : (asRfft2Data f).w = f.w / 2 + 1 := by omega
  obtain ⟨r, e1, e2, e3, e4, e5⟩ := C49_from_rfft2_data conj junk (asRfft2Data f)
    (some (f.h, f.w)) f.w (by omega) hw (by rw [d1, d2']; exact C49_shape f.h f.w) d2'
  rw [d1] at e2 e4 e5
  refine ⟨r, e1, e2, e3, ?_⟩
  intro i j hi hj
  rw [e2] at hi
  rw [e3] at hj
  by_cases hj2 : 2 * j < f.w
  · rw [e4 i j hi hj2, d3 i j hi (by omega) hj]
  · have hwj : wrap f.w (-(j : Int)) = f.w - j := wrap_neg (by omega) hj.le
    have hwi := wrap_lt hh (-(i : Int))
    rw [e5 i j hi (by omega) hj, d3 _ _ hwi (by omega) (by omega),
      ← hf _ _ hwi (wrap_lt hw _), wrap_wrap hi, wrap_wrap hj]

/-- The other way round: half-space data come back, if conjugation is an involution and, for even
width, the last column (the one frequency that is its own opposite) is that of a real image. -/
theorem C49_round_trip_half (conj : α → α) (junk : Nat → Nat → α) (a : Arr2 α) (h w : Nat)
    (hh : 1 ≤ h) (hw : 1 ≤ w) (ha : a.h = h) (haw : a.w = w / 2 + 1)
    (hlast : w % 2 = 0 → ∀ i : Nat, i < h →
      conj (a.get (wrap h (-(i : Int))) (w / 2)) = a.get i (w / 2)) :
    ∃ r, fromRfft2Data conj junk a (some (h, w)) = .ok r ∧ SameArr (asRfft2Data r) a := by
  subst ha
  obtain ⟨r, e1, e2, e3, e4, e5⟩ := C49_from_rfft2_data conj junk a
    (some (a.h, w)) w hh hw (by rw [haw]; exact C49_shape a.h w) haw
  obtain ⟨d1, d2, d3⟩ := C49_as_rfft2_data r
  refine ⟨r, e1, d1.trans e2, by omega, ?_⟩
  intro i j hi hj
  rw [d3 i j (by omega) (by omega) (by omega)]
  by_cases hj2 : 2 * j < w
  · exact e4 i j (by omega) hj2
  · have hje : j = w / 2 := by omega
    have hev : w % 2 = 0 := by omega
    have hl := hlast hev i (by omega)
    rw [← hje] at hl
    rw [e5 i j (by omega) (by omega) (by omega), wrap_neg (n := w) (i := j) (by omega) (by omega),
      show w - j = j by omega, hl]

/-- Non-trivial case: a 2 by 4 spectrum. -/
def C49_case : Arr2 (Cx Int) where
  h := 2
  w := 4
  get i j := (([[⟨1, 0⟩, ⟨2, 3⟩, ⟨4, 0⟩, ⟨2, -3⟩], [⟨5, 0⟩, ⟨6, 7⟩, ⟨8, 0⟩, ⟨6, -7⟩]] :
    List (List (Cx Int))).getD i []).getD j ⟨0, 0⟩

example : Hermitian Cx.conj C49_case := by
  intro i j hi hj
  have hi : i < 2 := hi
  have hj : j < 4 := hj
  interval_cases i <;> interval_cases j <;> rfl

end Cddm
