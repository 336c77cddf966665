import Verif.Lemmas.Crop

/-!
# C50: cropping an FFT

False of the code for a cutoff 0 on an axis of signed frequencies: the slice `[-0:]` is the whole axis,
and the shapes do not agree.  True for all other cutoffs, and for data with one row (column).
-/

namespace Cddm
open Spec
variable {α : Type}

theorem determineKimax_ok {n : Nat} {kmax : Option Int} {K N : Nat} (h : SignedCut n kmax K N) :
    determineKimax n kmax = some ((K : Int), (N : Int)) := by
  unfold determineKimax
  rcases h with ⟨rfl, h1, h2⟩ | ⟨rfl, h1, h2⟩
  · simp only [h1, h2]
  · simp only
    rw [if_neg (by omega)]
    congr 2
    omega

theorem determineKjmax_ok {n : Nat} {kmax : Option Int} {K N : Nat} (h : HalfCut n kmax K N) :
    determineKjmax n kmax = some ((K : Int), (N : Int)) := by
  unfold determineKjmax
  rcases h with ⟨rfl, h1, h2⟩ | ⟨rfl, h1, h2⟩
  · simp only
    congr 2 <;> omega
  · simp only
    rw [if_neg (by omega)]
    congr 2
    omega

theorem determineCutoff_half {h w ki kj H W : Nat} {kimax kjmax : Option Int}
    (h1 : SignedCut h kimax ki H) (h2 : HalfCut w kjmax kj W) :
    determineCutoff h w kimax kjmax true = .ok (H, W, (ki : Int) + 1, (kj : Int) + 1) := by
  unfold determineCutoff
  rw [determineKimax_ok h1, if_pos rfl, determineKjmax_ok h2]
  simp only
  rw [if_neg (by omega)]
  simp

theorem determineCutoff_full {h w ki kj H W : Nat} {kimax kjmax : Option Int}
    (h1 : SignedCut h kimax ki H) (h2 : SignedCut w kjmax kj W) :
    determineCutoff h w kimax kjmax false = .ok (H, W, (ki : Int) + 1, (kj : Int) + 1) := by
  unfold determineCutoff
  rw [determineKimax_ok h1, if_neg (by simp), determineKimax_ok h2]
  simp only
  rw [if_neg (by omega)]
  simp

/-- Every kept wave vector has its value, and every cell is that of a kept wave vector. -/
theorem C50_rfft2_crop_partial (junk : Nat → Nat → α) (x : Arr2 α) (kimax kjmax : Option Int)
    (ki kj H W : Nat) (hh : 1 ≤ x.h) (hi : SignedCut x.h kimax ki H)
    (hj : HalfCut x.w kjmax kj W) (hz : kimax = some 0 → x.h = 1) :
    ∃ r, rfft2Crop junk x kimax kjmax = .ok r ∧ r.h = H ∧ r.w = W ∧
      (∀ (a : Int) (j : Nat), |a| ≤ (ki : Int) → j ≤ kj →
        r.get (wrap H a) j = x.get (wrap x.h a) j) ∧
      (∀ i j : Nat, i < H → j < W → j ≤ kj ∧ ∃ a : Int, |a| ≤ (ki : Int) ∧ i = wrap H a) := by
  obtain ⟨s, s', m, C⟩ := cropAxis hi hh hz
  have hall : ∀ i j : Nat, i < H → j < W → j ≤ kj ∧ ∃ a : Int, |a| ≤ (ki : Int) ∧ i = wrap H a :=
    fun i j h1 h2 => ⟨by rcases hj with ⟨-, h3, h4⟩ | ⟨-, h3, h4⟩ <;> omega, C.all h1⟩
  by_cases hnone : kimax = none ∧ kjmax = none
  · unfold rfft2Crop
    rw [if_pos hnone]
    obtain ⟨rfl, rfl⟩ := hnone
    have hH : H = x.h := by rcases hi with ⟨-, -, h1⟩ | ⟨h1, -⟩; exacts [h1, by cases h1]
    have hW : W = x.w := by rcases hj with ⟨-, -, h1⟩ | ⟨h1, -⟩; exacts [h1, by cases h1]
    exact ⟨x, rfl, hH.symm, hW.symm, fun a j _ _ => by rw [hH], hall⟩
  · have hWk : W = kj + 1 ∧ kj + 1 ≤ x.w := by
      rcases hj with ⟨-, h1, h2⟩ | ⟨-, h1, h2⟩ <;> omega
    obtain ⟨rfl, hw⟩ := hWk
    have hcol := sliceUp_to x.w (kj + 1) hw
    push_cast at hcol
    have hm := C.stop_out
    have hm' := C.stop_in
    unfold rfft2Crop
    rw [if_neg hnone, determineCutoff_half hi hj]
    simp only [bind, Except.bind]
    rw [C.head_out, C.head_in, hcol, range_eq_range',
      assign2_block _ _ _ _ _ _ (take2_h ..) (take2_w ..)]
    simp only
    rw [C.tail_out, C.tail_in, assign2_block _ _ _ _ _ _ (take2_h ..) (take2_w ..)]
    refine ⟨_, rfl, rfl, rfl, ?_, hall⟩
    intro a j ha hjk
    obtain ⟨c1, c2, c3⟩ := C.source ha
    simp only
    rw [← c1]
    by_cases hs : s ≤ wrap H a
    · rw [if_pos (by omega), if_pos hs, take2_get _ (by omega) (by omega)]
      simp
    · rw [if_neg (by omega), if_neg hs, if_pos (by omega), take2_get _ (by omega) (by omega)]
      simp

theorem C50_fft2_crop_partial (junk : Nat → Nat → α) (x : Arr2 α) (kimax kjmax : Option Int)
    (ki kj H W : Nat) (hh : 1 ≤ x.h) (hw : 1 ≤ x.w) (hi : SignedCut x.h kimax ki H)
    (hj : SignedCut x.w kjmax kj W) (hzi : kimax = some 0 → x.h = 1)
    (hzj : kjmax = some 0 → x.w = 1) :
    ∃ r, fft2Crop junk x kimax kjmax = .ok r ∧ r.h = H ∧ r.w = W ∧
      (∀ a b : Int, |a| ≤ (ki : Int) → |b| ≤ (kj : Int) →
        r.get (wrap H a) (wrap W b) = x.get (wrap x.h a) (wrap x.w b)) ∧
      (∀ i j : Nat, i < H → j < W →
        ∃ a b : Int, |a| ≤ (ki : Int) ∧ |b| ≤ (kj : Int) ∧ i = wrap H a ∧ j = wrap W b) := by
  obtain ⟨s, s', m, C⟩ := cropAxis hi hh hzi
  obtain ⟨u, u', n, D⟩ := cropAxis hj hw hzj
  have hall : ∀ i j : Nat, i < H → j < W →
      ∃ a b : Int, |a| ≤ (ki : Int) ∧ |b| ≤ (kj : Int) ∧ i = wrap H a ∧ j = wrap W b := by
    intro i j h1 h2
    obtain ⟨a, a1, a2⟩ := C.all h1
    obtain ⟨b, b1, b2⟩ := D.all h2
    exact ⟨a, b, a1, b1, a2, b2⟩
  by_cases hnone : kimax = none ∧ kjmax = none
  · unfold fft2Crop
    rw [if_pos hnone]
    obtain ⟨rfl, rfl⟩ := hnone
    have hH : H = x.h := by rcases hi with ⟨-, -, h1⟩ | ⟨h1, -⟩; exacts [h1, by cases h1]
    have hW : W = x.w := by rcases hj with ⟨-, -, h1⟩ | ⟨h1, -⟩; exacts [h1, by cases h1]
    exact ⟨x, rfl, hH.symm, hW.symm, fun a j _ _ => by rw [hH, hW], hall⟩
  · have c1 := C.stop_out
    have c2 := C.stop_in
    have d1 := D.stop_out
    have d2 := D.stop_in
    unfold fft2Crop
    rw [if_neg hnone, determineCutoff_full hi hj]
    simp only [bind, Except.bind]
    rw [C.head_out, C.head_in, D.head_out, D.head_in,
      assign2_block _ _ _ _ _ _ (take2_h ..) (take2_w ..)]
    simp only
    rw [C.tail_out, C.tail_in, assign2_block _ _ _ _ _ _ (take2_h ..) (take2_w ..)]
    simp only
    rw [D.tail_out, D.tail_in, assign2_block _ _ _ _ _ _ (take2_h ..) (take2_w ..)]
    simp only
    rw [assign2_block _ _ _ _ _ _ (take2_h ..) (take2_w ..)]
    refine ⟨_, rfl, rfl, rfl, ?_, hall⟩
    intro a b ha hb
    obtain ⟨p1, p2, p3⟩ := C.source ha
    obtain ⟨q1, q2, q3⟩ := D.source hb
    simp only
    rw [← p1, ← q1]
    by_cases hs : s ≤ wrap H a <;> by_cases hu : u ≤ wrap W b
    · rw [if_pos (by omega), if_pos hs, if_pos hu, take2_get _ (by omega) (by omega)]
    · rw [if_neg (by omega), if_neg (by omega), if_pos (by omega), if_pos hs, if_neg hu,
        take2_get _ (by omega) (by omega)]
      simp
    · rw [if_neg (by omega), if_pos (by omega), if_neg hs, if_pos hu,
        take2_get _ (by omega) (by omega)]
      simp
    · rw [if_neg (by omega), if_neg (by omega), if_neg (by omega), if_pos (by omega), if_neg hs,
        if_neg hu, take2_get _ (by omega) (by omega)]
      simp

/-- Cutoff 0 of the rows: an error, though the frequency 0 is there. -/
theorem C50_rfft2_crop_zero_false (junk : Nat → Nat → α) (x : Arr2 α) (kjmax : Option Int)
    (kj W : Nat) (hh : 2 ≤ x.h) (hj : HalfCut x.w kjmax kj W) :
    rfft2Crop junk x (some 0) kjmax = .error .valueError := by
  have hi : SignedCut x.h (some 0) 0 1 := .inr ⟨rfl, by omega, rfl⟩
  have hWk : W = kj + 1 ∧ kj + 1 ≤ x.w := by
    rcases hj with ⟨-, h1, h2⟩ | ⟨-, h1, h2⟩ <;> omega
  obtain ⟨rfl, hw⟩ := hWk
  have hcol := sliceUp_to x.w (kj + 1) hw
  push_cast at hcol
  have h1 := sliceUp_to 1 1 le_rfl
  have h2 := sliceUp_to x.h 1 (by omega)
  unfold rfft2Crop
  rw [if_neg (by simp), determineCutoff_half hi hj]
  simp only [bind, Except.bind]
  rw [show ((0 : Nat) : Int) + 1 = ((1 : Nat) : Int) from rfl, h1, h2, hcol, range_eq_range',
    assign2_block _ _ _ _ _ _ (take2_h ..) (take2_w ..)]
  simp only
  rw [show -((1 : Nat) : Int) + 1 = 0 from rfl, sliceUp_all, sliceUp_all]
  unfold assign2
  rw [if_neg]
  rw [take2_h, take2_w, List.length_range']
  omega

theorem C50_fft2_crop_zero_false (junk : Nat → Nat → α) (x : Arr2 α) (kjmax : Option Int)
    (kj W : Nat) (hh : 2 ≤ x.h) (hw : 1 ≤ x.w) (hj : SignedCut x.w kjmax kj W) :
    fft2Crop junk x (some 0) kjmax = .error .valueError := by
  have hi : SignedCut x.h (some 0) 0 1 := .inr ⟨rfl, by omega, rfl⟩
  have h1 := sliceUp_to 1 1 le_rfl
  have h2 := sliceUp_to x.h 1 (by omega)
  have hk : kj + 1 ≤ x.w ∧ kj + 1 ≤ W := by
    rcases hj with ⟨-, h1, h2⟩ | ⟨-, h1, h2⟩ <;> omega
  have h3 := sliceUp_to x.w (kj + 1) hk.1
  have h4 := sliceUp_to W (kj + 1) hk.2
  push_cast at h3 h4
  unfold fft2Crop
  rw [if_neg (by simp), determineCutoff_full hi hj]
  simp only [bind, Except.bind]
  rw [show ((0 : Nat) : Int) + 1 = ((1 : Nat) : Int) from rfl, h1, h2, h3, h4,
    assign2_block _ _ _ _ _ _ (take2_h ..) (take2_w ..)]
  simp only
  rw [show -((1 : Nat) : Int) + 1 = 0 from rfl, sliceUp_all, sliceUp_all]
  unfold assign2
  rw [if_neg]
  rw [take2_h, take2_w, List.length_range']
  omega

/-- Cutoffs larger than the data, and negative row cutoffs, are refused. -/
theorem C50_rfft2_crop_error (junk : Nat → Nat → α) (x : Arr2 α) (kimax kjmax : Option Int)
    (h : (∃ k, kimax = some k ∧ (((x.h / 2 : Nat) : Int) < k ∨ k < 0)) ∨
      (∃ k, kjmax = some k ∧ (x.w : Int) ≤ k)) :
    rfft2Crop junk x kimax kjmax = .error .valueError := by
  have hd : determineCutoff x.h x.w kimax kjmax true = .error .valueError := by
    unfold determineCutoff
    rw [if_pos rfl]
    rcases h with ⟨k, rfl, hk | hk⟩ | ⟨k, rfl, hk⟩
    · rw [show determineKimax x.h (some k) = none by unfold determineKimax; simp only; rw [if_pos (by omega)]]
    · rw [show determineKimax x.h (some k) = some (k, k * 2 + 1) by
        unfold determineKimax; simp only; rw [if_neg (by omega)]]
      cases determineKjmax x.w kjmax with
      | none => rfl
      | some p => simp only; rw [if_pos (by omega)]
    · rw [show determineKjmax x.w (some k) = none by unfold determineKjmax; simp only; rw [if_pos (by omega)]]
      cases determineKimax x.h kimax <;> rfl
  unfold rfft2Crop
  rw [if_neg (by rcases h with ⟨k, rfl, -⟩ | ⟨k, rfl, -⟩ <;> simp), hd]
  rfl

theorem C50_fft2_crop_error (junk : Nat → Nat → α) (x : Arr2 α) (kimax kjmax : Option Int)
    (h : (∃ k, kimax = some k ∧ (((x.h / 2 : Nat) : Int) < k ∨ k < 0)) ∨
      (∃ k, kjmax = some k ∧ (((x.w / 2 : Nat) : Int) < k ∨ k < 0))) :
    fft2Crop junk x kimax kjmax = .error .valueError := by
  have large : ∀ (n : Nat) (k : Int), ((n / 2 : Nat) : Int) < k → determineKimax n (some k) = none :=
    fun n k hk => by unfold determineKimax; simp only; rw [if_pos (by omega)]
  have small : ∀ (n : Nat) (k : Int), k < 0 → determineKimax n (some k) = some (k, k * 2 + 1) :=
    fun n k hk => by unfold determineKimax; simp only; rw [if_neg (by omega)]
  have hd : determineCutoff x.h x.w kimax kjmax false = .error .valueError := by
    unfold determineCutoff
    rw [if_neg (by simp)]
    rcases h with ⟨k, rfl, hk | hk⟩ | ⟨k, rfl, hk | hk⟩
    · rw [large _ _ hk]
    · rw [small _ _ hk]
      cases determineKimax x.w kjmax with
      | none => rfl
      | some p => simp only; rw [if_pos (by omega)]
    · rw [large _ _ hk]
      cases determineKimax x.h kimax <;> rfl
    · rw [small _ _ hk]
      cases determineKimax x.h kimax with
      | none => rfl
      | some p => simp only; rw [if_pos (by omega)]
  unfold fft2Crop
  rw [if_neg (by rcases h with ⟨k, rfl, -⟩ | ⟨k, rfl, -⟩ <;> simp), hd]
  rfl

/-- Non-trivial cases: 512 rows cut at 31; the largest cutoff of an even axis (one row more than the
data: the highest frequency appears with both signs); no cutoff. -/
example : SignedCut 512 (some 31) 31 63 ∧ SignedCut 4 (some 2) 2 5 ∧ SignedCut 5 none 2 5 ∧
    HalfCut 257 (some 31) 31 32 := by
  simp [SignedCut, HalfCut]

end Cddm
