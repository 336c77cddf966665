import Verif.Model.Stamp64Fft
import Verif.Lemmas.Stamp64

/-! # 64-bit arithmetic of near time stamps is exact: the FFT functions -/

namespace Cddm
open Spec

theorem near_close {l : List Int} (h : NearStamps l) : CloseStamps l := by
  intro a ha b hb
  have := h a ha b hb
  omega

theorem near_shift {l : List Int} (m : Int) (h : NearStamps l) : NearStamps (l.map (· - m)) := by
  intro a ha b hb
  obtain ⟨x, hx, rfl⟩ := List.mem_map.mp ha
  obtain ⟨y, hy, rfl⟩ := List.mem_map.mp hb
  have := h x hx y hy
  omega

theorem fftSize64_eq {L : Nat} (h : L < 2 ^ 62) : fftSize64 L = .ok (L * 2) := by
  unfold fftSize64
  rw [wrap64_eq (by omega) (by omega), length64_eq (by omega)]
  congr 1

theorem inspectCross_near {N1 N2 : Nat} {t1 t2 : Option (List Int)} {n aoutLen : Option Nat} {full : Bool} {a b : List Int}
    {k : Nat} (h : NearStamps (allStamps t1 ++ allStamps t2))
    (hi : inspectCross N1 N2 t1 t2 n aoutLen full = .ok (some (a, b), k)) : NearStamps (a ++ b) := by
  unfold inspectCross at hi
  by_cases hN : N1 = N2
  swap
  · rcases t1 with _ | t1 <;> rcases t2 with _ | t2 <;> simp [hN, bind, Except.bind] at hi
  rcases t1 with _ | t1 <;> rcases t2 with _ | t2
  · simp only [bind, Except.bind, hN, ne_eq, not_true_eq_false, if_false] at hi
    revert hi
    split <;> intro hi <;> cases hi
  · cases hi
  · cases hi
  simp only [bind, Except.bind, hN, ne_eq, not_true_eq_false, if_false] at hi
  rcases ha : npMin t1 with _ | ma
  · rw [ha] at hi
    revert hi
    split <;> intro hi <;> cases hi
  rcases hb : npMin t2 with _ | mb
  · rw [ha, hb] at hi
    revert hi
    split <;> intro hi <;> cases hi
  rw [ha, hb] at hi
  revert hi
  split <;> intro hi <;> cases hi
  simp only [allStamps, Option.getD_some] at h
  rw [← List.map_append]
  exact near_shift _ h

theorem inspectAuto_near {N : Nat} {t : Option (List Int)} {n aoutLen : Option Nat} {a : List Int}
    {k : Nat} (h : NearStamps (allStamps t)) (hi : inspectAuto N t n aoutLen = .ok (some a, k)) : NearStamps a := by
  unfold inspectAuto at hi
  rcases t with _ | t
  · simp only [bind, Except.bind] at hi
    revert hi
    split <;> intro hi <;> cases hi
  simp only [bind, Except.bind] at hi
  revert hi
  split
  · intro hi; cases hi
  split
  · intro hi; cases hi
  intro hi
  cases hi
  exact near_shift _ h

theorem fullLengthCross_near {N L : Nat} {a b : List Int} (h : NearStamps (a ++ b))
    (hL : fullLengthCross N (some (a, b)) = .ok L) : L < 2 ^ 62 := by
  unfold fullLengthCross at hL
  simp only [bind, Except.bind] at hL
  rcases h1 : npMin a with _ | a1
  · rw [h1] at hL; cases hL
  rcases h2 : npMax a with _ | b1
  · rw [h1, h2] at hL; cases hL
  rcases h3 : npMin b with _ | a2
  · rw [h1, h2, h3] at hL; cases hL
  rcases h4 : npMax b with _ | b2
  · rw [h1, h2, h3, h4] at hL; cases hL
  rw [h1, h2, h3, h4] at hL
  cases hL
  have m1 := npMin_mem h1; have m2 := npMax_mem h2; have m3 := npMin_mem h3; have m4 := npMax_mem h4
  have e1 := h a1 (by simp [m1.1]) b2 (by simp [m4.1])
  have e2 := h a2 (by simp [m3.1]) b1 (by simp [m2.1])
  omega

theorem fullLengthAuto_near {N L : Nat} {a : List Int} (h : NearStamps a)
    (hL : fullLengthAuto N (some a) = .ok L) : L < 2 ^ 62 := by
  unfold fullLengthAuto at hL
  simp only [bind, Except.bind] at hL
  rcases h1 : npMin a with _ | a1
  · rw [h1] at hL; cases hL
  rcases h2 : npMax a with _ | b1
  · rw [h1, h2] at hL; cases hL
  rw [h1, h2] at hL
  cases hL
  have e1 := h a1 (npMin_mem h1).1 b1 (npMax_mem h2).1
  omega

theorem crossCorrFft64_eq (x y : List (Cx ℝ)) (t1 t2 : List Int) {L : Nat} (out : List ℝ) (h : L < 2 ^ 62) :
    crossCorrFft64 x y t1 t2 L out = crossCorrFft x y t1 t2 L out := by
  unfold crossCorrFft64 crossCorrFft
  rw [fftSize64_eq h]
  rfl

theorem crossCorrelateFft64_eq (f1 f2 : List (Cx ℝ)) (t1 t2 : Option (List Int)) (n : Option Nat) (aout : Option (List ℝ))
    (h : NearStamps (allStamps t1 ++ allStamps t2)) :
    crossCorrelateFft64 f1 f2 t1 t2 n aout = crossCorrelateFft f1 f2 t1 t2 n aout := by
  unfold crossCorrelateFft64 crossCorrelateFft
  rw [inspectCross64_eq _ _ _ _ _ _ _ (near_close h)]
  rcases hi : inspectCross f1.length f2.length t1 t2 n (aout.map List.length) false with _ | ⟨t, k⟩
  · simp only [bind, Except.bind]
  rcases t with _ | ⟨a, b⟩
  · simp only [bind, Except.bind, fullLengthCross64, fullLengthCross]
  · have hn := inspectCross_near h hi
    simp only [bind, Except.bind]
    rw [fullLengthCross64_eq _ _ _ (near_close hn)]
    rcases hL : fullLengthCross f1.length (some (a, b)) with _ | L
    · simp only
    have hl := fullLengthCross_near hn hL
    simp only [crossCorrFft64_eq f1 f2 a b _ hl]

theorem crossCorrComplexFft64_eq (x y : List (Cx ℝ)) (t1 t2 : List Int) {L : Nat} (out : List (Cx ℝ)) (h : L < 2 ^ 62) :
    crossCorrComplexFft64 x y t1 t2 L out = crossCorrComplexFft x y t1 t2 L out := by
  unfold crossCorrComplexFft64 crossCorrComplexFft
  rw [fftSize64_eq h]
  rfl

theorem crossCorrelateComplexFft64_eq (f1 f2 : List (Cx ℝ)) (t1 t2 : Option (List Int)) (n : Option Nat) (aout : Option (List (Cx ℝ)))
    (h : NearStamps (allStamps t1 ++ allStamps t2)) :
    crossCorrelateComplexFft64 f1 f2 t1 t2 n aout = crossCorrelateComplexFft f1 f2 t1 t2 n aout := by
  unfold crossCorrelateComplexFft64 crossCorrelateComplexFft
  rw [inspectCross64_eq _ _ _ _ _ _ _ (near_close h)]
  rcases hi : inspectCross f1.length f2.length t1 t2 n (aout.map List.length) true with _ | ⟨t, k⟩
  · simp only [bind, Except.bind]
  rcases t with _ | ⟨a, b⟩
  · simp only [bind, Except.bind, fullLengthCross64, fullLengthCross]
  · have hn := inspectCross_near h hi
    simp only [bind, Except.bind]
    rw [fullLengthCross64_eq _ _ _ (near_close hn)]
    rcases hL : fullLengthCross f1.length (some (a, b)) with _ | L
    · simp only
    have hl := fullLengthCross_near hn hL
    simp only [crossCorrComplexFft64_eq f1 f2 a b _ hl]

theorem autoCorrFft64_eq (x : List (Cx ℝ)) (t : List Int) {L : Nat} (out : List ℝ) (h : L < 2 ^ 62) :
    autoCorrFft64 x t L out = autoCorrFft x t L out := by
  unfold autoCorrFft64 autoCorrFft
  rw [fftSize64_eq h]
  rfl

theorem autoCorrelateFft64_eq (f : List (Cx ℝ)) (t : Option (List Int)) (n : Option Nat) (aout : Option (List ℝ))
    (h : NearStamps (allStamps t)) :
    autoCorrelateFft64 f t n aout = autoCorrelateFft f t n aout := by
  unfold autoCorrelateFft64 autoCorrelateFft
  rw [inspectAuto64_eq _ _ _ _ (near_close h)]
  rcases hi : inspectAuto f.length t n (aout.map List.length) with _ | ⟨t, k⟩
  · simp only [bind, Except.bind]
  rcases t with _ | a
  · simp only [bind, Except.bind, fullLengthAuto64, fullLengthAuto]
  · have hn := inspectAuto_near h hi
    simp only [bind, Except.bind]
    rw [fullLengthAuto64_eq _ _ (near_close hn)]
    rcases hL : fullLengthAuto f.length (some a) with _ | L
    · simp only
    have hl := fullLengthAuto_near hn hL
    simp only [autoCorrFft64_eq f a _ hl]

theorem autoCorrComplexFft64_eq (x : List (Cx ℝ)) (t : List Int) {L : Nat} (out : List (Cx ℝ)) (h : L < 2 ^ 62) :
    autoCorrComplexFft64 x t L out = autoCorrComplexFft x t L out := by
  unfold autoCorrComplexFft64 autoCorrComplexFft
  rw [fftSize64_eq h]
  rfl

theorem autoCorrelateComplexFft64_eq (f : List (Cx ℝ)) (t : Option (List Int)) (n : Option Nat) (aout : Option (List (Cx ℝ)))
    (h : NearStamps (allStamps t)) :
    autoCorrelateComplexFft64 f t n aout = autoCorrelateComplexFft f t n aout := by
  unfold autoCorrelateComplexFft64 autoCorrelateComplexFft
  rw [inspectAuto64_eq _ _ _ _ (near_close h)]
  rcases hi : inspectAuto f.length t n (aout.map List.length) with _ | ⟨t, k⟩
  · simp only [bind, Except.bind]
  rcases t with _ | a
  · simp only [bind, Except.bind, fullLengthAuto64, fullLengthAuto]
  · have hn := inspectAuto_near h hi
    simp only [bind, Except.bind]
    rw [fullLengthAuto64_eq _ _ (near_close hn)]
    rcases hL : fullLengthAuto f.length (some a) with _ | L
    · simp only
    have hl := fullLengthAuto_near hn hL
    simp only [autoCorrComplexFft64_eq f a _ hl]

theorem crossSumFftC64_eq (x : List (Cx ℝ)) (y : List (Cx ℝ)) (t : List Int) {L : Nat} (out : List (Cx ℝ)) (h : L < 2 ^ 62) :
    crossSumFftC64 x y t L out = crossSumFftC x y t L out := by
  unfold crossSumFftC64 crossSumFftC
  rw [fftSize64_eq h]
  rfl

theorem crossSumFftR64_eq (x : List ℝ) (y : List (Cx ℝ)) (t : List Int) {L : Nat} (out : List ℝ) (h : L < 2 ^ 62) :
    crossSumFftR64 x y t L out = crossSumFftR x y t L out := by
  unfold crossSumFftR64 crossSumFftR
  rw [fftSize64_eq h]
  rfl

theorem crossSumComplexFftC64_eq (x : List (Cx ℝ)) (y : List (Cx ℝ)) (t : List Int) {L : Nat} (out : List (Cx ℝ)) (h : L < 2 ^ 62) :
    crossSumComplexFftC64 x y t L out = crossSumComplexFftC x y t L out := by
  unfold crossSumComplexFftC64 crossSumComplexFftC
  rw [fftSize64_eq h]
  rfl

theorem crossSumComplexFftR64_eq (x : List ℝ) (y : List (Cx ℝ)) (t : List Int) {L : Nat} (out : List ℝ) (h : L < 2 ^ 62) :
    crossSumComplexFftR64 x y t L out = crossSumComplexFftR x y t L out := by
  unfold crossSumComplexFftR64 crossSumComplexFftR
  rw [fftSize64_eq h]
  rfl

theorem okBind {α β : Type} (a : α) (f : α → Py β) : ((Except.ok a : Py α) >>= f) = f a := rfl

theorem pyBind_congr {α β : Type} (x : Py α) {f g : α → Py β} (h : ∀ a, f a = g a) : (x >>= f) = (x >>= g) := by
  rw [show f = g from funext h]

theorem errBind {α β : Type} (e : PyErr) (f : α → Py β) : ((Except.error e : Py α) >>= f) = .error e := rfl

theorem crossSumFftApi64_eq {M : Type} [Zero M]
    (kR64 kC64 kR kC : List M → List (Cx ℝ) → List Int → Nat → List M → Py (List M))
    (hR : ∀ x y t L out, L < 2 ^ 62 → kR64 x y t L out = kR x y t L out)
    (hC : ∀ x y t L out, L < 2 ^ 62 → kC64 x y t L out = kC x y t L out)
    (f : List M) (t tOther : Option (List Int)) (n : Option Nat) (complex inv : Bool)
    (aout : Option (List M)) (h : NearStamps (allStamps t ++ allStamps tOther)) :
    crossSumFftApi64 kR64 kC64 f t tOther n complex inv aout = crossSumFftApi kR kC f t tOther n complex inv aout := by
  unfold crossSumFftApi64 crossSumFftApi
  rw [inspectCross64_eq _ _ _ _ _ _ _ (near_close h)]
  rcases hi : inspectCross f.length f.length t tOther n (aout.map List.length) complex with _ | ⟨t', k⟩
  · simp only [bind, Except.bind]
  rcases t' with _ | ⟨a, b⟩
  · simp only [bind, Except.bind, fullLengthCross64, fullLengthCross]
  · have hn := inspectCross_near h hi
    obtain ⟨-, ha, hb⟩ := inspectCross_fit (near_close h) hi
    simp only [okBind]
    rw [fullLengthCross64_eq _ _ _ (near_close hn)]
    rcases hL : fullLengthCross f.length (some (a, b)) with _ | L
    · simp only [errBind]
    have hl := fullLengthCross_near hn hL
    simp only [okBind]
    refine pyBind_congr _ fun out => ?_
    rw [map_neg64_eq a ha, map_neg64_eq b hb, fftSize64_eq hl, okBind]
    simp only [fun x y t out => hR x y t L out hl, fun x y t out => hC x y t L out hl]

theorem autoSumFftApi64_eq {M : Type} [AddCommGroup M] [Module ℝ M]
    (kR64 kR : List M → List (Cx ℝ) → List Int → Nat → List M → Py (List M))
    (hR : ∀ x y t L out, L < 2 ^ 62 → kR64 x y t L out = kR x y t L out)
    (f : List M) (t : Option (List Int)) (n : Option Nat)
    (aout : Option (List M)) (h : NearStamps (allStamps t)) :
    autoSumFftApi64 kR64 f t n aout = autoSumFftApi kR f t n aout := by
  unfold autoSumFftApi64 autoSumFftApi
  rw [inspectAuto64_eq _ _ _ _ (near_close h)]
  rcases hi : inspectAuto f.length t n (aout.map List.length) with _ | ⟨t', k⟩
  · simp only [bind, Except.bind]
  rcases t' with _ | a
  · simp only [bind, Except.bind, fullLengthAuto64, fullLengthAuto]
  · have hn := inspectAuto_near h hi
    simp only [okBind]
    rw [fullLengthAuto64_eq _ _ (near_close hn)]
    rcases hL : fullLengthAuto f.length (some a) with _ | L
    · simp only [errBind]
    have hl := fullLengthAuto_near hn hL
    simp only [okBind]
    refine pyBind_congr _ fun out => ?_
    rw [fftSize64_eq hl, okBind]
    simp only [fun x y t out => hR x y t L out hl]

end Cddm
