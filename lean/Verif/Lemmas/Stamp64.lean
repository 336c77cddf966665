import Verif.Model.Stamp64
import Verif.Spec.Stamp64
import Verif.Spec.Api
import Mathlib.Tactic.Linarith

/-! # 64-bit arithmetic of close time stamps is exact -/

namespace Cddm
open Spec

theorem wrap64_eq {x : Int} (h1 : -(2 ^ 63) ≤ x) (h2 : x < 2 ^ 63) : wrap64 x = x := by
  unfold wrap64; omega

theorem wrap64_abs {x : Int} (h : |x| < 2 ^ 63) : wrap64 x = x := by
  rw [abs_lt] at h; exact wrap64_eq h.1.le h.2

theorem abs64_eq {x : Int} (h : |x| < 2 ^ 63) : abs64 x = |x| :=
  wrap64_eq (by have := abs_nonneg x; omega) h

/-- Differences of two lists of stamps fit. -/
def FitDiff (t1 t2 : List Int) : Prop := ∀ a ∈ t1, ∀ b ∈ t2, |b - a| < 2 ^ 63

section kernels
variable {R : Type} [Add R] [Sub R] [Neg R] [Mul R]

theorem forRange_congr {σ : Type} (n : Nat) (s : σ) (f g : σ → Nat → Option σ) (h : ∀ s i, f s i = g s i) :
    forRange n s f = forRange n s g := by
  have : f = g := by funext s i; exact h s i
  rw [this]

theorem forRange'_congr {σ : Type} (a n : Nat) (s : σ) (f g : σ → Nat → Option σ) (h : ∀ s i, f s i = g s i) :
    forRange' a n s f = forRange' a n s g := by
  have : f = g := by funext s i; exact h s i
  rw [this]


theorem crossCorr64_eq (x y : List (Cx R)) (t1 t2 : List Int) (out : List R) (h : FitDiff t1 t2) :
    crossCorr64 x y t1 t2 out = crossCorr x y t1 t2 out := by
  unfold crossCorr64 crossCorr
  refine forRange_congr _ _ _ _ fun out i => forRange_congr _ _ _ _ fun out j => ?_
  rcases hb : t2[j]? with _ | b
  · rfl
  rcases ha : t1[i]? with _ | a
  · rfl
  have hd := h a (List.mem_of_getElem? ha) b (List.mem_of_getElem? hb)
  simp only [Option.bind_eq_bind, Option.bind_some, wrap64_abs hd, abs64_eq hd]

theorem crossCorrComplex64_eq (x y : List (Cx R)) (t1 t2 : List Int) (out : List (Cx R)) (h : FitDiff t1 t2) :
    crossCorrComplex64 x y t1 t2 out = crossCorrComplex x y t1 t2 out := by
  unfold crossCorrComplex64 crossCorrComplex
  refine forRange_congr _ _ _ _ fun out i => forRange_congr _ _ _ _ fun out j => ?_
  rcases hb : t2[j]? with _ | b
  · rfl
  rcases ha : t1[i]? with _ | a
  · rfl
  have hd := h a (List.mem_of_getElem? ha) b (List.mem_of_getElem? hb)
  simp only [Option.bind_eq_bind, Option.bind_some, wrap64_abs hd, abs64_eq hd]

theorem crossDiff64_eq (x y : List (Cx R)) (t1 t2 : List Int) (out : List R) (h : FitDiff t1 t2) :
    crossDiff64 x y t1 t2 out = crossDiff x y t1 t2 out := by
  unfold crossDiff64 crossDiff
  refine forRange_congr _ _ _ _ fun out i => forRange_congr _ _ _ _ fun out j => ?_
  rcases hb : t2[j]? with _ | b
  · rfl
  rcases ha : t1[i]? with _ | a
  · rfl
  have hd := h a (List.mem_of_getElem? ha) b (List.mem_of_getElem? hb)
  simp only [Option.bind_eq_bind, Option.bind_some, wrap64_abs hd, abs64_eq hd]

theorem autoCorr64_eq (f : List (Cx R)) (t : List Int) (out : List R) (h : FitDiff t t) :
    autoCorr64 f t out = autoCorr f t out := by
  unfold autoCorr64 autoCorr
  refine forRange_congr _ _ _ _ fun out i => forRange'_congr _ _ _ _ _ fun out j => ?_
  rcases hb : t[j]? with _ | b
  · rfl
  rcases ha : t[i]? with _ | a
  · rfl
  have hd := h a (List.mem_of_getElem? ha) b (List.mem_of_getElem? hb)
  simp only [Option.bind_eq_bind, Option.bind_some, wrap64_abs hd, abs64_eq hd]

theorem autoCorrComplex64_eq (f : List (Cx R)) (t : List Int) (out : List (Cx R)) (h : FitDiff t t) :
    autoCorrComplex64 f t out = autoCorrComplex f t out := by
  unfold autoCorrComplex64 autoCorrComplex
  refine forRange_congr _ _ _ _ fun out i => forRange'_congr _ _ _ _ _ fun out j => ?_
  rcases hb : t[j]? with _ | b
  · rfl
  rcases ha : t[i]? with _ | a
  · rfl
  have hd := h a (List.mem_of_getElem? ha) b (List.mem_of_getElem? hb)
  simp only [Option.bind_eq_bind, Option.bind_some, wrap64_abs hd, abs64_eq hd]

theorem autoDiff64_eq (f : List (Cx R)) (t : List Int) (out : List R) (h : FitDiff t t) :
    autoDiff64 f t out = autoDiff f t out := by
  unfold autoDiff64 autoDiff
  refine forRange_congr _ _ _ _ fun out i => forRange'_congr _ _ _ _ _ fun out j => ?_
  rcases hb : t[j]? with _ | b
  · rfl
  rcases ha : t[i]? with _ | a
  · rfl
  have hd := h a (List.mem_of_getElem? ha) b (List.mem_of_getElem? hb)
  simp only [Option.bind_eq_bind, Option.bind_some, wrap64_abs hd, abs64_eq hd]

theorem crossSum64_eq {M : Type} [Add M] (f : List M) (t1 t2 : List Int) (out : List M) (h : FitDiff t1 t2) :
    crossSum64 f t1 t2 out = crossSum f t1 t2 out := by
  unfold crossSum64 crossSum
  refine forRange_congr _ _ _ _ fun out i => forRange_congr _ _ _ _ fun out j => ?_
  rcases hb : t2[j]? with _ | b
  · rfl
  rcases ha : t1[i]? with _ | a
  · rfl
  have hd := h a (List.mem_of_getElem? ha) b (List.mem_of_getElem? hb)
  simp only [Option.bind_eq_bind, Option.bind_some, wrap64_abs hd, abs64_eq hd]

theorem crossSumComplex64_eq {M : Type} [Add M] (f : List M) (t1 t2 : List Int) (out : List M) (h : FitDiff t1 t2) :
    crossSumComplex64 f t1 t2 out = crossSumComplex f t1 t2 out := by
  unfold crossSumComplex64 crossSumComplex
  refine forRange_congr _ _ _ _ fun out i => forRange_congr _ _ _ _ fun out j => ?_
  rcases hb : t2[j]? with _ | b
  · rfl
  rcases ha : t1[i]? with _ | a
  · rfl
  have hd := h a (List.mem_of_getElem? ha) b (List.mem_of_getElem? hb)
  simp only [Option.bind_eq_bind, Option.bind_some, wrap64_abs hd, abs64_eq hd]

theorem addCountCross64_eq (t1 t2 : List Int) (out : List Nat) (h : FitDiff t1 t2) :
    addCountCross64 t1 t2 out = addCountCross t1 t2 out := by
  unfold addCountCross64 addCountCross
  refine forRange_congr _ _ _ _ fun out i => forRange_congr _ _ _ _ fun out j => ?_
  rcases hb : t2[j]? with _ | b
  · rfl
  rcases ha : t1[i]? with _ | a
  · rfl
  have hd := h a (List.mem_of_getElem? ha) b (List.mem_of_getElem? hb)
  simp only [Option.bind_eq_bind, Option.bind_some, wrap64_abs hd, abs64_eq hd]

theorem addCountCrossComplex64_eq (t1 t2 : List Int) (out : List Nat) (h : FitDiff t1 t2) :
    addCountCrossComplex64 t1 t2 out = addCountCrossComplex t1 t2 out := by
  unfold addCountCrossComplex64 addCountCrossComplex
  refine forRange_congr _ _ _ _ fun out i => forRange_congr _ _ _ _ fun out j => ?_
  rcases hb : t2[j]? with _ | b
  · rfl
  rcases ha : t1[i]? with _ | a
  · rfl
  have hd := h a (List.mem_of_getElem? ha) b (List.mem_of_getElem? hb)
  simp only [Option.bind_eq_bind, Option.bind_some, wrap64_abs hd, abs64_eq hd]

theorem addCountAuto64_eq (t : List Int) (out : List Nat) (h : FitDiff t t) :
    addCountAuto64 t out = addCountAuto t out := by
  unfold addCountAuto64 addCountAuto
  refine forRange_congr _ _ _ _ fun out i => forRange'_congr _ _ _ _ _ fun out j => ?_
  rcases ha : t[i]? with _ | a
  · rfl
  rcases hb : t[j]? with _ | b
  · rfl
  have hd := h b (List.mem_of_getElem? hb) a (List.mem_of_getElem? ha)
  simp only [Option.bind_eq_bind, Option.bind_some, wrap64_abs hd, abs64_eq hd]

end kernels

/-! ### Arguments -/

theorem npMin_mem {t : List Int} {m : Int} (h : npMin t = .ok m) : m ∈ t ∧ ∀ a ∈ t, m ≤ a := by
  unfold npMin at h
  split at h
  · rename_i m' hm
    cases h
    exact List.min?_eq_some_iff.mp hm
  · cases h

theorem npMax_mem {t : List Int} {m : Int} (h : npMax t = .ok m) : m ∈ t ∧ ∀ a ∈ t, a ≤ m := by
  unfold npMax at h
  split at h
  · rename_i m' hm
    cases h
    exact List.max?_eq_some_iff.mp hm
  · cases h

theorem length64_eq {n : Int} (h : 0 ≤ n) : length64 n = .ok n.toNat := by
  unfold length64; rw [if_neg (by omega)]

theorem fullLengthCross64_eq (N : Nat) (t1 t2 : List Int) (h : CloseStamps (t1 ++ t2)) :
    fullLengthCross64 N (some (t1, t2)) = fullLengthCross N (some (t1, t2)) := by
  unfold fullLengthCross64 fullLengthCross
  simp only
  rcases h1 : npMin t1 with _ | a1
  · rfl
  rcases h2 : npMax t1 with _ | b1
  · rfl
  rcases h3 : npMin t2 with _ | a2
  · rfl
  rcases h4 : npMax t2 with _ | b2
  · rfl
  have m1 := npMin_mem h1; have m2 := npMax_mem h2; have m3 := npMin_mem h3; have m4 := npMax_mem h4
  have e1 := h a1 (by simp [m1.1]) b2 (by simp [m4.1])
  have e2 := h a2 (by simp [m3.1]) b1 (by simp [m2.1])
  have e3 := h b2 (by simp [m4.1]) a1 (by simp [m1.1])
  have e4 := h b1 (by simp [m2.1]) a2 (by simp [m3.1])
  have l1 := m1.2 b1 m2.1
  have l2 := m3.2 b2 m4.1
  simp only [bind, Except.bind]
  rw [wrap64_eq (x := b2 - a1) (by omega) (by omega), wrap64_eq (x := b1 - a2) (by omega) (by omega),
    wrap64_eq (by omega) (by omega), length64_eq (by omega)]

theorem fullLengthAuto64_eq (N : Nat) (t : List Int) (h : CloseStamps t) :
    fullLengthAuto64 N (some t) = fullLengthAuto N (some t) := by
  unfold fullLengthAuto64 fullLengthAuto
  simp only
  rcases h1 : npMin t with _ | a
  · rfl
  rcases h2 : npMax t with _ | b
  · rfl
  have m1 := npMin_mem h1; have m2 := npMax_mem h2
  have e1 := h a m1.1 b m2.1
  have l1 := m1.2 b m2.1
  simp only [bind, Except.bind]
  have e : wrap64 (wrap64 (1 + b) - a) = 1 + b - a := by unfold wrap64; omega
  rw [e, length64_eq (by omega)]

theorem map_wrap64_eq (t : List Int) (m : Int) (h : ∀ a ∈ t, |a - m| < 2 ^ 63) :
    (t.map fun x => wrap64 (x - m)) = t.map (· - m) :=
  List.map_congr_left fun a ha => wrap64_abs (h a ha)

theorem inspectCross64_eq (N1 N2 : Nat) (t1 t2 : Option (List Int)) (n aoutLen : Option Nat) (full : Bool)
    (h : CloseStamps (allStamps t1 ++ allStamps t2)) :
    inspectCross64 N1 N2 t1 t2 n aoutLen full = inspectCross N1 N2 t1 t2 n aoutLen full := by
  unfold inspectCross64 inspectCross
  rcases t1 with _ | a <;> rcases t2 with _ | b <;> try rfl
  simp only [allStamps, Option.getD_some] at h
  simp only [bind, Except.bind]
  by_cases hN : N1 = N2
  · simp only [hN, ne_eq, not_true_eq_false, if_false, fullLengthCross64_eq _ _ _ h]
    rcases ha : npMin a with _ | ma
    · rfl
    rcases hb : npMin b with _ | mb
    · rfl
    have m1 := npMin_mem ha; have m2 := npMin_mem hb
    have hm : min ma mb ∈ a ++ b := by
      rcases min_choice ma mb with e | e <;> rw [e] <;> simp [m1.1, m2.1]
    have hle : ∀ x ∈ a ++ b, |x - min ma mb| < 2 ^ 63 := by
      intro x hx
      have k1 := h _ hm x hx
      have k2 := h x hx _ hm
      rw [abs_lt]; constructor <;> omega
    dsimp only
    rw [map_wrap64_eq a _ fun x hx => hle x (by simp [hx]), map_wrap64_eq b _ fun x hx => hle x (by simp [hx])]
    rcases n with _ | n <;> rcases aoutLen with _ | L <;> rfl
  · simp [hN]

theorem inspectAuto64_eq (N : Nat) (t : Option (List Int)) (n aoutLen : Option Nat) (h : CloseStamps (allStamps t)) :
    inspectAuto64 N t n aoutLen = inspectAuto N t n aoutLen := by
  unfold inspectAuto64 inspectAuto
  rcases t with _ | a
  · rfl
  simp only [allStamps, Option.getD_some] at h
  simp only [bind, Except.bind, fullLengthAuto64_eq _ _ h]
  rcases ha : npMin a with _ | ma
  · rfl
  have m1 := npMin_mem ha
  have hle : ∀ x ∈ a, |x - ma| < 2 ^ 63 := by
    intro x hx
    have k1 := h _ m1.1 x hx
    have k2 := h x hx _ m1.1
    rw [abs_lt]; constructor <;> omega
  dsimp only
  rw [map_wrap64_eq a _ hle]
  rcases n with _ | n <;> rcases aoutLen with _ | L <;> rfl

theorem fit_arange (N : Nat) (hN : N ≤ 2 ^ 63) : FitDiff (arange N) (arange N) := by
  intro a ha b hb
  simp only [arange, List.mem_map, List.mem_range] at ha hb
  obtain ⟨i, hi, rfl⟩ := ha
  obtain ⟨j, hj, rfl⟩ := hb
  rw [abs_lt]
  simp only [Int.ofNat_eq_natCast]
  omega

theorem fit_shift {t1 t2 : List Int} (m : Int) (h : CloseStamps (t1 ++ t2)) : FitDiff (t1.map (· - m)) (t2.map (· - m)) := by
  intro a ha b hb
  obtain ⟨x, hx, rfl⟩ := List.mem_map.mp ha
  obtain ⟨y, hy, rfl⟩ := List.mem_map.mp hb
  have k1 := h x (by simp [hx]) y (by simp [hy])
  have k2 := h y (by simp [hy]) x (by simp [hx])
  rw [abs_lt]; constructor <;> omega

/-- What the inspection of the arguments returns has stamps that fit. -/
theorem inspectCross_fit {N1 N2 : Nat} {t1 t2 : Option (List Int)} {n aoutLen : Option Nat} {full : Bool} {a b : List Int}
    {k : Nat} (h : CloseStamps (allStamps t1 ++ allStamps t2))
    (hi : inspectCross N1 N2 t1 t2 n aoutLen full = .ok (some (a, b), k)) :
    FitDiff a b ∧ (∀ x ∈ a, |x| < 2 ^ 63) ∧ (∀ x ∈ b, |x| < 2 ^ 63) := by
  unfold inspectCross at hi
  by_cases hN : N1 = N2
  swap
  · rcases t1 with _ | t1 <;> rcases t2 with _ | t2 <;> simp [hN, bind, Except.bind] at hi
  rcases t1 with _ | t1 <;> rcases t2 with _ | t2
  · simp only [bind, Except.bind, hN, ne_eq, not_true_eq_false, if_false] at hi
    revert hi
    split <;> intro hi <;> cases hi
  · cases hi
  · cases hi
  simp only [bind, Except.bind, hN, ne_eq, not_true_eq_false, if_false] at hi
  rcases ha : npMin t1 with _ | ma
  · rw [ha] at hi
    revert hi
    split <;> intro hi <;> cases hi
  rcases hb : npMin t2 with _ | mb
  · rw [ha, hb] at hi
    revert hi
    split <;> intro hi <;> cases hi
  rw [ha, hb] at hi
  revert hi
  split <;> intro hi <;> cases hi
  simp only [allStamps, Option.getD_some] at h
  have m1 := npMin_mem ha; have m2 := npMin_mem hb
  have hm : min ma mb ∈ t1 ++ t2 := by
    rcases min_choice ma mb with e | e <;> rw [e] <;> simp [m1.1, m2.1]
  have hle : ∀ x ∈ t1 ++ t2, |x - min ma mb| < 2 ^ 63 := by
    intro x hx
    have k1 := h _ hm x hx
    have k2 := h x hx _ hm
    rw [abs_lt]; constructor <;> omega
  refine ⟨fit_shift _ h, ?_, ?_⟩ <;> intro x hx <;> obtain ⟨y, hy, rfl⟩ := List.mem_map.mp hx <;>
    exact hle y (by simp [hy])

theorem inspectAuto_fit {N : Nat} {t : Option (List Int)} {n aoutLen : Option Nat} {a : List Int}
    {k : Nat} (h : CloseStamps (allStamps t)) (hi : inspectAuto N t n aoutLen = .ok (some a, k)) : FitDiff a a := by
  unfold inspectAuto at hi
  rcases t with _ | t
  · simp only [bind, Except.bind] at hi
    revert hi
    split <;> intro hi <;> cases hi
  simp only [bind, Except.bind] at hi
  revert hi
  split
  · intro hi; cases hi
  split
  · intro hi; cases hi
  intro hi
  cases hi
  refine fit_shift _ ?_
  intro x hx y hy
  simp only [List.mem_append, or_self] at hx hy
  exact h x hx y hy

/-! ### The functions -/

section api
variable {R : Type} [Zero R] [Add R] [Sub R] [Neg R] [Mul R]

theorem crossCorrelate64_eq (f1 f2 : List (Cx R)) (t1 t2 : Option (List Int)) (n : Option Nat) (aligned : Bool) (aout : Option (List R))
    (h : CloseStamps (allStamps t1 ++ allStamps t2)) (hN : f1.length ≤ 2 ^ 63) :
    crossCorrelate64 f1 f2 t1 t2 n aligned aout = crossCorrelate f1 f2 t1 t2 n aligned aout := by
  unfold crossCorrelate64 crossCorrelate
  rw [inspectCross64_eq _ _ _ _ _ _ _ h]
  rcases hi : inspectCross f1.length f2.length t1 t2 n (aout.map List.length) false with _ | ⟨t, k⟩
  · rfl
  rcases t with _ | ⟨a, b⟩
  · simp only [fun v => crossCorr64_eq f1 f2 _ _ v (fit_arange _ hN), bind, Except.bind]
  · have hf := (inspectCross_fit h hi).1
    simp only [fun v => crossCorr64_eq f1 f2 _ _ v hf, bind, Except.bind]

theorem crossCorrelateComplex64_eq (f1 f2 : List (Cx R)) (t1 t2 : Option (List Int)) (n : Option Nat) (aligned : Bool) (aout : Option (List (Cx R)))
    (h : CloseStamps (allStamps t1 ++ allStamps t2)) (hN : f1.length ≤ 2 ^ 63) :
    crossCorrelateComplex64 f1 f2 t1 t2 n aligned aout = crossCorrelateComplex f1 f2 t1 t2 n aligned aout := by
  unfold crossCorrelateComplex64 crossCorrelateComplex
  rw [inspectCross64_eq _ _ _ _ _ _ _ h]
  rcases hi : inspectCross f1.length f2.length t1 t2 n (aout.map List.length) true with _ | ⟨t, k⟩
  · rfl
  rcases t with _ | ⟨a, b⟩
  · simp only [fun v => crossCorrComplex64_eq f1 f2 _ _ v (fit_arange _ hN), bind, Except.bind]
  · have hf := (inspectCross_fit h hi).1
    simp only [fun v => crossCorrComplex64_eq f1 f2 _ _ v hf, bind, Except.bind]

theorem crossDifference64_eq (f1 f2 : List (Cx R)) (t1 t2 : Option (List Int)) (n : Option Nat) (aligned : Bool) (aout : Option (List R))
    (h : CloseStamps (allStamps t1 ++ allStamps t2)) (hN : f1.length ≤ 2 ^ 63) :
    crossDifference64 f1 f2 t1 t2 n aligned aout = crossDifference f1 f2 t1 t2 n aligned aout := by
  unfold crossDifference64 crossDifference
  rw [inspectCross64_eq _ _ _ _ _ _ _ h]
  rcases hi : inspectCross f1.length f2.length t1 t2 n (aout.map List.length) false with _ | ⟨t, k⟩
  · rfl
  rcases t with _ | ⟨a, b⟩
  · simp only [fun v => crossDiff64_eq f1 f2 _ _ v (fit_arange _ hN), bind, Except.bind]
  · have hf := (inspectCross_fit h hi).1
    simp only [fun v => crossDiff64_eq f1 f2 _ _ v hf, bind, Except.bind]

theorem autoCorrelate64_eq (f : List (Cx R)) (t : Option (List Int)) (n : Option Nat) (aligned : Bool) (aout : Option (List R))
    (h : CloseStamps (allStamps t)) (hN : f.length ≤ 2 ^ 63) :
    autoCorrelate64 f t n aligned aout = autoCorrelate f t n aligned aout := by
  unfold autoCorrelate64 autoCorrelate
  rw [inspectAuto64_eq _ _ _ _ h]
  rcases hi : inspectAuto f.length t n (aout.map List.length) with _ | ⟨t, k⟩
  · rfl
  rcases t with _ | a
  · simp only [fun v => autoCorr64_eq f _ v (fit_arange _ hN), bind, Except.bind]
  · simp only [fun v => autoCorr64_eq f _ v (inspectAuto_fit h hi), bind, Except.bind]

theorem autoCorrelateComplex64_eq (f : List (Cx R)) (t : Option (List Int)) (n : Option Nat) (aligned : Bool) (aout : Option (List (Cx R)))
    (h : CloseStamps (allStamps t)) (hN : f.length ≤ 2 ^ 63) :
    autoCorrelateComplex64 f t n aligned aout = autoCorrelateComplex f t n aligned aout := by
  unfold autoCorrelateComplex64 autoCorrelateComplex
  rw [inspectAuto64_eq _ _ _ _ h]
  rcases hi : inspectAuto f.length t n (aout.map List.length) with _ | ⟨t, k⟩
  · rfl
  rcases t with _ | a
  · simp only [fun v => autoCorrComplex64_eq f _ v (fit_arange _ hN), bind, Except.bind]
  · simp only [fun v => autoCorrComplex64_eq f _ v (inspectAuto_fit h hi), bind, Except.bind]

theorem autoDifference64_eq (f : List (Cx R)) (t : Option (List Int)) (n : Option Nat) (aligned : Bool) (aout : Option (List R))
    (h : CloseStamps (allStamps t)) (hN : f.length ≤ 2 ^ 63) :
    autoDifference64 f t n aligned aout = autoDifference f t n aligned aout := by
  unfold autoDifference64 autoDifference
  rw [inspectAuto64_eq _ _ _ _ h]
  rcases hi : inspectAuto f.length t n (aout.map List.length) with _ | ⟨t, k⟩
  · rfl
  rcases t with _ | a
  · simp only [fun v => autoDiff64_eq f _ v (fit_arange _ hN), bind, Except.bind]
  · simp only [fun v => autoDiff64_eq f _ v (inspectAuto_fit h hi), bind, Except.bind]

end api

section sums
variable {M : Type} [Zero M] [Add M] [Sub M]

theorem fit_neg {a b : List Int} (h : FitDiff a b) : FitDiff (a.map (- ·)) (b.map (- ·)) := by
  intro x hx y hy
  obtain ⟨x', hx', rfl⟩ := List.mem_map.mp hx
  obtain ⟨y', hy', rfl⟩ := List.mem_map.mp hy
  have := h x' hx' y' hy'
  rw [abs_lt] at *
  constructor <;> omega

theorem map_neg64_eq (a : List Int) (ha : ∀ x ∈ a, |x| < 2 ^ 63) : a.map (fun x => wrap64 (-x)) = a.map (- ·) :=
  List.map_congr_left fun x hx => wrap64_abs (x := -x) (by rw [abs_neg]; exact ha x hx)

theorem crossSumApi64_eq (f : List M) (t tOther : Option (List Int)) (n : Option Nat) (complex inv : Bool)
    (aout : Option (List M)) (h : CloseStamps (allStamps t ++ allStamps tOther)) :
    crossSumApi64 f t tOther n complex inv aout = crossSumApi f t tOther n complex inv aout := by
  unfold crossSumApi64 crossSumApi
  rw [inspectCross64_eq _ _ _ _ _ _ _ h]
  rcases hi : inspectCross f.length f.length t tOther n (aout.map List.length) complex with _ | ⟨t', k⟩
  · simp only [bind, Except.bind]
  rcases t' with _ | ⟨a, b⟩
  · simp only [bind, Except.bind]
  · obtain ⟨hf, ha, hb⟩ := inspectCross_fit h hi
    have hneg := fit_neg hf
    have e1 := map_neg64_eq a ha
    have e2 := map_neg64_eq b hb
    have k1 : ∀ v, crossSum64 f a b v = crossSum f a b v := fun v => crossSum64_eq f a b v hf
    have k2 : ∀ v, crossSumComplex64 f a b v = crossSumComplex f a b v := fun v => crossSumComplex64_eq f a b v hf
    have k3 : ∀ v, crossSum64 f (a.map (- ·)) (b.map (- ·)) v = crossSum f (a.map (- ·)) (b.map (- ·)) v :=
      fun v => crossSum64_eq f _ _ v hneg
    have k4 : ∀ v, crossSumComplex64 f (a.map (- ·)) (b.map (- ·)) v = crossSumComplex f (a.map (- ·)) (b.map (- ·)) v :=
      fun v => crossSumComplex64_eq f _ _ v hneg
    cases inv
    · simp only [bind, Except.bind, Bool.false_eq_true, if_false, k1, k2]
    · simp only [bind, Except.bind, if_true, e1, e2, k3, k4]

theorem autoSumWith64_eq (half : M → M) (f : List M) (t : Option (List Int)) (n : Option Nat)
    (aout : Option (List M)) (h : CloseStamps (allStamps t)) :
    autoSumWith64 half f t n aout = autoSumWith half f t n aout := by
  unfold autoSumWith64 autoSumWith
  rw [inspectAuto64_eq _ _ _ _ h]
  rcases hi : inspectAuto f.length t n (aout.map List.length) with _ | ⟨t, k⟩
  · rfl
  rcases t with _ | a
  · rfl
  · simp only [fun v => crossSum64_eq f _ _ v (inspectAuto_fit h hi), bind, Except.bind]

end sums

theorem defaultCount64_eq (t1 t2 : List Int) (n : Option Nat) (out : Option (List Nat)) (complex : Bool)
    (h : CloseStamps (t1 ++ t2)) : defaultCount64 t1 t2 n out complex = defaultCount t1 t2 n out complex := by
  unfold defaultCount64 defaultCount
  rcases out with _ | o
  · rcases n with _ | n
    · have := fullLengthCross64_eq 0 t1 t2 h
      unfold fullLengthCross64 fullLengthCross at this
      simp only at this ⊢
      rw [this]
    · rfl
  · rfl

theorem fit_close {t1 t2 : List Int} (h : CloseStamps (t1 ++ t2)) : FitDiff t1 t2 := by
  intro x hx y hy
  have k1 := h x (by simp [hx]) y (by simp [hy])
  have k2 := h y (by simp [hy]) x (by simp [hx])
  rw [abs_lt]; constructor <;> omega

theorem crossCount64_eq (t1 : TimeArg) (t2 : Option TimeArg) (n : Option Nat) (complex : Bool) (aout : Option (List Nat))
    (h : CloseStamps (t1.times ++ (t2.getD t1).times)) :
    crossCount64 t1 t2 n complex aout = crossCount t1 t2 n complex aout := by
  unfold crossCount64 crossCount
  rcases t2 with _ | t2
  · simp only [Option.getD_none] at h
    simp only [defaultCount64_eq _ _ _ _ _ h, fun v => addCountCross64_eq _ _ v (fit_close h), fun v => addCountCrossComplex64_eq _ _ v (fit_close h)]
  · simp only [Option.getD_some] at h
    simp only [defaultCount64_eq _ _ _ _ _ h, fun v => addCountCross64_eq _ _ v (fit_close h), fun v => addCountCrossComplex64_eq _ _ v (fit_close h)]

theorem close_self {t : List Int} (h : CloseStamps t) : CloseStamps (t ++ t) := by
  intro a ha b hb
  simp only [List.mem_append, or_self] at ha hb
  exact h a ha b hb

theorem autoCount64_eq (t : TimeArg) (n : Option Nat) (aout : Option (List Nat)) (h : CloseStamps t.times) :
    autoCount64 t n aout = autoCount t n aout := by
  unfold autoCount64 autoCount
  simp only [defaultCount64_eq _ _ _ _ _ (close_self h), fun v => addCountAuto64_eq _ v (fit_close (close_self h))]

end Cddm
