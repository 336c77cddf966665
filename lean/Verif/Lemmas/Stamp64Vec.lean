import Verif.Model.Stamp64Vec
import Verif.Lemmas.Stamp64
import Verif.Lemmas.Vec

/-! # 64-bit arithmetic of close time stamps is exact: frame stacks -/

namespace Cddm
open Spec

section kernels
variable {R : Type} [CommRing R]

theorem crossCorrVec64_eq (f1 f2 : List (List (Cx R))) (t1 t2 : List Int) (out : List (List R)) (h : FitDiff t1 t2) :
    crossCorrVec64 f1 f2 t1 t2 out = crossCorrVec f1 f2 t1 t2 out := by
  unfold crossCorrVec64 crossCorrVec
  refine forRange_congr _ _ _ _ fun out i => forRange_congr _ _ _ _ fun out j => ?_
  rcases hb : t2[j]? with _ | b
  · rfl
  rcases ha : t1[i]? with _ | a
  · rfl
  have hd := h a (List.mem_of_getElem? ha) b (List.mem_of_getElem? hb)
  simp only [Option.bind_eq_bind, Option.bind_some, wrap64_abs hd, abs64_eq hd]

theorem crossCorrComplexVec64_eq (f1 f2 : List (List (Cx R))) (t1 t2 : List Int) (out : List (List (Cx R))) (h : FitDiff t1 t2) :
    crossCorrComplexVec64 f1 f2 t1 t2 out = crossCorrComplexVec f1 f2 t1 t2 out := by
  unfold crossCorrComplexVec64 crossCorrComplexVec
  refine forRange_congr _ _ _ _ fun out i => forRange_congr _ _ _ _ fun out j => ?_
  rcases hb : t2[j]? with _ | b
  · rfl
  rcases ha : t1[i]? with _ | a
  · rfl
  have hd := h a (List.mem_of_getElem? ha) b (List.mem_of_getElem? hb)
  simp only [Option.bind_eq_bind, Option.bind_some, wrap64_abs hd, abs64_eq hd]

theorem crossDiffVec64_eq (f1 f2 : List (List (Cx R))) (t1 t2 : List Int) (out : List (List R)) (h : FitDiff t1 t2) :
    crossDiffVec64 f1 f2 t1 t2 out = crossDiffVec f1 f2 t1 t2 out := by
  unfold crossDiffVec64 crossDiffVec
  refine forRange_congr _ _ _ _ fun out i => forRange_congr _ _ _ _ fun out j => ?_
  rcases hb : t2[j]? with _ | b
  · rfl
  rcases ha : t1[i]? with _ | a
  · rfl
  have hd := h a (List.mem_of_getElem? ha) b (List.mem_of_getElem? hb)
  simp only [Option.bind_eq_bind, Option.bind_some, wrap64_abs hd, abs64_eq hd]

theorem autoCorrVec64_eq (f : List (List (Cx R))) (t : List Int) (out : List (List R)) (h : FitDiff t t) :
    autoCorrVec64 f t out = autoCorrVec f t out := by
  unfold autoCorrVec64 autoCorrVec
  refine forRange_congr _ _ _ _ fun out i => forRange'_congr _ _ _ _ _ fun out j => ?_
  rcases hb : t[j]? with _ | b
  · rfl
  rcases ha : t[i]? with _ | a
  · rfl
  have hd := h a (List.mem_of_getElem? ha) b (List.mem_of_getElem? hb)
  simp only [Option.bind_eq_bind, Option.bind_some, wrap64_abs hd, abs64_eq hd]

theorem autoCorrComplexVec64_eq (f : List (List (Cx R))) (t : List Int) (out : List (List (Cx R))) (h : FitDiff t t) :
    autoCorrComplexVec64 f t out = autoCorrComplexVec f t out := by
  unfold autoCorrComplexVec64 autoCorrComplexVec
  refine forRange_congr _ _ _ _ fun out i => forRange'_congr _ _ _ _ _ fun out j => ?_
  rcases hb : t[j]? with _ | b
  · rfl
  rcases ha : t[i]? with _ | a
  · rfl
  have hd := h a (List.mem_of_getElem? ha) b (List.mem_of_getElem? hb)
  simp only [Option.bind_eq_bind, Option.bind_some, wrap64_abs hd, abs64_eq hd]

theorem autoDiffVec64_eq (f : List (List (Cx R))) (t : List Int) (out : List (List R)) (h : FitDiff t t) :
    autoDiffVec64 f t out = autoDiffVec f t out := by
  unfold autoDiffVec64 autoDiffVec
  refine forRange_congr _ _ _ _ fun out i => forRange'_congr _ _ _ _ _ fun out j => ?_
  rcases hb : t[j]? with _ | b
  · rfl
  rcases ha : t[i]? with _ | a
  · rfl
  have hd := h a (List.mem_of_getElem? ha) b (List.mem_of_getElem? hb)
  simp only [Option.bind_eq_bind, Option.bind_some, wrap64_abs hd, abs64_eq hd]

end kernels

section sums
variable {M : Type} [Add M]

theorem crossSumVec64_eq (f : List (List M)) (t1 t2 : List Int) (out : List (List M)) (h : FitDiff t1 t2) :
    crossSumVec64 f t1 t2 out = crossSumVec f t1 t2 out := by
  unfold crossSumVec64 crossSumVec
  refine forRange_congr _ _ _ _ fun out i => forRange_congr _ _ _ _ fun out j => ?_
  rcases hb : t2[j]? with _ | b
  · rfl
  rcases ha : t1[i]? with _ | a
  · rfl
  have hd := h a (List.mem_of_getElem? ha) b (List.mem_of_getElem? hb)
  simp only [Option.bind_eq_bind, Option.bind_some, wrap64_abs hd, abs64_eq hd]

theorem crossSumComplexVec64_eq (f : List (List M)) (t1 t2 : List Int) (out : List (List M)) (h : FitDiff t1 t2) :
    crossSumComplexVec64 f t1 t2 out = crossSumComplexVec f t1 t2 out := by
  unfold crossSumComplexVec64 crossSumComplexVec
  refine forRange_congr _ _ _ _ fun out i => forRange_congr _ _ _ _ fun out j => ?_
  rcases hb : t2[j]? with _ | b
  · rfl
  rcases ha : t1[i]? with _ | a
  · rfl
  have hd := h a (List.mem_of_getElem? ha) b (List.mem_of_getElem? hb)
  simp only [Option.bind_eq_bind, Option.bind_some, wrap64_abs hd, abs64_eq hd]

end sums

section api
variable {R : Type} [CommRing R] {M : Type} [Zero M]

theorem crossFrames64_eq (kReg : List (Cx R) → List (Cx R) → List M → Option (List M))
    (k64 kVec : List (List (Cx R)) → List (List (Cx R)) → List Int → List Int → List (List M) →
      Option (List (List M)))
    (hk : ∀ f1 f2 t1 t2 out, FitDiff t1 t2 → k64 f1 f2 t1 t2 out = kVec f1 f2 t1 t2 out)
    (f1 f2 : Frames (Cx R)) (t1 t2 : Option (List Int)) (n : Option Nat) (align complex : Bool)
    (aout : Option (Frames M)) (h : CloseStamps (allStamps t1 ++ allStamps t2)) (hN : f1.rows.length ≤ 2 ^ 63) :
    crossFrames64 kReg k64 f1 f2 t1 t2 n align complex aout
      = crossFrames kReg kVec f1 f2 t1 t2 n align complex aout := by
  unfold crossFrames64 crossFrames
  rw [inspectCross64_eq _ _ _ _ _ _ _ h]
  rcases hi : inspectCross f1.rows.length f2.rows.length t1 t2 n (aout.map Frames.width) complex with _ | ⟨t, k⟩
  · rfl
  rcases t with _ | ⟨a, b⟩
  · simp only [fun v => hk f1.rows f2.rows _ _ v (fit_arange _ hN), bind, Except.bind]
  · have hf := (inspectCross_fit h hi).1
    simp only [fun v => hk f1.rows f2.rows _ _ v hf, bind, Except.bind]

theorem autoFrames64_eq (kReg : List (Cx R) → List M → Option (List M))
    (k64 kVec : List (List (Cx R)) → List Int → List (List M) → Option (List (List M)))
    (hk : ∀ f t out, FitDiff t t → k64 f t out = kVec f t out)
    (f : Frames (Cx R)) (t : Option (List Int)) (n : Option Nat) (align : Bool)
    (aout : Option (Frames M)) (h : CloseStamps (allStamps t)) (hN : f.rows.length ≤ 2 ^ 63) :
    autoFrames64 kReg k64 f t n align aout = autoFrames kReg kVec f t n align aout := by
  unfold autoFrames64 autoFrames
  rw [inspectAuto64_eq _ _ _ _ h]
  rcases hi : inspectAuto f.rows.length t n (aout.map Frames.width) with _ | ⟨t, k⟩
  · rfl
  rcases t with _ | a
  · simp only [fun v => hk f.rows _ v (fit_arange _ hN), bind, Except.bind]
  · have hf := inspectAuto_fit h hi
    simp only [fun v => hk f.rows _ v hf, bind, Except.bind]

end api

section sumsApi
variable {M : Type} [AddCommGroup M]

theorem crossSumFrames64_eq (f : Frames M) (t tOther : Option (List Int)) (n : Option Nat) (complex inv : Bool)
    (aout : Option (Frames M)) (h : CloseStamps (allStamps t ++ allStamps tOther)) :
    crossSumFrames64 f t tOther n complex inv aout = crossSumFrames f t tOther n complex inv aout := by
  unfold crossSumFrames64 crossSumFrames
  rw [inspectCross64_eq _ _ _ _ _ _ _ h]
  rcases hi : inspectCross f.rows.length f.rows.length t tOther n (aout.map Frames.width) complex with _ | ⟨t', k⟩
  · simp only [bind, Except.bind]
  rcases t' with _ | ⟨a, b⟩
  · simp only [bind, Except.bind]
  · obtain ⟨hf, ha, hb⟩ := inspectCross_fit h hi
    have hneg := fit_neg hf
    have e1 := map_neg64_eq a ha
    have e2 := map_neg64_eq b hb
    have k1 := fun v => crossSumVec64_eq f.rows a b v hf
    have k2 := fun v => crossSumComplexVec64_eq f.rows a b v hf
    have k3 := fun v => crossSumVec64_eq f.rows _ _ v hneg
    have k4 := fun v => crossSumComplexVec64_eq f.rows _ _ v hneg
    cases inv
    · simp only [bind, Except.bind, Bool.false_eq_true, if_false, k1, k2]
    · simp only [bind, Except.bind, if_true, e1, e2, k3, k4]

theorem autoSumFrames64_eq (K : Type) [Field K] [Module K M] (f : Frames M) (t : Option (List Int)) (n : Option Nat)
    (aout : Option (Frames M)) (h : CloseStamps (allStamps t)) :
    autoSumFrames64 K f t n aout = autoSumFrames K f t n aout := by
  unfold autoSumFrames64 autoSumFrames
  rw [inspectAuto64_eq _ _ _ _ h]
  rcases hi : inspectAuto f.rows.length t n (aout.map Frames.width) with _ | ⟨t, k⟩
  · rfl
  rcases t with _ | a
  · rfl
  · simp only [fun v => crossSumVec64_eq f.rows _ _ v (inspectAuto_fit h hi), bind, Except.bind]

end sumsApi

end Cddm
