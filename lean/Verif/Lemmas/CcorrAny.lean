import Verif.Lemmas.AnyAxisBody

/-! # `ccorr` and `acorr` on arrays of any number of axes: which kernel is used -/

namespace Cddm
open Spec

theorem ccorrAny_pixelWise (f1 f2 : Tensor (Cx ℝ)) (t1 t2 : Option (List Int)) (n : Option Nat) (norm : Option Int)
    (method : Option String) (align contiguous moved : Bool) (axis : Int) (f1s f2s : Option (Tensor ℝ))
    (aout : CorrAoutAny ℝ) (ax : Nat) (hs : f2.shape = f1.shape) (hax : NamesAxis f1.shape.length axis ax)
    (hfit : AoutFits (frameShape f1.shape ax) aout)
    (h1s : ∀ s, f1s = some s → s.shape = f1.shape) (h2s : ∀ s, f2s = some s → s.shape = f1.shape)
    (hlen : t1 = none → AoutNotTooLong (f1.shape.getD ax 0) false n aout) :
    PixelWiseTuple (frameShape f1.shape ax)
      (ccorrAny f1 f2 t1 t2 n norm method align contiguous moved axis f1s f2s aout) fun p =>
        ccorr (along f1 ax p) (along f2 ax p) t1 t2 n norm method
          (isAligned f1.shape.length ((newAxis f1.shape.length (t1.isNone && isAligned f1.shape.length axis contiguous align) : Int)
          - f1.shape.length) moved false)
          (f1s.map fun s => along s ax p) (f2s.map fun s => along s ax p) (aoutAt (frameShape f1.shape ax) aout p) := by
  refine ccorrAnyBody_pixelWise false f1 f2 t1 t2 n norm method align contiguous axis f1s f2s aout hs hax hfit h1s h2s
    hlen rfl (kernelFits_fft crossCorrFftRegular_same crossCorrFft_same hfit.1)
    (kernelFits_cross crossCorrRegular crossCorrVec_sim (moved := moved) hfit.1 ?_)
    (fun _ => kernelFits_cross crossDiffRegular crossDiffVec_sim (moved := moved) hfit.1 ?_)
  · intro x y out hx hy hL
    simp only [NotTooLong, Bool.false_eq_true, if_false] at hL
    exact ⟨_, crossCorrRegular_eq x y out (by rw [hx, hy]) (by rw [hx]; exact hL), by simp [addSeq]⟩
  · intro x y out hx hy hL
    simp only [NotTooLong, Bool.false_eq_true, if_false] at hL
    exact ⟨_, crossDiffRegular_eq x y out (by rw [hx, hy]) (by rw [hx]; exact hL), by simp [addSeq]⟩

theorem ccorrComplexAny_pixelWise (f1 f2 : Tensor (Cx ℝ)) (t1 t2 : Option (List Int)) (n : Option Nat) (norm : Option Int)
    (method : Option String) (align contiguous moved : Bool) (axis : Int) (f1s f2s : Option (Tensor ℝ))
    (aout : CorrAoutAny (Cx ℝ)) (ax : Nat) (hs : f2.shape = f1.shape) (hax : NamesAxis f1.shape.length axis ax)
    (hfit : AoutFits (frameShape f1.shape ax) aout)
    (h1s : ∀ s, f1s = some s → s.shape = f1.shape) (h2s : ∀ s, f2s = some s → s.shape = f1.shape)
    (hlen : t1 = none → AoutNotTooLong (f1.shape.getD ax 0) true n aout) :
    PixelWiseTuple (frameShape f1.shape ax)
      (ccorrComplexAny f1 f2 t1 t2 n norm method align contiguous moved axis f1s f2s aout) fun p =>
        ccorrComplex (along f1 ax p) (along f2 ax p) t1 t2 n norm method
          (isAligned f1.shape.length ((newAxis f1.shape.length (t1.isNone && isAligned f1.shape.length axis contiguous align) : Int)
          - f1.shape.length) moved false)
          (f1s.map fun s => along s ax p) (f2s.map fun s => along s ax p) (aoutAt (frameShape f1.shape ax) aout p) := by
  refine ccorrAnyBody_pixelWise true f1 f2 t1 t2 n norm method align contiguous axis f1s f2s aout hs hax hfit h1s h2s
    hlen rfl (kernelFits_fft crossCorrComplexFftRegular_same crossCorrComplexFft_same hfit.1)
    (kernelFits_cross crossCorrComplexRegular crossCorrComplexVec_sim (moved := moved) hfit.1 ?_) (by simp)
  intro x y out hx hy hL
  simp only [NotTooLong, if_true] at hL
  exact ⟨_, crossCorrComplexRegular_eq x y out (by rw [hx, hy]) hL.1 (by rw [hx]; exact hL.2), by simp [addSeq]⟩

theorem acorrAny_pixelWise (f : Tensor (Cx ℝ)) (t : Option (List Int)) (n : Option Nat) (norm : Option Int)
    (method : Option String) (align contiguous moved : Bool) (axis : Int) (fs : Option (Tensor ℝ))
    (aout : CorrAoutAny ℝ) (ax : Nat) (hax : NamesAxis f.shape.length axis ax)
    (hfit : AoutFits (frameShape f.shape ax) aout) (hfs : ∀ s, fs = some s → s.shape = f.shape)
    (hlen : t = none → AoutNotTooLong (f.shape.getD ax 0) false n aout) :
    PixelWiseTuple (frameShape f.shape ax)
      (acorrAny f t n norm method align contiguous moved axis fs aout) fun p =>
        acorr (along f ax p) t n norm method
          (isAligned f.shape.length ((newAxis f.shape.length (t.isNone && isAligned f.shape.length axis contiguous align) : Int)
          - f.shape.length) moved false)
          (fs.map fun s => along s ax p) (aoutAt (frameShape f.shape ax) aout p) :=
  acorrAnyBody_pixelWise f t n norm method align contiguous axis fs aout hax hfit hfs
    hlen rfl (autoFits_fft autoCorrFftRegular_same autoCorrFft_same hfit.1)
    (autoFits_auto autoCorrRegular autoCorrVec_sim (moved := moved) hfit.1 fun _ out _ _ =>
      ⟨_, autoCorrRegular_eq _ out, by simp [addSeq]⟩)
    (autoFits_auto autoDiffRegular autoDiffVec_sim (moved := moved) hfit.1 fun _ out _ _ =>
      ⟨_, autoDiffRegular_eq _ out, by simp [addSeq]⟩)

theorem acorrComplexAny_pixelWise (f : Tensor (Cx ℝ)) (t : Option (List Int)) (n : Option Nat) (norm : Option Int)
    (method : Option String) (align contiguous moved : Bool) (axis : Int) (fs : Option (Tensor ℝ))
    (aout : CorrAoutAny (Cx ℝ)) (ax : Nat) (hax : NamesAxis f.shape.length axis ax)
    (hfit : AoutFits (frameShape f.shape ax) aout) (hfs : ∀ s, fs = some s → s.shape = f.shape)
    (hlen : t = none → AoutNotTooLong (f.shape.getD ax 0) false n aout) :
    PixelWiseTuple (frameShape f.shape ax)
      (acorrComplexAny f t n norm method align contiguous moved axis fs aout) fun p =>
        acorrComplex (along f ax p) t n norm method
          (isAligned f.shape.length ((newAxis f.shape.length (t.isNone && isAligned f.shape.length axis contiguous align) : Int)
          - f.shape.length) moved false)
          (fs.map fun s => along s ax p) (aoutAt (frameShape f.shape ax) aout p) := by
  refine acorrAnyBody_pixelWise f t n norm method align contiguous axis fs aout hax hfit hfs
    hlen rfl (autoFits_fft autoCorrComplexFftRegular_same autoCorrComplexFft_same hfit.1)
    (autoFits_auto autoCorrComplexRegular autoCorrComplexVec_sim (moved := moved) hfit.1 fun x out hx hL =>
      ⟨_, autoCorrComplexRegular_eq _ out (by
        simp only [NotTooLong, Bool.false_eq_true, if_false] at hL
        rw [hx]; exact hL), by simp [addSeq]⟩) ?_
  intro g x hg ta m hshort
  have hre : OutFits (frameShape f.shape ax) (aout.cor.map (Tensor.map Cx.re)) := by
    intro o ho
    rcases hc : aout.cor with _ | c
    · rw [hc] at ho
      simp at ho
    · rw [hc] at ho
      simp only [Option.map_some, Option.some.injEq] at ho
      obtain ⟨L, hL⟩ := hfit.1 c hc
      exact ⟨L, by rw [← ho]; exact hL⟩
  have hout : ∀ p, outAt (frameShape f.shape ax) (aout.cor.map (Tensor.map Cx.re)) p
      = (outAt (frameShape f.shape ax) aout.cor p).map (List.map Cx.re) := by
    intro p
    rcases aout.cor with _ | c
    · rfl
    · simp [outAt, along_map]
  have key := autoFits_auto autoDiffRegular autoDiffVec_sim (moved := moved) (N := f.shape.getD ax 0) hre
    (fun _ out _ _ => ⟨_, autoDiffRegular_eq _ out, by simp [addSeq]⟩) g x hg ta m (fun h => ⟨(hshort h).1, fun p hp l hl => by
      rw [hout] at hl
      rcases ho : outAt (frameShape f.shape ax) aout.cor p with _ | l'
      · rw [ho] at hl
        simp at hl
      · rw [ho] at hl
        simp only [Option.map_some, Option.some.injEq] at hl
        rw [← hl, List.length_map]
        exact (hshort h).2 p hp l' ho⟩)
  rw [pixelWise_iff] at key ⊢
  refine PW.congr (PW.bind key (k' := fun _ d => .ok (d.map Cx.ofR)) fun d _ hd => ?_) fun p hp => ?_
  · refine ⟨?_, fun p hp => by simp only [along_map]⟩
    intro o ho
    obtain ⟨L, hL⟩ := hd d rfl
    simp only [Option.some.injEq] at ho
    exact ⟨L, by rw [← ho]; exact hL⟩
  · simp only [hout]
    rfl

end Cddm
