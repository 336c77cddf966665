import Verif.Lemmas.IterAnyCore
import Verif.Props.MultiAny

/-!
# C124: the iterative functions act on every pixel by itself

`iccorr_multi`, `iacorr_multi`, `iccorr` and `iacorr`, real and complex, on frames of two or more axes, with or without `thread_divisor`:
they raise what they raise for any one pixel, or return for each pixel - correlation data of all levels, counts, mean and variance - what
they return for the values of that pixel.
-/

namespace Cddm
open Spec

/-- The shape the frames are reshaped to. -/
theorem iterDivisorFits_new {F : List Nat} {divisor : Option Int} (h : IterDivisorFits F divisor) :
    ∃ new, iterFrameShape F divisor = .ok new ∧ LeadGives F new F ∧ F.prod = new.prod ∧ new ≠ [] := by
  rcases h with ⟨rfl, hl⟩ | ⟨d, hd, rfl, hdvd, hl⟩
  · refine ⟨F, iterFrameShape_ok (threadFrameShape_none F true (Or.inl (by omega))), leadGives_same rfl, rfl, ?_⟩
    rintro rfl
    simp at hl
  · refine ⟨[d, F.prod / d], iterFrameShape_ok (threadFrameShape_some F (by rintro rfl; simp at hl) d hd hdvd true),
      leadGives_same (by simp [hl]), ?_, by simp⟩
    simp only [List.prod_cons, List.prod_nil, mul_one]
    exact (Nat.mul_div_cancel' hdvd).symm

theorem crossIterAny_fits {C : Type} [Zero C] {complex : Bool} {cc : CrossFnAny C} {cc1 : CrossFn C}
    (hcc : ∀ frame, frame ≠ [] → CrossAt0 frame complex cc cc1) (data : List (Tensor (Cx ℝ) × Tensor (Cx ℝ))) (t1 t2 : Option (List Int))
    (divisor : Option Int) (env : IterEnvAny) {F : List Nat} (hd : IterDivisorFits F divisor)
    (hpix : ∃ p, InShape p F) (hdata : ∀ x ∈ data, x.1.shape = F ∧ x.2.shape = F) :
    ∃ (junk : List Nat → Nat → Nat → Cx ℝ × Cx ℝ) (junkSq : List Nat → Nat → Nat → ℝ × ℝ),
      ∀ o, PixelWiseIter F (crossIterAny complex cc data t1 t2 o divisor env) fun p =>
      crossIterOf complex cc1 (data.map fun x => (x.1.get p, x.2.get p)) t1 t2 o
        ⟨env.dataLen, junk p, junkSq p, false, false, env.rand⟩ := by
  obtain ⟨new, h1, h2, h3, h4⟩ := iterDivisorFits_new hd
  obtain ⟨p0, hp0⟩ := hpix
  exact ⟨fun p j k => env.junk j k (movedPixel F new p), fun p j k => env.junkSq j k (movedPixel F new p), fun o =>
    crossIterAny_pw data t1 t2 o divisor env (hcc new h4) h1 h2 h3 h3 (fun p hp => ⟨hp, rfl⟩) hp0 hdata⟩

theorem autoIterAny_fits {C : Type} [Zero C] [Add C] {complex : Bool} {ac : AutoFnAny C} {ac1 : AutoFn C} {cc : CrossFnAny C}
    {cc1 : CrossFn C} (hac : ∀ frame, frame ≠ [] → AutoAt0 frame ac ac1) (hcc : ∀ frame, frame ≠ [] → CrossAt0 frame complex cc cc1)
    (data : List (Tensor (Cx ℝ))) (t : Option (List Int)) (divisor : Option Int) (env : IterEnvAny) {F : List Nat}
    (hd : IterDivisorFits F divisor) (hpix : ∃ p, InShape p F) (hdata : ∀ x ∈ data, x.shape = F) :
    ∃ (junk : List Nat → Nat → Nat → Cx ℝ × Cx ℝ) (junkSq : List Nat → Nat → Nat → ℝ × ℝ),
      ∀ o, PixelWiseIter F (autoIterAny ac cc data t o divisor env) fun p =>
      autoIterOf ac1 cc1 (data.map fun x => x.get p) t o ⟨env.dataLen, junk p, junkSq p, false, false, env.rand⟩ := by
  obtain ⟨new, h1, h2, h3, h4⟩ := iterDivisorFits_new hd
  obtain ⟨p0, hp0⟩ := hpix
  exact ⟨fun p j k => env.junk j k (movedPixel F new p), fun p j k => env.junkSq j k (movedPixel F new p), fun o =>
    autoIterAny_pw data t o divisor env (hac new h4) (hcc new h4) h1 h2 h3 h3 (fun p hp => ⟨hp, rfl⟩) hp0 hdata⟩

theorem iccorrMultiAnyOf_fits {C : Type} [Zero C] {complex : Bool} {cc : CrossFnAny C} {cc1 : CrossFn C}
    (hcc : ∀ frame, frame ≠ [] → CrossAt0 frame complex cc cc1) (data : List (Tensor (Cx ℝ) × Tensor (Cx ℝ))) (t1 t2 : Option (List Int))
    (o : MultiOpts) (divisor : Option Int) (env : IterEnvAny) {F : List Nat} (hd : IterDivisorFits F divisor)
    (hpix : ∃ p, InShape p F) (hdata : ∀ x ∈ data, x.1.shape = F ∧ x.2.shape = F) :
    ∃ (junk : List Nat → Nat → Nat → Cx ℝ × Cx ℝ) (junkSq : List Nat → Nat → Nat → ℝ × ℝ),
      PixelWiseIter F (iccorrMultiAnyOf complex cc data t1 t2 o divisor env) fun p =>
      iccorrMultiOf complex cc1 (data.map fun x => (x.1.get p, x.2.get p)) t1 t2 o
        ⟨env.dataLen, junk p, junkSq p, false, false, env.rand⟩ := by
  obtain ⟨junk, junkSq, h⟩ := crossIterAny_fits hcc data t1 t2 divisor env hd hpix hdata
  refine ⟨junk, junkSq, ?_⟩
  unfold iccorrMultiAnyOf iccorrMultiOf
  by_cases ht : (t1.isNone ∧ t2.isSome) ∨ (t2.isNone ∧ t1.isSome)
  · simp only [if_pos ht]
    exact fun p _ => rfl
  · simp only [if_neg ht]
    exact h o

/-- From both kinds of data to the linear data. -/
theorem pixelWiseLinear_of {C : Type} {F : List Nat} {res : Py (Nat × IterOutAny C)} {one : List Nat → Py (Nat × IterOut C)}
    (h : PixelWiseIter F res one) : PixelWiseLinear F (res >>= fun x => .ok (x.1, x.2.fast, x.2.stats)) fun p =>
      one p >>= fun x => .ok (x.1, x.2.fast, x.2.stats) := by
  rcases res with e | r
  · intro p hp
    have : one p = .error e := h p hp
    beta_reduce
    rw [this]
    rfl
  · obtain ⟨h1, -, h3, h4⟩ := h
    refine ⟨h1, h3, fun p hp => ?_⟩
    beta_reduce
    rw [h4 p hp]
    rfl

theorem pixelWiseLinear_const {C A : Type} {F : List Nat} (r : Py A)
    {k : A → Py (Nat × CorrAoutAny C × List (Option (Tensor (Cx ℝ) × Tensor ℝ)))}
    {k' : List Nat → A → Py (Nat × CorrAout C × List (Option (Cx ℝ × ℝ)))}
    (h : ∀ a, PixelWiseLinear F (k a) fun p => k' p a) : PixelWiseLinear F (r >>= k) fun p => r >>= k' p := by
  rcases r with e | a
  · exact fun p _ => rfl
  · exact h a

theorem noLevelSize_linear {C : Type} {F : List Nat} (t1 t2 : Option (List Int)) (dataLen : Option Nat) (method : Option String)
    (count : Option Nat) (mode : String) : PixelWiseLinear (C := C) F (noLevelSize t1 t2 dataLen method count mode) fun _ =>
      noLevelSize t1 t2 dataLen method count mode := by
  unfold noLevelSize
  by_cases h : mode ≠ "full" ∧ mode ≠ "chunk"
  · simp only [if_pos h]
    exact fun p _ => rfl
  · simp only [if_neg h]
    refine pixelWiseLinear_const _ fun a => ?_
    refine pixelWiseLinear_const _ fun b => ?_
    exact fun p _ => rfl

theorem iccorrAnyOf_fits {C : Type} [Zero C] {complex : Bool} {cc : CrossFnAny C} {cc1 : CrossFn C}
    (hcc : ∀ frame, frame ≠ [] → CrossAt0 frame complex cc cc1) (data : List (Tensor (Cx ℝ) × Tensor (Cx ℝ))) (t1 t2 : Option (List Int))
    (o : IccorrOpts) (divisor : Option Int) (env : IterEnvAny) {F : List Nat} (hd : IterDivisorFits F divisor)
    (hpix : ∃ p, InShape p F) (hdata : ∀ x ∈ data, x.1.shape = F ∧ x.2.shape = F) :
    ∃ (junk : List Nat → Nat → Nat → Cx ℝ × Cx ℝ) (junkSq : List Nat → Nat → Nat → ℝ × ℝ),
      PixelWiseLinear F (iccorrAnyOf complex cc data t1 t2 o divisor env) fun p =>
      iccorrOf complex cc1 (data.map fun x => (x.1.get p, x.2.get p)) t1 t2 o
        ⟨env.dataLen, junk p, junkSq p, false, false, env.rand⟩ := by
  obtain ⟨junk, junkSq, h⟩ := crossIterAny_fits hcc data t1 t2 divisor env hd hpix hdata
  refine ⟨junk, junkSq, ?_⟩
  unfold iccorrAnyOf iccorrOf
  by_cases ht : (t1.isNone ∧ t2.isSome) ∨ (t2.isNone ∧ t1.isSome)
  · simp only [if_pos ht]
    exact fun p _ => rfl
  · simp only [if_neg ht]
    refine pixelWiseLinear_const _ fun norm => ?_
    rcases o.n with _ | n
    · exact noLevelSize_linear _ _ _ _ _ _
    · exact pixelWiseLinear_of (h _)

theorem iacorrAnyOf_fits {C : Type} [Zero C] [Add C] {complex : Bool} {ac : AutoFnAny C} {ac1 : AutoFn C} {cc : CrossFnAny C}
    {cc1 : CrossFn C} (hac : ∀ frame, frame ≠ [] → AutoAt0 frame ac ac1) (hcc : ∀ frame, frame ≠ [] → CrossAt0 frame complex cc cc1)
    (data : List (Tensor (Cx ℝ))) (t : Option (List Int)) (o : IacorrOpts) (divisor : Option Int) (env : IterEnvAny) {F : List Nat}
    (hd : IterDivisorFits F divisor) (hpix : ∃ p, InShape p F) (hdata : ∀ x ∈ data, x.shape = F) :
    ∃ (junk : List Nat → Nat → Nat → Cx ℝ × Cx ℝ) (junkSq : List Nat → Nat → Nat → ℝ × ℝ),
      PixelWiseLinear F (iacorrAnyOf ac cc data t o divisor env) fun p =>
      iacorrOf ac1 cc1 (data.map fun x => x.get p) t o ⟨env.dataLen, junk p, junkSq p, false, false, env.rand⟩ := by
  obtain ⟨junk, junkSq, h⟩ := autoIterAny_fits hac hcc data t divisor env hd hpix hdata
  refine ⟨junk, junkSq, ?_⟩
  unfold iacorrAnyOf iacorrOf
  refine pixelWiseLinear_const _ fun norm => ?_
  rcases o.n with _ | n
  · exact noLevelSize_linear _ _ _ _ _ _
  · exact pixelWiseLinear_of (h _)

/-! ### The theorems -/

/-- C124 for `iccorr_multi`: pairs of frames of one shape `F` with two or more axes and at least one pixel, any times and options, with
or without a thread divisor that fits.  `junk` and `junkSq` is what new arrays contain at the places used for pixel `p`. -/
theorem C124_iccorr_multi_partial (flags : Nat → Bool × Bool) (data : List (Tensor (Cx ℝ) × Tensor (Cx ℝ))) (t1 t2 : Option (List Int))
    (o : MultiOpts) (divisor : Option Int) (env : IterEnvAny) (F : List Nat) (hd : IterDivisorFits F divisor)
    (hpix : ∃ p, InShape p F) (hdata : ∀ x ∈ data, x.1.shape = F ∧ x.2.shape = F) :
    ∃ (junk : List Nat → Nat → Nat → Cx ℝ × Cx ℝ) (junkSq : List Nat → Nat → Nat → ℝ × ℝ),
      PixelWiseIter F (iccorrMultiAny flags data t1 t2 o divisor env) fun p =>
      iccorrMulti (data.map fun x => (x.1.get p, x.2.get p)) t1 t2 o ⟨env.dataLen, junk p, junkSq p, false, false, env.rand⟩ :=
  iccorrMultiAnyOf_fits (fun _ h => crossAt0_ccorr flags h) data t1 t2 o divisor env hd hpix hdata

/-- C124 for `iccorr_multi(complex = True)`. -/
theorem C124_iccorr_multi_complex_partial (flags : Nat → Bool × Bool) (data : List (Tensor (Cx ℝ) × Tensor (Cx ℝ)))
    (t1 t2 : Option (List Int)) (o : MultiOpts) (divisor : Option Int) (env : IterEnvAny) (F : List Nat)
    (hd : IterDivisorFits F divisor) (hpix : ∃ p, InShape p F) (hdata : ∀ x ∈ data, x.1.shape = F ∧ x.2.shape = F) :
    ∃ (junk : List Nat → Nat → Nat → Cx ℝ × Cx ℝ) (junkSq : List Nat → Nat → Nat → ℝ × ℝ),
      PixelWiseIter F (iccorrMultiComplexAny flags data t1 t2 o divisor env) fun p =>
      iccorrMultiComplex (data.map fun x => (x.1.get p, x.2.get p)) t1 t2 o
        ⟨env.dataLen, junk p, junkSq p, false, false, env.rand⟩ :=
  iccorrMultiAnyOf_fits (fun _ h => crossAt0_ccorrComplex flags h) data t1 t2 o divisor env hd hpix hdata

/-- C124 for `iacorr_multi`. -/
theorem C124_iacorr_multi_partial (flags : Nat → Bool × Bool) (data : List (Tensor (Cx ℝ))) (t : Option (List Int))
    (o : MultiOpts) (divisor : Option Int) (env : IterEnvAny) (F : List Nat) (hd : IterDivisorFits F divisor)
    (hpix : ∃ p, InShape p F) (hdata : ∀ x ∈ data, x.shape = F) :
    ∃ (junk : List Nat → Nat → Nat → Cx ℝ × Cx ℝ) (junkSq : List Nat → Nat → Nat → ℝ × ℝ),
      PixelWiseIter F (iacorrMultiAny flags data t o divisor env) fun p =>
      iacorrMulti (data.map fun x => x.get p) t o ⟨env.dataLen, junk p, junkSq p, false, false, env.rand⟩ := by
  obtain ⟨junk, junkSq, h⟩ := autoIterAny_fits (fun _ h => autoAt0_acorr flags h) (fun _ h => crossAt0_ccorr flags h) data t divisor env
    hd hpix hdata
  exact ⟨junk, junkSq, h o⟩

/-- C124 for `iacorr_multi(complex = True)`. -/
theorem C124_iacorr_multi_complex_partial (flags : Nat → Bool × Bool) (data : List (Tensor (Cx ℝ))) (t : Option (List Int))
    (o : MultiOpts) (divisor : Option Int) (env : IterEnvAny) (F : List Nat) (hd : IterDivisorFits F divisor)
    (hpix : ∃ p, InShape p F) (hdata : ∀ x ∈ data, x.shape = F) :
    ∃ (junk : List Nat → Nat → Nat → Cx ℝ × Cx ℝ) (junkSq : List Nat → Nat → Nat → ℝ × ℝ),
      PixelWiseIter F (iacorrMultiComplexAny flags data t o divisor env) fun p =>
      iacorrMultiComplex (data.map fun x => x.get p) t o ⟨env.dataLen, junk p, junkSq p, false, false, env.rand⟩ := by
  obtain ⟨junk, junkSq, h⟩ := autoIterAny_fits (fun _ h => autoAt0_acorrComplex flags h) (fun _ h => crossAt0_ccorrComplex flags h) data t
    divisor env hd hpix hdata
  exact ⟨junk, junkSq, h o⟩

/-- C124 for `iccorr`. -/
theorem C124_iccorr_partial (flags : Nat → Bool × Bool) (data : List (Tensor (Cx ℝ) × Tensor (Cx ℝ))) (t1 t2 : Option (List Int))
    (o : IccorrOpts) (divisor : Option Int) (env : IterEnvAny) (F : List Nat) (hd : IterDivisorFits F divisor)
    (hpix : ∃ p, InShape p F) (hdata : ∀ x ∈ data, x.1.shape = F ∧ x.2.shape = F) :
    ∃ (junk : List Nat → Nat → Nat → Cx ℝ × Cx ℝ) (junkSq : List Nat → Nat → Nat → ℝ × ℝ),
      PixelWiseLinear F (iccorrAny flags data t1 t2 o divisor env) fun p =>
      iccorr (data.map fun x => (x.1.get p, x.2.get p)) t1 t2 o ⟨env.dataLen, junk p, junkSq p, false, false, env.rand⟩ :=
  iccorrAnyOf_fits (fun _ h => crossAt0_ccorr flags h) data t1 t2 o divisor env hd hpix hdata

/-- C124 for `iccorr(complex = True)`. -/
theorem C124_iccorr_complex_partial (flags : Nat → Bool × Bool) (data : List (Tensor (Cx ℝ) × Tensor (Cx ℝ)))
    (t1 t2 : Option (List Int)) (o : IccorrOpts) (divisor : Option Int) (env : IterEnvAny) (F : List Nat)
    (hd : IterDivisorFits F divisor) (hpix : ∃ p, InShape p F) (hdata : ∀ x ∈ data, x.1.shape = F ∧ x.2.shape = F) :
    ∃ (junk : List Nat → Nat → Nat → Cx ℝ × Cx ℝ) (junkSq : List Nat → Nat → Nat → ℝ × ℝ),
      PixelWiseLinear F (iccorrComplexAny flags data t1 t2 o divisor env) fun p =>
      iccorrComplex (data.map fun x => (x.1.get p, x.2.get p)) t1 t2 o ⟨env.dataLen, junk p, junkSq p, false, false, env.rand⟩ :=
  iccorrAnyOf_fits (fun _ h => crossAt0_ccorrComplex flags h) data t1 t2 o divisor env hd hpix hdata

/-- C124 for `iacorr`. -/
theorem C124_iacorr_partial (flags : Nat → Bool × Bool) (data : List (Tensor (Cx ℝ))) (t : Option (List Int))
    (o : IacorrOpts) (divisor : Option Int) (env : IterEnvAny) (F : List Nat) (hd : IterDivisorFits F divisor)
    (hpix : ∃ p, InShape p F) (hdata : ∀ x ∈ data, x.shape = F) :
    ∃ (junk : List Nat → Nat → Nat → Cx ℝ × Cx ℝ) (junkSq : List Nat → Nat → Nat → ℝ × ℝ),
      PixelWiseLinear F (iacorrAny flags data t o divisor env) fun p =>
      iacorr (data.map fun x => x.get p) t o ⟨env.dataLen, junk p, junkSq p, false, false, env.rand⟩ :=
  iacorrAnyOf_fits (fun _ h => autoAt0_acorr flags h) (fun _ h => crossAt0_ccorr flags h) data t o divisor env hd hpix hdata

/-- C124 for `iacorr(complex = True)`. -/
theorem C124_iacorr_complex_partial (flags : Nat → Bool × Bool) (data : List (Tensor (Cx ℝ))) (t : Option (List Int))
    (o : IacorrOpts) (divisor : Option Int) (env : IterEnvAny) (F : List Nat) (hd : IterDivisorFits F divisor)
    (hpix : ∃ p, InShape p F) (hdata : ∀ x ∈ data, x.shape = F) :
    ∃ (junk : List Nat → Nat → Nat → Cx ℝ × Cx ℝ) (junkSq : List Nat → Nat → Nat → ℝ × ℝ),
      PixelWiseLinear F (iacorrComplexAny flags data t o divisor env) fun p =>
      iacorrComplex (data.map fun x => x.get p) t o ⟨env.dataLen, junk p, junkSq p, false, false, env.rand⟩ :=
  iacorrAnyOf_fits (fun _ h => autoAt0_acorrComplex flags h) (fun _ h => crossAt0_ccorrComplex flags h) data t o divisor env hd hpix hdata

/-- C124 meets its hypotheses: 64 pairs of frames of 2 × 3 pixels, all different, with and without a divisor; frames of three axes. -/
example : IterDivisorFits [2, 3] none ∧ IterDivisorFits [2, 3] (some (3 : Nat)) ∧ IterDivisorFits [2, 3, 5] none ∧
    (∃ p, InShape p [2, 3]) ∧ (∃ p, InShape p [2, 3, 5]) ∧
    ∀ x ∈ (List.range 64).map fun i => ((⟨[2, 3], fun p => ⟨(i : ℝ), (p.sum : ℝ)⟩⟩ : Tensor (Cx ℝ)),
      (⟨[2, 3], fun p => ⟨(p.prod : ℝ), (i : ℝ)⟩⟩ : Tensor (Cx ℝ))), x.1.shape = [2, 3] ∧ x.2.shape = [2, 3] := by
  refine ⟨Or.inl ⟨rfl, by simp⟩, Or.inr ⟨3, by simp, rfl, by simp, rfl⟩, Or.inl ⟨rfl, by simp⟩,
    ⟨[1, 2], .cons (by simp) (.cons (by simp) .nil)⟩, ⟨[1, 2, 4], .cons (by simp) (.cons (by simp) (.cons (by simp) .nil))⟩, ?_⟩
  intro x hx
  obtain ⟨i, -, rfl⟩ := List.mem_map.1 hx
  exact ⟨rfl, rfl⟩

/-! ### Divisors that do not fit -/

/-- A thread divisor fits frames if it is positive and divides their number of pixels; frames that are a single number have none. -/
theorem iterFrameShape_refuses {shape : List Nat} {d : Int} (h : shape = [] ∨ d ≤ 0 ∨ ¬ d ∣ (shape.prod : Int)) :
    ∃ e, iterFrameShape shape (some d) = .error e ∧ (e = .typeError ∨ e = .zeroDivisionError ∨ e = .valueError) := by
  unfold iterFrameShape threadFrameShape
  simp only [reduceCtorEq, false_and, and_false, if_false, bind, Except.bind]
  by_cases h0 : shape = []
  · simp only [if_pos h0]
    exact ⟨_, rfl, .inl rfl⟩
  simp only [if_neg h0]
  by_cases h1 : d = 0
  · simp only [if_pos h1]
    exact ⟨_, rfl, .inr (.inl rfl)⟩
  simp only [if_neg h1]
  by_cases h2 : (shape.prod : Int) ≠ d * Int.fdiv shape.prod d
  · simp only [if_pos h2]
    exact ⟨_, rfl, .inr (.inr rfl)⟩
  simp only [if_neg h2]
  rcases h with h | h | h
  · exact absurd h h0
  · have hd : d < 0 := lt_of_le_of_ne h h1
    rw [if_pos (by simp [hd])]
    exact ⟨_, rfl, .inr (.inr rfl)⟩
  · exact absurd ⟨_, not_not.1 h2⟩ h

/-- C124: a divisor that is not positive or does not divide the number of pixels, and any divisor for frames that are a single number,
is refused by `iccorr_multi`. -/
theorem C124_iccorr_multi_refuses (flags : Nat → Bool × Bool) (x : Tensor (Cx ℝ) × Tensor (Cx ℝ)) (data : List (Tensor (Cx ℝ) × Tensor (Cx ℝ)))
    (t1 t2 : Option (List Int)) (o : MultiOpts) (d : Int) (env : IterEnvAny)
    (h : x.1.shape = [] ∨ d ≤ 0 ∨ ¬ d ∣ (x.1.shape.prod : Int)) :
    (∃ e, iccorrMultiAny flags (x :: data) t1 t2 o (some d) env = .error e) ∧
    ∃ e, iccorrMultiComplexAny flags (x :: data) t1 t2 o (some d) env = .error e := by
  obtain ⟨e, he, -⟩ := iterFrameShape_refuses h
  constructor
  all_goals
    first | unfold iccorrMultiAny | unfold iccorrMultiComplexAny
    unfold iccorrMultiAnyOf crossIterAny
    simp only [bind, Except.bind, he]
    repeat' split
    all_goals exact ⟨_, rfl⟩

/-- C124: the same for `iacorr_multi`. -/
theorem C124_iacorr_multi_refuses (flags : Nat → Bool × Bool) (x : Tensor (Cx ℝ)) (data : List (Tensor (Cx ℝ)))
    (t : Option (List Int)) (o : MultiOpts) (d : Int) (env : IterEnvAny) (h : x.shape = [] ∨ d ≤ 0 ∨ ¬ d ∣ (x.shape.prod : Int)) :
    (∃ e, iacorrMultiAny flags (x :: data) t o (some d) env = .error e) ∧
    ∃ e, iacorrMultiComplexAny flags (x :: data) t o (some d) env = .error e := by
  obtain ⟨e, he, -⟩ := iterFrameShape_refuses h
  constructor
  all_goals
    first | unfold iacorrMultiAny | unfold iacorrMultiComplexAny
    unfold autoIterAny
    simp only [bind, Except.bind, he]
    repeat' split
    all_goals exact ⟨_, rfl⟩

/-- Frames of 3 × 5 pixels cannot be divided among four threads. -/
example : ¬ (4 : Int) ∣ ((⟨[3, 5], fun p => ⟨(p.sum : ℝ), 0⟩⟩ : Tensor (Cx ℝ)).shape.prod : Int) := by
  decide

/-! ### Frames of one axis -/

/-- C124 refuted for frames of one axis: the arrays of `iccorr_multi` get an extra axis of length one, the mean and the variance do not. -/
theorem C124_one_axis_refuted (flags : Nat → Bool × Bool) (data : List (Tensor (Cx ℝ) × Tensor (Cx ℝ))) (t1 t2 : Option (List Int))
    (o : MultiOpts) (env : IterEnvAny) (P : Nat) (hP : 0 < P) (hdata : ∀ x ∈ data, x.1.shape = [P] ∧ x.2.shape = [P]) :
    ∃ (junk : List Nat → Nat → Nat → Cx ℝ × Cx ℝ) (junkSq : List Nat → Nat → Nat → ℝ × ℝ),
      PixelWiseIterIn [P] [1, P] (fun p => 0 :: p) (iccorrMultiAny flags data t1 t2 o none env) fun p =>
      iccorrMulti (data.map fun x => (x.1.get p, x.2.get p)) t1 t2 o ⟨env.dataLen, junk p, junkSq p, false, false, env.rand⟩ := by
  refine ⟨fun p j k => env.junk j k (movedPixel [P] [1, P] p), fun p j k => env.junkSq j k (movedPixel [P] [1, P] p), ?_⟩
  unfold iccorrMultiAny iccorrMultiAnyOf iccorrMulti iccorrMultiOf
  by_cases ht : (t1.isNone ∧ t2.isSome) ∨ (t2.isNone ∧ t1.isSome)
  · simp only [if_pos ht]
    exact fun p _ => rfl
  · simp only [if_neg ht]
    refine crossIterAny_pw (new := [1, P]) data t1 t2 o none env (crossAt0_ccorr flags (by simp))
      (iterFrameShape_ok (threadFrameShape_force P)) (leadGives_one P P) (by simp) rfl (fun p hp => ?_) (p0 := [0]) (.cons hP .nil) hdata
    match p, hp with
    | [a], .cons ha .nil => exact ⟨.cons (by simp) (.cons ha .nil), by simp [ravel]⟩

/-- The refutation meets its hypotheses. -/
example : ∀ x ∈ (List.range 64).map fun i => ((⟨[7], fun p => ⟨(i : ℝ), (p.sum : ℝ)⟩⟩ : Tensor (Cx ℝ)),
    (⟨[7], fun p => ⟨(p.prod : ℝ), (i : ℝ)⟩⟩ : Tensor (Cx ℝ))), x.1.shape = [7] ∧ x.2.shape = [7] := by
  intro x hx
  obtain ⟨i, -, rfl⟩ := List.mem_map.1 hx
  exact ⟨rfl, rfl⟩

end Cddm
