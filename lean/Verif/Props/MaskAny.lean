import Verif.Lemmas.MaskAny
import Verif.Props.IterAny

/-!
# C125: with a mask, the selected pixels get what they get without, all others NaN

`ccorr_multi`, `acorr_multi`, `iccorr_multi`, `iacorr_multi`, `iccorr` and `iacorr`, real and complex, with a mask of two axes.
-/

namespace Cddm
open Spec

/-! ### The functions of whole arrays -/

theorem ccorrMultiMaskBody_fits {C : Type} [Zero C] (complex : Bool) {cc : CrossFnAny C} {cc1 : CrossFn C}
    (hcc : ∀ frame ndim pos, CrossFits frame ndim pos complex cc cc1) (f1 f2 : Tensor (Cx ℝ)) (t1 t2 : Option (List Int))
    (levelSize : Nat) (norm : Option Int) (method : Option String) (period : Nat) (binning : Option Int) (nlevel : Option Int)
    (align contiguous : Bool) (mask : Tensor Bool) (r : Nat → ℚ) (N : Nat) (h2 : mask.shape.length = 2)
    (hs1 : f1.shape = N :: mask.shape) (hs2 : f2.shape = N :: mask.shape)
    (hfast : t1 = none → period * levelSize ≤ N + 1) (hlev : ∀ k, nlevel = some k → levelSize ≤ N / 2 ^ k.toNat) :
    ∃ al, MaskedMulti mask
      (ccorrMultiMaskBody complex cc f1 f2 t1 t2 0 levelSize norm method period binning nlevel align contiguous none mask r) fun p =>
        ccorrMultiBody complex cc1 (along f1 0 p) (along f2 0 p) t1 t2 levelSize norm method period binning nlevel al r := by
  have l1 : f1.shape.length = 3 := by rw [hs1]; simp [h2]
  have l2 : f2.shape.length = 3 := by rw [hs2]; simp [h2]
  obtain ⟨y1, e1, s1, g1⟩ := reshapeInMask_ok (axis := 0) f1 hs1 (by rw [l1]; exact ⟨by simp, Or.inl rfl⟩)
  obtain ⟨y2, e2, s2, g2⟩ := reshapeInMask_ok (axis := 0) f2 hs2 (by rw [l2]; exact ⟨by simp, Or.inl rfl⟩)
  simp only [ccorrMultiBody_eq]
  unfold ccorrMultiMaskBody
  simp only [along_length, hs1, hs2, List.getD_cons_zero]
  cases hm : defaultMethodBinning method binning with
  | error e => exact ⟨fun _ => false, fun p _ => rfl⟩
  | ok mb =>
    obtain ⟨meth, bin⟩ := mb
    simp only [okb']
    cases hN : defaultNorm norm meth true with
    | error e => exact ⟨fun _ => false, fun p _ => rfl⟩
    | ok nrm =>
      simp only [okb']
      by_cases ht : t1.isNone ≠ t2.isNone
      · rw [if_pos ht]
        refine ⟨fun _ => false, fun p _ => ?_⟩
        rcases t1 with _ | a <;> rcases t2 with _ | b
        · simp at ht
        · simp [inspectCross, bind, Except.bind]
        · simp [inspectCross, bind, Except.bind]
        · simp at ht
      rw [if_neg ht, if_neg (by simp)]
      rw [inspectCross_len N]
      cases hI : inspectCross N N t1 t2 (some levelSize) none false with
      | error e => exact ⟨fun _ => false, fun p _ => rfl⟩
      | ok tm =>
        obtain ⟨t, m⟩ := tm
        obtain ⟨rfl, htn⟩ := inspectCross_n hI
        simp only [okb', e1, e2]
        have n1 : y1.shape.getD 0 0 = N := by rw [s1]; rfl
        have hfr : frameShape y1.shape 0 = [(selectedBy mask).length] := by rw [s1]; rfl
        have hax' : NamesAxis y1.shape.length 0 0 := by
          rw [s1]
          exact ⟨by simp, Or.inl rfl⟩
        obtain ⟨al, hal⟩ := crossMultiCore_pw complex meth bin nrm m period nlevel t 0 align contiguous r y1 y2 (s2.trans s1.symm) hax'
          (fun _ => hcc _ _ _) (fun h => by rw [n1]; exact hfast (htn (by rw [h]; rfl))) (by rw [n1]; exact hlev)
        rw [hfr] at hal
        exact ⟨al, maskedMulti_of_core h2 hal fun p hp => by rw [g1 p hp, g2 p hp]⟩

theorem acorrMultiMaskBody_fits {C : Type} [Zero C] (complex : Bool) {ac : AutoFnAny C} {ac1 : AutoFn C}
    (hac : ∀ frame ndim pos, AutoFnFits frame ndim pos ac ac1) (f : Tensor (Cx ℝ)) (t : Option (List Int))
    (levelSize : Nat) (norm : Option Int) (method : Option String) (period : Nat) (binning : Option Int) (nlevel : Option Int)
    (align contiguous : Bool) (mask : Tensor Bool) (r : Nat → ℚ) (N : Nat) (h2 : mask.shape.length = 2)
    (hs : f.shape = N :: mask.shape) (hfast : t = none → period * levelSize ≤ N + 1)
    (hlev : ∀ k, nlevel = some k → (if complex then 2 * levelSize else levelSize) ≤ N / 2 ^ k.toNat)
    (hnone : complex = true → nlevel ≠ none) :
    ∃ al, MaskedMulti mask
      (acorrMultiMaskBody complex ac f t 0 levelSize norm method period binning nlevel align contiguous none mask r) fun p =>
        acorrMultiBody complex ac1 (along f 0 p) t levelSize norm method period binning nlevel al r := by
  have l1 : f.shape.length = 3 := by rw [hs]; simp [h2]
  obtain ⟨y, e1, s1, g1⟩ := reshapeInMask_ok (axis := 0) f hs (by rw [l1]; exact ⟨by simp, Or.inl rfl⟩)
  simp only [acorrMultiBody_eq]
  unfold acorrMultiMaskBody
  simp only [along_length, hs, List.getD_cons_zero]
  cases hm : defaultMethodBinning method binning with
  | error e => exact ⟨fun _ => false, fun p _ => rfl⟩
  | ok mb =>
    obtain ⟨meth, bin⟩ := mb
    simp only [okb']
    cases hN : defaultNorm norm meth false with
    | error e => exact ⟨fun _ => false, fun p _ => rfl⟩
    | ok nrm =>
      simp only [okb']
      rw [if_neg (by simp)]
      rw [inspectAuto_len N]
      cases hI : inspectAuto N t (some levelSize) none with
      | error e => exact ⟨fun _ => false, fun p _ => rfl⟩
      | ok tm =>
        obtain ⟨t', m⟩ := tm
        obtain ⟨rfl, htn⟩ := inspectAuto_n hI
        simp only [okb', e1]
        have n1 : y.shape.getD 0 0 = N := by rw [s1]; rfl
        have hfr : frameShape y.shape 0 = [(selectedBy mask).length] := by rw [s1]; rfl
        have hax' : NamesAxis y.shape.length 0 0 := by
          rw [s1]
          exact ⟨by simp, Or.inl rfl⟩
        obtain ⟨al, hal⟩ := autoMultiCore_pw complex meth bin nrm m period nlevel t' 0 align contiguous r y hax'
          (fun _ => hac _ _ _) (fun h => by rw [n1]; exact hfast (htn h)) (by rw [n1]; exact hlev) hnone
        rw [hfr] at hal
        exact ⟨al, maskedMulti_of_core h2 hal fun p hp => by rw [g1 p hp]⟩

/-! ### The iterative functions -/

/-- The content of new arrays at the places used for the selected pixel `p`. -/
def placedEnv (env : IterEnvAny) (mask : Tensor Bool) (p : List Nat) : IterEnv :=
  ⟨env.dataLen, fun j k => env.junk j k (placeOf mask p), fun j k => env.junkSq j k (placeOf mask p), false, false, env.rand⟩

theorem crossIterMask_fits {C : Type} [Zero C] {complex : Bool} {cc : CrossFnAny C} {cc1 : CrossFn C}
    (hcc : ∀ frame, frame ≠ [] → CrossAt0 frame complex cc cc1) (data : List (Tensor (Cx ℝ) × Tensor (Cx ℝ))) (t1 t2 : Option (List Int))
    (o : MultiOpts) (mask : Tensor Bool) (env : IterEnvAny) (h2 : mask.shape.length = 2) (hpix : ∃ p, Selected mask p)
    (hdata : ∀ x ∈ data, x.1.shape = mask.shape ∧ x.2.shape = mask.shape) :
    MaskedIter mask (crossIterMask complex cc data t1 t2 o none mask env) fun p =>
      crossIterOf complex cc1 (data.map fun x => (x.1.get p, x.2.get p)) t1 t2 o (placedEnv env mask p) := by
  obtain ⟨p0, hp0⟩ := hpix
  unfold crossIterMask crossIterOf crossIter
  simp only [placedEnv]
  cases hpar : iterParams t1 t2 env.dataLen o.period o.levelSize o.chunkSize o.binning o.method o.count o.autoBackground o.nlevel
    o.mode with
  | error e => exact fun p _ => rfl
  | ok par =>
    obtain ⟨T1, T2, cfg⟩ := par
    obtain ⟨cnt, k, hok⟩ := iterParams_ok hpar
    rcases data with _ | ⟨x, data⟩
    · show MaskedIter mask (if 0 < cfg.nframes - 1 then .error .valueError else .error .nameError) fun p =>
        (if 0 < cfg.nframes - 1 then .error .valueError else .error .nameError)
      by_cases hn : 0 < cfg.nframes - 1
      · simp only [if_pos hn]
        exact fun p _ => rfl
      · simp only [if_neg hn]
        exact fun p _ => rfl
    · have hany : ¬ ((x :: data).any (fun x => x.1.shape ≠ mask.shape ∨ x.2.shape ≠ mask.shape)) = true := by
        rw [List.any_eq_true]
        rintro ⟨y, hy, h⟩
        have := hdata y hy
        simp [this.1, this.2] at h
      show MaskedIter mask (if ((x :: data).any (fun x => x.1.shape ≠ mask.shape ∨ x.2.shape ≠ mask.shape)) = true then _ else _) _
      rw [if_neg hany, maskedShape_none]
      show MaskedIter mask (defaultNorm o.norm cfg.method true >>= _) fun p => defaultNorm o.norm cfg.method true >>= _
      cases hN : defaultNorm o.norm cfg.method true with
      | error e => exact fun p _ => rfl
      | ok norm =>
        refine maskedIter_of_core h2 (crossIterCore_pw (hcc _ (by simp)) (placeOf_in hp0) (hok.cfgOK norm) T1 T2 env.junk env.junkSq env.rand
          _ fun y hy => ?_) fun p hp => ?_
        · obtain ⟨z, -, rfl⟩ := List.mem_map.1 hy
          exact ⟨rfl, rfl⟩
        · have e : (((x :: data).map fun x => (pickFrame mask x.1, pickFrame mask x.2)).map fun x =>
              (frameGet [(selectedBy mask).length] (placeOf mask p) x.1, frameGet [(selectedBy mask).length] (placeOf mask p) x.2))
              = (x :: data).map fun x => (x.1.get p, x.2.get p) := by
            rw [List.map_map]
            exact List.map_congr_left fun y _ => by simp only [Function.comp, frameGet_masked hp]
          rw [e]
          unfold crossIterBody
          simp only [hok.auto]
          rfl

theorem autoIterMask_fits {C : Type} [Zero C] [Add C] {complex : Bool} {ac : AutoFnAny C} {ac1 : AutoFn C} {cc : CrossFnAny C}
    {cc1 : CrossFn C} (hac : ∀ frame, frame ≠ [] → AutoAt0 frame ac ac1) (hcc : ∀ frame, frame ≠ [] → CrossAt0 frame complex cc cc1)
    (data : List (Tensor (Cx ℝ))) (t : Option (List Int))
    (o : MultiOpts) (mask : Tensor Bool) (env : IterEnvAny) (h2 : mask.shape.length = 2) (hpix : ∃ p, Selected mask p)
    (hdata : ∀ x ∈ data, x.shape = mask.shape) :
    MaskedIter mask (autoIterMask ac cc data t o none mask env) fun p =>
      autoIterOf ac1 cc1 (data.map fun x => x.get p) t o (placedEnv env mask p) := by
  obtain ⟨p0, hp0⟩ := hpix
  unfold autoIterMask autoIterOf autoIter
  simp only [placedEnv]
  cases hpar : iterParams t none env.dataLen o.period o.levelSize o.chunkSize o.binning o.method o.count o.autoBackground o.nlevel
    o.mode with
  | error e => exact fun p _ => rfl
  | ok par =>
    obtain ⟨T1, T2, cfg⟩ := par
    obtain ⟨cnt, k, hok⟩ := iterParams_ok hpar
    rcases data with _ | ⟨x, data⟩
    · show MaskedIter mask (if 0 < cfg.nframes - 1 then .error .valueError else .error .nameError) fun p =>
        (if 0 < cfg.nframes - 1 then .error .valueError else .error .nameError)
      by_cases hn : 0 < cfg.nframes - 1
      · simp only [if_pos hn]
        exact fun p _ => rfl
      · simp only [if_neg hn]
        exact fun p _ => rfl
    · have hany : ¬ ((x :: data).any (fun x => x.shape ≠ mask.shape)) = true := by
        rw [List.any_eq_true]
        rintro ⟨y, hy, h⟩
        have := hdata y hy
        simp [this] at h
      show MaskedIter mask (if ((x :: data).any (fun x => x.shape ≠ mask.shape)) = true then _ else _) _
      rw [if_neg hany, maskedShape_none]
      show MaskedIter mask (defaultNorm o.norm cfg.method false >>= _) fun p => defaultNorm o.norm cfg.method false >>= _
      cases hN : defaultNorm o.norm cfg.method false with
      | error e => exact fun p _ => rfl
      | ok norm =>
        refine maskedIter_of_core h2 (autoIterCore_pw (hac _ (by simp)) (hcc _ (by simp)) (placeOf_in hp0) (hok.cfgOK norm) T1
          (fun j k p => (env.junk j k p).1) (fun j k p => (env.junkSq j k p).1) env.rand _ fun y hy => ?_) fun p hp => ?_
        · obtain ⟨z, -, rfl⟩ := List.mem_map.1 hy
          rfl
        · have e : (((x :: data).map (pickFrame mask)).map (frameGet [(selectedBy mask).length] (placeOf mask p)))
              = (x :: data).map fun x => x.get p := by
            rw [List.map_map]
            exact List.map_congr_left fun y _ => by simp only [Function.comp, frameGet_masked hp]
          rw [e]
          unfold autoIterBody
          simp only [hok.auto]
          rfl

/-- From both kinds of data to the linear data. -/
theorem maskedLinear_of {C : Type} {mask : Tensor Bool} {res : Py (Nat × IterOutMask C)} {one : List Nat → Py (Nat × IterOut C)}
    (h : MaskedIter mask res one) : MaskedLinear mask (res >>= fun x => .ok (x.1, x.2.fast, x.2.stats)) fun p =>
      one p >>= fun x => .ok (x.1, x.2.fast, x.2.stats) := by
  rcases res with e | r
  · intro p hp
    have : one p = .error e := h p hp
    beta_reduce
    rw [this]
    rfl
  · obtain ⟨h1, -, h3, h4⟩ := h
    refine ⟨h1, h3, fun p hp => ?_⟩
    obtain ⟨o, e, g1, -, g2⟩ := h4 p hp
    refine ⟨(o.fast, o.stats), ?_, g1, g2⟩
    beta_reduce
    rw [e]
    rfl

theorem maskedLinear_const {C A : Type} {mask : Tensor Bool} (r : Py A)
    {k : A → Py (Nat × CorrMasked C × List (Option (Tensor (Option (Cx ℝ)) × Tensor (Option ℝ))))}
    {k' : List Nat → A → Py (Nat × CorrAout C × List (Option (Cx ℝ × ℝ)))}
    (h : ∀ a, MaskedLinear mask (k a) fun p => k' p a) : MaskedLinear mask (r >>= k) fun p => r >>= k' p := by
  rcases r with e | a
  · exact fun p _ => rfl
  · exact h a

theorem noLevelSize_masked {C : Type} {mask : Tensor Bool} (t1 t2 : Option (List Int)) (dataLen : Option Nat) (method : Option String)
    (count : Option Nat) (mode : String) : MaskedLinear (C := C) mask (noLevelSize t1 t2 dataLen method count mode) fun _ =>
      noLevelSize t1 t2 dataLen method count mode := by
  unfold noLevelSize
  by_cases h : mode ≠ "full" ∧ mode ≠ "chunk"
  · simp only [if_pos h]
    exact fun p _ => rfl
  · simp only [if_neg h]
    refine maskedLinear_const _ fun a => ?_
    refine maskedLinear_const _ fun b => ?_
    exact fun p _ => rfl

theorem iccorrMultiMaskOf_fits {C : Type} [Zero C] {complex : Bool} {cc : CrossFnAny C} {cc1 : CrossFn C}
    (hcc : ∀ frame, frame ≠ [] → CrossAt0 frame complex cc cc1) (data : List (Tensor (Cx ℝ) × Tensor (Cx ℝ))) (t1 t2 : Option (List Int))
    (o : MultiOpts) (mask : Tensor Bool) (env : IterEnvAny) (h2 : mask.shape.length = 2) (hpix : ∃ p, Selected mask p)
    (hdata : ∀ x ∈ data, x.1.shape = mask.shape ∧ x.2.shape = mask.shape) :
    ∃ (junk : List Nat → Nat → Nat → Cx ℝ × Cx ℝ) (junkSq : List Nat → Nat → Nat → ℝ × ℝ),
      MaskedIter mask (iccorrMultiMaskOf complex cc data t1 t2 o none mask env) fun p =>
      iccorrMultiOf complex cc1 (data.map fun x => (x.1.get p, x.2.get p)) t1 t2 o
        ⟨env.dataLen, junk p, junkSq p, false, false, env.rand⟩ := by
  refine ⟨fun p j k => env.junk j k (placeOf mask p), fun p j k => env.junkSq j k (placeOf mask p), ?_⟩
  unfold iccorrMultiMaskOf iccorrMultiOf
  by_cases ht : (t1.isNone ∧ t2.isSome) ∨ (t2.isNone ∧ t1.isSome)
  · simp only [if_pos ht]
    exact fun p _ => rfl
  · simp only [if_neg ht]
    exact crossIterMask_fits hcc data t1 t2 o mask env h2 hpix hdata

theorem iccorrMaskOf_fits {C : Type} [Zero C] {complex : Bool} {cc : CrossFnAny C} {cc1 : CrossFn C}
    (hcc : ∀ frame, frame ≠ [] → CrossAt0 frame complex cc cc1) (data : List (Tensor (Cx ℝ) × Tensor (Cx ℝ))) (t1 t2 : Option (List Int))
    (o : IccorrOpts) (mask : Tensor Bool) (env : IterEnvAny) (h2 : mask.shape.length = 2) (hpix : ∃ p, Selected mask p)
    (hdata : ∀ x ∈ data, x.1.shape = mask.shape ∧ x.2.shape = mask.shape) :
    ∃ (junk : List Nat → Nat → Nat → Cx ℝ × Cx ℝ) (junkSq : List Nat → Nat → Nat → ℝ × ℝ),
      MaskedLinear mask (iccorrMaskOf complex cc data t1 t2 o none mask env) fun p =>
      iccorrOf complex cc1 (data.map fun x => (x.1.get p, x.2.get p)) t1 t2 o
        ⟨env.dataLen, junk p, junkSq p, false, false, env.rand⟩ := by
  refine ⟨fun p j k => env.junk j k (placeOf mask p), fun p j k => env.junkSq j k (placeOf mask p), ?_⟩
  unfold iccorrMaskOf iccorrOf
  by_cases ht : (t1.isNone ∧ t2.isSome) ∨ (t2.isNone ∧ t1.isSome)
  · simp only [if_pos ht]
    exact fun p _ => rfl
  · simp only [if_neg ht]
    refine maskedLinear_const _ fun norm => ?_
    rcases o.n with _ | n
    · exact noLevelSize_masked _ _ _ _ _ _
    · exact maskedLinear_of (crossIterMask_fits hcc data t1 t2 _ mask env h2 hpix hdata)

theorem iacorrMaskOf_fits {C : Type} [Zero C] [Add C] {complex : Bool} {ac : AutoFnAny C} {ac1 : AutoFn C} {cc : CrossFnAny C}
    {cc1 : CrossFn C} (hac : ∀ frame, frame ≠ [] → AutoAt0 frame ac ac1) (hcc : ∀ frame, frame ≠ [] → CrossAt0 frame complex cc cc1)
    (data : List (Tensor (Cx ℝ))) (t : Option (List Int)) (o : IacorrOpts) (mask : Tensor Bool) (env : IterEnvAny)
    (h2 : mask.shape.length = 2) (hpix : ∃ p, Selected mask p) (hdata : ∀ x ∈ data, x.shape = mask.shape) :
    ∃ (junk : List Nat → Nat → Nat → Cx ℝ × Cx ℝ) (junkSq : List Nat → Nat → Nat → ℝ × ℝ),
      MaskedLinear mask (iacorrMaskOf ac cc data t o none mask env) fun p =>
      iacorrOf ac1 cc1 (data.map fun x => x.get p) t o ⟨env.dataLen, junk p, junkSq p, false, false, env.rand⟩ := by
  refine ⟨fun p j k => env.junk j k (placeOf mask p), fun p j k => env.junkSq j k (placeOf mask p), ?_⟩
  unfold iacorrMaskOf iacorrOf
  refine maskedLinear_const _ fun norm => ?_
  rcases o.n with _ | n
  · exact noLevelSize_masked _ _ _ _ _ _
  · exact maskedLinear_of (autoIterMask_fits hac hcc data t _ mask env h2 hpix hdata)

/-! ### The theorems -/

/-- **C125** for `ccorr_multi`: videos of `N` frames of the shape of the mask, which has two axes; any times and options, no thread divisor,
`axis = 0`.  The one-pixel function is that of C123. -/
theorem C125_ccorr_multi_partial (flags : Nat → Bool × Bool) (f1 f2 : Tensor (Cx ℝ)) (t1 t2 : Option (List Int))
    (levelSize : Nat) (norm : Option Int) (method : Option String) (period : Nat) (binning : Option Int) (nlevel : Option Int)
    (align contiguous : Bool) (mask : Tensor Bool) (r : Nat → ℚ) (N : Nat) (h2 : mask.shape.length = 2)
    (hs1 : f1.shape = N :: mask.shape) (hs2 : f2.shape = N :: mask.shape)
    (hfast : t1 = none → period * levelSize ≤ N + 1) (hlev : ∀ k, nlevel = some k → levelSize ≤ N / 2 ^ k.toNat) :
    ∃ al, MaskedMulti mask
      (ccorrMultiMask flags f1 f2 t1 t2 0 levelSize norm method period binning nlevel align contiguous none mask r) fun p =>
        ccorrMulti (along f1 0 p) (along f2 0 p) t1 t2 levelSize norm method period binning nlevel al r :=
  ccorrMultiMaskBody_fits false (crossFits_ccorr flags) f1 f2 t1 t2 levelSize norm method period binning nlevel align contiguous mask r N
    h2 hs1 hs2 hfast hlev

/-- C125 for `ccorr_multi(complex = True)`. -/
theorem C125_ccorr_multi_complex_partial (flags : Nat → Bool × Bool) (f1 f2 : Tensor (Cx ℝ)) (t1 t2 : Option (List Int))
    (levelSize : Nat) (norm : Option Int) (method : Option String) (period : Nat) (binning : Option Int) (nlevel : Option Int)
    (align contiguous : Bool) (mask : Tensor Bool) (r : Nat → ℚ) (N : Nat) (h2 : mask.shape.length = 2)
    (hs1 : f1.shape = N :: mask.shape) (hs2 : f2.shape = N :: mask.shape)
    (hfast : t1 = none → period * levelSize ≤ N + 1) (hlev : ∀ k, nlevel = some k → levelSize ≤ N / 2 ^ k.toNat) :
    ∃ al, MaskedMulti mask
      (ccorrMultiComplexMask flags f1 f2 t1 t2 0 levelSize norm method period binning nlevel align contiguous none mask r) fun p =>
        ccorrMultiComplex (along f1 0 p) (along f2 0 p) t1 t2 levelSize norm method period binning nlevel al r :=
  ccorrMultiMaskBody_fits true (crossFits_ccorrComplex flags) f1 f2 t1 t2 levelSize norm method period binning nlevel align contiguous
    mask r N h2 hs1 hs2 hfast hlev

/-- C125 for `acorr_multi`. -/
theorem C125_acorr_multi_partial (flags : Nat → Bool × Bool) (f : Tensor (Cx ℝ)) (t : Option (List Int))
    (levelSize : Nat) (norm : Option Int) (method : Option String) (period : Nat) (binning : Option Int) (nlevel : Option Int)
    (align contiguous : Bool) (mask : Tensor Bool) (r : Nat → ℚ) (N : Nat) (h2 : mask.shape.length = 2)
    (hs : f.shape = N :: mask.shape) (hfast : t = none → period * levelSize ≤ N + 1)
    (hlev : ∀ k, nlevel = some k → levelSize ≤ N / 2 ^ k.toNat) :
    ∃ al, MaskedMulti mask
      (acorrMultiMask flags f t 0 levelSize norm method period binning nlevel align contiguous none mask r) fun p =>
        acorrMulti (along f 0 p) t levelSize norm method period binning nlevel al r :=
  acorrMultiMaskBody_fits false (autoFnFits_acorr flags) f t levelSize norm method period binning nlevel align contiguous mask r N
    h2 hs hfast hlev (by simp)

/-- C125 for `acorr_multi(complex = True)`, under the conditions of C123. -/
theorem C125_acorr_multi_complex_partial (flags : Nat → Bool × Bool) (f : Tensor (Cx ℝ)) (t : Option (List Int))
    (levelSize : Nat) (norm : Option Int) (method : Option String) (period : Nat) (binning : Option Int) (k : Nat)
    (align contiguous : Bool) (mask : Tensor Bool) (r : Nat → ℚ) (N : Nat) (h2 : mask.shape.length = 2)
    (hs : f.shape = N :: mask.shape) (hfast : t = none → period * levelSize ≤ N + 1) (hlev : 2 * levelSize ≤ N / 2 ^ k) :
    ∃ al, MaskedMulti mask
      (acorrMultiComplexMask flags f t 0 levelSize norm method period binning (some k) align contiguous none mask r) fun p =>
        acorrMultiComplex (along f 0 p) t levelSize norm method period binning (some k) al r :=
  acorrMultiMaskBody_fits true (autoFnFits_acorrComplex flags) f t levelSize norm method period binning (some k) align contiguous mask r N
    h2 hs hfast (fun k' h => by cases h; simpa using hlev) (by simp)

/-- C125 for `iccorr_multi`: pairs of frames of the shape of the mask, which has two axes and selects at least one pixel; any times and
options, no thread divisor.  `junk` and `junkSq` is what new arrays contain at the places used for pixel `p`, as in C124. -/
theorem C125_iccorr_multi_partial (flags : Nat → Bool × Bool) (data : List (Tensor (Cx ℝ) × Tensor (Cx ℝ))) (t1 t2 : Option (List Int))
    (o : MultiOpts) (mask : Tensor Bool) (env : IterEnvAny) (h2 : mask.shape.length = 2) (hpix : ∃ p, Selected mask p)
    (hdata : ∀ x ∈ data, x.1.shape = mask.shape ∧ x.2.shape = mask.shape) :
    ∃ (junk : List Nat → Nat → Nat → Cx ℝ × Cx ℝ) (junkSq : List Nat → Nat → Nat → ℝ × ℝ),
      MaskedIter mask (iccorrMultiMask flags data t1 t2 o none mask env) fun p =>
      iccorrMulti (data.map fun x => (x.1.get p, x.2.get p)) t1 t2 o ⟨env.dataLen, junk p, junkSq p, false, false, env.rand⟩ :=
  iccorrMultiMaskOf_fits (fun _ h => crossAt0_ccorr flags h) data t1 t2 o mask env h2 hpix hdata

/-- C125 for `iccorr_multi(complex = True)`. -/
theorem C125_iccorr_multi_complex_partial (flags : Nat → Bool × Bool) (data : List (Tensor (Cx ℝ) × Tensor (Cx ℝ)))
    (t1 t2 : Option (List Int)) (o : MultiOpts) (mask : Tensor Bool) (env : IterEnvAny) (h2 : mask.shape.length = 2)
    (hpix : ∃ p, Selected mask p) (hdata : ∀ x ∈ data, x.1.shape = mask.shape ∧ x.2.shape = mask.shape) :
    ∃ (junk : List Nat → Nat → Nat → Cx ℝ × Cx ℝ) (junkSq : List Nat → Nat → Nat → ℝ × ℝ),
      MaskedIter mask (iccorrMultiComplexMask flags data t1 t2 o none mask env) fun p =>
      iccorrMultiComplex (data.map fun x => (x.1.get p, x.2.get p)) t1 t2 o
        ⟨env.dataLen, junk p, junkSq p, false, false, env.rand⟩ :=
  iccorrMultiMaskOf_fits (fun _ h => crossAt0_ccorrComplex flags h) data t1 t2 o mask env h2 hpix hdata

/-- C125 for `iacorr_multi`. -/
theorem C125_iacorr_multi_partial (flags : Nat → Bool × Bool) (data : List (Tensor (Cx ℝ))) (t : Option (List Int))
    (o : MultiOpts) (mask : Tensor Bool) (env : IterEnvAny) (h2 : mask.shape.length = 2) (hpix : ∃ p, Selected mask p)
    (hdata : ∀ x ∈ data, x.shape = mask.shape) :
    ∃ (junk : List Nat → Nat → Nat → Cx ℝ × Cx ℝ) (junkSq : List Nat → Nat → Nat → ℝ × ℝ),
      MaskedIter mask (iacorrMultiMask flags data t o none mask env) fun p =>
      iacorrMulti (data.map fun x => x.get p) t o ⟨env.dataLen, junk p, junkSq p, false, false, env.rand⟩ :=
  ⟨fun p j k => env.junk j k (placeOf mask p), fun p j k => env.junkSq j k (placeOf mask p),
    autoIterMask_fits (fun _ h => autoAt0_acorr flags h) (fun _ h => crossAt0_ccorr flags h) data t o mask env h2 hpix hdata⟩

/-- C125 for `iacorr_multi(complex = True)`. -/
theorem C125_iacorr_multi_complex_partial (flags : Nat → Bool × Bool) (data : List (Tensor (Cx ℝ))) (t : Option (List Int))
    (o : MultiOpts) (mask : Tensor Bool) (env : IterEnvAny) (h2 : mask.shape.length = 2) (hpix : ∃ p, Selected mask p)
    (hdata : ∀ x ∈ data, x.shape = mask.shape) :
    ∃ (junk : List Nat → Nat → Nat → Cx ℝ × Cx ℝ) (junkSq : List Nat → Nat → Nat → ℝ × ℝ),
      MaskedIter mask (iacorrMultiComplexMask flags data t o none mask env) fun p =>
      iacorrMultiComplex (data.map fun x => x.get p) t o ⟨env.dataLen, junk p, junkSq p, false, false, env.rand⟩ :=
  ⟨fun p j k => env.junk j k (placeOf mask p), fun p j k => env.junkSq j k (placeOf mask p),
    autoIterMask_fits (fun _ h => autoAt0_acorrComplex flags h) (fun _ h => crossAt0_ccorrComplex flags h) data t o mask env h2 hpix hdata⟩

/-- C125 for `iccorr`. -/
theorem C125_iccorr_partial (flags : Nat → Bool × Bool) (data : List (Tensor (Cx ℝ) × Tensor (Cx ℝ))) (t1 t2 : Option (List Int))
    (o : IccorrOpts) (mask : Tensor Bool) (env : IterEnvAny) (h2 : mask.shape.length = 2) (hpix : ∃ p, Selected mask p)
    (hdata : ∀ x ∈ data, x.1.shape = mask.shape ∧ x.2.shape = mask.shape) :
    ∃ (junk : List Nat → Nat → Nat → Cx ℝ × Cx ℝ) (junkSq : List Nat → Nat → Nat → ℝ × ℝ),
      MaskedLinear mask (iccorrMask flags data t1 t2 o none mask env) fun p =>
      iccorr (data.map fun x => (x.1.get p, x.2.get p)) t1 t2 o ⟨env.dataLen, junk p, junkSq p, false, false, env.rand⟩ :=
  iccorrMaskOf_fits (fun _ h => crossAt0_ccorr flags h) data t1 t2 o mask env h2 hpix hdata

/-- C125 for `iccorr(complex = True)`. -/
theorem C125_iccorr_complex_partial (flags : Nat → Bool × Bool) (data : List (Tensor (Cx ℝ) × Tensor (Cx ℝ)))
    (t1 t2 : Option (List Int)) (o : IccorrOpts) (mask : Tensor Bool) (env : IterEnvAny) (h2 : mask.shape.length = 2)
    (hpix : ∃ p, Selected mask p) (hdata : ∀ x ∈ data, x.1.shape = mask.shape ∧ x.2.shape = mask.shape) :
    ∃ (junk : List Nat → Nat → Nat → Cx ℝ × Cx ℝ) (junkSq : List Nat → Nat → Nat → ℝ × ℝ),
      MaskedLinear mask (iccorrComplexMask flags data t1 t2 o none mask env) fun p =>
      iccorrComplex (data.map fun x => (x.1.get p, x.2.get p)) t1 t2 o ⟨env.dataLen, junk p, junkSq p, false, false, env.rand⟩ :=
  iccorrMaskOf_fits (fun _ h => crossAt0_ccorrComplex flags h) data t1 t2 o mask env h2 hpix hdata

/-- C125 for `iacorr`. -/
theorem C125_iacorr_partial (flags : Nat → Bool × Bool) (data : List (Tensor (Cx ℝ))) (t : Option (List Int))
    (o : IacorrOpts) (mask : Tensor Bool) (env : IterEnvAny) (h2 : mask.shape.length = 2) (hpix : ∃ p, Selected mask p)
    (hdata : ∀ x ∈ data, x.shape = mask.shape) :
    ∃ (junk : List Nat → Nat → Nat → Cx ℝ × Cx ℝ) (junkSq : List Nat → Nat → Nat → ℝ × ℝ),
      MaskedLinear mask (iacorrMask flags data t o none mask env) fun p =>
      iacorr (data.map fun x => x.get p) t o ⟨env.dataLen, junk p, junkSq p, false, false, env.rand⟩ :=
  iacorrMaskOf_fits (fun _ h => autoAt0_acorr flags h) (fun _ h => crossAt0_ccorr flags h) data t o mask env h2 hpix hdata

/-- C125 for `iacorr(complex = True)`. -/
theorem C125_iacorr_complex_partial (flags : Nat → Bool × Bool) (data : List (Tensor (Cx ℝ))) (t : Option (List Int))
    (o : IacorrOpts) (mask : Tensor Bool) (env : IterEnvAny) (h2 : mask.shape.length = 2) (hpix : ∃ p, Selected mask p)
    (hdata : ∀ x ∈ data, x.shape = mask.shape) :
    ∃ (junk : List Nat → Nat → Nat → Cx ℝ × Cx ℝ) (junkSq : List Nat → Nat → Nat → ℝ × ℝ),
      MaskedLinear mask (iacorrComplexMask flags data t o none mask env) fun p =>
      iacorrComplex (data.map fun x => x.get p) t o ⟨env.dataLen, junk p, junkSq p, false, false, env.rand⟩ :=
  iacorrMaskOf_fits (fun _ h => autoAt0_acorrComplex flags h) (fun _ h => crossAt0_ccorrComplex flags h) data t o mask env h2 hpix hdata

/-- C125 meets its hypotheses: a mask of 2 × 3 pixels that selects all but one of the first row, 64 frames. -/
example : (⟨[2, 3], fun p => decide (p ≠ [0, 1])⟩ : Tensor Bool).shape.length = 2 ∧
    (∃ p, Selected ⟨[2, 3], fun p => decide (p ≠ [0, 1])⟩ p) ∧ (¬ Selected ⟨[2, 3], fun p => decide (p ≠ [0, 1])⟩ [0, 1]) ∧
    (selectedBy ⟨[2, 3], fun p => decide (p ≠ [0, 1])⟩).length = 5 ∧
    (⟨[64, 2, 3], fun p => ⟨(p.sum : ℝ), (p.prod : ℝ)⟩⟩ : Tensor (Cx ℝ)).shape = 64 :: [2, 3] ∧ 2 * 16 ≤ 64 + 1 ∧ 16 ≤ 64 / 2 ^ 2 ∧
    ∀ x ∈ (List.range 64).map fun i => ((⟨[2, 3], fun p => ⟨(i : ℝ), (p.sum : ℝ)⟩⟩ : Tensor (Cx ℝ)),
      (⟨[2, 3], fun p => ⟨(p.prod : ℝ), (i : ℝ)⟩⟩ : Tensor (Cx ℝ))), x.1.shape = [2, 3] ∧ x.2.shape = [2, 3] := by
  refine ⟨rfl, ⟨[1, 2], .cons (by simp) (.cons (by simp) .nil), rfl⟩, fun h => by simpa using h.2, rfl, rfl, by norm_num, by norm_num, ?_⟩
  intro x hx
  obtain ⟨i, -, rfl⟩ := List.mem_map.1 hx
  exact ⟨rfl, rfl⟩

/-- A mask that does not fit the frames, or a time axis other than the first, is refused. -/
theorem reshapeInMask_refuses {α : Type} (f : Tensor α) (axis : Int) (divisor : Option Int) (mask : Tensor Bool)
    (h : ¬ mask.shape <+: f.shape.tail ∨ 0 < axis) : ∃ e, reshapeInMask f axis divisor mask = .error e ∧ (e = .valueError ∨ e = .indexError) := by
  unfold reshapeInMask
  rcases hr : resolveIdx f.shape.length axis with _ | ax
  · exact ⟨_, rfl, by simp⟩
  · dsimp only
    by_cases ha : ax = 0
    · subst ha
      rcases h with h | h
      · rw [if_neg (by simp)]
        have hne : mask.shape ≠ f.shape.tail := fun e => h (e ▸ List.prefix_refl _)
        unfold maskCheck
        rw [if_neg hne, if_neg h]
        exact ⟨_, rfl, by simp⟩
      · exfalso
        unfold resolveIdx at hr
        split at hr <;> simp at hr <;> omega
    · rw [if_pos ha]
      exact ⟨_, rfl, by simp⟩

theorem defaultMethodBinning_valueError {method : Option String} {binning : Option Int} {e : PyErr}
    (h : defaultMethodBinning method binning = .error e) : e = .valueError := by
  unfold defaultMethodBinning at h
  dsimp only at h
  split at h
  · split at h <;> cases h; rfl
  · split at h
    · split at h <;> cases h; rfl
    · cases h; rfl

theorem defaultNorm_valueError {norm : Option Int} {method : String} {cross : Bool} {e : PyErr}
    (h : defaultNorm norm method cross = .error e) : e = .valueError := by
  unfold defaultNorm at h
  dsimp only at h
  split at h <;> cases h; rfl

/-- C125: `ccorr_multi` raises ValueError or IndexError for a mask that does not fit the frames (not even its axes are the first ones of the
frames), or a time axis after the first. -/
theorem C125_ccorr_multi_refuses (flags : Nat → Bool × Bool) (f1 f2 : Tensor (Cx ℝ)) (t1 t2 : Option (List Int)) (axis : Int)
    (levelSize : Nat) (norm : Option Int) (method : Option String) (period : Nat) (binning : Option Int) (nlevel : Option Int)
    (align contiguous : Bool) (divisor : Option Int) (mask : Tensor Bool) (r : Nat → ℚ)
    (h : ¬ mask.shape <+: f1.shape.tail ∨ 0 < axis) :
    (∃ e, ccorrMultiMask flags f1 f2 t1 t2 axis levelSize norm method period binning nlevel align contiguous divisor mask r = .error e ∧
      (e = .valueError ∨ e = .indexError)) ∧
    ∃ e, ccorrMultiComplexMask flags f1 f2 t1 t2 axis levelSize norm method period binning nlevel align contiguous divisor mask r
      = .error e ∧ (e = .valueError ∨ e = .indexError) := by
  obtain ⟨e, he, hk⟩ := reshapeInMask_refuses f1 axis divisor mask h
  constructor
  all_goals
    first | unfold ccorrMultiMask | unfold ccorrMultiComplexMask
    unfold ccorrMultiMaskBody
    rcases hb : defaultMethodBinning method binning with e1 | ⟨md, bn⟩
    · exact ⟨e1, rfl, Or.inl (defaultMethodBinning_valueError hb)⟩
    simp only [bind, Except.bind]
    rcases hd : defaultNorm norm md true with e2 | nm
    · exact ⟨e2, rfl, Or.inl (defaultNorm_valueError hd)⟩
    dsimp only
    split
    · exact ⟨_, rfl, Or.inl rfl⟩
    split
    · exact ⟨_, rfl, Or.inl rfl⟩
    rcases hi : inspectCross 0 0 t1 t2 (some levelSize) none false with e3 | ⟨t, ls⟩
    · exact ⟨e3, rfl, Or.inl (inspectCross_error hi)⟩
    exact ⟨e, by simp only [he], hk⟩

/-- C125: the same for `acorr_multi`. -/
theorem C125_acorr_multi_refuses (flags : Nat → Bool × Bool) (f : Tensor (Cx ℝ)) (t : Option (List Int)) (axis : Int)
    (levelSize : Nat) (norm : Option Int) (method : Option String) (period : Nat) (binning : Option Int) (nlevel : Option Int)
    (align contiguous : Bool) (divisor : Option Int) (mask : Tensor Bool) (r : Nat → ℚ)
    (h : ¬ mask.shape <+: f.shape.tail ∨ 0 < axis) :
    (∃ e, acorrMultiMask flags f t axis levelSize norm method period binning nlevel align contiguous divisor mask r = .error e ∧
      (e = .valueError ∨ e = .indexError)) ∧
    ∃ e, acorrMultiComplexMask flags f t axis levelSize norm method period binning nlevel align contiguous divisor mask r
      = .error e ∧ (e = .valueError ∨ e = .indexError) := by
  obtain ⟨e, he, hk⟩ := reshapeInMask_refuses f axis divisor mask h
  constructor
  all_goals
    first | unfold acorrMultiMask | unfold acorrMultiComplexMask
    unfold acorrMultiMaskBody
    rcases hb : defaultMethodBinning method binning with e1 | ⟨md, bn⟩
    · exact ⟨e1, rfl, Or.inl (defaultMethodBinning_valueError hb)⟩
    simp only [bind, Except.bind]
    rcases hd : defaultNorm norm md false with e2 | nm
    · exact ⟨e2, rfl, Or.inl (defaultNorm_valueError hd)⟩
    dsimp only
    split
    · exact ⟨_, rfl, Or.inl rfl⟩
    rcases hi : inspectAuto 0 t (some levelSize) none with e3 | ⟨t, ls⟩
    · exact ⟨e3, rfl, Or.inl (inspectAuto_error hi)⟩
    exact ⟨e, by simp only [he], hk⟩

/-- A mask of 2 × 3 pixels does not fit frames of 3 × 2 pixels. -/
example : ¬ (⟨[2, 3], fun _ => true⟩ : Tensor Bool).shape <+: (⟨[64, 3, 2], fun _ => 0⟩ : Tensor (Cx ℝ)).shape.tail := by
  decide

/-! ### What goes wrong -/

/-- C125 refuted for a thread divisor of two or more: putting the pixels back raises a ValueError, whatever was computed. -/
theorem C125_divisor_refuted {C : Type} (mask : Tensor Bool) (h2 : mask.shape.length = 2) (d : Nat) (hd : 2 ≤ d)
    (hdvd : d ∣ (selectedBy mask).length) (hpos : 0 < (selectedBy mask).length) (L1 : Nat) (hL : 0 < L1) (s2 : List Nat)
    (fast : CorrAoutAny C) (slow : List (CorrAoutAny C)) (cor : Tensor C) (hcor : fast.cor = some cor)
    (hs : cor.shape = [d, (selectedBy mask).length / d, L1]) :
    maskedShape mask (some (d : Int)) = .ok [d, (selectedBy mask).length / d] ∧
      unmaskMulti mask cor.shape s2 (fast, slow) = .error .valueError := by
  obtain ⟨k, hk⟩ := hdvd
  have hdiv : (selectedBy mask).length / d = k := by rw [hk, Nat.mul_div_cancel_left _ (by omega)]
  have hk0 : 0 < k := Nat.pos_of_ne_zero (by rintro rfl; omega)
  constructor
  · have := threadFrameShape_some [(selectedBy mask).length] (by simp) d (by omega) (by simpa using ⟨k, hk⟩) false
    unfold maskedShape
    rw [this]
    simp only [List.prod_cons, List.prod_nil, mul_one, bind, Except.bind, List.map_cons, List.map_nil]
    rw [if_neg]
    · simp only [Int.toNat_natCast]
    · simp only [List.any_eq_true, decide_eq_true_eq, not_exists, not_and, not_lt]
      intro a ha
      fin_cases ha
      · exact Int.natCast_nonneg _
      · exact Int.natCast_nonneg _
  · unfold unmaskMulti unmaskFast unmaskArrays unmaskOpt
    have hl : shapeHead cor.shape mask.shape.length = [d] := by rw [hs, h2]; rfl
    rw [hl, hcor]
    have : reshapeOpt ([d] ++ [(selectedBy mask).length]) (some cor) = .error .valueError := by
      unfold reshapeOpt reshapeAny
      dsimp only
      rw [hs, hdiv]
      rw [if_pos]
      · rfl
      · simp only [List.getLastD_cons, List.getLastD_nil, List.cons_append, List.nil_append, List.prod_cons, List.prod_nil, mul_one]
        rw [hk]
        intro h
        have h3 : d * k * L1 * d = d * k * L1 * 1 := by
          rw [mul_one]
          calc d * k * L1 * d = d * (d * k * L1) := by ring
            _ = d * (k * L1) := h
            _ = d * k * L1 := by ring
        have := Nat.eq_of_mul_eq_mul_left (by positivity) h3
        omega
    rw [this]
    rfl

/-- C125 refuted for a mask of one axis that selects two pixels or more: putting the pixels back raises a ValueError. -/
theorem C125_one_axis_refuted {C : Type} (mask : Tensor Bool) (h1 : mask.shape.length = 1) (h2 : 2 ≤ (selectedBy mask).length)
    (L1 : Nat) (hL : 0 < L1) (s2 : List Nat) (fast : CorrAoutAny C) (slow : List (CorrAoutAny C)) (cor : Tensor C)
    (hcor : fast.cor = some cor) (hs : cor.shape = [(selectedBy mask).length, L1]) :
    maskedShape mask none = .ok [(selectedBy mask).length] ∧ unmaskMulti mask cor.shape s2 (fast, slow) = .error .valueError := by
  refine ⟨maskedShape_none mask, ?_⟩
  unfold unmaskMulti unmaskFast unmaskArrays unmaskOpt
  have hl : shapeHead cor.shape mask.shape.length = [(selectedBy mask).length] := by rw [hs, h1]; rfl
  rw [hl, hcor]
  have : reshapeOpt ([(selectedBy mask).length] ++ [(selectedBy mask).length]) (some cor) = .error .valueError := by
    unfold reshapeOpt reshapeAny
    dsimp only
    rw [hs]
    rw [if_pos]
    · rfl
    · simp only [List.getLastD_cons, List.getLastD_nil, List.cons_append, List.nil_append, List.prod_cons, List.prod_nil, mul_one]
      generalize (selectedBy mask).length = c at *
      intro h
      have h3 : c * L1 * c = c * L1 * 1 := by
        rw [mul_one]
        calc c * L1 * c = c * (c * L1) := by ring
          _ = c * L1 := h
      have := Nat.eq_of_mul_eq_mul_left (by positivity) h3
      omega
  rw [this]
  rfl

/-- C125 refuted for a mask of three axes and two levels or more: putting the pixels of the slow data back raises a ValueError. -/
theorem C125_three_axes_refuted {C : Type} (mask : Tensor Bool) (h3 : mask.shape.length = 3) (hpos : 0 < (selectedBy mask).length)
    (L2 : Nat) (slow : List (CorrAoutAny C)) (h2 : 2 ≤ slow.length) :
    unmaskSlow mask [(selectedBy mask).length, L2] slow = .error .valueError := by
  unfold unmaskSlow
  have hl : shapeHead (slow.length :: [(selectedBy mask).length, L2]) mask.shape.length = [] := by rw [h3]; rfl
  simp only [hl, List.nil_append]
  rw [if_pos]
  simp only [List.prod_cons, List.prod_nil, mul_one, List.dropLast_cons₂, List.dropLast_singleton]
  generalize (selectedBy mask).length = c at *
  intro h
  have h3 : c * slow.length = c * 1 := by rw [mul_one, mul_comm]; exact h.symm
  have := Nat.eq_of_mul_eq_mul_left hpos h3
  omega

/-- C125: a mask that does not fit the frames, or an axis of time that is not the first, is refused by `ccorr_multi` and `acorr_multi`: a
mask is never applied to frames of another shape.  (If the mask has the shape of the first axes of the frames, numpy applies it to these; not
modelled, `maskCheck`.) -/
theorem C125_refuses (flags : Nat → Bool × Bool) (f1 f2 : Tensor (Cx ℝ)) (t1 t2 : Option (List Int)) (axis : Int)
    (levelSize : Nat) (norm : Option Int) (method : Option String) (period : Nat) (binning : Option Int) (nlevel : Option Int)
    (align contiguous : Bool) (divisor : Option Int) (mask : Tensor Bool) (r : Nat → ℚ)
    (h : ¬ mask.shape <+: f1.shape.tail ∨ ¬ NamesAxis f1.shape.length axis 0) :
    (∃ e, ccorrMultiMask flags f1 f2 t1 t2 axis levelSize norm method period binning nlevel align contiguous divisor mask r = .error e)
    ∧ (∃ e, ccorrMultiComplexMask flags f1 f2 t1 t2 axis levelSize norm method period binning nlevel align contiguous divisor mask r
        = .error e)
    ∧ (∃ e, acorrMultiMask flags f1 t1 axis levelSize norm method period binning nlevel align contiguous divisor mask r = .error e)
    ∧ ∃ e, acorrMultiComplexMask flags f1 t1 axis levelSize norm method period binning nlevel align contiguous divisor mask r
        = .error e := by
  have key : ∃ e, reshapeInMask f1 axis divisor mask = .error e := by
    unfold reshapeInMask
    cases hx : resolveIdx f1.shape.length axis with
    | none => exact ⟨_, rfl⟩
    | some ax =>
      by_cases h0 : ax = 0
      · subst h0
        rcases h with h | h
        · have hne : mask.shape ≠ f1.shape.tail := fun e => h (by rw [e])
          refine ⟨.indexError, ?_⟩
          simp only [ne_eq, not_true_eq_false, if_false, maskCheck, hne, h]
          rfl
        · refine absurd ?_ h
          unfold resolveIdx at hx
          unfold NamesAxis
          split_ifs at hx <;> simp only [Option.some.injEq, reduceCtorEq] at hx <;> omega
      · exact ⟨.valueError, by simp [h0]⟩
  obtain ⟨e0, key⟩ := key
  have cross : ∀ {C : Type} [Zero C] (c : Bool) (cc : CrossFnAny C), ∃ e, ccorrMultiMaskBody c cc f1 f2 t1 t2 axis levelSize norm method
      period binning nlevel align contiguous divisor mask r = .error e := by
    intro C _ c cc
    unfold ccorrMultiMaskBody
    cases defaultMethodBinning method binning with
    | error e => exact ⟨e, rfl⟩
    | ok mb =>
      simp only [okb']
      cases defaultNorm norm mb.1 true with
      | error e => exact ⟨e, rfl⟩
      | ok nrm =>
        simp only [okb']
        split_ifs
        · exact ⟨_, rfl⟩
        · exact ⟨_, rfl⟩
        · cases inspectCross 0 0 t1 t2 (some levelSize) none false with
          | error e => exact ⟨e, rfl⟩
          | ok tm =>
            simp only [okb', key]
            exact ⟨_, rfl⟩
  have auto : ∀ {C : Type} [Zero C] (c : Bool) (ac : AutoFnAny C), ∃ e, acorrMultiMaskBody c ac f1 t1 axis levelSize norm method
      period binning nlevel align contiguous divisor mask r = .error e := by
    intro C _ c ac
    unfold acorrMultiMaskBody
    cases defaultMethodBinning method binning with
    | error e => exact ⟨e, rfl⟩
    | ok mb =>
      simp only [okb']
      cases defaultNorm norm mb.1 false with
      | error e => exact ⟨e, rfl⟩
      | ok nrm =>
        simp only [okb']
        split_ifs
        · exact ⟨_, rfl⟩
        · cases inspectAuto 0 t1 (some levelSize) none with
          | error e => exact ⟨e, rfl⟩
          | ok tm =>
            simp only [okb', key]
            exact ⟨_, rfl⟩
  exact ⟨cross _ _, cross _ _, auto _ _, auto _ _⟩

-- A mask of shape 3 x 2 for frames of shape 2 x 3, with as many pixels.
example : ¬ ([3, 2] : List Nat) <+: ([5, 2, 3] : List Nat).tail := by decide

/-- C125 refuted for `axis = -3`: it names the first axis of a video of frames of two axes, but without a mask only; the selected pixels
have one axis less. -/
theorem C125_negative_axis_refuted (flags : Nat → Bool × Bool) (f1 f2 : Tensor (Cx ℝ)) (t1 t2 : Option (List Int))
    (levelSize : Nat) (norm : Option Int) (method : Option String) (period : Nat) (binning : Option Int) (nlevel : Option Int)
    (align contiguous : Bool) (mask : Tensor Bool) (r : Nat → ℚ) (N : Nat) (h2 : mask.shape.length = 2)
    (hs1 : f1.shape = N :: mask.shape) (hs2 : f2.shape = N :: mask.shape) :
    NamesAxis f1.shape.length (-3) 0 ∧ ∃ e, ccorrMultiMask flags f1 f2 t1 t2 (-3) levelSize norm method period binning nlevel align
      contiguous none mask r = .error e := by
  have l1 : f1.shape.length = 3 := by rw [hs1]; simp [h2]
  have l2 : f2.shape.length = 3 := by rw [hs2]; simp [h2]
  have hn : NamesAxis 3 (-3) 0 := ⟨by simp, Or.inr (by simp)⟩
  refine ⟨by rw [l1]; exact hn, ?_⟩
  obtain ⟨y1, e1, s1, -⟩ := reshapeInMask_ok f1 hs1 (by rw [l1]; exact hn)
  obtain ⟨y2, e2, s2, -⟩ := reshapeInMask_ok f2 hs2 (by rw [l2]; exact hn)
  unfold ccorrMultiMask ccorrMultiMaskBody
  cases defaultMethodBinning method binning with
  | error e => exact ⟨e, rfl⟩
  | ok mb =>
    simp only [okb']
    cases defaultNorm norm mb.1 true with
    | error e => exact ⟨e, rfl⟩
    | ok nrm =>
      simp only [okb']
      by_cases ht : t1.isNone ≠ t2.isNone
      · rw [if_pos ht]
        exact ⟨_, rfl⟩
      rw [if_neg ht, if_neg (by rw [hs1, hs2]; simp)]
      cases inspectCross 0 0 t1 t2 (some levelSize) none false with
      | error e => exact ⟨e, rfl⟩
      | ok tm =>
        simp only [okb', e1, e2]
        unfold crossMultiCore
        rw [s1]
        exact ⟨.indexError, rfl⟩

/-- The refutations meet their hypotheses: four selected pixels of 2 × 3, divisor two. -/
example : 2 ∣ (selectedBy ⟨[2, 3], fun p => decide (p.getLastD 0 ≠ 1)⟩).length ∧
    0 < (selectedBy ⟨[2, 3], fun p => decide (p.getLastD 0 ≠ 1)⟩).length ∧
    2 ≤ (selectedBy ⟨[3], fun p => decide (p.getLastD 0 ≠ 1)⟩).length ∧
    0 < (selectedBy ⟨[2, 3, 2], fun p => decide (p.getLastD 0 ≠ 1)⟩).length := by decide

end Cddm
