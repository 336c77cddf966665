import Verif.Lemmas.MultiReshape
import Verif.Props.AnyAxisCcorr

/-!
# C123: `ccorr_multi` and `acorr_multi` on arrays of any number of axes
-/

namespace Cddm
open Spec

/-! ### `ccorr` and `acorr` on arrays, as called here -/

theorem crossFits_ccorr (flags : Nat → Bool × Bool) (frame : List Nat) (ndim pos : Nat) :
    CrossFits frame ndim pos false (fun i f1 f2 t1 t2 n norm method axis f1s f2s aout =>
      ccorrAny f1 f2 t1 t2 n norm method false (flags i).1 (flags i).2 axis f1s f2s aout) ccorr := by
  intro i g1 g2 N a1 a2 t1 t2 n norm method s1 s2 aout h1 h2 hfit hlen
  have hsh : g2.shape = g1.shape := a2.shape_eq.trans a1.shape_eq.symm
  have := C117_ccorr g1 g2 t1 t2 n norm method false (flags i).1 (flags i).2 ((pos : Int) - ndim) s1 s2 aout pos hsh
    (by rw [a1.ndim_eq]; exact ⟨a1.pos_lt, Or.inr rfl⟩) (by rw [a1.frame_eq]; exact hfit)
    (fun s hs => (h1 s hs).shape_eq.trans a1.shape_eq.symm) (fun s hs => (h2 s hs).shape_eq.trans a1.shape_eq.symm)
    (by rw [a1.len_eq]; exact hlen)
  rwa [a1.frame_eq] at this

theorem crossFits_ccorrComplex (flags : Nat → Bool × Bool) (frame : List Nat) (ndim pos : Nat) :
    CrossFits frame ndim pos true (fun i f1 f2 t1 t2 n norm method axis f1s f2s aout =>
      ccorrComplexAny f1 f2 t1 t2 n norm method false (flags i).1 (flags i).2 axis f1s f2s aout) ccorrComplex := by
  intro i g1 g2 N a1 a2 t1 t2 n norm method s1 s2 aout h1 h2 hfit hlen
  have hsh : g2.shape = g1.shape := a2.shape_eq.trans a1.shape_eq.symm
  have := C117_ccorr_complex g1 g2 t1 t2 n norm method false (flags i).1 (flags i).2 ((pos : Int) - ndim) s1 s2 aout pos hsh
    (by rw [a1.ndim_eq]; exact ⟨a1.pos_lt, Or.inr rfl⟩) (by rw [a1.frame_eq]; exact hfit)
    (fun s hs => (h1 s hs).shape_eq.trans a1.shape_eq.symm) (fun s hs => (h2 s hs).shape_eq.trans a1.shape_eq.symm)
    (by rw [a1.len_eq]; exact hlen)
  rwa [a1.frame_eq] at this

theorem autoFnFits_acorr (flags : Nat → Bool × Bool) (frame : List Nat) (ndim pos : Nat) :
    AutoFnFits frame ndim pos (fun i f t n norm method axis fs aout =>
      acorrAny f t n norm method false (flags i).1 (flags i).2 axis fs aout) acorr := by
  intro i g N a t n norm method s aout h hfit hlen
  have := C117_acorr g t n norm method false (flags i).1 (flags i).2 ((pos : Int) - ndim) s aout pos
    (by rw [a.ndim_eq]; exact ⟨a.pos_lt, Or.inr rfl⟩) (by rw [a.frame_eq]; exact hfit)
    (fun s hs => (h s hs).shape_eq.trans a.shape_eq.symm) (by rw [a.len_eq]; exact hlen)
  rwa [a.frame_eq] at this

theorem autoFnFits_acorrComplex (flags : Nat → Bool × Bool) (frame : List Nat) (ndim pos : Nat) :
    AutoFnFits frame ndim pos (fun i f t n norm method axis fs aout =>
      acorrComplexAny f t n norm method false (flags i).1 (flags i).2 axis fs aout) acorrComplex := by
  intro i g N a t n norm method s aout h hfit hlen
  have := C117_acorr_complex g t n norm method false (flags i).1 (flags i).2 ((pos : Int) - ndim) s aout pos
    (by rw [a.ndim_eq]; exact ⟨a.pos_lt, Or.inr rfl⟩) (by rw [a.frame_eq]; exact hfit)
    (fun s hs => (h s hs).shape_eq.trans a.shape_eq.symm) (by rw [a.len_eq]; exact hlen)
  rwa [a.frame_eq] at this

/-! ### The bodies, for whatever the reshaping gives -/

theorem okb' {A B : Type} (a : A) (k : A → Py B) : ((Except.ok a : Py A) >>= k) = k a := rfl

theorem ccorrMultiAnyBody_pw {C : Type} [Zero C] (complex : Bool) {cc : CrossFnAny C} {cc1 : CrossFn C}
    (f1 f2 y1 y2 : Tensor (Cx ℝ)) (t1 t2 : Option (List Int)) (axis : Int) (levelSize : Nat) (norm : Option Int)
    (method : Option String) (period : Nat) (binning : Option Int) (nlevel : Option Int) (align contiguous : Bool)
    (divisor : Option Int) (r : Nat → ℚ) {kshape G : List Nat} {ax : Nat} (hne : f1.shape ≠ []) (hs : f2.shape = f1.shape)
    (hy1 : reshapeInAny f1 axis divisor = .ok (y1, kshape)) (hy2 : reshapeInAny f2 axis divisor = .ok (y2, kshape))
    (hsy : y2.shape = y1.shape) (hax : NamesAxis y1.shape.length axis ax)
    (hcc : ∀ pos, CrossFits (frameShape y1.shape ax) y1.shape.length pos complex cc cc1)
    (hlead : LeadGives kshape (frameShape y1.shape ax) G) (hG : G.prod = (frameShape y1.shape ax).prod)
    (hfast : t1 = none → period * levelSize ≤ y1.shape.getD ax 0 + 1)
    (hlev : ∀ k, nlevel = some k → levelSize ≤ y1.shape.getD ax 0 / 2 ^ k.toNat) :
    ∃ al, PixelWiseMulti G
      (ccorrMultiAnyBody complex cc f1 f2 t1 t2 axis levelSize norm method period binning nlevel align contiguous divisor r) fun p =>
        ccorrMultiBody complex cc1 (along y1 ax (movedPixel G (frameShape y1.shape ax) p))
          (along y2 ax (movedPixel G (frameShape y1.shape ax) p)) t1 t2 levelSize norm method period binning nlevel al r := by
  simp only [ccorrMultiBody_eq]
  unfold ccorrMultiAnyBody
  simp only [along_length, hsy]
  cases hm : defaultMethodBinning method binning with
  | error e => exact ⟨fun _ => false, fun p _ => rfl⟩
  | ok mb =>
    obtain ⟨meth, bin⟩ := mb
    simp only [okb']
    cases hN : defaultNorm norm meth true with
    | error e => exact ⟨fun _ => false, fun p _ => rfl⟩
    | ok nrm =>
      simp only [okb']
      by_cases ht : t1.isNone ≠ t2.isNone
      · rw [if_pos ht]
        refine ⟨fun _ => false, fun p _ => ?_⟩
        rcases t1 with _ | a <;> rcases t2 with _ | b
        · simp at ht
        · simp [inspectCross, bind, Except.bind]
        · simp [inspectCross, bind, Except.bind]
        · simp at ht
      rw [if_neg ht, if_neg (by rintro (h | h); exacts [hne h, h hs.symm])]
      rw [inspectCross_len (y1.shape.getD ax 0)]
      cases hI : inspectCross (y1.shape.getD ax 0) (y1.shape.getD ax 0) t1 t2 (some levelSize) none false with
      | error e => exact ⟨fun _ => false, fun p _ => rfl⟩
      | ok tm =>
        obtain ⟨t, m⟩ := tm
        obtain ⟨rfl, htn⟩ := inspectCross_n hI
        simp only [okb', hy1, hy2]
        obtain ⟨al, hal⟩ := crossMultiCore_pw complex meth bin nrm m period nlevel t axis align contiguous r y1 y2 hsy hax hcc
          (fun h => hfast (htn (by rw [h]; rfl))) hlev
        exact ⟨al, reshapeMulti_ok hlead hG hal fun p _ => rfl⟩

theorem acorrMultiAnyBody_pw {C : Type} [Zero C] (complex : Bool) {ac : AutoFnAny C} {ac1 : AutoFn C}
    (f y : Tensor (Cx ℝ)) (t : Option (List Int)) (axis : Int) (levelSize : Nat) (norm : Option Int)
    (method : Option String) (period : Nat) (binning : Option Int) (nlevel : Option Int) (align contiguous : Bool)
    (divisor : Option Int) (r : Nat → ℚ) {kshape G : List Nat} {ax : Nat} (hne : f.shape ≠ [])
    (hy : reshapeInAny f axis divisor = .ok (y, kshape)) (hax : NamesAxis y.shape.length axis ax)
    (hac : ∀ pos, AutoFnFits (frameShape y.shape ax) y.shape.length pos ac ac1)
    (hlead : LeadGives kshape (frameShape y.shape ax) G) (hG : G.prod = (frameShape y.shape ax).prod)
    (hfast : t = none → period * levelSize ≤ y.shape.getD ax 0 + 1)
    (hlev : ∀ k, nlevel = some k → (if complex then 2 * levelSize else levelSize) ≤ y.shape.getD ax 0 / 2 ^ k.toNat)
    (hnone : complex = true → nlevel ≠ none) :
    ∃ al, PixelWiseMulti G
      (acorrMultiAnyBody complex ac f t axis levelSize norm method period binning nlevel align contiguous divisor r) fun p =>
        acorrMultiBody complex ac1 (along y ax (movedPixel G (frameShape y.shape ax) p)) t levelSize norm method period binning
          nlevel al r := by
  simp only [acorrMultiBody_eq]
  unfold acorrMultiAnyBody
  simp only [along_length]
  cases hm : defaultMethodBinning method binning with
  | error e => exact ⟨fun _ => false, fun p _ => rfl⟩
  | ok mb =>
    obtain ⟨meth, bin⟩ := mb
    simp only [okb']
    cases hN : defaultNorm norm meth false with
    | error e => exact ⟨fun _ => false, fun p _ => rfl⟩
    | ok nrm =>
      simp only [okb']
      rw [if_neg hne]
      rw [inspectAuto_len (y.shape.getD ax 0)]
      cases hI : inspectAuto (y.shape.getD ax 0) t (some levelSize) none with
      | error e => exact ⟨fun _ => false, fun p _ => rfl⟩
      | ok tm =>
        obtain ⟨t', m⟩ := tm
        obtain ⟨rfl, htn⟩ := inspectAuto_n hI
        simp only [okb', hy]
        obtain ⟨al, hal⟩ := autoMultiCore_pw complex meth bin nrm m period nlevel t' axis align contiguous r y hax hac
          (fun h => hfast (htn h)) hlev hnone
        exact ⟨al, reshapeMulti_ok hlead hG hal fun p _ => rfl⟩

/-! ### The reshapings that keep every pixel -/

theorem leadGives_same {kshape new : List Nat} (h : new.length = kshape.length) : LeadGives kshape new kshape := by
  constructor
  · intro L
    unfold shapeHead
    rw [if_neg (by omega)]
    simp [h]
  · intro n L
    unfold shapeHead
    rw [if_neg (by omega)]
    have : (n :: (new ++ [L])).length - (kshape.length + 1) = 1 := by simp [h]
    rw [this]
    rfl

/-- What `DivisorFits` gives: the reshaped frame, and that the signal of every pixel is kept. -/
theorem divisorFits_spec {shape : List Nat} {axis : Int} {ax : Nat} {divisor : Option Int} (hax : NamesAxis shape.length axis ax)
    (h : DivisorFits shape ax divisor) :
    ∃ new : List Nat, threadFrameShape (frameShape shape ax) divisor true = .ok (new.map fun (n : Nat) => (n : Int)) ∧
      new.prod = (frameShape shape ax).prod ∧ new.length = (frameShape shape ax).length ∧ SignalsKept shape new ax := by
  rcases h with ⟨rfl, h⟩ | ⟨d, hd, rfl, hdvd, h3, hcase⟩
  · exact ⟨_, threadFrameShape_none _ true (Or.inl h), rfl, rfl, signalsKept_same hax.1⟩
  · have hl : (frameShape shape ax).length = 2 := by rw [frame_length hax.1, h3]
    have hprod : [d, (frameShape shape ax).prod / d].prod = (frameShape shape ax).prod := by
      simp [Nat.mul_div_cancel' hdvd]
    refine ⟨_, threadFrameShape_some _ (by intro h; rw [h] at hl; simp at hl) d hd hdvd true, hprod, by rw [hl]; rfl, ?_⟩
    match shape, h3 with
    | [a, b, c], _ =>
      rcases hcase with rfl | rfl
      · exact signalsKept_first hprod.symm
      · exact signalsKept_last (F := [a, b]) hprod.symm rfl

/-- The reshaped array. -/
theorem reshaped_spec (f : Tensor (Cx ℝ)) {axis : Int} {ax : Nat} {divisor : Option Int} (hax : NamesAxis f.shape.length axis ax)
    {new : List Nat} (h1 : threadFrameShape (frameShape f.shape ax) divisor true = .ok (new.map fun (n : Nat) => (n : Int)))
    (h2 : new.prod = (frameShape f.shape ax).prod) (h3 : new.length = (frameShape f.shape ax).length) (h4 : SignalsKept f.shape new ax) :
    ∃ y, reshapeInAny f axis divisor = .ok (y, frameShape f.shape ax) ∧ y.shape = pyInsert new ax (f.shape.getD ax 0) ∧
      frameShape y.shape ax = new ∧ y.shape.getD ax 0 = f.shape.getD ax 0 ∧ NamesAxis y.shape.length axis ax ∧
      ∀ p, InShape p (frameShape f.shape ax) → along y ax (movedPixel (frameShape f.shape ax) new p) = along f ax p := by
  have hl : ax ≤ new.length := by
    have := frame_length hax.1
    have := hax.1
    omega
  refine ⟨_, reshapeIn_ok f hax divisor new h1 h2, rfl, pyInsert_eraseIdx _ _ _ hl, pyInsert_getD _ _ _ _ hl, ?_, fun p hp =>
    reshapeIn_along f hax.1 hl h4 hp⟩
  have : (pyInsert new ax (f.shape.getD ax 0)).length = f.shape.length := by
    rw [pyInsert_length _ _ _ hl, h3, frame_length hax.1]
    have := hax.1
    omega
  rw [this]
  exact hax

theorem pixelWiseMulti_congr {C : Type} {frame : List Nat} {res : Py (CorrAoutAny C × List (CorrAoutAny C))}
    {one one' : List Nat → Py (CorrAout C × List (CorrAout C))} (h : PixelWiseMulti frame res one)
    (e : ∀ p, InShape p frame → one' p = one p) : PixelWiseMulti frame res one' := by
  unfold PixelWiseMulti at *
  rcases res with x | r
  · exact fun p hp => (e p hp).trans (h p hp)
  · exact ⟨h.1, h.2.1, fun p hp => (e p hp).trans (h.2.2 p hp)⟩

theorem ccorrMultiAnyBody_fits {C : Type} [Zero C] (complex : Bool) {cc : CrossFnAny C} {cc1 : CrossFn C}
    (hcc : ∀ frame ndim pos, CrossFits frame ndim pos complex cc cc1) (f1 f2 : Tensor (Cx ℝ)) (t1 t2 : Option (List Int)) (axis : Int)
    (levelSize : Nat) (norm : Option Int) (method : Option String) (period : Nat) (binning : Option Int) (nlevel : Option Int)
    (align contiguous : Bool) (divisor : Option Int) (r : Nat → ℚ) (ax : Nat) (hs : f2.shape = f1.shape)
    (hax : NamesAxis f1.shape.length axis ax) (hd : DivisorFits f1.shape ax divisor)
    (hfast : t1 = none → period * levelSize ≤ f1.shape.getD ax 0 + 1)
    (hlev : ∀ k, nlevel = some k → levelSize ≤ f1.shape.getD ax 0 / 2 ^ k.toNat) :
    ∃ al, PixelWiseMulti (frameShape f1.shape ax)
      (ccorrMultiAnyBody complex cc f1 f2 t1 t2 axis levelSize norm method period binning nlevel align contiguous divisor r) fun p =>
        ccorrMultiBody complex cc1 (along f1 ax p) (along f2 ax p) t1 t2 levelSize norm method period binning nlevel al r := by
  obtain ⟨new, h1, h2, h3, h4⟩ := divisorFits_spec hax hd
  obtain ⟨y1, e1, s1, fr1, l1, n1, a1⟩ := reshaped_spec f1 hax h1 h2 h3 h4
  rw [← hs] at h1 h2 h3 h4
  obtain ⟨y2, e2, s2, fr2, l2, n2, a2⟩ := reshaped_spec f2 (by rw [hs]; exact hax) h1 h2 h3 h4
  rw [hs] at e2 s2 a2 h2 h3
  have hne : f1.shape ≠ [] := by
    intro h
    have := hax.1
    rw [h] at this
    simp at this
  obtain ⟨al, hal⟩ := ccorrMultiAnyBody_pw complex f1 f2 y1 y2 t1 t2 axis levelSize norm method period binning nlevel align contiguous
    divisor r (G := frameShape f1.shape ax) hne hs e1 e2 (s2.trans s1.symm) n1 (fun _ => hcc _ _ _)
    (by rw [fr1]; exact leadGives_same h3) (by rw [fr1]; exact h2.symm) (by rw [l1]; exact hfast) (by rw [l1]; exact hlev)
  refine ⟨al, pixelWiseMulti_congr hal fun p hp => ?_⟩
  rw [fr1, a1 p hp, a2 p hp]

theorem acorrMultiAnyBody_fits {C : Type} [Zero C] (complex : Bool) {ac : AutoFnAny C} {ac1 : AutoFn C}
    (hac : ∀ frame ndim pos, AutoFnFits frame ndim pos ac ac1) (f : Tensor (Cx ℝ)) (t : Option (List Int)) (axis : Int)
    (levelSize : Nat) (norm : Option Int) (method : Option String) (period : Nat) (binning : Option Int) (nlevel : Option Int)
    (align contiguous : Bool) (divisor : Option Int) (r : Nat → ℚ) (ax : Nat)
    (hax : NamesAxis f.shape.length axis ax) (hd : DivisorFits f.shape ax divisor)
    (hfast : t = none → period * levelSize ≤ f.shape.getD ax 0 + 1)
    (hlev : ∀ k, nlevel = some k → (if complex then 2 * levelSize else levelSize) ≤ f.shape.getD ax 0 / 2 ^ k.toNat)
    (hnone : complex = true → nlevel ≠ none) :
    ∃ al, PixelWiseMulti (frameShape f.shape ax)
      (acorrMultiAnyBody complex ac f t axis levelSize norm method period binning nlevel align contiguous divisor r) fun p =>
        acorrMultiBody complex ac1 (along f ax p) t levelSize norm method period binning nlevel al r := by
  obtain ⟨new, h1, h2, h3, h4⟩ := divisorFits_spec hax hd
  obtain ⟨y1, e1, s1, fr1, l1, n1, a1⟩ := reshaped_spec f hax h1 h2 h3 h4
  have hne : f.shape ≠ [] := by
    intro h
    have := hax.1
    rw [h] at this
    simp at this
  obtain ⟨al, hal⟩ := acorrMultiAnyBody_pw complex f y1 t axis levelSize norm method period binning nlevel align contiguous
    divisor r (G := frameShape f.shape ax) hne e1 n1 (fun _ => hac _ _ _)
    (by rw [fr1]; exact leadGives_same h3) (by rw [fr1]; exact h2.symm) (by rw [l1]; exact hfast) (by rw [l1]; exact hlev) hnone
  refine ⟨al, pixelWiseMulti_congr hal fun p hp => ?_⟩
  rw [fr1, a1 p hp]

/-! ### The claim -/

/-- **C123.** `ccorr_multi` of arrays of any number of axes is, at each pixel, `ccorr_multi` of the signals of that pixel: the linear data
and all levels, whatever the axis, the binning, the norm and the `thread_divisor`.  Partial: frames of one axis are excluded (see the
refutations below), and a divisor is allowed for frames of two axes only. -/
theorem C123_ccorr_multi_partial (flags : Nat → Bool × Bool) (f1 f2 : Tensor (Cx ℝ)) (t1 t2 : Option (List Int)) (axis : Int)
    (levelSize : Nat) (norm : Option Int) (method : Option String) (period : Nat) (binning : Option Int) (nlevel : Option Int)
    (align contiguous : Bool) (divisor : Option Int) (r : Nat → ℚ) (ax : Nat) (hs : f2.shape = f1.shape)
    (hax : NamesAxis f1.shape.length axis ax) (hd : DivisorFits f1.shape ax divisor)
    (hfast : t1 = none → period * levelSize ≤ f1.shape.getD ax 0 + 1)
    (hlev : ∀ k, nlevel = some k → levelSize ≤ f1.shape.getD ax 0 / 2 ^ k.toNat) :
    ∃ al, PixelWiseMulti (frameShape f1.shape ax)
      (ccorrMultiAny flags f1 f2 t1 t2 axis levelSize norm method period binning nlevel align contiguous divisor r) fun p =>
        ccorrMulti (along f1 ax p) (along f2 ax p) t1 t2 levelSize norm method period binning nlevel al r :=
  ccorrMultiAnyBody_fits false (crossFits_ccorr flags) f1 f2 t1 t2 axis levelSize norm method period binning nlevel align contiguous
    divisor r ax hs hax hd hfast hlev

/-- C123 for `ccorr_multi(complex = True)`. -/
theorem C123_ccorr_multi_complex_partial (flags : Nat → Bool × Bool) (f1 f2 : Tensor (Cx ℝ)) (t1 t2 : Option (List Int)) (axis : Int)
    (levelSize : Nat) (norm : Option Int) (method : Option String) (period : Nat) (binning : Option Int) (nlevel : Option Int)
    (align contiguous : Bool) (divisor : Option Int) (r : Nat → ℚ) (ax : Nat) (hs : f2.shape = f1.shape)
    (hax : NamesAxis f1.shape.length axis ax) (hd : DivisorFits f1.shape ax divisor)
    (hfast : t1 = none → period * levelSize ≤ f1.shape.getD ax 0 + 1)
    (hlev : ∀ k, nlevel = some k → levelSize ≤ f1.shape.getD ax 0 / 2 ^ k.toNat) :
    ∃ al, PixelWiseMulti (frameShape f1.shape ax)
      (ccorrMultiComplexAny flags f1 f2 t1 t2 axis levelSize norm method period binning nlevel align contiguous divisor r) fun p =>
        ccorrMultiComplex (along f1 ax p) (along f2 ax p) t1 t2 levelSize norm method period binning nlevel al r :=
  ccorrMultiAnyBody_fits true (crossFits_ccorrComplex flags) f1 f2 t1 t2 axis levelSize norm method period binning nlevel align contiguous
    divisor r ax hs hax hd hfast hlev

/-- C123 for `acorr_multi`. -/
theorem C123_acorr_multi_partial (flags : Nat → Bool × Bool) (f : Tensor (Cx ℝ)) (t : Option (List Int)) (axis : Int)
    (levelSize : Nat) (norm : Option Int) (method : Option String) (period : Nat) (binning : Option Int) (nlevel : Option Int)
    (align contiguous : Bool) (divisor : Option Int) (r : Nat → ℚ) (ax : Nat)
    (hax : NamesAxis f.shape.length axis ax) (hd : DivisorFits f.shape ax divisor)
    (hfast : t = none → period * levelSize ≤ f.shape.getD ax 0 + 1)
    (hlev : ∀ k, nlevel = some k → levelSize ≤ f.shape.getD ax 0 / 2 ^ k.toNat) :
    ∃ al, PixelWiseMulti (frameShape f.shape ax)
      (acorrMultiAny flags f t axis levelSize norm method period binning nlevel align contiguous divisor r) fun p =>
        acorrMulti (along f ax p) t levelSize norm method period binning nlevel al r :=
  acorrMultiAnyBody_fits false (autoFnFits_acorr flags) f t axis levelSize norm method period binning nlevel align contiguous
    divisor r ax hax hd hfast hlev (by simp)

/-- C123 for `acorr_multi(complex = True)`.  The number of levels has to be given, and every level has to hold twice `level_size` samples: its
arrays are allocated for negative delays as well. -/
theorem C123_acorr_multi_complex_partial (flags : Nat → Bool × Bool) (f : Tensor (Cx ℝ)) (t : Option (List Int)) (axis : Int)
    (levelSize : Nat) (norm : Option Int) (method : Option String) (period : Nat) (binning : Option Int) (k : Nat)
    (align contiguous : Bool) (divisor : Option Int) (r : Nat → ℚ) (ax : Nat)
    (hax : NamesAxis f.shape.length axis ax) (hd : DivisorFits f.shape ax divisor)
    (hfast : t = none → period * levelSize ≤ f.shape.getD ax 0 + 1)
    (hlev : 2 * levelSize ≤ f.shape.getD ax 0 / 2 ^ k) :
    ∃ al, PixelWiseMulti (frameShape f.shape ax)
      (acorrMultiComplexAny flags f t axis levelSize norm method period binning (some k) align contiguous divisor r) fun p =>
        acorrMultiComplex (along f ax p) t levelSize norm method period binning (some k) al r :=
  acorrMultiAnyBody_fits true (autoFnFits_acorrComplex flags) f t axis levelSize norm method period binning (some k) align contiguous
    divisor r ax hax hd hfast (fun k' h => by cases h; simpa using hlev) (by simp)

/-- C123 meets its hypotheses: 64 frames of 2 × 3 pixels along the first axis, sixteen samples per level, two levels; with and without a
divisor. -/
example : NamesAxis [64, 2, 3].length 0 0 ∧ DivisorFits [64, 2, 3] 0 none ∧ DivisorFits [64, 2, 3] 0 (some (3 : Nat)) ∧
    2 * 16 ≤ [64, 2, 3].getD 0 0 + 1 ∧ 16 ≤ [64, 2, 3].getD 0 0 / 2 ^ 2 :=
  ⟨⟨by simp, Or.inl rfl⟩, Or.inl ⟨rfl, by simp [frameShape]⟩, Or.inr ⟨3, by simp, rfl, by simp [frameShape], rfl, Or.inl rfl⟩, by simp,
    by simp⟩

/-- C123 meets its hypotheses along the last axis, named from the end. -/
example : NamesAxis [2, 3, 64].length (-1) 2 ∧ DivisorFits [2, 3, 64] 2 none ∧ DivisorFits [2, 3, 64] 2 (some (2 : Nat)) :=
  ⟨⟨by simp, Or.inr rfl⟩, Or.inl ⟨rfl, by simp [frameShape]⟩, Or.inr ⟨2, by simp, rfl, by simp [frameShape], rfl, Or.inr rfl⟩⟩

/-- C123 meets its hypotheses for one signal (no pixels axes) and for four-dimensional data along an inner axis. -/
example : NamesAxis [64].length 0 0 ∧ DivisorFits [64] 0 none ∧ NamesAxis [2, 64, 3, 5].length 1 1 ∧ DivisorFits [2, 64, 3, 5] 1 none :=
  ⟨⟨by simp, Or.inl rfl⟩, Or.inl ⟨rfl, by simp [frameShape]⟩, ⟨by simp, Or.inl rfl⟩, Or.inl ⟨rfl, by simp [frameShape]⟩⟩

/-- C123 for the complex autocorrelation: sixteen samples per level, 128 frames, two levels. -/
example : 2 * 16 ≤ [128, 2, 3].getD 0 0 / 2 ^ 2 := by simp

/-! ### Frames of one axis -/

/-- The extra axis of a frame of one axis. -/
theorem leadGives_one (P Q : Nat) : LeadGives [P] [1, Q] [1, P] := ⟨fun _ => rfl, fun _ _ => rfl⟩

theorem movedPixel_self {F p : List Nat} (hp : InShape p F) : movedPixel F F p = p := unravel_ravel hp

/-- C123 refuted for frames of one axis: the result has an extra axis of length one in front of that of the pixels. -/
theorem C123_one_axis_refuted (flags : Nat → Bool × Bool) (f1 f2 : Tensor (Cx ℝ)) (t1 t2 : Option (List Int))
    (levelSize : Nat) (norm : Option Int) (method : Option String) (period : Nat) (binning : Option Int) (nlevel : Option Int)
    (align contiguous : Bool) (r : Nat → ℚ) (N P : Nat) (h1 : f1.shape = [N, P]) (h2 : f2.shape = [N, P])
    (hfast : t1 = none → period * levelSize ≤ N + 1) (hlev : ∀ k, nlevel = some k → levelSize ≤ N / 2 ^ k.toNat) :
    ∃ al, PixelWiseMulti [1, P]
      (ccorrMultiAny flags f1 f2 t1 t2 0 levelSize norm method period binning nlevel align contiguous none r) fun p =>
        ccorrMulti (along f1 0 [p.getD 1 0]) (along f2 0 [p.getD 1 0]) t1 t2 levelSize norm method period binning nlevel al r := by
  have key : ∀ f : Tensor (Cx ℝ), f.shape = [N, P] → reshapeInAny f 0 none = .ok (⟨[N, 1, P], fun p =>
      f.get (unravel [N, P] (ravel [N, 1, P] p))⟩, [P]) := by
    intro f h
    have := reshapeIn_ok f (axis := 0) (ax := 0) (by rw [h]; exact ⟨by simp, Or.inl rfl⟩) none [1, P]
      (by rw [h]; exact threadFrameShape_force P) (by rw [h]; simp [frameShape])
    rw [h] at this
    exact this
  have sig : ∀ f : Tensor (Cx ℝ), ∀ p, InShape p [1, P] → along (⟨[N, 1, P], fun p => f.get (unravel [N, P] (ravel [N, 1, P] p))⟩ :
      Tensor (Cx ℝ)) 0 p = (List.range N).map fun i => f.get [i, p.getD 1 0] := by
    intro f p hp
    match p, hp with
    | [a, b], .cons ha (.cons hb .nil) =>
      have ha0 : a = 0 := by omega
      subst ha0
      unfold along
      apply List.map_congr_left
      intro i hi
      show f.get (unravel [N, P] (ravel [N, 1, P] [i, 0, b])) = f.get [i, b]
      have hi' : i < N := by simpa using hi
      have e : ravel [N, 1, P] [i, 0, b] = ravel [N, P] [i, b] := by simp [ravel]
      rw [e, unravel_ravel (.cons hi' (.cons hb .nil))]
  obtain ⟨al, hal⟩ := ccorrMultiAnyBody_pw (ax := 0) (G := [1, P]) false f1 f2 _ _ t1 t2 0 levelSize norm method period binning nlevel
    align contiguous none r (by rw [h1]; simp) (h2.trans h1.symm) (key f1 h1) (key f2 h2) rfl ⟨by simp, Or.inl rfl⟩
    (fun _ => crossFits_ccorr flags _ _ _) (leadGives_one P P) rfl hfast hlev
  refine ⟨al, pixelWiseMulti_congr hal fun p hp => ?_⟩
  have e : movedPixel [1, P] (frameShape [N, 1, P] 0) p = p := unravel_ravel hp
  have a : ∀ f : Tensor (Cx ℝ), f.shape = [N, P] → along f 0 [p.getD 1 0] = (List.range N).map fun i => f.get [i, p.getD 1 0] := by
    intro f h
    unfold along
    rw [h]
    rfl
  rw [e, sig f1 p hp, sig f2 p hp, a f1 h1, a f2 h2]
  rfl

/-- C123 refuted for frames of one axis where the computation axis is the last (`axis = 1`): the data are reshaped in C order with the new axis in
the wrong place, so that the samples of all pixels are mixed. -/
theorem C123_last_axis_refuted (flags : Nat → Bool × Bool) (f1 f2 : Tensor (Cx ℝ)) (t1 t2 : Option (List Int))
    (levelSize : Nat) (norm : Option Int) (method : Option String) (period : Nat) (binning : Option Int) (nlevel : Option Int)
    (align contiguous : Bool) (r : Nat → ℚ) (N P : Nat) (h1 : f1.shape = [P, N]) (h2 : f2.shape = [P, N])
    (hfast : t1 = none → period * levelSize ≤ N + 1) (hlev : ∀ k, nlevel = some k → levelSize ≤ N / 2 ^ k.toNat) :
    ∃ al, PixelWiseMulti [1, P]
      (ccorrMultiAny flags f1 f2 t1 t2 1 levelSize norm method period binning nlevel align contiguous none r) fun p =>
        ccorrMulti ((List.range N).map fun i => f1.get [(i * P + p.getD 1 0) / N, (i * P + p.getD 1 0) % N])
          ((List.range N).map fun i => f2.get [(i * P + p.getD 1 0) / N, (i * P + p.getD 1 0) % N])
          t1 t2 levelSize norm method period binning nlevel al r := by
  have key : ∀ f : Tensor (Cx ℝ), f.shape = [P, N] → reshapeInAny f 1 none = .ok (⟨[1, N, P], fun p =>
      f.get (unravel [P, N] (ravel [1, N, P] p))⟩, [P]) := by
    intro f h
    have := reshapeIn_ok f (axis := 1) (ax := 1) (by rw [h]; exact ⟨by simp, Or.inl rfl⟩) none [1, P]
      (by rw [h]; exact threadFrameShape_force P) (by rw [h]; simp [frameShape])
    rw [h] at this
    exact this
  have sig : ∀ f : Tensor (Cx ℝ), ∀ p, InShape p [1, P] → along (⟨[1, N, P], fun p => f.get (unravel [P, N] (ravel [1, N, P] p))⟩ :
      Tensor (Cx ℝ)) 1 p = (List.range N).map fun i => f.get [(i * P + p.getD 1 0) / N, (i * P + p.getD 1 0) % N] := by
    intro f p hp
    match p, hp with
    | [a, b], .cons ha (.cons hb .nil) =>
      have ha0 : a = 0 := by omega
      subst ha0
      unfold along
      apply List.map_congr_left
      intro i hi
      show f.get (unravel [P, N] (ravel [1, N, P] [0, i, b])) = f.get [(i * P + b) / N, (i * P + b) % N]
      simp [ravel, unravel]
  obtain ⟨al, hal⟩ := ccorrMultiAnyBody_pw (ax := 1) (G := [1, P]) false f1 f2 _ _ t1 t2 1 levelSize norm method period binning nlevel
    align contiguous none r (by rw [h1]; simp) (h2.trans h1.symm) (key f1 h1) (key f2 h2) rfl ⟨by simp, Or.inl rfl⟩
    (fun _ => crossFits_ccorr flags _ _ _) (leadGives_one P P) rfl hfast hlev
  refine ⟨al, pixelWiseMulti_congr hal fun p hp => ?_⟩
  have e : movedPixel [1, P] (frameShape [1, N, P] 1) p = p := unravel_ravel hp
  rw [e, sig f1 p hp, sig f2 p hp]
  rfl

/-- The signal `C123_last_axis_refuted` uses for pixel 0 of two pixels and four frames is not that of the pixel: it takes every second sample
of both pixels. -/
example (a b c d a' b' c' d' : Cx ℝ) :
    let f : Tensor (Cx ℝ) := ⟨[2, 4], fun p => ([[a, b, c, d], [a', b', c', d']].getD (p.getD 0 0) []).getD (p.getD 1 0) 0⟩
    along f 1 [0] = [a, b, c, d] ∧
      ((List.range 4).map fun i => f.get [(i * 2 + 0) / 4, (i * 2 + 0) % 4]) = [a, c, a', c'] := by
  exact ⟨rfl, rfl⟩

/-- The refutations meet their hypotheses: 64 frames of five pixels. -/
example : 2 * 16 ≤ 64 + 1 ∧ ∀ k : Int, (some 2 : Option Int) = some k → 16 ≤ 64 / 2 ^ k.toNat :=
  ⟨by simp, fun k h => by cases h; simp⟩

end Cddm
