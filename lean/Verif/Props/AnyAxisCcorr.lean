import Verif.Lemmas.CcorrAny
import Verif.Lemmas.AnyAxisBody
import Verif.Props.AnyAxis
import Verif.Props.Ccorr

/-!
# C117: the FFT functions, `ccorr` and `acorr` on arrays of any number of axes
-/

namespace Cddm
open Spec

/-! ### The FFT functions -/

/-- **C117.** `cross_correlate_fft` of arrays of any number of axes is, at each pixel, `cross_correlate_fft` of the signals of
that pixel. -/
theorem C117_cross_correlate_fft (f1 f2 : Tensor (Cx ℝ)) (t1 t2 : Option (List Int)) (axis : Int) (n : Option Nat)
    (aout : Option (Tensor ℝ)) (ax : Nat) (hs : f2.shape = f1.shape)
    (hax : NamesAxis f1.shape.length axis ax) (hfit : OutFits (frameShape f1.shape ax) aout) :
    PixelWise (frameShape f1.shape ax) (crossCorrelateFftAny f1 f2 t1 t2 axis n aout) fun p =>
      crossCorrelateFft (along f1 ax p) (along f2 ax p) t1 t2 n (outAt (frameShape f1.shape ax) aout p) :=
  crossFftAny_pixelWise crossCorrFftRegular_same crossCorrFft_same f1 f2 t1 t2 axis n false aout hs hax hfit

/-- C117 for the complex-valued correlation. -/
theorem C117_cross_correlate_complex_fft (f1 f2 : Tensor (Cx ℝ)) (t1 t2 : Option (List Int)) (axis : Int) (n : Option Nat)
    (aout : Option (Tensor (Cx ℝ))) (ax : Nat) (hs : f2.shape = f1.shape)
    (hax : NamesAxis f1.shape.length axis ax) (hfit : OutFits (frameShape f1.shape ax) aout) :
    PixelWise (frameShape f1.shape ax) (crossCorrelateComplexFftAny f1 f2 t1 t2 axis n aout) fun p =>
      crossCorrelateComplexFft (along f1 ax p) (along f2 ax p) t1 t2 n (outAt (frameShape f1.shape ax) aout p) :=
  crossFftAny_pixelWise crossCorrComplexFftRegular_same crossCorrComplexFft_same f1 f2 t1 t2 axis n true aout hs hax hfit

/-- C117 for `auto_correlate_fft`. -/
theorem C117_auto_correlate_fft (f : Tensor (Cx ℝ)) (t : Option (List Int)) (axis : Int) (n : Option Nat)
    (aout : Option (Tensor ℝ)) (ax : Nat)
    (hax : NamesAxis f.shape.length axis ax) (hfit : OutFits (frameShape f.shape ax) aout) :
    PixelWise (frameShape f.shape ax) (autoCorrelateFftAny f t axis n aout) fun p =>
      autoCorrelateFft (along f ax p) t n (outAt (frameShape f.shape ax) aout p) :=
  autoFftAny_pixelWise autoCorrFftRegular_same autoCorrFft_same f t axis n aout hax hfit

/-- C117 for the complex-valued `auto_correlate_fft`. -/
theorem C117_auto_correlate_complex_fft (f : Tensor (Cx ℝ)) (t : Option (List Int)) (axis : Int) (n : Option Nat)
    (aout : Option (Tensor (Cx ℝ))) (ax : Nat)
    (hax : NamesAxis f.shape.length axis ax) (hfit : OutFits (frameShape f.shape ax) aout) :
    PixelWise (frameShape f.shape ax) (autoCorrelateComplexFftAny f t axis n aout) fun p =>
      autoCorrelateComplexFft (along f ax p) t n (outAt (frameShape f.shape ax) aout p) :=
  autoFftAny_pixelWise autoCorrComplexFftRegular_same autoCorrComplexFft_same f t axis n aout hax hfit

/-- C117 for `cross_sum_fft` of real data. -/
theorem C117_cross_sum_fft (f : Tensor ℝ) (t tOther : Option (List Int)) (axis : Int) (n : Option Nat)
    (complex inv : Bool) (aout : Option (Tensor ℝ)) (ax : Nat)
    (hax : NamesAxis f.shape.length axis ax) (hfit : OutFits (frameShape f.shape ax) aout) :
    PixelWise (frameShape f.shape ax)
      (crossSumFftAny crossSumFftR crossSumComplexFftR f t tOther axis n complex inv aout) fun p =>
      crossSumFftApi crossSumFftR crossSumComplexFftR (along f ax p) t tOther n complex inv
        (outAt (frameShape f.shape ax) aout p) :=
  crossSumFftAny_pixelWise crossSumFftR_same crossSumComplexFftR_same f t tOther axis n complex inv aout hax hfit

/-- C117 for `cross_sum_fft` of complex data. -/
theorem C117_cross_sum_fft_complex (f : Tensor (Cx ℝ)) (t tOther : Option (List Int)) (axis : Int) (n : Option Nat)
    (complex inv : Bool) (aout : Option (Tensor (Cx ℝ))) (ax : Nat)
    (hax : NamesAxis f.shape.length axis ax) (hfit : OutFits (frameShape f.shape ax) aout) :
    PixelWise (frameShape f.shape ax)
      (crossSumFftAny crossSumFftC crossSumComplexFftC f t tOther axis n complex inv aout) fun p =>
      crossSumFftApi crossSumFftC crossSumComplexFftC (along f ax p) t tOther n complex inv
        (outAt (frameShape f.shape ax) aout p) :=
  crossSumFftAny_pixelWise crossSumFftC_same crossSumComplexFftC_same f t tOther axis n complex inv aout hax hfit

/-- C117 for `auto_sum_fft` of real data. -/
theorem C117_auto_sum_fft (f : Tensor ℝ) (t : Option (List Int)) (axis : Int) (n : Option Nat)
    (aout : Option (Tensor ℝ)) (ax : Nat)
    (hax : NamesAxis f.shape.length axis ax) (hfit : OutFits (frameShape f.shape ax) aout) :
    PixelWise (frameShape f.shape ax) (autoSumFftAny crossSumFftR f t axis n aout) fun p =>
      autoSumFftApi crossSumFftR (along f ax p) t n (outAt (frameShape f.shape ax) aout p) :=
  autoSumFftAny_pixelWise crossSumFftR_same f t axis n aout hax hfit

/-- C117 for `auto_sum_fft` of complex data. -/
theorem C117_auto_sum_fft_complex (f : Tensor (Cx ℝ)) (t : Option (List Int)) (axis : Int) (n : Option Nat)
    (aout : Option (Tensor (Cx ℝ))) (ax : Nat)
    (hax : NamesAxis f.shape.length axis ax) (hfit : OutFits (frameShape f.shape ax) aout) :
    PixelWise (frameShape f.shape ax) (autoSumFftAny crossSumFftC f t axis n aout) fun p =>
      autoSumFftApi crossSumFftC (along f ax p) t n (outAt (frameShape f.shape ax) aout p) :=
  autoSumFftAny_pixelWise crossSumFftC_same f t axis n aout hax hfit

/-! ### `ccorr` -/

/-- **C117.** `ccorr` of arrays of any number of axes is, at each pixel, `ccorr` of the signals of that pixel: the correlation, the
count, and the sums of the norm asked for. -/
theorem C117_ccorr (f1 f2 : Tensor (Cx ℝ)) (t1 t2 : Option (List Int)) (n : Option Nat) (norm : Option Int)
    (method : Option String) (align contiguous moved : Bool) (axis : Int) (f1s f2s : Option (Tensor ℝ))
    (aout : CorrAoutAny ℝ) (ax : Nat) (hs : f2.shape = f1.shape) (hax : NamesAxis f1.shape.length axis ax)
    (hfit : AoutFits (frameShape f1.shape ax) aout)
    (h1s : ∀ s, f1s = some s → s.shape = f1.shape) (h2s : ∀ s, f2s = some s → s.shape = f1.shape)
    (hlen : t1 = none → AoutNotTooLong (f1.shape.getD ax 0) false n aout) :
    ∃ aligned, PixelWiseTuple (frameShape f1.shape ax)
      (ccorrAny f1 f2 t1 t2 n norm method align contiguous moved axis f1s f2s aout) fun p =>
        ccorr (along f1 ax p) (along f2 ax p) t1 t2 n norm method aligned
          (f1s.map fun s => along s ax p) (f2s.map fun s => along s ax p) (aoutAt (frameShape f1.shape ax) aout p) :=
  ⟨_, ccorrAny_pixelWise f1 f2 t1 t2 n norm method align contiguous moved axis f1s f2s aout ax hs hax hfit h1s h2s hlen⟩

/-- C117 for `ccorr(complex = True)`. -/
theorem C117_ccorr_complex (f1 f2 : Tensor (Cx ℝ)) (t1 t2 : Option (List Int)) (n : Option Nat) (norm : Option Int)
    (method : Option String) (align contiguous moved : Bool) (axis : Int) (f1s f2s : Option (Tensor ℝ))
    (aout : CorrAoutAny (Cx ℝ)) (ax : Nat) (hs : f2.shape = f1.shape) (hax : NamesAxis f1.shape.length axis ax)
    (hfit : AoutFits (frameShape f1.shape ax) aout)
    (h1s : ∀ s, f1s = some s → s.shape = f1.shape) (h2s : ∀ s, f2s = some s → s.shape = f1.shape)
    (hlen : t1 = none → AoutNotTooLong (f1.shape.getD ax 0) true n aout) :
    ∃ aligned, PixelWiseTuple (frameShape f1.shape ax)
      (ccorrComplexAny f1 f2 t1 t2 n norm method align contiguous moved axis f1s f2s aout) fun p =>
        ccorrComplex (along f1 ax p) (along f2 ax p) t1 t2 n norm method aligned
          (f1s.map fun s => along s ax p) (f2s.map fun s => along s ax p) (aoutAt (frameShape f1.shape ax) aout p) :=
  ⟨_, ccorrComplexAny_pixelWise f1 f2 t1 t2 n norm method align contiguous moved axis f1s f2s aout ax hs hax hfit h1s h2s hlen⟩

/-! ### `acorr` -/

/-- **C117.** `acorr` of an array of any number of axes is, at each pixel, `acorr` of the signal of that pixel. -/
theorem C117_acorr (f : Tensor (Cx ℝ)) (t : Option (List Int)) (n : Option Nat) (norm : Option Int)
    (method : Option String) (align contiguous moved : Bool) (axis : Int) (fs : Option (Tensor ℝ))
    (aout : CorrAoutAny ℝ) (ax : Nat) (hax : NamesAxis f.shape.length axis ax)
    (hfit : AoutFits (frameShape f.shape ax) aout) (hfs : ∀ s, fs = some s → s.shape = f.shape)
    (hlen : t = none → AoutNotTooLong (f.shape.getD ax 0) false n aout) :
    ∃ aligned, PixelWiseTuple (frameShape f.shape ax)
      (acorrAny f t n norm method align contiguous moved axis fs aout) fun p =>
        acorr (along f ax p) t n norm method aligned
          (fs.map fun s => along s ax p) (aoutAt (frameShape f.shape ax) aout p) :=
  ⟨_, acorrAny_pixelWise f t n norm method align contiguous moved axis fs aout ax hax hfit hfs hlen⟩

/-- C117 for `acorr(complex = True)`. -/
theorem C117_acorr_complex (f : Tensor (Cx ℝ)) (t : Option (List Int)) (n : Option Nat) (norm : Option Int)
    (method : Option String) (align contiguous moved : Bool) (axis : Int) (fs : Option (Tensor ℝ))
    (aout : CorrAoutAny (Cx ℝ)) (ax : Nat) (hax : NamesAxis f.shape.length axis ax)
    (hfit : AoutFits (frameShape f.shape ax) aout) (hfs : ∀ s, fs = some s → s.shape = f.shape)
    (hlen : t = none → AoutNotTooLong (f.shape.getD ax 0) false n aout) :
    ∃ aligned, PixelWiseTuple (frameShape f.shape ax)
      (acorrComplexAny f t n norm method align contiguous moved axis fs aout) fun p =>
        acorrComplex (along f ax p) t n norm method aligned
          (fs.map fun s => along s ax p) (aoutAt (frameShape f.shape ax) aout p) :=
  ⟨_, acorrComplexAny_pixelWise f t n norm method align contiguous moved axis fs aout ax hax hfit hfs hlen⟩

/-! ### What the arrays hold -/

/-- C117: `ccorr` without arrays to add to holds, at each pixel and delay, the sums over the pairs of samples of that pixel: the
products or squared differences, the number of pairs, the sums of squares and of the samples if the norm asks for them. -/
theorem C117_ccorr_values (f1 f2 : Tensor (Cx ℝ)) (t1 t2 : Option (List Int)) (n : Option Nat) (norm : Option Int)
    (method : Option String) (align contiguous moved : Bool) (axis : Int) (ax : Nat) (hs : f2.shape = f1.shape)
    (hax : NamesAxis f1.shape.length axis ax) (p0 : List Nat) (hp0 : InShape p0 (frameShape f1.shape ax))
    (N : Nat) (hN : f1.shape.getD ax 0 = N) (m : String) (v : Int) (n' : Nat)
    (hm : m = effMethod method n) (hv : v = effNorm norm m true) (hn' : n' = n.getD (defaultN N t1 t2))
    (h : ¬ CcorrRefused false method norm n N N t1 t2) (hsafe : Manageable false m N N t1 t2 n' none none ({} : CorrAout ℝ))
    (hshort : t1 = none → ∀ k, n = some k → k ≤ N + 1) :
    ∃ r, ccorrAny f1 f2 t1 t2 n norm method align contiguous moved axis none none {} = .ok r ∧
      r.cor.shape = frameShape f1.shape ax ++ [n'] ∧
      ∀ p, InShape p (frameShape f1.shape ax) →
        (∀ k, k < n' → r.cor.get (p ++ [k]) = cellSum false (if m = "diff" then dist2 else reProd)
          (stream (along f1 ax p) t1) (stream (along f2 ax p) t2) n' k) ∧
        (∀ k, r.count[k]? = if k < n' then some (cellSum false (fun _ _ => 1)
          (stream (along f1 ax p) t1) (stream (along f2 ax p) t2) n' k) else none) ∧
        (WantsSquares v ∧ m ≠ "diff" → ∃ s, r.sq = some s ∧ s.shape = frameShape f1.shape ax ++ [n'] ∧
          ∀ k, k < n' → s.get (p ++ [k]) = cellSum false (fun a b => a + b)
            (stream ((along f1 ax p).map Cx.abs2) t1) (stream ((along f2 ax p).map Cx.abs2) t2) n' k) ∧
        (WantsSums v → ∃ s, r.ds1 = some s ∧ s.shape = frameShape f1.shape ax ++ [n'] ∧
          ∀ k, k < n' → s.get (p ++ [k]) = cellSum false (fun a _ => a)
            (stream (along f1 ax p) t1) (stream (along f2 ax p) t2) n' k) ∧
        (WantsSums v → ∃ s, r.ds2 = some s ∧ s.shape = frameShape f1.shape ax ++ [n'] ∧
          ∀ k, k < n' → s.get (p ++ [k]) = cellSum false (fun _ b => b)
            (stream (along f1 ax p) t1) (stream (along f2 ax p) t2) n' k) := by
  have hfit : AoutFits (frameShape f1.shape ax) ({} : CorrAoutAny ℝ) := by
    refine ⟨?_, ?_, ?_, ?_⟩ <;> intro o ho <;> simp at ho
  obtain ⟨al, hpw⟩ := C117_ccorr f1 f2 t1 t2 n norm method align contiguous moved axis none none {} ax hs hax hfit
    (by simp) (by simp) (fun e => ⟨by rw [hN]; exact hshort e, by simp, by simp, by simp, by simp⟩)
  have l1 : ∀ p, (along f1 ax p).length = N := fun p => by rw [along_length, hN]
  have l2 : ∀ p, (along f2 ax p).length = N := fun p => by rw [along_length, hs, hN]
  have hone : ∀ p, _ := fun p => C18_ccorr_fields (along f1 ax p) (along f2 ax p) t1 t2 n norm method al none none {} m v n'
    hm hv (by rw [hn', l1]; rfl) (by rw [l1, l2]; exact h) (by rw [l1, l2]; exact hsafe)
  unfold PixelWiseTuple at hpw
  rcases hres : ccorrAny f1 f2 t1 t2 n norm method align contiguous moved axis none none {} with e | r
  · rw [hres] at hpw
    obtain ⟨r, hr, -⟩ := hone p0
    have := hpw p0 hp0
    simp only [Option.map_none, aoutAt, outAt] at this
    rw [hr] at this
    cases this
  rw [hres] at hpw
  obtain ⟨q0, q1, q2, q3, hval⟩ := hpw
  -- an array of the result against its row
  have row : ∀ {M : Type} [AddCommMonoid M] (s : Tensor M) (δ : Nat → Nat → M) (p : List Nat),
      InShape p (frameShape f1.shape ax) → OutFits (frameShape f1.shape ax) (some s) →
      Added false n' none δ (along s (frameShape f1.shape ax).length p) →
      s.shape = frameShape f1.shape ax ++ [n'] ∧ ∀ k, k < n' → s.get (p ++ [k]) = δ n' k := by
    intro M _ s δ p hp hs' hadd
    obtain ⟨L, hL⟩ := hs' s rfl
    obtain ⟨ha, hb⟩ := hadd
    rw [along_length, hL, getD_end] at ha
    simp only [fieldLen, Bool.false_eq_true, if_false] at ha
    subst ha
    refine ⟨hL, fun k hk => ?_⟩
    have hlen : (along s (frameShape f1.shape ax).length p).length = L := by rw [along_length, hL, getD_end]
    have h2 : start (none : Option (List M)) k + δ (along s (frameShape f1.shape ax).length p).length k = δ L k := by
      rw [hlen]
      simp [start]
    rw [← h2, ← hb k (by rw [hlen]; exact hk)]
    have hpl := inShape_length hp
    simp only [along, List.getElem_map, List.getElem_range, ← hpl, List.take_length, List.drop_length]
  have same : ∀ p, InShape p (frameShape f1.shape ax) → ∀ r', ccorr (along f1 ax p) (along f2 ax p) t1 t2 n norm method al
      none none {} = .ok r' → r' = tupleAt (frameShape f1.shape ax) r p := by
    intro p hp r' hr'
    have e := hval p hp
    simp only [Option.map_none, aoutAt, outAt] at e
    rw [hr', Except.ok.injEq] at e
    exact e
  obtain ⟨r0, hr0, c0, -⟩ := hone p0
  rw [same p0 hp0 r0 hr0] at c0
  refine ⟨r, rfl, (row r.cor _ p0 hp0 q0 c0).1, fun p hp => ?_⟩
  obtain ⟨r', hr', g1, g2, g3, -, -, g4, g5, -⟩ := hone p
  have e := same p hp r' hr'
  subst e
  refine ⟨(row r.cor _ p hp q0 g1).2, ?_, ?_, ?_, ?_⟩
  · intro k
    obtain ⟨ha, hb⟩ := g2
    simp only [tupleAt, fieldLen, Bool.false_eq_true, if_false] at ha hb
    by_cases hk : k < n'
    · rw [if_pos hk, List.getElem?_eq_getElem (by rw [ha]; exact hk), hb k (by rw [ha]; exact hk), ha]
      simp [start]
    · rw [if_neg hk, List.getElem?_eq_none (by rw [ha]; omega)]
  · intro hw
    obtain ⟨s, e1, e2⟩ := g3 hw
    rcases hq : r.sq with _ | S
    · simp [tupleAt, hq, outAt] at e1
    · simp only [tupleAt, hq, outAt, Option.map_some, Option.some.injEq] at e1
      rw [← e1] at e2
      exact ⟨S, rfl, row S _ p hp (by rw [← hq]; exact q1) e2⟩
  · intro hw
    obtain ⟨s, e1, e2⟩ := g4 hw
    rcases hq : r.ds1 with _ | S
    · simp [tupleAt, hq, outAt] at e1
    · simp only [tupleAt, hq, outAt, Option.map_some, Option.some.injEq] at e1
      rw [← e1] at e2
      exact ⟨S, rfl, row S _ p hp (by rw [← hq]; exact q2) e2⟩
  · intro hw
    obtain ⟨s, e1, e2⟩ := g5 hw
    rcases hq : r.ds2 with _ | S
    · simp [tupleAt, hq, outAt] at e1
    · simp only [tupleAt, hq, outAt, Option.map_some, Option.some.injEq] at e1
      rw [← e1] at e2
      exact ⟨S, rfl, row S _ p hp (by rw [← hq]; exact q3) e2⟩

/-! ### Refused shapes -/

/-- C117: arrays of different shapes, or without axes, are refused, whatever else is asked for. -/
theorem C117_shapes_refused (f1 f2 : Tensor (Cx ℝ)) (t1 t2 : Option (List Int)) (n : Option Nat) (norm : Option Int)
    (method : Option String) (align contiguous moved : Bool) (axis : Int) (f1s f2s : Option (Tensor ℝ))
    (aout : CorrAoutAny ℝ) (aoutC : CorrAoutAny (Cx ℝ)) (h : f1.shape ≠ f2.shape ∨ f1.shape = []) :
    ccorrAny f1 f2 t1 t2 n norm method align contiguous moved axis f1s f2s aout = .error .valueError ∧
    ccorrComplexAny f1 f2 t1 t2 n norm method align contiguous moved axis f1s f2s aoutC = .error .valueError := by
  have key : ∀ {C : Type} (complex : Bool) (k1 k2 k3) (a : CorrAoutAny C),
      ccorrAnyBody complex k1 k2 k3 f1 f2 t1 t2 n norm method align contiguous axis f1s f2s a = .error .valueError := by
    intro C complex k1 k2 k3 a
    have h' : f1.shape = [] ∨ f1.shape ≠ f2.shape := h.symm
    have e1 : ∀ e, defaultMethod method n = .error e → e = .valueError := by
      intro e he
      unfold defaultMethod at he
      rcases method with _ | m
      · cases he
      · simp only at he
        split_ifs at he
        simpa using he.symm
    have e2 : ∀ meth e, defaultNorm norm meth true = .error e → e = .valueError := by
      intro meth e he
      unfold defaultNorm at he
      simp only at he
      split_ifs at he
      simpa using he.symm
    unfold ccorrAnyBody
    simp only [bind, Except.bind, if_pos h']
    rcases hm : defaultMethod method n with e | meth
    · simp only [e1 e hm]
    · simp only
      rcases hn : defaultNorm norm meth true with e | nrm
      · simp only [e2 meth e hn]
      · simp only
        split_ifs <;> rfl
  exact ⟨key _ _ _ _ _, key _ _ _ _ _⟩

/-! ### Examples -/

/-- Two rows of two pixels at three times; the axis of the times is the middle one. -/
noncomputable def exCcorr : Tensor (Cx ℝ) := ⟨[2, 3, 2], fun p => ⟨(p.getD 0 0 * 6 + p.getD 1 0 * 2 + p.getD 2 0 : Nat), 1⟩⟩

/-- Arrays to add to that fit. -/
noncomputable def exCcorrOut : CorrAoutAny ℝ :=
  { cor := some ⟨[2, 2, 4], fun _ => 5⟩, sq := some ⟨[2, 2, 2], fun p => (p.getD 2 0 : Nat)⟩ }

example : NamesAxis exCcorr.shape.length (-2) 1 := by simp [NamesAxis, exCcorr]
example : AoutFits (frameShape exCcorr.shape 1) exCcorrOut := by
  refine ⟨?_, ?_, ?_, ?_⟩ <;> intro o ho <;> simp only [exCcorrOut, Option.some.injEq, reduceCtorEq] at ho
  · exact ⟨4, by rw [← ho]; rfl⟩
  · exact ⟨2, by rw [← ho]; rfl⟩
example : AoutNotTooLong (exCcorr.shape.getD 1 0) false (some 4) exCcorrOut := by
  refine ⟨?_, ?_, ?_, ?_, ?_⟩ <;> intro o ho <;> simp only [exCcorrOut, Option.some.injEq, reduceCtorEq] at ho <;>
    rw [← ho] <;> simp [NotTooLong, exCcorr]
example : AoutNotTooLong (C := Cx ℝ) 3 true none { cor := some ⟨[2, 2, 7], fun _ => 0⟩ } := by
  refine ⟨?_, ?_, ?_, ?_, ?_⟩ <;> intro o ho <;> simp only [Option.some.injEq, reduceCtorEq] at ho
  rw [← ho]
  simp [NotTooLong]
/-- The conditions of the theorem on values: method, norm and number of delays by default, times given. -/
example : ∃ r, ccorrAny exCcorr exCcorr (some [4, 0, 1]) (some [1, 5, 2]) none none none false true true 1 none none {} = .ok r ∧
    r.cor.shape = [2, 2, 6] := by
  obtain ⟨r, h1, h2, -⟩ := C117_ccorr_values exCcorr exCcorr (some [4, 0, 1]) (some [1, 5, 2]) none none none false true
    true 1 1 rfl (by simp [NamesAxis, exCcorr]) [1, 0] (by simp [InShape, frameShape, exCcorr]) 3 rfl _ _ 6 rfl rfl
    (by decide) (by simp [CcorrRefused, effMethod, effNorm, SupportedNorm, ValidCross])
    (manageable_default false "fft" 3 (some [4, 0, 1]) (some [1, 5, 2]) (by decide)
      (by intro l h; rw [← Option.some.inj h]; decide) (by intro l h; rw [← Option.some.inj h]; decide)) (by simp)
  exact ⟨r, h1, h2⟩
example : exCcorr.shape ≠ (⟨[2, 3], fun _ => 0⟩ : Tensor (Cx ℝ)).shape := by simp [exCcorr]

end Cddm
