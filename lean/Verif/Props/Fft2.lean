import Verif.Lemmas.Fft2
import Verif.Props.Rfft2
import Verif.Props.Crop

/-!
# C75: Fourier transform of a video

The value at each wave vector is the Fourier component of the frame.  For frames of real numbers the libraries agree,
and the half-space data determine the full transform.  For complex frames `scipy` does not do what the others do.
-/

namespace Cddm
open Spec
open scoped BigOperators

/-- **C75, full space.**  The value at every wave vector is the Fourier component. -/
theorem C75_fft2 (x : Arr2 (Cx ℝ)) (hh : 0 < x.h) (hw : 0 < x.w) :
    ∃ r, npFft2 x = .ok r ∧ r.h = x.h ∧ r.w = x.w ∧
      ∀ a b : Int, r.get (wrap x.h a) (wrap x.w b) = fourierAt x a b := by
  refine ⟨_, npFft2_ok x hh hw, rfl, rfl, ?_⟩
  intro a b
  exact fourierAt_mod x hh hw (wrap_dvd' x.h a hh) (wrap_dvd' x.w b hw)

/-- Empty frames are refused. -/
theorem C75_fft2_empty (x : Arr2 (Cx ℝ)) (h : x.h = 0 ∨ x.w = 0) : npFft2 x = .error .valueError := by
  unfold npFft2
  rw [if_pos h]

/-- The transform is invertible. -/
theorem C75_inverse (x : Arr2 (Cx ℝ)) (hh : 0 < x.h) (hw : 0 < x.w) :
    ∃ y, (do let r ← npFft2 x; npIfft2 r) = .ok y ∧ SameArr y x := by
  rw [npFft2_ok x hh hw]
  exact ifft2_fourierAt x hh hw

theorem fourierAt_realPart (x : Arr2 (Cx ℝ)) (hx : RealFrame x) (a b : Int) :
    fourierAt (realPart x) a b = fourierAt x a b := by
  unfold fourierAt realPart
  dsimp only
  refine Finset.sum_congr rfl fun p hp => Finset.sum_congr rfl fun q hq => ?_
  rw [show (⟨(x.get p q).re, 0⟩ : Cx ℝ) = x.get p q from
    Cx.ext rfl (hx p q (Finset.mem_range.mp hp) (Finset.mem_range.mp hq)).symm]

/-- **C75, libraries.**  For frames of real numbers the result does not depend on the library. -/
theorem C75_libraries (x : Arr2 (Cx ℝ)) (hx : RealFrame x) (lib lib' : String) (h : lib ∈ fftLibs) (h' : lib' ∈ fftLibs) :
    npRfft2 lib x = npRfft2 lib' x := by
  have key : ∀ l ∈ fftLibs, npRfft2 l x = (do let y ← npFft2 x; .ok (asRfft2Data y)) := by
    intro l hl
    have hr : npFft2 (realPart x) = npFft2 x := by
      by_cases h0 : x.h = 0 ∨ x.w = 0
      · rw [C75_fft2_empty x h0, C75_fft2_empty _ (by exact h0)]
      · rw [npFft2_ok x (by omega) (by omega)]
        refine Eq.trans (npFft2_ok _ (by show 0 < x.h; omega) (by show 0 < x.w; omega)) ?_
        congr 2
        funext i j
        exact fourierAt_realPart x hx i j
    unfold npRfft2
    by_cases hs : l = "scipy"
    · rw [if_pos hs]
    · rw [if_neg hs, if_pos (by simp [fftLibs] at hl; tauto), hr]
  rw [key lib h, key lib' h']

theorem npRfft2_real (x : Arr2 (Cx ℝ)) (hx : RealFrame x) (lib : String) (h : lib ∈ fftLibs) (hh : 0 < x.h) (hw : 0 < x.w) :
    npRfft2 lib x = .ok (asRfft2Data ⟨x.h, x.w, fun (i j : Nat) => fourierAt x i j⟩) := by
  rw [C75_libraries x hx lib "scipy" h (by simp [fftLibs])]
  unfold npRfft2
  rw [if_pos rfl, npFft2_ok x hh hw]
  rfl

/-- A frame with an imaginary part: `scipy` transforms it, `numpy` discards the imaginary part. -/
theorem C75_complex_refuted : ∃ x : Arr2 (Cx ℝ), ∃ r r' : Arr2 (Cx ℝ), npRfft2 "scipy" x = .ok r ∧
    npRfft2 "numpy" x = .ok r' ∧ r.h = 1 ∧ r.w = 1 ∧ r.get 0 0 = ⟨0, 1⟩ ∧ r'.get 0 0 = 0 := by
  refine ⟨⟨1, 1, fun _ _ => ⟨0, 1⟩⟩, asRfft2Data ⟨1, 1, fun (i j : Nat) => fourierAt ⟨1, 1, fun _ _ => ⟨0, 1⟩⟩ i j⟩,
    asRfft2Data ⟨1, 1, fun (i j : Nat) => fourierAt (realPart ⟨1, 1, fun _ _ => ⟨0, 1⟩⟩) i j⟩, ?_, ?_, rfl, rfl, ?_, ?_⟩
  · unfold npRfft2
    rw [if_pos rfl, npFft2_ok _ (by simp) (by simp)]
    rfl
  · unfold npRfft2
    rw [if_neg (by decide), if_pos (by decide), npFft2_ok _ (by simp [realPart]) (by simp [realPart])]
    rfl
  · rw [(C49_as_rfft2_data _).2.2 0 0 (by simp) (by simp) (by simp)]
    ext <;> simp [fourierAt, planeWave]
  · rw [(C49_as_rfft2_data _).2.2 0 0 (by simp) (by simp) (by simp)]
    ext <;> simp [fourierAt, planeWave, realPart]

/-- The transform of a real frame: opposite wave vectors carry conjugate values. -/
theorem C75_hermitian (x : Arr2 (Cx ℝ)) (hx : RealFrame x) (a b : Int) :
    fourierAt x (-a) (-b) = (fourierAt x a b).conj := by
  unfold fourierAt
  have hs : ∀ (n : Nat) (f : Nat → Cx ℝ), (∑ p ∈ Finset.range n, f p).conj = ∑ p ∈ Finset.range n, (f p).conj := by
    intro n f
    induction n with
    | zero => simp
    | succ n ih => rw [Finset.sum_range_succ, Finset.sum_range_succ, Cx.conj_add, ih]
  rw [hs]
  refine Finset.sum_congr rfl fun p hp => ?_
  rw [hs]
  refine Finset.sum_congr rfl fun q hq => ?_
  have him := hx p q (Finset.mem_range.mp hp) (Finset.mem_range.mp hq)
  have e : 2 * Real.pi * (((-a : Int) : ℝ) * ((p : Int) : ℝ) / x.h + ((-b : Int) : ℝ) * ((q : Int) : ℝ) / x.w)
      = -(2 * Real.pi * ((a : ℝ) * ((p : Int) : ℝ) / x.h + (b : ℝ) * ((q : Int) : ℝ) / x.w)) := by push_cast; ring
  unfold planeWave
  rw [e, Real.cos_neg, Real.sin_neg]
  ext <;> simp [him]

/-- **C75, half space.**  From the half-space transform of a real frame, with any library, the full one is recovered. -/
theorem C75_recover (x : Arr2 (Cx ℝ)) (hx : RealFrame x) (lib : String) (h : lib ∈ fftLibs) (hh : 0 < x.h) (hw : 0 < x.w)
    (junk : Nat → Nat → Cx ℝ) :
    ∃ y f r, npRfft2 lib x = .ok y ∧ npFft2 x = .ok f ∧
      fromRfft2Data Cx.conj junk y (some (x.h, x.w)) = .ok r ∧ SameArr r f := by
  have hherm : Hermitian Cx.conj (⟨x.h, x.w, fun (i j : Nat) => fourierAt x i j⟩ : Arr2 (Cx ℝ)) := by
    intro i j hi hj
    dsimp only at hi hj ⊢
    rw [← C75_hermitian x hx]
    exact fourierAt_mod x hh hw (wrap_dvd' x.h _ hh) (wrap_dvd' x.w _ hw)
  obtain ⟨r, hr, hs⟩ := C49_round_trip Cx.conj junk ⟨x.h, x.w, fun (i j : Nat) => fourierAt x i j⟩ hh hw hherm
  exact ⟨_, _, r, npRfft2_real x hx lib h hh hw, npFft2_ok x hh hw, hr, hs⟩

/-- **C75, `rfft2_video`.**  Every frame is replaced by its Fourier components up to the cutoffs.  (`SignedCut` and
`HalfCut` describe the valid cutoffs; partial because the cutoff `kimax = 0` fails, see C50.) -/
theorem C75_rfft2_video_partial (lib : String) (hl : lib ∈ fftLibs) (junk : Nat → Nat → Cx ℝ) (kimax kjmax : Option Int)
    (video : List (List (Arr2 (Cx ℝ)))) (h w ki kj H W : Nat) (hh : 0 < h) (hw : 0 < w)
    (hv : ∀ fs ∈ video, ∀ x ∈ fs, x.h = h ∧ x.w = w ∧ RealFrame x)
    (hi : SignedCut h kimax ki H) (hj : HalfCut (w / 2 + 1) kjmax kj W) (hz : kimax = some 0 → h = 1) :
    ∃ out, rfft2Video lib junk kimax kjmax video = (out, none) ∧
      List.Forall₂ (List.Forall₂ fun x r => r.h = H ∧ r.w = W ∧
        ∀ (a : Int) (b : Nat), |a| ≤ (ki : Int) → b ≤ kj → r.get (wrap H a) b = fourierAt x a b) video out := by
  apply mapVideo_ok
  intro fs hfs x hx
  obtain ⟨rfl, rfl, hre⟩ := hv fs hfs x hx
  unfold rfft2Frame
  rw [npRfft2_real x hre lib hl hh hw]
  simp only [bind, Except.bind]
  obtain ⟨d1, d2, d3⟩ := C49_as_rfft2_data (⟨x.h, x.w, fun (i j : Nat) => fourierAt x i j⟩ : Arr2 (Cx ℝ))
  dsimp only at d1 d2 d3
  by_cases hw1 : x.w = 1
  · have hj' : HalfCut (asRfft2Data (⟨x.h, x.w, fun (i j : Nat) => fourierAt x i j⟩ : Arr2 (Cx ℝ))).w kjmax kj W := by
      rw [d2, hw1]; simpa [hw1] using hj
    obtain ⟨r, hr, r1, r2, r3, -⟩ := C50_rfft2_crop_partial junk
      (asRfft2Data (⟨x.h, x.w, fun (i j : Nat) => fourierAt x i j⟩ : Arr2 (Cx ℝ))) kimax kjmax ki kj H W
      (by rw [d1]; omega) (by rw [d1]; exact hi) hj' (by rw [d1]; exact hz)
    refine ⟨r, hr, r1, r2, ?_⟩
    intro a b ha hb
    have hkj : kj ≤ x.w / 2 := by rcases hj with ⟨-, h1, -⟩ | ⟨-, h1, -⟩ <;> omega
    rw [r3 a b ha hb, d1, d3 _ _ (wrap_lt hh a) (by omega) (by omega)]
    exact fourierAt_mod x hh hw (wrap_dvd' x.h a hh) (by simp)
  · have hmin : min (x.w / 2 + 1) x.w = x.w / 2 + 1 := by omega
    obtain ⟨r, hr, r1, r2, r3, -⟩ := C50_rfft2_crop_partial junk
      (asRfft2Data (⟨x.h, x.w, fun (i j : Nat) => fourierAt x i j⟩ : Arr2 (Cx ℝ))) kimax kjmax ki kj H W
      (by rw [d1]; omega) (by rw [d1]; exact hi) (by rw [d2, hmin]; exact hj) (by rw [d1]; exact hz)
    refine ⟨r, hr, r1, r2, ?_⟩
    intro a b ha hb
    have hkj : kj ≤ x.w / 2 := by rcases hj with ⟨-, h1, -⟩ | ⟨-, h1, -⟩ <;> omega
    rw [r3 a b ha hb, d1, d3 _ _ (wrap_lt hh a) (by omega) (by omega)]
    exact fourierAt_mod x hh hw (wrap_dvd' x.h a hh) (by simp)

/-- **C75, `fft2_video`.**  (Partial because cutoffs 0 fail, see C50.) -/
theorem C75_fft2_video_partial (junk : Nat → Nat → Cx ℝ) (kimax kjmax : Option Int)
    (video : List (List (Arr2 (Cx ℝ)))) (h w ki kj H W : Nat) (hh : 0 < h) (hw : 0 < w)
    (hv : ∀ fs ∈ video, ∀ x ∈ fs, x.h = h ∧ x.w = w)
    (hi : SignedCut h kimax ki H) (hj : SignedCut w kjmax kj W) (hzi : kimax = some 0 → h = 1)
    (hzj : kjmax = some 0 → w = 1) :
    ∃ out, fft2Video junk kimax kjmax video = (out, none) ∧
      List.Forall₂ (List.Forall₂ fun x r => r.h = H ∧ r.w = W ∧
        ∀ a b : Int, |a| ≤ (ki : Int) → |b| ≤ (kj : Int) → r.get (wrap H a) (wrap W b) = fourierAt x a b) video out := by
  apply mapVideo_ok
  intro fs hfs x hx
  obtain ⟨rfl, rfl⟩ := hv fs hfs x hx
  unfold fft2Frame
  rw [npFft2_ok x hh hw]
  simp only [bind, Except.bind]
  obtain ⟨r, hr, r1, r2, r3, -⟩ := C50_fft2_crop_partial junk
    (⟨x.h, x.w, fun (i j : Nat) => fourierAt x i j⟩ : Arr2 (Cx ℝ)) kimax kjmax ki kj H W hh hw hi hj hzi hzj
  refine ⟨r, hr, r1, r2, ?_⟩
  intro a b ha hb
  rw [r3 a b ha hb]
  exact fourierAt_mod x hh hw (wrap_dvd' x.h a hh) (wrap_dvd' x.w b hw)

/-- The generator delivers the multi-frames before the first one with a frame that fails. -/
theorem C75_failure {F G : Type} (f : F → Py G) (good : List (List F)) (fs rest : List F) (x : F) (later : List (List F))
    (e : PyErr) (h1 : ∀ gs ∈ good, ∀ y ∈ gs, ∃ r, f y = .ok r) (h2 : ∀ y ∈ fs, ∃ r, f y = .ok r) (hx : f x = .error e) :
    ∃ out, mapVideo f (good ++ (fs ++ x :: rest) :: later) = (out, some e) ∧ out.length = good.length := by
  induction good with
  | nil =>
    refine ⟨[], ?_, rfl⟩
    have : (fs ++ x :: rest).mapM f = .error e := by
      induction fs with
      | nil => rw [List.nil_append, List.mapM_cons, hx]; rfl
      | cons y ys ih =>
        obtain ⟨r, hr⟩ := h2 y (by simp)
        rw [List.cons_append, List.mapM_cons, hr, ih (fun z hz => h2 z (by simp [hz]))]
        rfl
    rw [List.nil_append]
    unfold mapVideo
    rw [this]
  | cons gs good ih =>
    obtain ⟨out, ho, hl⟩ := ih (fun g hg => h1 g (by simp [hg]))
    obtain ⟨row, hr, -⟩ := mapVideo_ok f (fun _ _ => True) [gs] (fun g hg y hy => by
      obtain ⟨r, hr⟩ := h1 g (by simp at hg; simp [hg]) y hy
      exact ⟨r, hr, trivial⟩)
    have hm : ∃ gs', gs.mapM f = .ok gs' := by
      cases hgs : gs.mapM f with
      | ok v => exact ⟨v, rfl⟩
      | error e' => simp [mapVideo, hgs] at hr
    obtain ⟨gs', hgs'⟩ := hm
    refine ⟨gs' :: out, ?_, by simp [hl]⟩
    rw [List.cons_append]
    unfold mapVideo
    rw [hgs']
    dsimp only
    rw [ho]

/-- Frames 2 × 3 with `kimax = 1`, `kjmax = 1`: the hypotheses are met. -/
example : SignedCut 2 (some 1) 1 3 ∧ HalfCut (3 / 2 + 1) (some 1) 1 2 ∧
    RealFrame ⟨2, 3, fun p q => ⟨(p : ℝ) + q, 0⟩⟩ := by
  refine ⟨.inr ⟨rfl, by omega, rfl⟩, .inr ⟨rfl, by omega, rfl⟩, ?_⟩
  intro p q _ _
  rfl

/-- The component at `(0, 0)` is the sum of the pixels: 0 + 1 + 2 + 1 + 2 + 3. -/
example : fourierAt ⟨2, 3, fun p q => ⟨(p : ℝ) + q, 0⟩⟩ 0 0 = ⟨9, 0⟩ := by
  ext <;> simp [fourierAt, planeWave, Finset.sum_range_succ]
  norm_num

end Cddm
