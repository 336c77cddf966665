import Verif.Props.Fft2

/-!
# C77: DLS-like imaging

`dls` computes the convolution with the window times a plane wave.  With a wide window, the component that passes is that
of the wave vector opposite to `kvec` (for frames of real numbers: the conjugate of the component at `kvec`).
-/

namespace Cddm
open Spec
open scoped BigOperators

theorem convolveFft_eq (junk : Nat → Nat → Cx ℝ) (frame kim : Arr2 (Cx ℝ)) (hh : 0 < frame.h) (hw : 0 < frame.w)
    (h1 : kim.h = frame.h) (h2 : kim.w = frame.w) (kimax kjmax : Option Int) (K L H W : Nat)
    (hi : SignedCut frame.h kimax K H) (hj : SignedCut frame.w kjmax L W) (hzi : kimax = some 0 → frame.h = 1)
    (hzj : kjmax = some 0 → frame.w = 1) :
    ∃ r, convolveFft junk frame ⟨frame.h, frame.w, fun (i j : Nat) => fourierAt kim i j⟩ kimax kjmax = .ok r ∧
      r.h = H ∧ r.w = W ∧ ∀ a b : Int, |a| ≤ (K : Int) → |b| ≤ (L : Int) →
        fourierAt r a b = fourierAt frame a b * fourierAt kim a b := by
  unfold convolveFft
  rw [npFft2_ok frame hh hw]
  obtain ⟨m, hm, m1, m2, m3⟩ := npMul2_same (h := frame.h) (w := frame.w) (fun (i j : Nat) => fourierAt frame i j)
    (fun (i j : Nat) => fourierAt kim i j)
  simp only [bind, Except.bind]
  rw [hm]
  dsimp only at m1 m2 m3 ⊢
  obtain ⟨r, hr, r1, r2, r3, -⟩ := C50_fft2_crop_partial junk m kimax kjmax K L H W (by omega) (by omega)
    (by rw [m1]; exact hi) (by rw [m2]; exact hj) (by rw [m1]; exact hzi) (by rw [m2]; exact hzj)
  rw [hr]
  dsimp only
  have hH : 0 < H := by rcases hi with ⟨-, -, h⟩ | ⟨-, -, h⟩ <;> omega
  have hW : 0 < W := by rcases hj with ⟨-, -, h⟩ | ⟨-, -, h⟩ <;> omega
  have ho := npIfft2_ok r (by omega) (by omega)
  refine ⟨_, ho, r1, r2, ?_⟩
  intro a b ha hb
  obtain ⟨-, -, hf⟩ := fourierAt_ifft2 r _ (by omega) (by omega) ho a b
  rw [hf, r1, r2, r3 a b ha hb, m1, m2, m3 _ _ (by rw [m1]; exact wrap_lt hh a) (by rw [m2]; exact wrap_lt hw b)]
  congr 1
  · exact fourierAt_mod frame hh hw (wrap_dvd' _ a hh) (wrap_dvd' _ b hw)
  · exact fourierAt_mod kim (by omega) (by omega) (by rw [h1]; exact wrap_dvd' _ a hh) (by rw [h2]; exact wrap_dvd' _ b hw)

/-- **C77, spectrum.**  The Fourier components of the result, up to the cutoffs, are those of the frame times those of
the window moved by `kvec`.  (Partial because cutoffs 0 fail, see C50.) -/
theorem C77_spectrum_partial (junk : Nat → Nat → Cx ℝ) (frame window : Arr2 (Cx ℝ)) (h1 : window.h = frame.h)
    (h2 : window.w = frame.w) (ki kj : Int) (hki : -(frame.h : Int) ≤ ki ∧ ki < frame.h)
    (hkj : -(frame.w : Int) ≤ kj ∧ kj < frame.w) (kimax kjmax : Option Int) (K L H W : Nat)
    (hi : SignedCut frame.h kimax K H) (hj : SignedCut frame.w kjmax L W) (hzi : kimax = some 0 → frame.h = 1)
    (hzj : kjmax = some 0 → frame.w = 1) :
    ∃ r, dls junk frame window [ki, kj] kimax kjmax = .ok r ∧ r.h = H ∧ r.w = W ∧
      ∀ a b : Int, |a| ≤ (K : Int) → |b| ≤ (L : Int) →
        fourierAt r a b = fourierAt frame a b * fourierAt window (a + ki) (b + kj) := by
  obtain ⟨r, hr, r1, r2, r3⟩ := convolveFft_eq junk frame (kernelImage window ki kj) (by omega) (by omega) h1 h2
    kimax kjmax K L H W hi hj hzi hzj
  have hk := buildKernel_ok window ki kj (by rw [h1]; exact hki) (by rw [h2]; exact hkj)
  rw [h1, h2] at hk
  refine ⟨r, ?_, r1, r2, ?_⟩
  · unfold dls
    simp only [bind, Except.bind] at hk ⊢
    cases hkf : buildKf window [ki, kj] with
    | error e => rw [hkf] at hk; cases hk
    | ok kf =>
      rw [hkf] at hk
      dsimp only at hk ⊢
      rw [hk]
      exact hr
  · intro a b ha hb
    rw [r3 a b ha hb, fourierAt_kernelImage]

theorem sameArr_of_fourier (x y : Arr2 (Cx ℝ)) (hh : 0 < x.h) (hw : 0 < x.w) (h1 : y.h = x.h) (h2 : y.w = x.w)
    (h : ∀ a b : Nat, a < x.h → b < x.w → fourierAt y a b = fourierAt x a b) : SameArr y x := by
  obtain ⟨u, hu, u1, u2, u3⟩ := ifft2_fourierAt x hh hw
  obtain ⟨v, hv, v1, v2, v3⟩ := ifft2_fourierAt y (by omega) (by omega)
  have hs : SameArr (⟨y.h, y.w, fun (i j : Nat) => fourierAt y i j⟩ : Arr2 (Cx ℝ))
      ⟨x.h, x.w, fun (i j : Nat) => fourierAt x i j⟩ :=
    ⟨h1, h2, fun i j hi hj => h i j (by dsimp only at hi; omega) (by dsimp only at hj; omega)⟩
  rw [npIfft2_congr hs, hu] at hv
  cases hv
  refine ⟨h1, h2, ?_⟩
  intro i j hi hj
  rw [← v3 i j (by omega) (by omega), u3 i j (by omega) (by omega)]

/-- **C77.**  Without cutoffs the result is the frame convolved with the window times the plane wave. -/
theorem C77_dls (junk : Nat → Nat → Cx ℝ) (frame window : Arr2 (Cx ℝ)) (h1 : window.h = frame.h)
    (h2 : window.w = frame.w) (ki kj : Int) (hki : -(frame.h : Int) ≤ ki ∧ ki < frame.h)
    (hkj : -(frame.w : Int) ≤ kj ∧ kj < frame.w) :
    ∃ r, dls junk frame window [ki, kj] none none = .ok r ∧ r.h = frame.h ∧ r.w = frame.w ∧
      ∀ p q : Nat, p < frame.h → q < frame.w → r.get p q = dlsImage frame window ki kj p q := by
  have hh : 0 < frame.h := by omega
  have hw : 0 < frame.w := by omega
  obtain ⟨r, hr, r1, r2, r3⟩ := C77_spectrum_partial junk frame window h1 h2 ki kj hki hkj none none
    (frame.h / 2) (frame.w / 2) frame.h frame.w (.inl ⟨rfl, rfl, rfl⟩) (.inl ⟨rfl, rfl, rfl⟩) (by simp) (by simp)
  refine ⟨r, hr, r1, r2, ?_⟩
  have hsame : SameArr r (cconv frame (kernelImage window ki kj)) := by
    apply sameArr_of_fourier (cconv frame (kernelImage window ki kj)) r hh hw r1 r2
    intro a b ha hb
    change a < frame.h at ha
    change b < frame.w at hb
    rw [fourierAt_cconv frame (kernelImage window ki kj) hh hw h1 h2, fourierAt_kernelImage]
    obtain ⟨a', ha', hda⟩ : ∃ a' : Int, |a'| ≤ ((frame.h / 2 : Nat) : Int) ∧ (frame.h : Int) ∣ (a : Int) - a' := by
      by_cases hc : a ≤ frame.h / 2
      · exact ⟨a, by rw [abs_le]; omega, by simp⟩
      · exact ⟨(a : Int) - frame.h, by rw [abs_le]; omega, ⟨1, by ring⟩⟩
    obtain ⟨b', hb', hdb⟩ : ∃ b' : Int, |b'| ≤ ((frame.w / 2 : Nat) : Int) ∧ (frame.w : Int) ∣ (b : Int) - b' := by
      by_cases hc : b ≤ frame.w / 2
      · exact ⟨b, by rw [abs_le]; omega, by simp⟩
      · exact ⟨(b : Int) - frame.w, by rw [abs_le]; omega, ⟨1, by ring⟩⟩
    rw [fourierAt_mod r (by omega) (by omega) (by rw [r1]; exact hda) (by rw [r2]; exact hdb), r3 a' b' ha' hb',
      fourierAt_mod frame hh hw hda hdb,
      fourierAt_mod window (a := (a : Int) + ki) (a' := a' + ki) (b := (b : Int) + kj) (b' := b' + kj)
        (by omega) (by omega) (by rw [h1]; simpa using hda) (by rw [h2]; simpa using hdb)]
  intro p q hp hq
  rw [hsame.2.2 p q (by omega) (by omega)]
  unfold cconv dlsImage kernelImage
  dsimp only
  refine Finset.sum_congr rfl fun p' _ => Finset.sum_congr rfl fun q' _ => ?_
  rw [h1, h2, planeWave_wrap _ _ hh hw]

/-- **C77, videos.**  `dls_video` does the same to every frame. -/
theorem C77_video (junk : Nat → Nat → Cx ℝ) (video : List (List (Arr2 (Cx ℝ)))) (window : Arr2 (Cx ℝ))
    (hv : ∀ fs ∈ video, ∀ x ∈ fs, x.h = window.h ∧ x.w = window.w)
    (ki kj : Int) (hki : -(window.h : Int) ≤ ki ∧ ki < window.h) (hkj : -(window.w : Int) ≤ kj ∧ kj < window.w) :
    ∃ out, dlsVideo junk video window [ki, kj] none none = (out, none) ∧
      List.Forall₂ (List.Forall₂ fun x r => r.h = x.h ∧ r.w = x.w ∧
        ∀ p q : Nat, p < x.h → q < x.w → r.get p q = dlsImage x window ki kj p q) video out := by
  unfold dlsVideo
  have hk := buildKernel_ok window ki kj hki hkj
  rw [hk]
  dsimp only
  apply mapVideo_ok
  intro fs hfs x hx
  obtain ⟨g1, g2⟩ := hv fs hfs x hx
  obtain ⟨r, hr, r1, r2, r3⟩ := C77_dls junk x window g1.symm g2.symm ki kj (by rw [g1]; exact hki) (by rw [g2]; exact hkj)
  refine ⟨r, ?_, r1, r2, r3⟩
  unfold dls at hr
  simp only [bind, Except.bind] at hk hr
  cases hkf : buildKf window [ki, kj] with
  | error e => rw [hkf] at hk; cases hk
  | ok kf =>
    rw [hkf] at hk hr
    dsimp only at hk hr
    rw [hk] at hr
    exact hr

/-- Wave vectors with a number of entries other than two, or outside the frame, are refused. -/
theorem C77_rejects (junk : Nat → Nat → Cx ℝ) (frame window : Arr2 (Cx ℝ)) (kimax kjmax : Option Int) :
    (∀ kvec : List Int, kvec.length ≠ 2 → dls junk frame window kvec kimax kjmax = .error .valueError) ∧
    (∀ ki kj : Int, (ki < -(window.h : Int) ∨ (window.h : Int) ≤ ki ∨ kj < -(window.w : Int) ∨ (window.w : Int) ≤ kj) →
      dls junk frame window [ki, kj] kimax kjmax = .error .indexError) := by
  constructor
  · intro kvec h
    unfold dls buildKf
    match kvec with
    | [] => rfl
    | [_] => rfl
    | [_, _] => exact absurd rfl h
    | _ :: _ :: _ :: _ => rfl
  · intro ki kj h
    unfold dls buildKf
    dsimp only
    by_cases hi : ki < -(window.h : Int) ∨ (window.h : Int) ≤ ki
    · rw [resolveIdx_none hi]
      rfl
    · rw [resolveIdx_none (n := window.w) (k := kj) (by omega)]
      cases resolveIdx window.h ki <;> rfl

/-- **C77, wide window.**  With a window of ones the result is a single Fourier component of the frame, times a plane
wave: that of the wave vector opposite to `kvec`. -/
theorem C77_uniform (junk : Nat → Nat → Cx ℝ) (frame : Arr2 (Cx ℝ)) (ki kj : Int)
    (hki : -(frame.h : Int) ≤ ki ∧ ki < frame.h) (hkj : -(frame.w : Int) ≤ kj ∧ kj < frame.w) :
    ∃ r, dls junk frame ⟨frame.h, frame.w, fun _ _ => 1⟩ [ki, kj] none none = .ok r ∧
      ∀ p q : Nat, p < frame.h → q < frame.w →
        r.get p q = fourierAt frame (-ki) (-kj) * planeWave frame.h frame.w ki kj p q := by
  obtain ⟨r, hr, r1, r2, r3⟩ := C77_dls junk frame ⟨frame.h, frame.w, fun _ _ => 1⟩ rfl rfl ki kj hki hkj
  refine ⟨r, hr, ?_⟩
  intro p q hp hq
  rw [r3 p q hp hq]
  unfold dlsImage fourierAt
  rw [Finset.sum_mul]
  refine Finset.sum_congr rfl fun p' _ => ?_
  rw [Finset.sum_mul]
  refine Finset.sum_congr rfl fun q' _ => ?_
  dsimp only
  rw [one_mul, planeWave_eq, planeWave_eq, planeWave_eq, mul_assoc]
  congr 1
  rw [show -(((p : Int) - p') * ki) = -((p' : Int) * -ki) + -((p : Int) * ki) by ring,
    show -(((q : Int) - q') * kj) = -((q' : Int) * -kj) + -((q : Int) * kj) by ring, twiddle_add, twiddle_add]
  ring

/-- The light of the wave vector `kvec` itself does not pass: the plane wave with that wave vector gives zero. -/
theorem C77_opposite_refuted (junk : Nat → Nat → Cx ℝ) (h w : Nat) (ki kj : Int) (hki : -(h : Int) ≤ ki ∧ ki < h)
    (hkj : -(w : Int) ≤ kj ∧ kj < w) (h2 : ¬ (h : Int) ∣ 2 * ki) :
    ∃ r, dls junk ⟨h, w, fun (p q : Nat) => (planeWave h w ki kj p q).conj⟩ ⟨h, w, fun _ _ => 1⟩ [ki, kj] none none = .ok r ∧
      ∀ p q : Nat, p < h → q < w → r.get p q = 0 := by
  obtain ⟨r, hr, r1⟩ := C77_uniform junk ⟨h, w, fun (p q : Nat) => (planeWave h w ki kj p q).conj⟩ ki kj hki hkj
  refine ⟨r, hr, ?_⟩
  intro p q hp hq
  rw [r1 p q hp hq]
  have hz : fourierAt ⟨h, w, fun (p q : Nat) => (planeWave h w ki kj p q).conj⟩ (-ki) (-kj) = 0 := by
    rw [fourierAt_eq]
    dsimp only
    have e : ∀ p ∈ Finset.range h, ∀ q ∈ Finset.range w, twiddle h (-((p : Int) * -ki)) *
        (twiddle w (-((q : Int) * -kj)) * (planeWave h w ki kj p q).conj)
        = twiddle h ((2 * ki) * p) * twiddle w ((2 * kj) * q) := by
      intro p _ q _
      rw [planeWave_eq, Cx.conj_mul, twiddle_conj, twiddle_conj, show 2 * ki * (p : Int) = -((p : Int) * -ki) + - -((p : Int) * ki) by ring,
        show 2 * kj * (q : Int) = -((q : Int) * -kj) + - -((q : Int) * kj) by ring, twiddle_add, twiddle_add]
      ring
    rw [Finset.sum_congr rfl fun p hp => Finset.sum_congr rfl (e p hp)]
    simp only [← Finset.mul_sum]
    rw [← Finset.sum_mul, twiddle_sum (by omega), if_neg h2, zero_mul]
  rw [hz, zero_mul]

/-- For real frames and windows opposite wave vectors give conjugate results, hence the same intensities. -/
theorem C77_real (frame window : Arr2 (Cx ℝ)) (hf : RealFrame frame) (h1 : window.h = frame.h) (h2 : window.w = frame.w)
    (hw : RealFrame window) (ki kj p q : Int) :
    dlsImage frame window (-ki) (-kj) p q = (dlsImage frame window ki kj p q).conj := by
  have hs : ∀ (n : Nat) (f : Nat → Cx ℝ), (∑ p ∈ Finset.range n, f p).conj = ∑ p ∈ Finset.range n, (f p).conj := by
    intro n f
    induction n with
    | zero => simp
    | succ n ih => rw [Finset.sum_range_succ, Finset.sum_range_succ, Cx.conj_add, ih]
  unfold dlsImage
  rw [hs]
  refine Finset.sum_congr rfl fun p' hp => ?_
  rw [hs]
  refine Finset.sum_congr rfl fun q' hq => ?_
  rw [Finset.mem_range] at hp hq
  have a1 := hf p' q' hp hq
  have a2 := hw (wrap frame.h (p - p')) (wrap frame.w (q - q')) (by rw [h1]; exact wrap_lt (by omega) _)
    (by rw [h2]; exact wrap_lt (by omega) _)
  have c1 : (frame.get p' q').conj = frame.get p' q' := Cx.ext rfl (by simp [a1])
  have c2 : (window.get (wrap frame.h (p - p')) (wrap frame.w (q - q'))).conj
      = window.get (wrap frame.h (p - p')) (wrap frame.w (q - q')) := Cx.ext rfl (by simp [a2])
  rw [Cx.conj_mul, Cx.conj_mul, c1, c2, planeWave_eq, planeWave_eq, Cx.conj_mul, twiddle_conj, twiddle_conj, mul_neg, mul_neg]

/-- Wave vector `(1, -1)` in frames 3 × 4; `3` does not divide `2`. -/
example : (-(3 : Nat) : Int) ≤ 1 ∧ (1 : Int) < (3 : Nat) ∧ (-(4 : Nat) : Int) ≤ -1 ∧ (-1 : Int) < (4 : Nat) ∧
    ¬ ((3 : Nat) : Int) ∣ 2 * 1 := by decide

end Cddm
