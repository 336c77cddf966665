import Verif.Lemmas.RoundingApi
import Verif.Lemmas.FlRound
import Mathlib.Algebra.Order.Ring.Pow

/-!
# C107, C108: rounding errors of the correlation and difference functions
-/

namespace Cddm
open Spec

section
variable {rnd : ℝ → ℝ} {u : ℝ}

theorem start_cell (aout : Option (List (Fl rnd))) (E k : Nat) (hu : 0 ≤ u) :
    Cell u E (start aout k) ((start aout k).val, |(start aout k).val|, 0) :=
  (Near.refl _).mono hu (Nat.zero_le _)

/-- **C107.** `cross_correlate` in floating-point arithmetic: entry `k` differs from the exact sum of `Re(conj(a) b)` over the pairs
of samples at time distance `k` by at most `(1+u)^(pairs+2) - 1` times the sum of the moduli of the products of components; `u`
is the error of one rounding. -/
theorem C107_cross_correlate (hr : Rounds rnd u) (f1 f2 : List (Cx (Fl rnd))) (t1 t2 : Option (List Int)) (n : Option Nat)
    (aligned : Bool) (aout : Option (List (Fl rnd))) (hv : ValidCross f1.length f2.length t1 t2)
    (hfast : t1 = none → aligned = true → outLen n aout f1.length ≤ f1.length + 1) :
    ∃ out, crossCorrelate f1 f2 t1 t2 n aligned aout = .ok out
      ∧ out.length = outLen n aout (defaultN f1.length t1 t2)
      ∧ ∀ k (hk : k < out.length),
        |out[k].val - ((start aout k).val + pairSum reProd (stream (f1.map exact) t1) (stream (f2.map exact) t2) k)|
          ≤ ((1 + u) ^ (pairSum one (stream (f1.map exact) t1) (stream (f2.map exact) t2) k + 2) - 1)
            * (|(start aout k).val| + pairSum absProd (stream (f1.map exact) t1) (stream (f2.map exact) t2) k) := by
  obtain ⟨out, h1, h2, h3⟩ := crossCorrelate_tracks (Q := Cell u 2) f1 f2 t1 t2 n aligned aout hv hfast
    (fun a b => (reProd (exact a) (exact b), absProd (exact a) (exact b), one (exact a) (exact b)))
    (fun a _ b _ => Cell.steps hr (termRe_near hr a b))
    (fun a _ b _ => by
      rw [reProd_comm', absProd_comm]
      exact Cell.steps hr (termRe_near hr b a))
    (fun k => ((start aout k).val, |(start aout k).val|, 0)) (fun k => start_cell aout 2 k hr.1)
  refine ⟨out, h1, h2, fun k hk => ?_⟩
  have h := (h3 k hk).2
  rw [pairSum_prod, pairSum_prod] at h
  simp only [stream_map_fl, pairSum_mapStream]
  simpa using h

/-- **C107.** ... `auto_correlate`. -/
theorem C107_auto_correlate (hr : Rounds rnd u) (f : List (Cx (Fl rnd))) (t : Option (List Int)) (n : Option Nat)
    (aligned : Bool) (aout : Option (List (Fl rnd))) (hv : ValidAuto f.length t) :
    ∃ out, autoCorrelate f t n aligned aout = .ok out ∧ out.length = outLen n aout (defaultN f.length t t)
      ∧ ∀ k (hk : k < out.length),
        |out[k].val - ((start aout k).val + selfSum reProd (stream (f.map exact) t) k)|
          ≤ ((1 + u) ^ (selfSum one (stream (f.map exact) t) k + 2) - 1)
            * (|(start aout k).val| + selfSum absProd (stream (f.map exact) t) k) := by
  obtain ⟨out, h1, h2, h3⟩ := autoCorrelate_tracks (Q := Cell u 2) f t n aligned aout hv
    (fun a b => (reProd (exact a) (exact b), absProd (exact a) (exact b), one (exact a) (exact b)))
    (fun a _ b _ => Cell.steps hr (termRe_near hr a b))
    (fun a _ b _ => by
      rw [reProd_comm', absProd_comm]
      exact Cell.steps hr (termRe_near hr b a))
    (fun k => ((start aout k).val, |(start aout k).val|, 0)) (fun k => start_cell aout 2 k hr.1)
  refine ⟨out, h1, h2, fun k hk => ?_⟩
  have h := (h3 k hk).2
  rw [selfSum_prod, selfSum_prod] at h
  simp only [stream_map_fl, selfSum_mapStream]
  simpa using h

/-- **C107.** `cross_difference`: the error is at most `(1+u)^(pairs+4) - 1` times the result itself (with the modulus of what
`aout` contained). -/
theorem C107_cross_difference (hr : Rounds rnd u) (f1 f2 : List (Cx (Fl rnd))) (t1 t2 : Option (List Int)) (n : Option Nat)
    (aligned : Bool) (aout : Option (List (Fl rnd))) (hv : ValidCross f1.length f2.length t1 t2)
    (hfast : t1 = none → aligned = true → outLen n aout f1.length ≤ f1.length + 1) :
    ∃ out, crossDifference f1 f2 t1 t2 n aligned aout = .ok out
      ∧ out.length = outLen n aout (defaultN f1.length t1 t2)
      ∧ ∀ k (hk : k < out.length),
        |out[k].val - ((start aout k).val + pairSum dist2 (stream (f1.map exact) t1) (stream (f2.map exact) t2) k)|
          ≤ ((1 + u) ^ (pairSum one (stream (f1.map exact) t1) (stream (f2.map exact) t2) k + 4) - 1)
            * (|(start aout k).val| + pairSum dist2 (stream (f1.map exact) t1) (stream (f2.map exact) t2) k) := by
  obtain ⟨out, h1, h2, h3⟩ := crossDifference_tracks (Q := Cell u 4) f1 f2 t1 t2 n aligned aout hv hfast
    (fun a b => (dist2 (exact a) (exact b), dist2 (exact a) (exact b), one (exact a) (exact b)))
    (fun a _ b _ => Cell.steps hr (termDiff_near hr a b))
    (fun k => ((start aout k).val, |(start aout k).val|, 0)) (fun k => start_cell aout 4 k hr.1)
  refine ⟨out, h1, h2, fun k hk => ?_⟩
  have h := (h3 k hk).2
  rw [pairSum_prod, pairSum_prod] at h
  simp only [stream_map_fl, pairSum_mapStream]
  simpa using h

/-- **C107.** ... `auto_difference`. -/
theorem C107_auto_difference (hr : Rounds rnd u) (f : List (Cx (Fl rnd))) (t : Option (List Int)) (n : Option Nat)
    (aligned : Bool) (aout : Option (List (Fl rnd))) (hv : ValidAuto f.length t) :
    ∃ out, autoDifference f t n aligned aout = .ok out ∧ out.length = outLen n aout (defaultN f.length t t)
      ∧ ∀ k (hk : k < out.length),
        |out[k].val - ((start aout k).val + selfSum dist2 (stream (f.map exact) t) k)|
          ≤ ((1 + u) ^ (selfSum one (stream (f.map exact) t) k + 4) - 1)
            * (|(start aout k).val| + selfSum dist2 (stream (f.map exact) t) k) := by
  obtain ⟨out, h1, h2, h3⟩ := autoDifference_tracks (Q := Cell u 4) f t n aligned aout hv
    (fun a b => (dist2 (exact a) (exact b), dist2 (exact a) (exact b), one (exact a) (exact b)))
    (fun a _ b _ => Cell.steps hr (termDiff_near hr a b))
    (fun k => ((start aout k).val, |(start aout k).val|, 0)) (fun k => start_cell aout 4 k hr.1)
  refine ⟨out, h1, h2, fun k hk => ?_⟩
  have h := (h3 k hk).2
  rw [selfSum_prod, selfSum_prod] at h
  simp only [stream_map_fl, selfSum_mapStream]
  simpa using h

theorem start_cxCell (aout : Option (List (Cx (Fl rnd)))) (k : Nat) (hu : 0 ≤ u) :
    CxCell u (start aout k) (((start aout k).re.val, |(start aout k).re.val|, 0),
      ((start aout k).im.val, |(start aout k).im.val|, 0)) :=
  ⟨(Near.refl _).mono hu (Nat.zero_le _), (Near.refl _).mono hu (Nat.zero_le _)⟩

/-- Real part of complex numbers, as a homomorphism. -/
def flReHom : Cx ℝ →+ ℝ where
  toFun z := z.re
  map_zero' := rfl
  map_add' _ _ := rfl

/-- Imaginary part of complex numbers, as a homomorphism. -/
def flImHom : Cx ℝ →+ ℝ where
  toFun z := z.im
  map_zero' := rfl
  map_add' _ _ := rfl

/-- **C107.** `cross_correlate(complex=True)`: the same for the real and the imaginary part of every signed delay. -/
theorem C107_cross_correlate_complex (hr : Rounds rnd u) (f1 f2 : List (Cx (Fl rnd))) (t1 t2 : Option (List Int))
    (n : Nat) (hn : 1 ≤ n) (aligned : Bool) (aout : Option (List (Cx (Fl rnd))))
    (haout : ∀ o, aout = some o → o.length = 2 * n - 1) (hv : ValidCross f1.length f2.length t1 t2)
    (hfast : t1 = none → aligned = true → n ≤ f1.length + 1) :
    ∃ out, crossCorrelateComplex f1 f2 t1 t2 (some n) aligned aout = .ok out
      ∧ out.length = 2 * n - 1
      ∧ ∀ d : Int, |d| < n →
          ∃ k z, pyIdx out.length d = some k ∧ pyGet out d = some z
            ∧ |z.re.val - ((start aout k).re.val
                + (pairSumAt cxProd (stream (f1.map exact) t1) (stream (f2.map exact) t2) d).re)|
              ≤ ((1 + u) ^ (pairSumAt one (stream (f1.map exact) t1) (stream (f2.map exact) t2) d + 2) - 1)
                * (|(start aout k).re.val| + pairSumAt absProd (stream (f1.map exact) t1) (stream (f2.map exact) t2) d)
            ∧ |z.im.val - ((start aout k).im.val
                + (pairSumAt cxProd (stream (f1.map exact) t1) (stream (f2.map exact) t2) d).im)|
              ≤ ((1 + u) ^ (pairSumAt one (stream (f1.map exact) t1) (stream (f2.map exact) t2) d + 2) - 1)
                * (|(start aout k).im.val| + pairSumAt absProdIm (stream (f1.map exact) t1) (stream (f2.map exact) t2) d) := by
  have hL : ∀ D, outLenFull (some n) aout D = 2 * n - 1 := by
    intro D
    rcases aout with _ | o
    · rfl
    · exact haout o rfl
  obtain ⟨out, h1, h2, h3⟩ := crossCorrelateComplex_tracks (Q := CxCell u) f1 f2 t1 t2 (some n) aligned aout hv
    (by rw [hL]; omega) (fun h1 h2 => by rw [hL]; have := hfast h1 h2; omega)
    (fun a b => ((reProd (exact a) (exact b), absProd (exact a) (exact b), one (exact a) (exact b)),
      ((cxProd (exact a) (exact b)).im, absProdIm (exact a) (exact b), one (exact a) (exact b))))
    (fun a _ b _ => CxCell.steps hr (conjMul_near hr a b).1 (conjMul_near hr a b).2)
    (fun a _ b _ => CxCell.steps hr (mulConj_near hr a b).1 (mulConj_near hr a b).2)
    _ (fun k => start_cxCell aout k hr.1)
  rw [hL] at h2
  refine ⟨out, h1, h2, fun d hd => ?_⟩
  obtain ⟨k, z, g1, g2, g3⟩ := cells_delays (out := out) (fun z k d => CxCell u z ((((start aout k).re.val,
    |(start aout k).re.val|, 0), ((start aout k).im.val, |(start aout k).im.val|, 0)) + pairSumAt (fun a b =>
      ((reProd (exact a) (exact b), absProd (exact a) (exact b), one (exact a) (exact b)),
      ((cxProd (exact a) (exact b)).im, absProdIm (exact a) (exact b), one (exact a) (exact b))))
      (stream f1 t1) (stream f2 t2) d)) (by omega) h3 d
    (by rw [h2, show (2 * n - 1 + 1) / 2 = n by omega]; exact hd)
  have e1 : (pairSumAt cxProd (stream (f1.map exact) t1) (stream (f2.map exact) t2) d).re
      = pairSumAt reProd (stream (f1.map exact) t1) (stream (f2.map exact) t2) d :=
    pairSumAt_hom_fl flReHom cxProd (stream (f1.map exact) t1) (stream (f2.map exact) t2) d
  have e2 : (pairSumAt cxProd (stream (f1.map exact) t1) (stream (f2.map exact) t2) d).im
      = pairSumAt (fun a b => (cxProd a b).im) (stream (f1.map exact) t1) (stream (f2.map exact) t2) d :=
    pairSumAt_hom_fl flImHom cxProd (stream (f1.map exact) t1) (stream (f2.map exact) t2) d
  rw [pairSumAt_prod, pairSumAt_prod, pairSumAt_prod, pairSumAt_prod, pairSumAt_prod] at g3
  refine ⟨k, z, g1, g2, ?_, ?_⟩
  · have h := g3.1.2
    rw [e1]
    simp only [stream_map_fl, pairSumAt_mapStream]
    simpa using h
  · have h := g3.2.2
    rw [e2]
    simp only [stream_map_fl, pairSumAt_mapStream]
    simpa using h

/-- **C107.** ... `auto_correlate(complex=True)`. -/
theorem C107_auto_correlate_complex (hr : Rounds rnd u) (f : List (Cx (Fl rnd))) (t : Option (List Int)) (n : Option Nat)
    (aligned : Bool) (aout : Option (List (Cx (Fl rnd)))) (hv : ValidAuto f.length t)
    (hfast : t = none → aligned = true → outLen n aout f.length ≤ f.length + 1) :
    ∃ out, autoCorrelateComplex f t n aligned aout = .ok out ∧ out.length = outLen n aout (defaultN f.length t t)
      ∧ ∀ k (hk : k < out.length),
        |out[k].re.val - ((start aout k).re.val + (selfSumFwd cxProd (stream (f.map exact) t) k).re)|
          ≤ ((1 + u) ^ (selfSum one (stream (f.map exact) t) k + 2) - 1)
            * (|(start aout k).re.val| + selfSumFwd absProd (stream (f.map exact) t) k)
        ∧ |out[k].im.val - ((start aout k).im.val + (selfSumFwd cxProd (stream (f.map exact) t) k).im)|
          ≤ ((1 + u) ^ (selfSum one (stream (f.map exact) t) k + 2) - 1)
            * (|(start aout k).im.val| + selfSumFwd absProdIm (stream (f.map exact) t) k) := by
  obtain ⟨out, h1, h2, h3⟩ := autoCorrelateComplex_tracks (Q := CxCell u) f t n aligned aout hv hfast
    (fun a b => ((reProd (exact a) (exact b), absProd (exact a) (exact b), one (exact a) (exact b)),
      ((cxProd (exact a) (exact b)).im, absProdIm (exact a) (exact b), one (exact a) (exact b))))
    (fun a _ b _ => CxCell.steps hr (conjMul_near hr a b).1 (conjMul_near hr a b).2)
    (fun a _ b _ => CxCell.steps hr (mulConj_near hr a b).1 (mulConj_near hr a b).2)
    _ (fun k => start_cxCell aout k hr.1)
  refine ⟨out, h1, h2, fun k hk => ?_⟩
  have g3 := h3 k hk
  have e0 : selfSum one (stream (f.map exact) t) k = selfSumFwd one (stream (f.map exact) t) k := rfl
  have e1 : (selfSumFwd cxProd (stream (f.map exact) t) k).re
      = selfSumFwd reProd (stream (f.map exact) t) k :=
    selfSumFwd_hom_fl flReHom cxProd (stream (f.map exact) t) k
  have e2 : (selfSumFwd cxProd (stream (f.map exact) t) k).im
      = selfSumFwd (fun a b => (cxProd a b).im) (stream (f.map exact) t) k :=
    selfSumFwd_hom_fl flImHom cxProd (stream (f.map exact) t) k
  rw [selfSumFwd_prod, selfSumFwd_prod, selfSumFwd_prod, selfSumFwd_prod, selfSumFwd_prod] at g3
  rw [e0]
  constructor
  · have h := g3.1.2
    rw [e1]
    simp only [stream_map_fl, selfSumFwd_mapStream]
    simpa using h
  · have h := g3.2.2
    rw [e2]
    simp only [stream_map_fl, selfSumFwd_mapStream]
    simpa using h

/-- **C107.** The factor of the error bounds: it is at most `m u / (1 - m u)`. -/
theorem C107_factor (u : ℝ) (hu : 0 ≤ u) (m : ℕ) (hm : m * u < 1) : (1 + u) ^ m - 1 ≤ m * u / (1 - m * u) := by
  rcases Nat.eq_zero_or_pos m with rfl | hm0
  · simp
  have hm1 : (1 : ℝ) ≤ m := by exact_mod_cast hm0
  have hu1 : u ≤ 1 := by nlinarith
  have h1 : 1 + (m : ℝ) * (-u) ≤ (1 + -u) ^ m := one_add_mul_le_pow (by linarith) m
  have h2 : (1 + u) ^ m * (1 + -u) ^ m ≤ 1 := by
    rw [← mul_pow]
    exact pow_le_one₀ (by nlinarith) (by nlinarith)
  have h3 : 0 < (1 + u) ^ m := by positivity
  have h4 : (1 + u) ^ m * (1 - m * u) ≤ 1 := le_trans (mul_le_mul_of_nonneg_left (by linarith) h3.le) h2
  rw [le_div_iff₀ (by linarith)]
  nlinarith

end

/-- **C107.** Rounding to the nearest number with `p` binary digits has the error `2^-p` that the theorems ask for. -/
theorem C107_nearest (p : ℕ) : Rounds (flRound p) ((2 : ℝ) ^ (-(p : ℤ))) := flRound_rounds p

/-! ### The bound of C107 cannot be relative to the result -/

theorem round53_tiny : flRound 53 (1 + (2 : ℝ) ^ (-60 : ℤ)) = 1 := by
  have h : |(1 + (2 : ℝ) ^ (-60 : ℤ))| = 1 + (2 : ℝ) ^ (-60 : ℤ) := abs_of_pos (by positivity)
  have hl : Int.log 2 (1 + (2 : ℝ) ^ (-60 : ℤ)) = 0 := by
    apply le_antisymm
    · rw [← Int.lt_add_one_iff, zero_add, ← Int.lt_zpow_iff_log_lt (by norm_num) (by positivity)]
      norm_num
    · rw [← Int.zpow_le_iff_le_log (by norm_num) (by positivity)]
      norm_num
  unfold flRound
  rw [h, hl]
  have e : (1 + (2 : ℝ) ^ (-60 : ℤ)) / (2 : ℝ) ^ ((0 : ℤ) + 1 - ((53 : ℕ) : ℤ)) = (2 : ℝ) ^ 52 + 1 / 256 := by norm_num
  have hround : round ((2 : ℝ) ^ 52 + 1 / 256) = 2 ^ 52 := by
    rw [round_eq]
    rw [Int.floor_eq_iff]
    constructor <;> norm_num
  rw [e, hround]
  norm_num

/-- Three samples whose products with 1 nearly cancel. -/
noncomputable def cancelling : List (Cx (Fl (flRound 53))) := [⟨⟨1⟩, ⟨0⟩⟩, ⟨⟨(2 : ℝ) ^ (-60 : ℤ)⟩, ⟨0⟩⟩, ⟨⟨-1⟩, ⟨0⟩⟩]

/-- **C107.** In double precision, a correlation that is not zero can be computed as zero: no bound relative to the result holds. -/
theorem C107_not_relative : ∃ out, crossCorrelate (List.replicate 3 ⟨⟨1⟩, ⟨0⟩⟩) cancelling none none (some 1) true none = .ok [out]
    ∧ out.val = 0
    ∧ pairSum reProd (stream ((List.replicate 3 (⟨⟨1⟩, ⟨0⟩⟩ : Cx (Fl (flRound 53)))).map exact) none)
        (stream (cancelling.map exact) none) 0 = (2 : ℝ) ^ (-60 : ℤ) := by
  refine ⟨_, rfl, ?_, ?_⟩
  · have r0 : flRound 53 0 = 0 := by simpa using flRound_exact (p := 53) (by norm_num) 0 0 (by norm_num)
    have r1 : flRound 53 1 = 1 := by simpa using flRound_exact (p := 53) (by norm_num) 1 0 (by norm_num)
    have r2 : flRound 53 (-1) = -1 := by simpa using flRound_exact (p := 53) (by norm_num) (-1) 0 (by norm_num)
    have r3 : flRound 53 ((2 : ℝ) ^ (-60 : ℤ)) = (2 : ℝ) ^ (-60 : ℤ) := by
      have := flRound_exact (p := 53) (by norm_num) 1 (-60) (by norm_num)
      rwa [Int.cast_one, one_mul] at this
    show flRound 53 (flRound 53 (flRound 53 (0 + flRound 53 (flRound 53 (1 * 1) + flRound 53 (0 * 0)))
      + flRound 53 (flRound 53 (1 * (2 : ℝ) ^ (-60 : ℤ)) + flRound 53 (0 * 0)))
      + flRound 53 (flRound 53 (1 * -1) + flRound 53 (0 * 0))) = 0
    simp only [one_mul, mul_zero, add_zero, zero_add, r0, r1, r2, r3, round53_tiny]
    norm_num [r0]
  · simp [pairSum_eq, stream, regular, cancelling, exact, List.replicate, reProd, Cx.conj]

-- The hypotheses of C107 for a pair of signals with time stamps, in double precision.
example : Rounds (flRound 53) ((2 : ℝ) ^ (-53 : ℤ)) ∧ ValidCross 2 2 (some [0, 7]) (some [5, -3]) ∧ ValidAuto 3 (some [4, 0, 1]) := by
  refine ⟨flRound_rounds 53, ?_, ?_⟩ <;> simp [ValidCross, ValidAuto]
-- A million pairs in double precision: the factor is below 2e-10.
example : (1 + (2 : ℝ) ^ (-53 : ℤ)) ^ (10 ^ 6 + 2) - 1 ≤ 2 / 10 ^ 10 := by
  refine (C107_factor _ (by positivity) (10 ^ 6 + 2) (by norm_num)).trans ?_
  norm_num

/-! ### Whole numbers -/

section
variable {rnd : ℝ → ℝ} {B : ℝ}

theorem start_intCell (aout : Option (List (Fl rnd))) (k : Nat) (ha : ∃ m : ℤ, (start aout k).val = m) :
    IntCell B (start aout k) ((start aout k).val, |(start aout k).val|) :=
  ⟨abs_nonneg _, fun _ => ⟨rfl, le_rfl, ha⟩⟩

theorem whole_of_mem {f : List (Cx (Fl rnd))} (hf : ∀ z ∈ f.map exact, Whole z) (a : Cx (Fl rnd)) (ha : a ∈ f) :
    Whole (exact a) := hf _ (List.mem_map_of_mem ha)

/-- **C108.** `cross_correlate` of whole numbers: an entry is exact whenever its sum of moduli does not exceed the bound `B` up to
which whole numbers are exact in the arithmetic of the machine. -/
theorem C108_cross_correlate (hk : KeepsIntegers rnd B) (f1 f2 : List (Cx (Fl rnd))) (t1 t2 : Option (List Int)) (n : Option Nat)
    (aligned : Bool) (aout : Option (List (Fl rnd))) (hv : ValidCross f1.length f2.length t1 t2)
    (hfast : t1 = none → aligned = true → outLen n aout f1.length ≤ f1.length + 1)
    (w1 : ∀ z ∈ f1.map exact, Whole z) (w2 : ∀ z ∈ f2.map exact, Whole z) (w3 : ∀ k, ∃ m : ℤ, (start aout k).val = m) :
    ∃ out, crossCorrelate f1 f2 t1 t2 n aligned aout = .ok out
      ∧ out.length = outLen n aout (defaultN f1.length t1 t2)
      ∧ ∀ k (hk : k < out.length),
        |(start aout k).val| + pairSum absProd (stream (f1.map exact) t1) (stream (f2.map exact) t2) k ≤ B →
        out[k].val = (start aout k).val + pairSum reProd (stream (f1.map exact) t1) (stream (f2.map exact) t2) k := by
  obtain ⟨out, h1, h2, h3⟩ := crossCorrelate_tracks (Q := IntCell B) f1 f2 t1 t2 n aligned aout hv hfast
    (fun a b => (reProd (exact a) (exact b), absProd (exact a) (exact b)))
    (fun a ha b hb => IntCell.steps hk (termRe_int hk a b (whole_of_mem w1 a ha) (whole_of_mem w2 b hb)))
    (fun a ha b hb => by
      rw [reProd_comm', absProd_comm]
      exact IntCell.steps hk (termRe_int hk b a (whole_of_mem w2 b hb) (whole_of_mem w1 a ha)))
    (fun k => ((start aout k).val, |(start aout k).val|)) (fun k => start_intCell aout k (w3 k))
  refine ⟨out, h1, h2, fun k hk' => ?_⟩
  have h := h3 k hk'
  rw [pairSum_prod] at h
  simp only [stream_map_fl, pairSum_mapStream]
  exact fun hB => (h.2 hB).1

/-- **C108.** ... `auto_correlate`. -/
theorem C108_auto_correlate (hk : KeepsIntegers rnd B) (f : List (Cx (Fl rnd))) (t : Option (List Int)) (n : Option Nat)
    (aligned : Bool) (aout : Option (List (Fl rnd))) (hv : ValidAuto f.length t)
    (w1 : ∀ z ∈ f.map exact, Whole z) (w3 : ∀ k, ∃ m : ℤ, (start aout k).val = m) :
    ∃ out, autoCorrelate f t n aligned aout = .ok out ∧ out.length = outLen n aout (defaultN f.length t t)
      ∧ ∀ k (hk : k < out.length), |(start aout k).val| + selfSum absProd (stream (f.map exact) t) k ≤ B →
        out[k].val = (start aout k).val + selfSum reProd (stream (f.map exact) t) k := by
  obtain ⟨out, h1, h2, h3⟩ := autoCorrelate_tracks (Q := IntCell B) f t n aligned aout hv
    (fun a b => (reProd (exact a) (exact b), absProd (exact a) (exact b)))
    (fun a ha b hb => IntCell.steps hk (termRe_int hk a b (whole_of_mem w1 a ha) (whole_of_mem w1 b hb)))
    (fun a ha b hb => by
      rw [reProd_comm', absProd_comm]
      exact IntCell.steps hk (termRe_int hk b a (whole_of_mem w1 b hb) (whole_of_mem w1 a ha)))
    (fun k => ((start aout k).val, |(start aout k).val|)) (fun k => start_intCell aout k (w3 k))
  refine ⟨out, h1, h2, fun k hk' => ?_⟩
  have h := h3 k hk'
  rw [selfSum_prod] at h
  simp only [stream_map_fl, selfSum_mapStream]
  exact fun hB => (h.2 hB).1

/-- **C108.** `cross_difference` of whole numbers: exact while the result does not exceed `B`. -/
theorem C108_cross_difference (hk : KeepsIntegers rnd B) (f1 f2 : List (Cx (Fl rnd))) (t1 t2 : Option (List Int)) (n : Option Nat)
    (aligned : Bool) (aout : Option (List (Fl rnd))) (hv : ValidCross f1.length f2.length t1 t2)
    (hfast : t1 = none → aligned = true → outLen n aout f1.length ≤ f1.length + 1)
    (w1 : ∀ z ∈ f1.map exact, Whole z) (w2 : ∀ z ∈ f2.map exact, Whole z) (w3 : ∀ k, ∃ m : ℤ, (start aout k).val = m) :
    ∃ out, crossDifference f1 f2 t1 t2 n aligned aout = .ok out
      ∧ out.length = outLen n aout (defaultN f1.length t1 t2)
      ∧ ∀ k (hk : k < out.length),
        |(start aout k).val| + pairSum dist2 (stream (f1.map exact) t1) (stream (f2.map exact) t2) k ≤ B →
        out[k].val = (start aout k).val + pairSum dist2 (stream (f1.map exact) t1) (stream (f2.map exact) t2) k := by
  obtain ⟨out, h1, h2, h3⟩ := crossDifference_tracks (Q := IntCell B) f1 f2 t1 t2 n aligned aout hv hfast
    (fun a b => (dist2 (exact a) (exact b), dist2 (exact a) (exact b)))
    (fun a ha b hb => IntCell.steps hk (termDiff_int hk a b (whole_of_mem w1 a ha) (whole_of_mem w2 b hb)))
    (fun k => ((start aout k).val, |(start aout k).val|)) (fun k => start_intCell aout k (w3 k))
  refine ⟨out, h1, h2, fun k hk' => ?_⟩
  have h := h3 k hk'
  rw [pairSum_prod] at h
  simp only [stream_map_fl, pairSum_mapStream]
  exact fun hB => (h.2 hB).1

/-- **C108.** ... `auto_difference`. -/
theorem C108_auto_difference (hk : KeepsIntegers rnd B) (f : List (Cx (Fl rnd))) (t : Option (List Int)) (n : Option Nat)
    (aligned : Bool) (aout : Option (List (Fl rnd))) (hv : ValidAuto f.length t)
    (w1 : ∀ z ∈ f.map exact, Whole z) (w3 : ∀ k, ∃ m : ℤ, (start aout k).val = m) :
    ∃ out, autoDifference f t n aligned aout = .ok out ∧ out.length = outLen n aout (defaultN f.length t t)
      ∧ ∀ k (hk : k < out.length), |(start aout k).val| + selfSum dist2 (stream (f.map exact) t) k ≤ B →
        out[k].val = (start aout k).val + selfSum dist2 (stream (f.map exact) t) k := by
  obtain ⟨out, h1, h2, h3⟩ := autoDifference_tracks (Q := IntCell B) f t n aligned aout hv
    (fun a b => (dist2 (exact a) (exact b), dist2 (exact a) (exact b)))
    (fun a ha b hb => IntCell.steps hk (termDiff_int hk a b (whole_of_mem w1 a ha) (whole_of_mem w1 b hb)))
    (fun k => ((start aout k).val, |(start aout k).val|)) (fun k => start_intCell aout k (w3 k))
  refine ⟨out, h1, h2, fun k hk' => ?_⟩
  have h := h3 k hk'
  rw [selfSum_prod] at h
  simp only [stream_map_fl, selfSum_mapStream]
  exact fun hB => (h.2 hB).1

theorem start_cxIntCell (aout : Option (List (Cx (Fl rnd)))) (k : Nat) (ha : Whole (exact (start aout k))) :
    CxIntCell B (start aout k) (((start aout k).re.val, |(start aout k).re.val|),
      ((start aout k).im.val, |(start aout k).im.val|)) :=
  ⟨⟨abs_nonneg _, fun _ => ⟨rfl, le_rfl, ha.1⟩⟩, ⟨abs_nonneg _, fun _ => ⟨rfl, le_rfl, ha.2⟩⟩⟩

/-- **C108.** `cross_correlate(complex=True)`: the same for the real and the imaginary part of every signed delay. -/
theorem C108_cross_correlate_complex (hk : KeepsIntegers rnd B) (f1 f2 : List (Cx (Fl rnd))) (t1 t2 : Option (List Int))
    (n : Nat) (hn : 1 ≤ n) (aligned : Bool) (aout : Option (List (Cx (Fl rnd))))
    (haout : ∀ o, aout = some o → o.length = 2 * n - 1) (hv : ValidCross f1.length f2.length t1 t2)
    (hfast : t1 = none → aligned = true → n ≤ f1.length + 1)
    (w1 : ∀ z ∈ f1.map exact, Whole z) (w2 : ∀ z ∈ f2.map exact, Whole z) (w3 : ∀ k, Whole (exact (start aout k))) :
    ∃ out, crossCorrelateComplex f1 f2 t1 t2 (some n) aligned aout = .ok out
      ∧ out.length = 2 * n - 1
      ∧ ∀ d : Int, |d| < n →
          ∃ k z, pyIdx out.length d = some k ∧ pyGet out d = some z
            ∧ (|(start aout k).re.val| + pairSumAt absProd (stream (f1.map exact) t1) (stream (f2.map exact) t2) d ≤ B →
              z.re.val = (start aout k).re.val
                + (pairSumAt cxProd (stream (f1.map exact) t1) (stream (f2.map exact) t2) d).re)
            ∧ (|(start aout k).im.val| + pairSumAt absProdIm (stream (f1.map exact) t1) (stream (f2.map exact) t2) d ≤ B →
              z.im.val = (start aout k).im.val
                + (pairSumAt cxProd (stream (f1.map exact) t1) (stream (f2.map exact) t2) d).im) := by
  have hL : ∀ D, outLenFull (some n) aout D = 2 * n - 1 := by
    intro D
    rcases aout with _ | o
    · rfl
    · exact haout o rfl
  obtain ⟨out, h1, h2, h3⟩ := crossCorrelateComplex_tracks (Q := CxIntCell B) f1 f2 t1 t2 (some n) aligned aout hv
    (by rw [hL]; omega) (fun h1 h2 => by rw [hL]; have := hfast h1 h2; omega)
    (fun a b => ((reProd (exact a) (exact b), absProd (exact a) (exact b)),
      ((cxProd (exact a) (exact b)).im, absProdIm (exact a) (exact b))))
    (fun a ha b hb => CxIntCell.steps hk (conjMul_int hk a b (whole_of_mem w1 a ha) (whole_of_mem w2 b hb)).1
      (conjMul_int hk a b (whole_of_mem w1 a ha) (whole_of_mem w2 b hb)).2)
    (fun a ha b hb => CxIntCell.steps hk (mulConj_int hk a b (whole_of_mem w1 a ha) (whole_of_mem w2 b hb)).1
      (mulConj_int hk a b (whole_of_mem w1 a ha) (whole_of_mem w2 b hb)).2)
    _ (fun k => start_cxIntCell aout k (w3 k))
  rw [hL] at h2
  refine ⟨out, h1, h2, fun d hd => ?_⟩
  obtain ⟨k, z, g1, g2, g3⟩ := cells_delays (out := out) (fun z k d => CxIntCell B z ((((start aout k).re.val,
    |(start aout k).re.val|), ((start aout k).im.val, |(start aout k).im.val|)) + pairSumAt (fun a b =>
      ((reProd (exact a) (exact b), absProd (exact a) (exact b)),
      ((cxProd (exact a) (exact b)).im, absProdIm (exact a) (exact b))))
      (stream f1 t1) (stream f2 t2) d)) (by omega) h3 d
    (by rw [h2, show (2 * n - 1 + 1) / 2 = n by omega]; exact hd)
  have e1 : (pairSumAt cxProd (stream (f1.map exact) t1) (stream (f2.map exact) t2) d).re
      = pairSumAt reProd (stream (f1.map exact) t1) (stream (f2.map exact) t2) d :=
    pairSumAt_hom_fl flReHom cxProd (stream (f1.map exact) t1) (stream (f2.map exact) t2) d
  have e2 : (pairSumAt cxProd (stream (f1.map exact) t1) (stream (f2.map exact) t2) d).im
      = pairSumAt (fun a b => (cxProd a b).im) (stream (f1.map exact) t1) (stream (f2.map exact) t2) d :=
    pairSumAt_hom_fl flImHom cxProd (stream (f1.map exact) t1) (stream (f2.map exact) t2) d
  rw [pairSumAt_prod, pairSumAt_prod, pairSumAt_prod] at g3
  refine ⟨k, z, g1, g2, ?_, ?_⟩
  · rw [e1]
    simp only [stream_map_fl, pairSumAt_mapStream]
    exact fun hB => (g3.1.2 hB).1
  · rw [e2]
    simp only [stream_map_fl, pairSumAt_mapStream]
    exact fun hB => (g3.2.2 hB).1

/-- **C108.** ... `auto_correlate(complex=True)`. -/
theorem C108_auto_correlate_complex (hk : KeepsIntegers rnd B) (f : List (Cx (Fl rnd))) (t : Option (List Int)) (n : Option Nat)
    (aligned : Bool) (aout : Option (List (Cx (Fl rnd)))) (hv : ValidAuto f.length t)
    (hfast : t = none → aligned = true → outLen n aout f.length ≤ f.length + 1)
    (w1 : ∀ z ∈ f.map exact, Whole z) (w3 : ∀ k, Whole (exact (start aout k))) :
    ∃ out, autoCorrelateComplex f t n aligned aout = .ok out ∧ out.length = outLen n aout (defaultN f.length t t)
      ∧ ∀ k (hk : k < out.length),
        (|(start aout k).re.val| + selfSumFwd absProd (stream (f.map exact) t) k ≤ B →
          out[k].re.val = (start aout k).re.val + (selfSumFwd cxProd (stream (f.map exact) t) k).re)
        ∧ (|(start aout k).im.val| + selfSumFwd absProdIm (stream (f.map exact) t) k ≤ B →
          out[k].im.val = (start aout k).im.val + (selfSumFwd cxProd (stream (f.map exact) t) k).im) := by
  obtain ⟨out, h1, h2, h3⟩ := autoCorrelateComplex_tracks (Q := CxIntCell B) f t n aligned aout hv hfast
    (fun a b => ((reProd (exact a) (exact b), absProd (exact a) (exact b)),
      ((cxProd (exact a) (exact b)).im, absProdIm (exact a) (exact b))))
    (fun a ha b hb => CxIntCell.steps hk (conjMul_int hk a b (whole_of_mem w1 a ha) (whole_of_mem w1 b hb)).1
      (conjMul_int hk a b (whole_of_mem w1 a ha) (whole_of_mem w1 b hb)).2)
    (fun a ha b hb => CxIntCell.steps hk (mulConj_int hk a b (whole_of_mem w1 a ha) (whole_of_mem w1 b hb)).1
      (mulConj_int hk a b (whole_of_mem w1 a ha) (whole_of_mem w1 b hb)).2)
    _ (fun k => start_cxIntCell aout k (w3 k))
  refine ⟨out, h1, h2, fun k hk' => ?_⟩
  have g3 := h3 k hk'
  have e1 : (selfSumFwd cxProd (stream (f.map exact) t) k).re = selfSumFwd reProd (stream (f.map exact) t) k :=
    selfSumFwd_hom_fl flReHom cxProd (stream (f.map exact) t) k
  have e2 : (selfSumFwd cxProd (stream (f.map exact) t) k).im
      = selfSumFwd (fun a b => (cxProd a b).im) (stream (f.map exact) t) k :=
    selfSumFwd_hom_fl flImHom cxProd (stream (f.map exact) t) k
  rw [selfSumFwd_prod, selfSumFwd_prod, selfSumFwd_prod] at g3
  constructor
  · rw [e1]
    simp only [stream_map_fl, selfSumFwd_mapStream]
    exact fun hB => (g3.1.2 hB).1
  · rw [e2]
    simp only [stream_map_fl, selfSumFwd_mapStream]
    exact fun hB => (g3.2.2 hB).1

end

/-- **C108.** Rounding to the nearest number with `p` binary digits keeps whole numbers up to `2^p`. -/
theorem C108_nearest (p : ℕ) (hp : 1 ≤ p) : KeepsIntegers (flRound p) ((2 : ℝ) ^ p) := flRound_integers hp

/-- **C108.** The bound matters: in single precision `2^24 + 1` is computed as another number. -/
theorem C108_bound_needed : flRound 24 ((2 : ℝ) ^ 24 + 1) ≠ (2 : ℝ) ^ 24 + 1 := by
  have h : |((2 : ℝ) ^ 24 + 1)| = (2 : ℝ) ^ 24 + 1 := abs_of_pos (by positivity)
  have hl : Int.log 2 ((2 : ℝ) ^ 24 + 1) = 24 := by
    apply le_antisymm
    · rw [← Int.lt_add_one_iff, ← Int.lt_zpow_iff_log_lt (by norm_num) (by positivity)]
      norm_num
    · rw [← Int.zpow_le_iff_le_log (by norm_num) (by positivity)]
      norm_num
  unfold flRound
  rw [h, hl]
  intro hc
  have e : ((24 : ℤ) + 1 - ((24 : ℕ) : ℤ)) = 1 := by norm_num
  rw [e, zpow_one] at hc
  set r := round (((2 : ℝ) ^ 24 + 1) / 2)
  have : r * 2 = 2 ^ 24 + 1 := by exact_mod_cast hc
  omega

-- Whole-number data, in double precision.
example : (∀ z ∈ ([⟨⟨3⟩, ⟨0⟩⟩, ⟨⟨-2⟩, ⟨5⟩⟩] : List (Cx (Fl (flRound 53)))).map exact, Whole z) ∧
    (∀ k, ∃ m : ℤ, (start (none : Option (List (Fl (flRound 53)))) k).val = m) := by
  refine ⟨?_, fun k => ⟨0, by simp [start]; rfl⟩⟩
  intro z hz
  simp only [List.map_cons, List.map_nil, List.mem_cons, List.not_mem_nil, or_false, exact] at hz
  rcases hz with rfl | rfl
  · exact ⟨⟨3, by norm_num⟩, ⟨0, by norm_num⟩⟩
  · exact ⟨⟨-2, by norm_num⟩, ⟨5, by norm_num⟩⟩

end Cddm
