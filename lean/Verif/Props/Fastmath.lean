import Verif.Lemmas.FastmathRun
import Verif.Props.Rounding

/-!
# C127: `fastmath`

Whatever order, grouping and fusion of operations the compiler chooses, the results of the correlation and difference functions keep a bound on
their rounding errors.  It is weaker than that of C107, as the additions of the parts of a product may be made last.
-/

namespace Cddm
open Spec

section
variable {rnd : ℝ → ℝ} {u : ℝ}

/-- **C127.** Any expression: what the compiler makes of it differs from the exact value by at most `(1+u)^(additions + multiplications) - 1`
times the sum of the moduli. -/
theorem C127_any (hr : Rounds rnd u) (e e' : Expr) (h : Fast e e') :
    |e'.run rnd - Exact e| ≤ ((1 + u) ^ (adds e + mults e) - 1) * Modulus e := by
  obtain ⟨f1, f2, f3, f4⟩ := h.keeps
  have := ((run_near hr e').mono hr.1 (m' := adds e + mults e) (by omega)).2
  rw [f1, f2] at this
  exact this

/-- **C127.** `cross_correlate` compiled with `fastmath`: entry `k` differs from the exact sum over the pairs of samples at time distance `k` by at
most `(1+u)^(2 pairs+1) - 1` times the sum of the moduli. -/
theorem C127_cross_correlate (hr : Rounds rnd u) (f1 f2 : List (Cx ℝ)) (t1 t2 : Option (List Int)) (n : Option Nat)
    (aligned : Bool) (aout : Option (List ℝ)) (hv : ValidCross f1.length f2.length t1 t2)
    (hfast : t1 = none → aligned = true → outLen n aout f1.length ≤ f1.length + 1) :
    ∃ out, crossCorrelate (f1.map symbol) (f2.map symbol) t1 t2 n aligned (aout.map (List.map Expr.val)) = .ok out
      ∧ out.length = outLen n aout (defaultN f1.length t1 t2)
      ∧ ∀ k (hk : k < out.length) e, Fast out[k] e →
        |e.run rnd - (start aout k + pairSum reProd (stream f1 t1) (stream f2 t2) k)|
          ≤ ((1 + u) ^ (2 * pairSum one (stream f1 t1) (stream f2 t2) k + 1) - 1)
            * (|start aout k| + pairSum absProd (stream f1 t1) (stream f2 t2) k) := by
  obtain ⟨out, h1, h2, h3⟩ := crossCorrelate_tracks (Q := ExprCell) (f1.map symbol) (f2.map symbol) t1 t2 n aligned
    (aout.map (List.map Expr.val)) (by simpa using hv) (by simpa [outLen_vals] using hfast)
    (fun a b => (reProd (unsymbol a) (unsymbol b), absProd (unsymbol a) (unsymbol b), 2 * one (unsymbol a) (unsymbol b)))
    (fun a ha b hb => by
      obtain ⟨x, -, rfl⟩ := List.mem_map.1 ha
      obtain ⟨y, -, rfl⟩ := List.mem_map.1 hb
      exact ExprCell.steps (termRe_symbol x y).1 (termRe_symbol x y).2.1 (by rw [(termRe_symbol x y).2.2.1]; simp [one])
        (by rw [(termRe_symbol x y).2.2.2]))
    (fun a ha b hb => by
      obtain ⟨x, -, rfl⟩ := List.mem_map.1 ha
      obtain ⟨y, -, rfl⟩ := List.mem_map.1 hb
      exact ExprCell.steps ((termRe_symbol y x).1.trans (reProd_comm' _ _)) ((termRe_symbol y x).2.1.trans (absProd_comm _ _))
        (by rw [(termRe_symbol y x).2.2.1]; simp [one]) (by rw [(termRe_symbol y x).2.2.2]))
    (fun k => (start aout k, |start aout k|, 0)) (start_exprCell aout)
  rw [outLen_vals, List.length_map] at h2
  refine ⟨out, h1, h2, fun k hk e he => ?_⟩
  have h := ExprCell.bound hr (h3 k hk) he
  rw [pairSum_prod, pairSum_prod] at h
  simp only [stream_map_fl, pairSum_mapStream, unsymbol_symbol, pairSum_times] at h
  simpa using h

/-- **C127.** ... `auto_correlate`. -/
theorem C127_auto_correlate (hr : Rounds rnd u) (f : List (Cx ℝ)) (t : Option (List Int)) (n : Option Nat)
    (aligned : Bool) (aout : Option (List ℝ)) (hv : ValidAuto f.length t) :
    ∃ out, autoCorrelate (f.map symbol) t n aligned (aout.map (List.map Expr.val)) = .ok out
      ∧ out.length = outLen n aout (defaultN f.length t t)
      ∧ ∀ k (hk : k < out.length) e, Fast out[k] e →
        |e.run rnd - (start aout k + selfSum reProd (stream f t) k)|
          ≤ ((1 + u) ^ (2 * selfSum one (stream f t) k + 1) - 1) * (|start aout k| + selfSum absProd (stream f t) k) := by
  obtain ⟨out, h1, h2, h3⟩ := autoCorrelate_tracks (Q := ExprCell) (f.map symbol) t n aligned
    (aout.map (List.map Expr.val)) (by simpa using hv)
    (fun a b => (reProd (unsymbol a) (unsymbol b), absProd (unsymbol a) (unsymbol b), 2 * one (unsymbol a) (unsymbol b)))
    (fun a ha b hb => by
      obtain ⟨x, -, rfl⟩ := List.mem_map.1 ha
      obtain ⟨y, -, rfl⟩ := List.mem_map.1 hb
      exact ExprCell.steps (termRe_symbol x y).1 (termRe_symbol x y).2.1 (by rw [(termRe_symbol x y).2.2.1]; simp [one])
        (by rw [(termRe_symbol x y).2.2.2]))
    (fun a ha b hb => by
      obtain ⟨x, -, rfl⟩ := List.mem_map.1 ha
      obtain ⟨y, -, rfl⟩ := List.mem_map.1 hb
      exact ExprCell.steps ((termRe_symbol y x).1.trans (reProd_comm' _ _)) ((termRe_symbol y x).2.1.trans (absProd_comm _ _))
        (by rw [(termRe_symbol y x).2.2.1]; simp [one]) (by rw [(termRe_symbol y x).2.2.2]))
    (fun k => (start aout k, |start aout k|, 0)) (start_exprCell aout)
  rw [outLen_vals, List.length_map] at h2
  refine ⟨out, h1, h2, fun k hk e he => ?_⟩
  have h := ExprCell.bound hr (h3 k hk) he
  rw [selfSum_prod, selfSum_prod] at h
  simp only [stream_map_fl, selfSum_mapStream, unsymbol_symbol, selfSum_times] at h
  simpa using h

/-- **C127.** `cross_difference` compiled with `fastmath`: entry `k` differs from the exact sum over the pairs of samples at time distance `k` by at
most `(1+u)^(6 pairs+1) - 1` times the sum of the moduli of
all parts of the products. -/
theorem C127_cross_difference (hr : Rounds rnd u) (f1 f2 : List (Cx ℝ)) (t1 t2 : Option (List Int)) (n : Option Nat)
    (aligned : Bool) (aout : Option (List ℝ)) (hv : ValidCross f1.length f2.length t1 t2)
    (hfast : t1 = none → aligned = true → outLen n aout f1.length ≤ f1.length + 1) :
    ∃ out, crossDifference (f1.map symbol) (f2.map symbol) t1 t2 n aligned (aout.map (List.map Expr.val)) = .ok out
      ∧ out.length = outLen n aout (defaultN f1.length t1 t2)
      ∧ ∀ k (hk : k < out.length) e, Fast out[k] e →
        |e.run rnd - (start aout k + pairSum dist2 (stream f1 t1) (stream f2 t2) k)|
          ≤ ((1 + u) ^ (6 * pairSum one (stream f1 t1) (stream f2 t2) k + 1) - 1)
            * (|start aout k| + pairSum absDist (stream f1 t1) (stream f2 t2) k) := by
  obtain ⟨out, h1, h2, h3⟩ := crossDifference_tracks (Q := ExprCell) (f1.map symbol) (f2.map symbol) t1 t2 n aligned
    (aout.map (List.map Expr.val)) (by simpa using hv) (by simpa [outLen_vals] using hfast)
    (fun a b => (dist2 (unsymbol a) (unsymbol b), absDist (unsymbol a) (unsymbol b), 6 * one (unsymbol a) (unsymbol b)))
    (fun a ha b hb => by
      obtain ⟨x, -, rfl⟩ := List.mem_map.1 ha
      obtain ⟨y, -, rfl⟩ := List.mem_map.1 hb
      exact ExprCell.steps (termDiff_symbol x y).1 (termDiff_symbol x y).2.1 (by rw [(termDiff_symbol x y).2.2.1]; simp [one])
        (by rw [(termDiff_symbol x y).2.2.2]))
    (fun k => (start aout k, |start aout k|, 0)) (start_exprCell aout)
  rw [outLen_vals, List.length_map] at h2
  refine ⟨out, h1, h2, fun k hk e he => ?_⟩
  have h := ExprCell.bound hr (h3 k hk) he
  rw [pairSum_prod, pairSum_prod] at h
  simp only [stream_map_fl, pairSum_mapStream, unsymbol_symbol, pairSum_times] at h
  simpa using h

/-- **C127.** ... `auto_difference`. -/
theorem C127_auto_difference (hr : Rounds rnd u) (f : List (Cx ℝ)) (t : Option (List Int)) (n : Option Nat)
    (aligned : Bool) (aout : Option (List ℝ)) (hv : ValidAuto f.length t) :
    ∃ out, autoDifference (f.map symbol) t n aligned (aout.map (List.map Expr.val)) = .ok out
      ∧ out.length = outLen n aout (defaultN f.length t t)
      ∧ ∀ k (hk : k < out.length) e, Fast out[k] e →
        |e.run rnd - (start aout k + selfSum dist2 (stream f t) k)|
          ≤ ((1 + u) ^ (6 * selfSum one (stream f t) k + 1) - 1) * (|start aout k| + selfSum absDist (stream f t) k) := by
  obtain ⟨out, h1, h2, h3⟩ := autoDifference_tracks (Q := ExprCell) (f.map symbol) t n aligned
    (aout.map (List.map Expr.val)) (by simpa using hv)
    (fun a b => (dist2 (unsymbol a) (unsymbol b), absDist (unsymbol a) (unsymbol b), 6 * one (unsymbol a) (unsymbol b)))
    (fun a ha b hb => by
      obtain ⟨x, -, rfl⟩ := List.mem_map.1 ha
      obtain ⟨y, -, rfl⟩ := List.mem_map.1 hb
      exact ExprCell.steps (termDiff_symbol x y).1 (termDiff_symbol x y).2.1 (by rw [(termDiff_symbol x y).2.2.1]; simp [one])
        (by rw [(termDiff_symbol x y).2.2.2]))
    (fun k => (start aout k, |start aout k|, 0)) (start_exprCell aout)
  rw [outLen_vals, List.length_map] at h2
  refine ⟨out, h1, h2, fun k hk e he => ?_⟩
  have h := ExprCell.bound hr (h3 k hk) he
  rw [selfSum_prod, selfSum_prod] at h
  simp only [stream_map_fl, selfSum_mapStream, unsymbol_symbol, selfSum_times] at h
  simpa using h

/-- **C127.** `auto_correlate(complex=True)`: the same for the real and the imaginary part. -/
theorem C127_auto_correlate_complex (hr : Rounds rnd u) (f : List (Cx ℝ)) (t : Option (List Int)) (n : Option Nat)
    (aligned : Bool) (aout : Option (List (Cx ℝ))) (hv : ValidAuto f.length t)
    (hfast : t = none → aligned = true → outLen n aout f.length ≤ f.length + 1) :
    ∃ out, autoCorrelateComplex (f.map symbol) t n aligned (aout.map (List.map symbol)) = .ok out
      ∧ out.length = outLen n aout (defaultN f.length t t)
      ∧ ∀ k (hk : k < out.length) e e', Fast out[k].re e → Fast out[k].im e' →
        |e.run rnd - ((start aout k).re + (selfSumFwd cxProd (stream f t) k).re)|
          ≤ ((1 + u) ^ (2 * selfSumFwd one (stream f t) k + 1) - 1) * (|(start aout k).re| + selfSumFwd absProd (stream f t) k)
        ∧ |e'.run rnd - ((start aout k).im + (selfSumFwd cxProd (stream f t) k).im)|
          ≤ ((1 + u) ^ (2 * selfSumFwd one (stream f t) k + 1) - 1) * (|(start aout k).im| + selfSumFwd absProdIm (stream f t) k) := by
  obtain ⟨out, h1, h2, h3⟩ := autoCorrelateComplex_tracks (Q := ExprCxCell) (f.map symbol) t n aligned
    (aout.map (List.map symbol)) (by simpa using hv) (by simpa [outLen_symbols] using hfast)
    (fun a b => (((cxProd (unsymbol a) (unsymbol b)).re, absProd (unsymbol a) (unsymbol b), 2 * one (unsymbol a) (unsymbol b)),
      ((cxProd (unsymbol a) (unsymbol b)).im, absProdIm (unsymbol a) (unsymbol b), 2 * one (unsymbol a) (unsymbol b))))
    (fun a ha b hb => by
      obtain ⟨x, -, rfl⟩ := List.mem_map.1 ha
      obtain ⟨y, -, rfl⟩ := List.mem_map.1 hb
      obtain ⟨⟨c1, c2, c3, c4⟩, d1, d2, d3, d4⟩ := conjMul_symbol x y
      exact ExprCxCell.steps (ExprCell.steps c1 c2 (by rw [c3]; simp [one]) (by rw [c4])) (ExprCell.steps d1 d2 (by rw [d3]; simp [one]) (by rw [d4])))
    (fun a ha b hb => by
      obtain ⟨x, -, rfl⟩ := List.mem_map.1 ha
      obtain ⟨y, -, rfl⟩ := List.mem_map.1 hb
      obtain ⟨⟨c1, c2, c3, c4⟩, d1, d2, d3, d4⟩ := mulConj_symbol x y
      exact ExprCxCell.steps (ExprCell.steps c1 c2 (by rw [c3]; simp [one]) (by rw [c4])) (ExprCell.steps d1 d2 (by rw [d3]; simp [one]) (by rw [d4])))
    _ (start_exprCxCell aout)
  rw [outLen_symbols, List.length_map] at h2
  refine ⟨out, h1, h2, fun k hk e e' he he' => ?_⟩
  have g3 := h3 k hk
  have e1 : (selfSumFwd cxProd (stream f t) k).re = selfSumFwd (fun a b => (cxProd a b).re) (stream f t) k :=
    selfSumFwd_hom_fl flReHom cxProd (stream f t) k
  have e2 : (selfSumFwd cxProd (stream f t) k).im = selfSumFwd (fun a b => (cxProd a b).im) (stream f t) k :=
    selfSumFwd_hom_fl flImHom cxProd (stream f t) k
  rw [selfSumFwd_prod, selfSumFwd_prod, selfSumFwd_prod, selfSumFwd_prod, selfSumFwd_prod] at g3
  simp only [stream_map_fl, selfSumFwd_mapStream, unsymbol_symbol, selfSumFwd_times] at g3
  rw [e1, e2]
  exact ⟨by simpa using ExprCell.bound hr g3.1 he, by simpa using ExprCell.bound hr g3.2 he'⟩

/-- **C127.** `cross_correlate(complex=True)`, every signed delay. -/
theorem C127_cross_correlate_complex (hr : Rounds rnd u) (f1 f2 : List (Cx ℝ)) (t1 t2 : Option (List Int))
    (n : Nat) (hn : 1 ≤ n) (aligned : Bool) (aout : Option (List (Cx ℝ)))
    (haout : ∀ o, aout = some o → o.length = 2 * n - 1) (hv : ValidCross f1.length f2.length t1 t2)
    (hfast : t1 = none → aligned = true → n ≤ f1.length + 1) :
    ∃ out, crossCorrelateComplex (f1.map symbol) (f2.map symbol) t1 t2 (some n) aligned (aout.map (List.map symbol)) = .ok out
      ∧ out.length = 2 * n - 1
      ∧ ∀ d : Int, |d| < n →
          ∃ k z, pyIdx out.length d = some k ∧ pyGet out d = some z ∧ ∀ e e', Fast z.re e → Fast z.im e' →
            |e.run rnd - ((start aout k).re + (pairSumAt cxProd (stream f1 t1) (stream f2 t2) d).re)|
              ≤ ((1 + u) ^ (2 * pairSumAt one (stream f1 t1) (stream f2 t2) d + 1) - 1)
                * (|(start aout k).re| + pairSumAt absProd (stream f1 t1) (stream f2 t2) d)
            ∧ |e'.run rnd - ((start aout k).im + (pairSumAt cxProd (stream f1 t1) (stream f2 t2) d).im)|
              ≤ ((1 + u) ^ (2 * pairSumAt one (stream f1 t1) (stream f2 t2) d + 1) - 1)
                * (|(start aout k).im| + pairSumAt absProdIm (stream f1 t1) (stream f2 t2) d) := by
  have hL : ∀ D, outLenFull (some n) (aout.map (List.map symbol)) D = 2 * n - 1 := by
    intro D
    rw [outLenFull_symbols]
    rcases aout with _ | o
    · rfl
    · exact haout o rfl
  obtain ⟨out, h1, h2, h3⟩ := crossCorrelateComplex_tracks (Q := ExprCxCell) (f1.map symbol) (f2.map symbol) t1 t2 (some n) aligned
    (aout.map (List.map symbol)) (by simpa using hv)
    (by rw [hL]; omega) (fun h1 h2 => by rw [hL, List.length_map]; have := hfast h1 h2; omega)
    (fun a b => (((cxProd (unsymbol a) (unsymbol b)).re, absProd (unsymbol a) (unsymbol b), 2 * one (unsymbol a) (unsymbol b)),
      ((cxProd (unsymbol a) (unsymbol b)).im, absProdIm (unsymbol a) (unsymbol b), 2 * one (unsymbol a) (unsymbol b))))
    (fun a ha b hb => by
      obtain ⟨x, -, rfl⟩ := List.mem_map.1 ha
      obtain ⟨y, -, rfl⟩ := List.mem_map.1 hb
      obtain ⟨⟨c1, c2, c3, c4⟩, d1, d2, d3, d4⟩ := conjMul_symbol x y
      exact ExprCxCell.steps (ExprCell.steps c1 c2 (by rw [c3]; simp [one]) (by rw [c4])) (ExprCell.steps d1 d2 (by rw [d3]; simp [one]) (by rw [d4])))
    (fun a ha b hb => by
      obtain ⟨x, -, rfl⟩ := List.mem_map.1 ha
      obtain ⟨y, -, rfl⟩ := List.mem_map.1 hb
      obtain ⟨⟨c1, c2, c3, c4⟩, d1, d2, d3, d4⟩ := mulConj_symbol x y
      exact ExprCxCell.steps (ExprCell.steps c1 c2 (by rw [c3]; simp [one]) (by rw [c4])) (ExprCell.steps d1 d2 (by rw [d3]; simp [one]) (by rw [d4])))
    _ (start_exprCxCell aout)
  rw [hL] at h2
  refine ⟨out, h1, h2, fun d hd => ?_⟩
  obtain ⟨k, z, g1, g2, g3⟩ := cells_delays (out := out) (fun z k d => ExprCxCell z ((((start aout k).re, |(start aout k).re|, 0),
      ((start aout k).im, |(start aout k).im|, 0)) + pairSumAt (fun a b =>
      (((cxProd (unsymbol a) (unsymbol b)).re, absProd (unsymbol a) (unsymbol b), 2 * one (unsymbol a) (unsymbol b)),
      ((cxProd (unsymbol a) (unsymbol b)).im, absProdIm (unsymbol a) (unsymbol b), 2 * one (unsymbol a) (unsymbol b))))
      (stream (f1.map symbol) t1) (stream (f2.map symbol) t2) d)) (by omega) h3 d
    (by rw [h2, show (2 * n - 1 + 1) / 2 = n by omega]; exact hd)
  have e1 : (pairSumAt cxProd (stream f1 t1) (stream f2 t2) d).re = pairSumAt (fun a b => (cxProd a b).re) (stream f1 t1) (stream f2 t2) d :=
    pairSumAt_hom_fl flReHom cxProd (stream f1 t1) (stream f2 t2) d
  have e2 : (pairSumAt cxProd (stream f1 t1) (stream f2 t2) d).im = pairSumAt (fun a b => (cxProd a b).im) (stream f1 t1) (stream f2 t2) d :=
    pairSumAt_hom_fl flImHom cxProd (stream f1 t1) (stream f2 t2) d
  rw [pairSumAt_prod, pairSumAt_prod, pairSumAt_prod, pairSumAt_prod, pairSumAt_prod] at g3
  simp only [stream_map_fl, pairSumAt_mapStream, unsymbol_symbol, pairSumAt_times] at g3
  refine ⟨k, z, g1, g2, fun e e' he he' => ?_⟩
  rw [e1, e2]
  exact ⟨by simpa using ExprCell.bound hr g3.1 he, by simpa using ExprCell.bound hr g3.2 he'⟩

/-- **C127.** Two builds of `cross_correlate`, one of them possibly without `fastmath`, differ by at most twice the bound. -/
theorem C127_two_builds (hr : Rounds rnd u) (f1 f2 : List (Cx ℝ)) (t1 t2 : Option (List Int)) (n : Option Nat)
    (aligned : Bool) (aout : Option (List ℝ)) (hv : ValidCross f1.length f2.length t1 t2)
    (hfast : t1 = none → aligned = true → outLen n aout f1.length ≤ f1.length + 1) :
    ∃ out, crossCorrelate (f1.map symbol) (f2.map symbol) t1 t2 n aligned (aout.map (List.map Expr.val)) = .ok out
      ∧ ∀ k (hk : k < out.length) e e', Fast out[k] e → Fast out[k] e' →
        |e.run rnd - e'.run rnd| ≤ 2 * (((1 + u) ^ (2 * pairSum one (stream f1 t1) (stream f2 t2) k + 1) - 1)
            * (|start aout k| + pairSum absProd (stream f1 t1) (stream f2 t2) k)) := by
  obtain ⟨out, h1, -, h3⟩ := C127_cross_correlate hr f1 f2 t1 t2 n aligned aout hv hfast
  refine ⟨out, h1, fun k hk e e' he he' => ?_⟩
  have a := h3 k hk e he
  have b := h3 k hk e' he'
  rw [abs_sub_comm] at b
  have := abs_sub_le (e.run rnd) (start aout k + pairSum reProd (stream f1 t1) (stream f2 t2) k) (e'.run rnd)
  linarith

/-- **C127.** Without `fastmath` nothing is rearranged: running the expressions of the source is running `cross_correlate` on machine numbers, as
in C107. -/
theorem C127_source_cross (f1 f2 : List (Cx ℝ)) (t1 t2 : Option (List Int)) (n : Option Nat) (aligned : Bool) (aout : Option (List ℝ)) :
    crossCorrelate (f1.map fun z => (⟨⟨z.re⟩, ⟨z.im⟩⟩ : Cx (Fl rnd))) (f2.map fun z => ⟨⟨z.re⟩, ⟨z.im⟩⟩) t1 t2 n aligned
        (aout.map (List.map fun x => ⟨x⟩)) =
      (crossCorrelate (f1.map symbol) (f2.map symbol) t1 t2 n aligned (aout.map (List.map Expr.val))).map (List.map fun e => ⟨e.run rnd⟩) := by
  have := crossCorrelate_run (rnd := rnd) (f1.map symbol) (f2.map symbol) t1 t2 n aligned (aout.map (List.map Expr.val))
  rw [List.map_map, List.map_map, Option.map_map] at this
  simp only [Function.comp_def, List.map_map] at this
  exact this

/-- **C127.** ... `auto_correlate`. -/
theorem C127_source_auto (f : List (Cx ℝ)) (t : Option (List Int)) (n : Option Nat) (aligned : Bool) (aout : Option (List ℝ)) :
    autoCorrelate (f.map fun z => (⟨⟨z.re⟩, ⟨z.im⟩⟩ : Cx (Fl rnd))) t n aligned (aout.map (List.map fun x => ⟨x⟩)) =
      (autoCorrelate (f.map symbol) t n aligned (aout.map (List.map Expr.val))).map (List.map fun e => ⟨e.run rnd⟩) := by
  have := autoCorrelate_run (rnd := rnd) (f.map symbol) t n aligned (aout.map (List.map Expr.val))
  rw [List.map_map, Option.map_map] at this
  simp only [Function.comp_def, List.map_map] at this
  exact this

end

/-- **C127.** `fastmath` does change results: in double precision, a correlation that is computed as zero by the source can be computed as
`2^-60`, which is exact, after regrouping. -/
theorem C127_changes : ∃ e e', crossCorrelate ((List.replicate 3 (⟨1, 0⟩ : Cx ℝ)).map symbol)
      ([⟨1, 0⟩, ⟨(2 : ℝ) ^ (-60 : ℤ), 0⟩, ⟨-1, 0⟩].map symbol) none none (some 1) true none = .ok [e] ∧ Fast e e' ∧
    e.run (flRound 53) = 0 ∧ e'.run (flRound 53) = (2 : ℝ) ^ (-60 : ℤ) := by
  have r0 : flRound 53 0 = 0 := by simpa using flRound_exact (p := 53) (by norm_num) 0 0 (by norm_num)
  have r1 : flRound 53 1 = 1 := by simpa using flRound_exact (p := 53) (by norm_num) 1 0 (by norm_num)
  have r2 : flRound 53 (-1) = -1 := by simpa using flRound_exact (p := 53) (by norm_num) (-1) 0 (by norm_num)
  have r3 : flRound 53 ((2 : ℝ) ^ (-60 : ℤ)) = (2 : ℝ) ^ (-60 : ℤ) := by
    have := flRound_exact (p := 53) (by norm_num) 1 (-60) (by norm_num)
    rwa [Int.cast_one, one_mul] at this
  refine ⟨_, _, rfl, (Fast.addRight _ _ _).trans ((Fast.congrAdd (.refl _) (.addComm _ _)).trans (.addLeft _ _ _)), ?_, ?_⟩
  · show flRound 53 (flRound 53 (flRound 53 (0 + flRound 53 (flRound 53 (1 * 1) + flRound 53 (0 * 0)))
      + flRound 53 (flRound 53 (1 * (2 : ℝ) ^ (-60 : ℤ)) + flRound 53 (0 * 0)))
      + flRound 53 (flRound 53 (1 * -1) + flRound 53 (0 * 0))) = 0
    simp only [one_mul, mul_zero, add_zero, zero_add, r0, r1, r2, r3, round53_tiny]
    norm_num [r0]
  · show flRound 53 (flRound 53 (flRound 53 (0 + flRound 53 (flRound 53 (1 * 1) + flRound 53 (0 * 0)))
      + flRound 53 (flRound 53 (1 * -1) + flRound 53 (0 * 0)))
      + flRound 53 (flRound 53 (1 * (2 : ℝ) ^ (-60 : ℤ)) + flRound 53 (0 * 0))) = (2 : ℝ) ^ (-60 : ℤ)
    simp only [one_mul, mul_zero, add_zero, zero_add, add_neg_cancel, r0, r1, r2, r3]

/-- Non-vacuity: double precision, times out of order, and no fast algorithm. -/
example : Rounds (flRound 53) ((2 : ℝ) ^ (-53 : ℤ)) ∧
    ValidCross ([⟨1, 2⟩, ⟨0, -3⟩] : List (Cx ℝ)).length ([⟨5, 0⟩, ⟨1, 1⟩] : List (Cx ℝ)).length (some [0, 7]) (some [5, -3]) ∧
    ValidAuto ([⟨1, 2⟩, ⟨0, -3⟩, ⟨4, 4⟩] : List (Cx ℝ)).length (some [4, 0, 1]) := by
  refine ⟨flRound_rounds 53, ?_, ?_⟩ <;> simp [ValidCross, ValidAuto]

/-- Non-vacuity: the sum of two products may be fused, and computed in the other order. -/
example (a b c d : Expr) : Fast (a * b + c * d) (.fma c d (a * b)) :=
  (Fast.addComm _ _).trans (.contract _ _ _)

/-- A million pairs in double precision: the factor of the bound is below 3e-10. -/
example : (1 + (2 : ℝ) ^ (-53 : ℤ)) ^ (2 * 10 ^ 6 + 1) - 1 ≤ 3 / 10 ^ 10 := by
  refine (C107_factor _ (by positivity) (2 * 10 ^ 6 + 1) (by norm_num)).trans ?_
  norm_num

end Cddm
