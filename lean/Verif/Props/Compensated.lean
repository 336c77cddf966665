import Verif.Props.Norm

/-!
# C24: compensated norms; C21, C24 for complex auto-correlation; concrete cases
-/

namespace Cddm
open Spec

/-! ### C24 -/

section cross
variable (f1 f2 : List (Cx ℝ)) (t1 t2 : Option (List Int)) (n : Option Nat) (norm : Option Int)
  (method : Option String) (aligned : Bool) (n' : Nat) (bg bg' : Background)
  (var : Option Variance) (v : Variance)

/-- Compensated norm: the covariance of the paired samples about their means at that delay. -/
theorem C24_cross (call : CrossCall false f1.length f2.length t1 t2 n norm method n')
    (hd : effMethod method n ≠ "diff") (hs : AskSums norm method n true) :
    ∃ out, ccorrNormalized f1 f2 t1 t2 n norm method aligned bg var 9 "corr" false = .ok out ∧
      IsCurve n' (pairsAt false (stream f1 t1) (stream f2 t2) n')
        (fun P => mean (fun a b => reProd (a - mean (fun x _ => x) P) (b - mean (fun _ y => y) P)) P)
        out := by
  obtain ⟨sq, s1, s2, e, -, hs'⟩ := ccorrNormalized_eq f1 f2 t1 t2 n norm method aligned n' call hd
  obtain ⟨rfl, rfl⟩ := hs' hs
  rw [e, normalize_compensated]
  refine ⟨_, rfl, isCurve_of _ _ _ _ (fun k _ h => ?_) (fun k _ h => ?_)⟩
  · simp [normOpsR, corrCompensatedR, h, divCount]
  · exact cell_corrCompensatedR h _ _ (by simp [sndOr, dot]; ring)

theorem C24_cross_complex (call : CrossCall true f1.length f2.length t1 t2 n norm method n')
    (L : Nat) (hL : L = 2 * n' - 1) (hs : AskSums norm method n true) :
    ∃ out, ccorrNormalizedC f1 f2 t1 t2 n norm method aligned bg var 9 "corr" false = .ok out ∧
      IsCurve L (pairsAt true (stream f1 t1) (stream f2 t2) L)
        (fun P => mean (fun a b => cxProd (a - mean (fun x _ => x) P) (b - mean (fun _ y => y) P)) P)
        out := by
  obtain ⟨sq, s1, s2, e, -, hs'⟩ :=
    ccorrNormalizedC_eq f1 f2 t1 t2 n norm method aligned n' call L hL
  obtain ⟨rfl, rfl⟩ := hs' hs
  rw [e, normalize_compensated]
  refine ⟨_, rfl, isCurve_of _ _ _ _ (fun k _ h => ?_) (fun k _ h => ?_)⟩
  · simp [normOpsC, corrCompensatedC, h, divCount]
  · exact cell_corrCompensatedC h _ _ rfl rfl

/-- Compensated structured norm. -/
theorem C24_cross_structured (call : CrossCall false f1.length f2.length t1 t2 n norm method n')
    (hd : effMethod method n ≠ "diff") (hq : AskSquares norm method n true)
    (hs : AskSums norm method n true) :
    ∃ out, ccorrNormalized f1 f2 t1 t2 n norm method aligned bg (some v) 10 "corr" false = .ok out ∧
      IsCurve n' (pairsAt false (stream f1 t1) (stream f2 t2) n')
        (fun P => v.offset - (1 / 2) *
          mean (fun a b => dist2 (a - mean (fun x _ => x) P) (b - mean (fun _ y => y) P)) P)
        out := by
  obtain ⟨sq, s1, s2, e, hq', hs'⟩ :=
    ccorrNormalized_eq f1 f2 t1 t2 n norm method aligned n' call hd
  obtain rfl := hq' hq
  obtain ⟨rfl, rfl⟩ := hs' hs
  rw [e, normalize_structCompensated]
  refine ⟨_, rfl, isCurve_of _ _ _ _ (fun k _ h => ?_) (fun k _ h => ?_)⟩
  · simp [normOpsR, structCompensatedR, h, divCount]
  · exact cell_structCompensatedR h _ _ _ rfl

theorem C24_cross_complex_structured
    (call : CrossCall true f1.length f2.length t1 t2 n norm method n')
    (L : Nat) (hL : L = 2 * n' - 1) (hq : AskSquares norm method n true)
    (hs : AskSums norm method n true) :
    ∃ out, ccorrNormalizedC f1 f2 t1 t2 n norm method aligned bg (some v) 10 "corr" false
        = .ok out ∧
      IsCurve L (pairsAt true (stream f1 t1) (stream f2 t2) L)
        (fun P => (⟨v.offset - (1 / 2) *
            mean (fun a b => dist2 (a - mean (fun x _ => x) P) (b - mean (fun _ y => y) P)) P,
          v.offset - (1 / 2) * mean (fun a b =>
            dist2 (Cx.I * (a - mean (fun x _ => x) P)) (b - mean (fun _ y => y) P)) P⟩ : Cx ℝ))
        out := by
  obtain ⟨sq, s1, s2, e, hq', hs'⟩ :=
    ccorrNormalizedC_eq f1 f2 t1 t2 n norm method aligned n' call L hL
  obtain rfl := hq' hq
  obtain ⟨rfl, rfl⟩ := hs' hs
  rw [e, normalize_structCompensated]
  refine ⟨_, rfl, isCurve_of _ _ _ _ (fun k _ h => ?_) (fun k _ h => ?_)⟩
  · simp [normOpsC, structCompensatedC, h, divCount]
  · exact cell_structCompensatedC h _ _ _ rfl rfl

/-- Adding constants to the signals changes nothing, whatever backgrounds are passed. -/
theorem C24_invariant (call : CrossCall false f1.length f2.length t1 t2 n norm method n')
    (hd : effMethod method n ≠ "diff") (hs : AskSums norm method n true) (c1 c2 : Cx ℝ) :
    ccorrNormalized (f1.map (· + c1)) (f2.map (· + c2)) t1 t2 n norm method aligned bg' var 9
        "corr" false
      = ccorrNormalized f1 f2 t1 t2 n norm method aligned bg var 9 "corr" false := by
  obtain ⟨o', e', h'⟩ := C24_cross (f1.map (· + c1)) (f2.map (· + c2)) t1 t2 n norm method aligned
    n' bg' var (by simpa using call) hd hs
  obtain ⟨o, e, h⟩ := C24_cross f1 f2 t1 t2 n norm method aligned n' bg var call hd hs
  rw [e, e']
  congr 1
  refine (isCurve_unique h h' (fun k _ => ?_) (fun k _ hk => ?_)).symm
  · rw [pairsAt_stream_map]; simp
  · rw [pairsAt_stream_map, mean_map, mean_map, mean_map, mean_fst_add _ hk, mean_snd_add _ hk]
    simp only [add_sub_add_right_eq_sub]

theorem C24_invariant_complex (call : CrossCall true f1.length f2.length t1 t2 n norm method n')
    (hs : AskSums norm method n true) (c1 c2 : Cx ℝ) :
    ccorrNormalizedC (f1.map (· + c1)) (f2.map (· + c2)) t1 t2 n norm method aligned bg' var 9
        "corr" false
      = ccorrNormalizedC f1 f2 t1 t2 n norm method aligned bg var 9 "corr" false := by
  obtain ⟨o', e', h'⟩ := C24_cross_complex (f1.map (· + c1)) (f2.map (· + c2)) t1 t2 n norm method
    aligned n' bg' var (by simpa using call) _ rfl hs
  obtain ⟨o, e, h⟩ := C24_cross_complex f1 f2 t1 t2 n norm method aligned n' bg var call _ rfl hs
  rw [e, e']
  congr 1
  refine (isCurve_unique h h' (fun k _ => ?_) (fun k _ hk => ?_)).symm
  · rw [pairsAt_stream_map]; simp
  · rw [pairsAt_stream_map, mean_map, mean_map, mean_map, mean_fst_add _ hk, mean_snd_add _ hk]
    simp only [add_sub_add_right_eq_sub]

theorem C24_invariant_structured
    (call : CrossCall false f1.length f2.length t1 t2 n norm method n')
    (hd : effMethod method n ≠ "diff") (hq : AskSquares norm method n true)
    (hs : AskSums norm method n true) (c1 c2 : Cx ℝ) :
    ccorrNormalized (f1.map (· + c1)) (f2.map (· + c2)) t1 t2 n norm method aligned bg' (some v) 10
        "corr" false
      = ccorrNormalized f1 f2 t1 t2 n norm method aligned bg (some v) 10 "corr" false := by
  obtain ⟨o', e', h'⟩ := C24_cross_structured (f1.map (· + c1)) (f2.map (· + c2)) t1 t2 n norm
    method aligned n' bg' v (by simpa using call) hd hq hs
  obtain ⟨o, e, h⟩ := C24_cross_structured f1 f2 t1 t2 n norm method aligned n' bg v call hd hq hs
  rw [e, e']
  congr 1
  refine (isCurve_unique h h' (fun k _ => ?_) (fun k _ hk => ?_)).symm
  · rw [pairsAt_stream_map]; simp
  · rw [pairsAt_stream_map, mean_map, mean_map, mean_map, mean_fst_add _ hk, mean_snd_add _ hk]
    simp only [add_sub_add_right_eq_sub]

theorem C24_invariant_complex_structured
    (call : CrossCall true f1.length f2.length t1 t2 n norm method n')
    (hq : AskSquares norm method n true) (hs : AskSums norm method n true) (c1 c2 : Cx ℝ) :
    ccorrNormalizedC (f1.map (· + c1)) (f2.map (· + c2)) t1 t2 n norm method aligned bg' (some v) 10
        "corr" false
      = ccorrNormalizedC f1 f2 t1 t2 n norm method aligned bg (some v) 10 "corr" false := by
  obtain ⟨o', e', h'⟩ := C24_cross_complex_structured (f1.map (· + c1)) (f2.map (· + c2)) t1 t2 n norm
    method aligned n' bg' v (by simpa using call) _ rfl hq hs
  obtain ⟨o, e, h⟩ := C24_cross_complex_structured f1 f2 t1 t2 n norm method aligned n' bg v call _ rfl hq hs
  rw [e, e']
  congr 1
  refine (isCurve_unique h h' (fun k _ => ?_) (fun k _ hk => ?_)).symm
  · rw [pairsAt_stream_map]; simp
  · rw [pairsAt_stream_map, mean_map, mean_map, mean_map, mean_map, mean_fst_add _ hk, mean_snd_add _ hk]
    simp only [add_sub_add_right_eq_sub]

/-- The compensated structured norm never exceeds the variance offset. -/
theorem C24_bound (call : CrossCall false f1.length f2.length t1 t2 n norm method n')
    (hd : effMethod method n ≠ "diff") (hq : AskSquares norm method n true)
    (hs : AskSums norm method n true) :
    ∃ out, ccorrNormalized f1 f2 t1 t2 n norm method aligned bg (some v) 10 "corr" false = .ok out ∧
      ∀ x, some x ∈ out → x ≤ v.offset := by
  obtain ⟨out, e, h⟩ := C24_cross_structured f1 f2 t1 t2 n norm method aligned n' bg v call hd hq hs
  refine ⟨out, e, fun x hx => ?_⟩
  obtain ⟨k, -, -, rfl⟩ := isCurve_mem h hx
  have h1 := mean_dist2_nonneg (pairsAt false (stream f1 t1) (stream f2 t2) n' k)
    (· - mean (fun x _ => x) (pairsAt false (stream f1 t1) (stream f2 t2) n' k))
    (· - mean (fun _ y => y) (pairsAt false (stream f1 t1) (stream f2 t2) n' k))
  linarith

end cross

section auto
variable (f : List (Cx ℝ)) (t : Option (List Int)) (n : Option Nat) (norm : Option Int)
  (method : Option String) (aligned : Bool) (n' : Nat) (bg bg' : Background)
  (var : Option Variance) (v : Variance) (b : Cx ℝ)

/-- Mean of all samples which occur in the pairs of one delay. -/
noncomputable def pooled (P : List (Cx ℝ × Cx ℝ)) : Cx ℝ := mean (fun a b => (1 / 2 : ℝ) • (a + b)) P

theorem pooled_add (P : List (Cx ℝ × Cx ℝ)) (h : P ≠ []) (c : Cx ℝ) :
    mean (fun a b => (1 / 2 : ℝ) • ((a + c) + (b + c))) P
      = mean (fun a b => (1 / 2 : ℝ) • (a + b)) P + c := by
  have hN := len_ne h
  have e : total (fun a b => (1 / 2 : ℝ) • ((a + c) + (b + c))) P
      = total (fun a b => (1 / 2 : ℝ) • (a + b)) P + (P.length : ℝ) • c := by
    clear h hN
    induction P with
    | nil => ext <;> simp
    | cons p P ih =>
      simp only [total_cons, List.length_cons]
      rw [ih]
      ext <;> simp <;> ring
  rw [mean, e, mean]
  ext <;> simp <;> field_simp

/-- Auto-correlation: the covariance about the common mean of the paired samples. -/
theorem C24_auto (call : AutoCall f.length t n norm method n')
    (hd : effMethod method n ≠ "diff") (hs : AskSums norm method n false) :
    ∃ out, acorrNormalized f t n norm method aligned bg var 9 "corr" false = .ok out ∧
      IsCurve n' (selfPairsAt (stream f t))
        (fun P => mean (fun a b => reProd (a - pooled P) (b - pooled P)) P) out := by
  obtain ⟨sq, s1, e, -, hs'⟩ := acorrNormalized_eq f t n norm method aligned n' call hd
  obtain rfl := hs' hs
  rw [e, normalize_compensated]
  refine ⟨_, rfl, isCurve_of _ _ _ _ (fun k _ h => ?_) (fun k _ h => ?_)⟩
  · simp [normOpsR, corrCompensatedR, h, divCount]
  · refine cell_corrCompensatedR h _ _ ?_
    rw [sndOr, Option.getD_none, ← total_half_dot]
    ring

theorem C24_auto_structured (call : AutoCall f.length t n norm method n')
    (hd : effMethod method n ≠ "diff") (hq : AskSquares norm method n false)
    (hs : AskSums norm method n false) :
    ∃ out, acorrNormalized f t n norm method aligned bg (some v) 10 "corr" false = .ok out ∧
      IsCurve n' (selfPairsAt (stream f t))
        (fun P => v.offset - (1 / 2) * mean (fun a b => dist2 (a - pooled P) (b - pooled P)) P) out := by
  obtain ⟨sq, s1, e, hq', hs'⟩ := acorrNormalized_eq f t n norm method aligned n' call hd
  obtain rfl := hq' hq
  obtain rfl := hs' hs
  rw [e, normalize_structCompensated]
  refine ⟨_, rfl, isCurve_of _ _ _ _ (fun k _ h => ?_) (fun k _ h => ?_)⟩
  · simp [normOpsR, structCompensatedR, h, divCount]
  · exact cell_structCompensatedR h _ _ _ (by simp [sndOr, dot])

theorem C24_auto_invariant (call : AutoCall f.length t n norm method n')
    (hd : effMethod method n ≠ "diff") (hs : AskSums norm method n false) (c : Cx ℝ) :
    acorrNormalized (f.map (· + c)) t n norm method aligned bg' var 9 "corr" false
      = acorrNormalized f t n norm method aligned bg var 9 "corr" false := by
  obtain ⟨o', e', h'⟩ := C24_auto (f.map (· + c)) t n norm method aligned
    n' bg' var (by simpa using call) hd hs
  obtain ⟨o, e, h⟩ := C24_auto f t n norm method aligned n' bg var call hd hs
  rw [e, e']
  congr 1
  refine (isCurve_unique h h' (fun k _ => ?_) (fun k _ hk => ?_)).symm
  · rw [selfPairsAt_stream_map]; simp
  · rw [selfPairsAt_stream_map, mean_map, pooled, pooled, mean_map, pooled_add _ hk]
    simp only [add_sub_add_right_eq_sub]

theorem C24_auto_invariant_structured (call : AutoCall f.length t n norm method n')
    (hd : effMethod method n ≠ "diff") (hq : AskSquares norm method n false)
    (hs : AskSums norm method n false) (c : Cx ℝ) :
    acorrNormalized (f.map (· + c)) t n norm method aligned bg' (some v) 10 "corr" false
      = acorrNormalized f t n norm method aligned bg (some v) 10 "corr" false := by
  obtain ⟨o', e', h'⟩ := C24_auto_structured (f.map (· + c)) t n norm method aligned
    n' bg' v (by simpa using call) hd hq hs
  obtain ⟨o, e, h⟩ := C24_auto_structured f t n norm method aligned n' bg v call hd hq hs
  rw [e, e']
  congr 1
  refine (isCurve_unique h h' (fun k _ => ?_) (fun k _ hk => ?_)).symm
  · rw [selfPairsAt_stream_map]; simp
  · rw [selfPairsAt_stream_map, mean_map, pooled, pooled, mean_map, pooled_add _ hk]
    simp only [add_sub_add_right_eq_sub]

theorem C24_auto_bound (call : AutoCall f.length t n norm method n')
    (hd : effMethod method n ≠ "diff") (hq : AskSquares norm method n false)
    (hs : AskSums norm method n false) :
    ∃ out, acorrNormalized f t n norm method aligned bg (some v) 10 "corr" false = .ok out ∧
      ∀ x, some x ∈ out → x ≤ v.offset := by
  obtain ⟨out, e, h⟩ := C24_auto_structured f t n norm method aligned n' bg v call hd hq hs
  refine ⟨out, e, fun x hx => ?_⟩
  obtain ⟨k, -, -, rfl⟩ := isCurve_mem h hx
  have h1 := mean_dist2_nonneg (selfPairsAt (stream f t) k)
    (· - pooled (selfPairsAt (stream f t) k)) (· - pooled (selfPairsAt (stream f t) k))
  linarith

/-! ### Complex auto-correlation

`acorr(complex = True)` returns one sum per delay, the mean of the sums over the earlier and over
the later samples.  The subtracted and the compensated formula use it in place of both, which is
right in the real part only. -/

theorem isCurve_re {α β : Type} {n : Nat} {P : Nat → List (α × β)} {F : List (α × β) → ℝ}
    (f : Nat → Option (Cx ℝ))
    (h0 : ∀ k < n, P k = [] → (f k).map Cx.re = none)
    (h : ∀ k < n, P k ≠ [] → (f k).map Cx.re = some (F (P k))) :
    IsCurve n P F (((List.range n).map f).map (Option.map Cx.re)) := by
  rw [List.map_map]
  exact isCurve_of n P F _ h0 h

/-- Missing: the imaginary part, which is wrong (`C21_auto_complex_refuted`). -/
theorem C21_auto_complex_partial (call : AutoCall f.length t n norm method n')
    (hd : effMethod method n ≠ "diff") (hs : AskSums norm method n false)
    (z : Int) (hz : z = 5 ∨ z = 13) :
    ∃ out, acorrNormalizedC f t n norm method aligned (.one b) var z "corr" false = .ok out ∧
      IsCurve n' (selfPairsFwdAt (stream f t)) (mean fun x y => reProd (x - b) (y - b))
        (out.map (Option.map Cx.re)) := by
  obtain ⟨sq, s1, e, -, hs'⟩ := acorrNormalizedC_eq f t n norm method aligned n' call hd
  obtain rfl := hs' hs
  rw [e, normalize_subtracted _ _ _ _ _ _ _ _ _ _ _ hz]
  refine ⟨_, rfl, isCurve_re _ (fun k _ h => ?_) (fun k _ h => ?_)⟩
  · simp [normOpsC, corrSubtractedC, h, divCount]
  · refine (corrSubtractedC_re _ _ _ _ _ _).trans ?_
    rw [total_cxProd_re]
    exact cell_corrSubtractedR h _ _ _ _ (total_half_dot _ _)

/-- Missing: the imaginary part, which is wrong (`C24_auto_complex_refuted`). -/
theorem C24_auto_complex_partial (call : AutoCall f.length t n norm method n')
    (hd : effMethod method n ≠ "diff") (hs : AskSums norm method n false) :
    ∃ out, acorrNormalizedC f t n norm method aligned bg var 9 "corr" false = .ok out ∧
      IsCurve n' (selfPairsFwdAt (stream f t))
        (fun P => mean (fun a b => reProd (a - pooled P) (b - pooled P)) P)
        (out.map (Option.map Cx.re)) := by
  obtain ⟨sq, s1, e, -, hs'⟩ := acorrNormalizedC_eq f t n norm method aligned n' call hd
  obtain rfl := hs' hs
  rw [e, normalize_compensated]
  refine ⟨_, rfl, isCurve_re _ (fun k _ h => ?_) (fun k _ h => ?_)⟩
  · simp [normOpsC, corrCompensatedC, h, divCount]
  · refine (corrCompensatedC_re _ _ _ _).trans ?_
    rw [total_cxProd_re]
    refine cell_corrCompensatedR h _ _ ?_
    rw [sndOr, Option.getD_none, ← total_half_dot]
    ring

end auto

/-! ### Concrete cases

Calls that meet the hypotheses: `crossCall_example`, `autoCall_example` (Props/Norm). -/

/-- The pairs of two regular frames at delay 1. -/
theorem fwd_two (a b : Cx ℝ) : selfPairsFwdAt (stream [a, b] none) 1 = [(a, b)] := by
  simp [selfPairsFwdAt, stream, regular, selfPairs, delay, forward]

/-- The imaginary part is wrong: for the frames 0, 1 and the background `i` the mean of
`conj(a - i) (b - i)` at delay 1 is `1 + i`; the result is `1`. -/
theorem C21_auto_complex_refuted :
    ∃ out, acorrNormalizedC [0, 1] none (some 2) none (some "corr") true (.one Cx.I) none 5 "corr"
        false = .ok out ∧ out[1]? = some (some 1) ∧
      mean (fun x y => cxProd (x - Cx.I) (y - Cx.I)) (selfPairsFwdAt (stream [0, 1] none) 1)
        = ⟨1, 1⟩ := by
  obtain ⟨sq, s1, e, -, hs'⟩ := acorrNormalizedC_eq [0, 1] none (some 2) none (some "corr") true 2
    (autoCall_example 2 (by decide)) (by simp [effMethod])
  obtain rfl := hs' (by simp [AskSums, effMethod, effNorm, WantsSums])
  rw [e, normalize_subtracted _ _ _ _ _ _ _ _ _ _ _ (Or.inl rfl)]
  refine ⟨_, rfl, ?_, ?_⟩
  · simp only [curve, List.getElem?_map, normOpsC]
    simp [corrSubtractedC, divCount, fwd_two, sndOr, Background.fst, Background.snd]
    ext <;> simp [cxProd, Cx.I]
  · rw [fwd_two]
    simp only [mean, total_cons, total_nil]
    ext <;> simp [cxProd, Cx.I]

/-- Nor is the imaginary part independent of a constant: adding `i` to the frames 0, 1 changes the
compensated result at delay 1 from `-1/4` to `-1/4 - i`. -/
theorem C24_auto_complex_refuted :
    ∃ out out', acorrNormalizedC [0, 1] none (some 2) none (some "corr") true (.one 0) none 9
        "corr" false = .ok out ∧
      acorrNormalizedC ([0, 1].map (· + Cx.I)) none (some 2) none (some "corr") true (.one 0) none 9
        "corr" false = .ok out' ∧
      out[1]? = some (some ⟨-1 / 4, 0⟩) ∧ out'[1]? = some (some ⟨-1 / 4, -1⟩) := by
  obtain ⟨sq, s1, e, -, hs'⟩ := acorrNormalizedC_eq [0, 1] none (some 2) none (some "corr") true 2
    (autoCall_example 2 (by decide)) (by simp [effMethod])
  obtain rfl := hs' (by simp [AskSums, effMethod, effNorm, WantsSums])
  obtain ⟨sq', s1', e', -, hs''⟩ := acorrNormalizedC_eq ([0, 1].map (· + Cx.I)) none (some 2) none
    (some "corr") true 2 (autoCall_example 2 (by decide)) (by simp [effMethod])
  obtain rfl := hs'' (by simp [AskSums, effMethod, effNorm, WantsSums])
  rw [e, e', normalize_compensated, normalize_compensated]
  refine ⟨_, _, rfl, rfl, ?_, ?_⟩
  · simp only [curve, List.getElem?_map, normOpsC]
    simp [corrCompensatedC, divCount, fwd_two, sndOr]
    ext <;> simp [cxProd] <;> norm_num
  · simp only [curve, List.getElem?_map, normOpsC, List.map]
    simp [corrCompensatedC, divCount, fwd_two, sndOr]
    ext <;> simp [cxProd, Cx.I] <;> norm_num

end Cddm
