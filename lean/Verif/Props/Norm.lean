import Verif.Lemmas.NormModes

/-!
# C21-C24: normalization

Each theorem is about the two calls in a row: `data = ccorr(...)` (or `acorr`), then
`normalize(data, background, variance, norm, mode, scale)` (Spec/NormCall).
-/

namespace Cddm
open Spec

section cross
variable (f1 f2 : List (Cx ℝ)) (t1 t2 : Option (List Int)) (n : Option Nat) (norm : Option Int)
  (method : Option String) (aligned : Bool) (n' : Nat) (bg : Background) (var : Option Variance)
  (v : Variance)

/-! ### C21 -/

/-- Standard norm: mean product minus the product of the backgrounds. -/
theorem C21_standard (call : CrossCall false f1.length f2.length t1 t2 n norm method n')
    (hd : effMethod method n ≠ "diff") :
    ∃ out, ccorrNormalized f1 f2 t1 t2 n norm method aligned bg var 1 "corr" false = .ok out ∧
      IsCurve n' (pairsAt false (stream f1 t1) (stream f2 t2) n')
        (fun P => mean reProd P - reProd bg.fst bg.snd) out := by
  obtain ⟨sq, s1, s2, e, -, -⟩ := ccorrNormalized_eq f1 f2 t1 t2 n norm method aligned n' call hd
  rw [e, normalize_standard]
  refine ⟨_, rfl, isCurve_of _ _ _ _ (fun k _ h => ?_) (fun k _ h => ?_)⟩
  · simp [normOpsR, corrBaselineR, h, divCount]
  · exact cell_corrBaselineR h _ _

/-- Subtracted norm: the mean product of the signals without background. -/
theorem C21_cross (call : CrossCall false f1.length f2.length t1 t2 n norm method n')
    (hd : effMethod method n ≠ "diff") (hs : AskSums norm method n true)
    (z : Int) (hz : z = 5 ∨ z = 13) :
    ∃ out, ccorrNormalized f1 f2 t1 t2 n norm method aligned bg var z "corr" false = .ok out ∧
      IsCurve n' (pairsAt false (stream f1 t1) (stream f2 t2) n')
        (mean fun a b => reProd (a - bg.fst) (b - bg.snd)) out := by
  obtain ⟨sq, s1, s2, e, -, hs'⟩ := ccorrNormalized_eq f1 f2 t1 t2 n norm method aligned n' call hd
  obtain ⟨rfl, rfl⟩ := hs' hs
  rw [e, normalize_subtracted _ _ _ _ _ _ _ _ _ _ _ hz]
  refine ⟨_, rfl, isCurve_of _ _ _ _ (fun k _ h => ?_) (fun k _ h => ?_)⟩
  · simp [normOpsR, corrSubtractedR, h, divCount]
  · exact cell_corrSubtractedR h _ _ _ _ rfl

/-- The same with complex output. -/
theorem C21_standard_complex (call : CrossCall true f1.length f2.length t1 t2 n norm method n')
    (L : Nat) (hL : L = 2 * n' - 1) :
    ∃ out, ccorrNormalizedC f1 f2 t1 t2 n norm method aligned bg var 1 "corr" false = .ok out ∧
      IsCurve L (pairsAt true (stream f1 t1) (stream f2 t2) L)
        (fun P => mean cxProd P - cxProd bg.fst bg.snd) out := by
  obtain ⟨sq, s1, s2, e, -, -⟩ :=
    ccorrNormalizedC_eq f1 f2 t1 t2 n norm method aligned n' call L hL
  rw [e, normalize_standard]
  refine ⟨_, rfl, isCurve_of _ _ _ _ (fun k _ h => ?_) (fun k _ h => ?_)⟩
  · simp [normOpsC, corrBaselineC, h, divCount]
  · exact cell_corrBaselineC h _ _

theorem C21_cross_complex (call : CrossCall true f1.length f2.length t1 t2 n norm method n')
    (L : Nat) (hL : L = 2 * n' - 1) (hs : AskSums norm method n true)
    (z : Int) (hz : z = 5 ∨ z = 13) :
    ∃ out, ccorrNormalizedC f1 f2 t1 t2 n norm method aligned bg var z "corr" false = .ok out ∧
      IsCurve L (pairsAt true (stream f1 t1) (stream f2 t2) L)
        (mean fun a b => cxProd (a - bg.fst) (b - bg.snd)) out := by
  obtain ⟨sq, s1, s2, e, -, hs'⟩ :=
    ccorrNormalizedC_eq f1 f2 t1 t2 n norm method aligned n' call L hL
  obtain ⟨rfl, rfl⟩ := hs' hs
  rw [e, normalize_subtracted _ _ _ _ _ _ _ _ _ _ _ hz]
  refine ⟨_, rfl, isCurve_of _ _ _ _ (fun k _ h => ?_) (fun k _ h => ?_)⟩
  · simp [normOpsC, corrSubtractedC, h, divCount]
  · exact cell_corrSubtractedC h _ _

/-- In one sentence: normalising raw data with the subtracted norm is the same as removing the
backgrounds from the signals, correlating, and normalising with the standard norm. -/
theorem C21_background_free (call : CrossCall false f1.length f2.length t1 t2 n norm method n')
    (hd : effMethod method n ≠ "diff") (hs : AskSums norm method n true)
    (z : Int) (hz : z = 5 ∨ z = 13) :
    ccorrNormalized f1 f2 t1 t2 n norm method aligned bg var z "corr" false
      = ccorrNormalized (f1.map (· - bg.fst)) (f2.map (· - bg.snd)) t1 t2 n norm method aligned
          (.one 0) var 1 "corr" false := by
  obtain ⟨o, e, h⟩ := C21_cross f1 f2 t1 t2 n norm method aligned n' bg var call hd hs z hz
  obtain ⟨o', e', h'⟩ := C21_standard (f1.map (· - bg.fst)) (f2.map (· - bg.snd)) t1 t2 n norm
    method aligned n' (.one 0) var (by simpa using call) hd
  rw [e, e']
  congr 1
  have hp : ∀ k, pairsAt false (stream (f1.map (· - bg.fst)) t1) (stream (f2.map (· - bg.snd)) t2)
      n' k = (pairsAt false (stream f1 t1) (stream f2 t2) n' k).map
        (Prod.map (· - bg.fst) (· - bg.snd)) := by
    intro k; exact pairsAt_stream_map ..
  refine isCurve_unique h h' (fun k _ => by rw [hp]; simp) (fun k _ _ => ?_)
  rw [hp, mean_map]
  simp [Background.fst, Background.snd, reProd]

theorem C21_background_free_complex
    (call : CrossCall true f1.length f2.length t1 t2 n norm method n')
    (hs : AskSums norm method n true) (z : Int) (hz : z = 5 ∨ z = 13) :
    ccorrNormalizedC f1 f2 t1 t2 n norm method aligned bg var z "corr" false
      = ccorrNormalizedC (f1.map (· - bg.fst)) (f2.map (· - bg.snd)) t1 t2 n norm method aligned
          (.one 0) var 1 "corr" false := by
  obtain ⟨o, e, h⟩ := C21_cross_complex f1 f2 t1 t2 n norm method aligned n' bg var call _ rfl hs
    z hz
  obtain ⟨o', e', h'⟩ := C21_standard_complex (f1.map (· - bg.fst)) (f2.map (· - bg.snd)) t1 t2 n
    norm method aligned n' (.one 0) var (by simpa using call) _ rfl
  rw [e, e']
  congr 1
  have hp : ∀ k, pairsAt true (stream (f1.map (· - bg.fst)) t1) (stream (f2.map (· - bg.snd)) t2)
      (2 * n' - 1) k = (pairsAt true (stream f1 t1) (stream f2 t2) (2 * n' - 1) k).map
        (Prod.map (· - bg.fst) (· - bg.snd)) := by
    intro k; exact pairsAt_stream_map ..
  refine isCurve_unique h h' (fun k _ => by rw [hp]; simp) (fun k _ _ => ?_)
  rw [hp, mean_map]
  ext <;> simp [Background.fst, Background.snd, cxProd]

/-! ### C22 -/

/-- Structured norm. -/
theorem C22_cross (call : CrossCall false f1.length f2.length t1 t2 n norm method n')
    (hd : effMethod method n ≠ "diff") (hs : AskSquares norm method n true) :
    ∃ out, ccorrNormalized f1 f2 t1 t2 n norm method aligned bg (some v) 2 "corr" false = .ok out ∧
      IsCurve n' (pairsAt false (stream f1 t1) (stream f2 t2) n')
        (fun P => v.offset - (1 / 2) * mean dist2 P + (1 / 2) * dist2 bg.fst bg.snd) out := by
  obtain ⟨sq, s1, s2, e, hs', -⟩ := ccorrNormalized_eq f1 f2 t1 t2 n norm method aligned n' call hd
  obtain rfl := hs' hs
  rw [e, normalize_structured]
  refine ⟨_, rfl, isCurve_of _ _ _ _ (fun k _ h => ?_) (fun k _ h => ?_)⟩
  · simp [normOpsR, structBaselineR, h, divCount]
  · exact cell_structBaselineR h _ _ _

/-- Structured and subtracted: the same for the signals without background. -/
theorem C22_cross_subtracted (call : CrossCall false f1.length f2.length t1 t2 n norm method n')
    (hd : effMethod method n ≠ "diff") (hq : AskSquares norm method n true)
    (hs : AskSums norm method n true) (z : Int) (hz : z = 6 ∨ z = 14) :
    ∃ out, ccorrNormalized f1 f2 t1 t2 n norm method aligned bg (some v) z "corr" false = .ok out ∧
      IsCurve n' (pairsAt false (stream f1 t1) (stream f2 t2) n')
        (fun P => v.offset - (1 / 2) * mean (fun a b => dist2 (a - bg.fst) (b - bg.snd)) P) out := by
  obtain ⟨sq, s1, s2, e, hq', hs'⟩ :=
    ccorrNormalized_eq f1 f2 t1 t2 n norm method aligned n' call hd
  obtain rfl := hq' hq
  obtain ⟨rfl, rfl⟩ := hs' hs
  rw [e, normalize_structSubtracted _ _ _ _ _ _ _ _ _ _ _ hz]
  refine ⟨_, rfl, isCurve_of _ _ _ _ (fun k _ h => ?_) (fun k _ h => ?_)⟩
  · simp [normOpsR, structSubtractedR, h, divCount]
  · exact cell_structSubtractedR h _ _ _ _ _ rfl

/-- Complex output: the same in the real part; in the imaginary part the formula for the first
signal multiplied by the imaginary unit. -/
theorem C22_cross_complex (call : CrossCall true f1.length f2.length t1 t2 n norm method n')
    (L : Nat) (hL : L = 2 * n' - 1) (hs : AskSquares norm method n true) :
    ∃ out, ccorrNormalizedC f1 f2 t1 t2 n norm method aligned bg (some v) 2 "corr" false = .ok out ∧
      IsCurve L (pairsAt true (stream f1 t1) (stream f2 t2) L)
        (fun P => (⟨v.offset - (1 / 2) * mean dist2 P + (1 / 2) * dist2 bg.fst bg.snd,
          v.offset - (1 / 2) * mean (fun a b => dist2 (Cx.I * a) b) P
            + (1 / 2) * dist2 (Cx.I * bg.fst) bg.snd⟩ : Cx ℝ)) out := by
  obtain ⟨sq, s1, s2, e, hs', -⟩ :=
    ccorrNormalizedC_eq f1 f2 t1 t2 n norm method aligned n' call L hL
  obtain rfl := hs' hs
  rw [e, normalize_structured]
  refine ⟨_, rfl, isCurve_of _ _ _ _ (fun k _ h => ?_) (fun k _ h => ?_)⟩
  · simp [normOpsC, structBaselineC, h, divCount]
  · exact cell_structBaselineC h _ _ _

theorem C22_cross_complex_subtracted
    (call : CrossCall true f1.length f2.length t1 t2 n norm method n')
    (L : Nat) (hL : L = 2 * n' - 1) (hq : AskSquares norm method n true)
    (hs : AskSums norm method n true) (z : Int) (hz : z = 6 ∨ z = 14) :
    ∃ out, ccorrNormalizedC f1 f2 t1 t2 n norm method aligned bg (some v) z "corr" false = .ok out ∧
      IsCurve L (pairsAt true (stream f1 t1) (stream f2 t2) L)
        (fun P => (⟨v.offset - (1 / 2) * mean (fun a b => dist2 (a - bg.fst) (b - bg.snd)) P,
          v.offset - (1 / 2) * mean (fun a b => dist2 (Cx.I * (a - bg.fst)) (b - bg.snd)) P⟩ :
            Cx ℝ)) out := by
  obtain ⟨sq, s1, s2, e, hq', hs'⟩ :=
    ccorrNormalizedC_eq f1 f2 t1 t2 n norm method aligned n' call L hL
  obtain rfl := hq' hq
  obtain ⟨rfl, rfl⟩ := hs' hs
  rw [e, normalize_structSubtracted _ _ _ _ _ _ _ _ _ _ _ hz]
  refine ⟨_, rfl, isCurve_of _ _ _ _ (fun k _ h => ?_) (fun k _ h => ?_)⟩
  · simp [normOpsC, structSubtractedC, h, divCount]
  · exact cell_structSubtractedC h _ _ _

/-- The structured norm never exceeds the variance offset, if there is one background or the
backgrounds are subtracted. -/
theorem C22_bound (call : CrossCall false f1.length f2.length t1 t2 n norm method n')
    (hd : effMethod method n ≠ "diff") (hq : AskSquares norm method n true) (z : Int)
    (hz : (z = 2 ∧ bg.fst = bg.snd) ∨ ((z = 6 ∨ z = 14) ∧ AskSums norm method n true)) :
    ∃ out, ccorrNormalized f1 f2 t1 t2 n norm method aligned bg (some v) z "corr" false = .ok out ∧
      ∀ x, some x ∈ out → x ≤ v.offset := by
  rcases hz with ⟨rfl, hb⟩ | ⟨hz, hs⟩
  · obtain ⟨out, e, h⟩ := C22_cross f1 f2 t1 t2 n norm method aligned n' bg v call hd hq
    refine ⟨out, e, fun x hx => ?_⟩
    obtain ⟨k, -, -, rfl⟩ := isCurve_mem h hx
    have h1 := mean_dist2_nonneg (pairsAt false (stream f1 t1) (stream f2 t2) n' k) id id
    have h2 : dist2 bg.fst bg.snd = 0 := by rw [hb]; simp [dist2, Cx.abs2]
    simp only [id] at h1
    have h3 : 0 ≤ mean dist2 (pairsAt false (stream f1 t1) (stream f2 t2) n' k) := h1
    linarith
  · obtain ⟨out, e, h⟩ := C22_cross_subtracted f1 f2 t1 t2 n norm method aligned n' bg v call hd hq
      hs z hz
    refine ⟨out, e, fun x hx => ?_⟩
    obtain ⟨k, -, -, rfl⟩ := isCurve_mem h hx
    have h1 := mean_dist2_nonneg (pairsAt false (stream f1 t1) (stream f2 t2) n' k)
      (· - bg.fst) (· - bg.snd)
    linarith

/-- Complex output: both parts never exceed it, if the backgrounds are subtracted. -/
theorem C22_bound_complex (call : CrossCall true f1.length f2.length t1 t2 n norm method n')
    (hq : AskSquares norm method n true) (hs : AskSums norm method n true) (z : Int)
    (hz : z = 6 ∨ z = 14) :
    ∃ out, ccorrNormalizedC f1 f2 t1 t2 n norm method aligned bg (some v) z "corr" false = .ok out ∧
      ∀ x, some x ∈ out → x.re ≤ v.offset ∧ x.im ≤ v.offset := by
  obtain ⟨out, e, h⟩ := C22_cross_complex_subtracted f1 f2 t1 t2 n norm method aligned n' bg v call
    _ rfl hq hs z hz
  refine ⟨out, e, fun x hx => ?_⟩
  obtain ⟨k, -, -, rfl⟩ := isCurve_mem h hx
  have h1 := mean_dist2_nonneg (pairsAt true (stream f1 t1) (stream f2 t2) (2 * n' - 1) k)
    (· - bg.fst) (· - bg.snd)
  have h2 := mean_dist2_nonneg (pairsAt true (stream f1 t1) (stream f2 t2) (2 * n' - 1) k)
    (fun a => Cx.I * (a - bg.fst)) (· - bg.snd)
  dsimp only at h1 h2 ⊢
  constructor <;> linarith

/-! ### C23 -/

/-- Normalising the differences (method 'diff') or the correlations of the same frames with the
structured norm gives the same curve, in both modes, scaled or not.  (For any other mode both are
ValueError.) -/
theorem C23_cross (normD : Option Int)
    (callD : CrossCall false f1.length f2.length t1 t2 n normD (some "diff") n')
    (call : CrossCall false f1.length f2.length t1 t2 n norm method n')
    (hd : effMethod method n ≠ "diff") (hq : AskSquares norm method n true) (mode : String)
    (scale : Bool) :
    ccorrNormalized f1 f2 t1 t2 n normD (some "diff") aligned bg (some v) 2 mode scale
      = ccorrNormalized f1 f2 t1 t2 n norm method aligned bg (some v) 2 mode scale := by
  obtain ⟨sq, s1, s2, e, hq', -⟩ := ccorrNormalized_eq f1 f2 t1 t2 n norm method aligned n' call hd
  obtain ⟨u1, u2, eD, -⟩ := ccorrNormalized_diff_eq f1 f2 t1 t2 n normD aligned n' callD
  obtain rfl := hq' hq
  rw [e, eD]
  congr 1
  refine normalize_agree normOpsR ofReal_R _ _ _ _ _ (by decide) _ ?_ mode scale
  rw [normalize_structured, normalize_diff_corr]
  congr 3
  funext k
  by_cases h : pairsAt false (stream f1 t1) (stream f2 t2) n' k = []
  · simp [normOpsR, structBaselineR, cdiff1, h, divCount]
  · refine Eq.trans ?_ (cell_structBaselineR h _ _ _).symm
    rw [cell_cdiff1 h, Option.map_some, diff2corr_R]
    congr 1
    ring

/-- The same for the structured and subtracted norm. -/
theorem C23_cross_subtracted (normD : Option Int)
    (callD : CrossCall false f1.length f2.length t1 t2 n normD (some "diff") n')
    (call : CrossCall false f1.length f2.length t1 t2 n norm method n')
    (hd : effMethod method n ≠ "diff") (hq : AskSquares norm method n true)
    (hs : AskSums norm method n true) (hsD : AskSums normD (some "diff") n true) (mode : String)
    (scale : Bool) :
    ccorrNormalized f1 f2 t1 t2 n normD (some "diff") aligned bg (some v) 6 mode scale
      = ccorrNormalized f1 f2 t1 t2 n norm method aligned bg (some v) 6 mode scale := by
  obtain ⟨sq, s1, s2, e, hq', hs'⟩ :=
    ccorrNormalized_eq f1 f2 t1 t2 n norm method aligned n' call hd
  obtain ⟨u1, u2, eD, hsD'⟩ := ccorrNormalized_diff_eq f1 f2 t1 t2 n normD aligned n' callD
  obtain rfl := hq' hq
  obtain ⟨rfl, rfl⟩ := hs' hs
  obtain ⟨rfl, rfl⟩ := hsD' hsD
  rw [e, eD]
  congr 1
  refine normalize_agree normOpsR ofReal_R _ _ _ _ _ (by decide) _ ?_ mode scale
  rw [normalize_structSubtracted _ _ _ _ _ _ _ _ _ _ _ (Or.inl rfl),
    normalize_diffSubtracted_corr]
  congr 3
  funext k
  by_cases h : pairsAt false (stream f1 t1) (stream f2 t2) n' k = []
  · simp [normOpsR, structSubtractedR, cdiff3, h, divCount]
  · refine Eq.trans ?_ (cell_structSubtractedR h _ _ _ _ _ rfl).symm
    rw [cell_cdiff3 h, Option.map_some, diff2corr_R]

end cross

section modes
variable (bg : Option Background) (v : Variance) (z : Int)
  (hz : z ≠ 3 ∧ z ≠ 7 ∧ z ≠ 11 ∧ z ≠ 15)
include hz

/-- What the modes mean, for any data tuple and any norm which is not weighted: mode 'diff' returns
`2 (offset - c)` where mode 'corr' returns `c`. -/
theorem C23_modes (data : NormData ℝ) (w : Option (List ℝ)) :
    normalize normOpsR data bg (some v) (some z) "diff" false w
      = (normalize normOpsR data bg (some v) (some z) "corr" false w).map
          fun p => (p.1.map (Option.map fun x => 2 * (v.offset - x)), p.2) :=
  normalize_mode normOpsR ofReal_R data bg v z hz w

theorem C23_modes_complex (data : NormData (Cx ℝ)) (w : Option (List (Cx ℝ))) :
    normalize normOpsC data bg (some v) (some z) "diff" false w
      = (normalize normOpsC data bg (some v) (some z) "corr" false w).map
          fun p => (p.1.map (Option.map fun x => (2 : ℝ) • (Cx.ofR v.offset - x)), p.2) :=
  normalize_mode normOpsC ofReal_C data bg v z hz w

/-- With `scale = True` every value is divided by the offset (no finite value if that is zero). -/
theorem C23_scale (data : NormData ℝ) (mode : String) (w : Option (List ℝ)) :
    normalize normOpsR data bg (some v) (some z) mode true w
      = (normalize normOpsR data bg (some v) (some z) mode false w).map
          fun p => (p.1.map fun x => x.bind fun x =>
            if v.offset = 0 then none else some (x / v.offset), p.2) := by
  rw [normalize_scale normOpsR data bg v z hz]
  congr 1
  funext p
  congr 2
  funext x
  cases x with
  | none => rfl
  | some x => simp only [scaleBy, Option.bind_some, smul_eq_mul, one_div_mul_eq_div]

end modes

/-- Converting forth and back with one offset changes nothing. -/
theorem C23_round_trip (offset : ℝ) (x : ℝ) :
    diff2corr normOpsR offset (corr2diff normOpsR offset x) = x ∧
      corr2diff normOpsR offset (diff2corr normOpsR offset x) = x := by
  rw [corr2diff_eq _ ofReal_R, corr2diff_eq _ ofReal_R, diff2corr_toDiff, toDiff_diff2corr]
  exact ⟨rfl, rfl⟩

theorem C23_round_trip_complex (offset : ℝ) (x : Cx ℝ) :
    diff2corr normOpsC offset (corr2diff normOpsC offset x) = x ∧
      corr2diff normOpsC offset (diff2corr normOpsC offset x) = x := by
  rw [corr2diff_eq _ ofReal_C, corr2diff_eq _ ofReal_C, diff2corr_toDiff, toDiff_diff2corr]
  exact ⟨rfl, rfl⟩

/-- Real data and the real part of complex data are normalised in the same way, for every norm
which is not weighted, in every mode; both are refused in the same cases. -/
theorem C22_real_part (cor : List (Cx ℝ)) (count : List Nat) (sq : Option (List ℝ))
    (s1 s2 : Option (List (Cx ℝ))) (bg : Option Background) (var : Option Variance) (z : Int)
    (hz : z ≠ 3 ∧ z ≠ 7 ∧ z ≠ 11 ∧ z ≠ 15) (mode : String) (scale : Bool) :
    (normalize normOpsC (.corr cor count sq s1 s2) bg var (some z) mode scale none).map
        (fun p => p.1.map (Option.map Cx.re))
      = (normalize normOpsR (.corr (cor.map Cx.re) count sq s1 s2) bg var (some z) mode scale
          none).map Prod.fst :=
  normalize_re cor count sq s1 s2 bg var z hz mode scale none none

section auto
variable (f : List (Cx ℝ)) (t : Option (List Int)) (n : Option Nat) (norm : Option Int)
  (method : Option String) (aligned : Bool) (n' : Nat) (bg : Background) (var : Option Variance)
  (v : Variance) (b : Cx ℝ)

/-! ### Auto-correlation -/

theorem C21_auto_standard (call : AutoCall f.length t n norm method n')
    (hd : effMethod method n ≠ "diff") :
    ∃ out, acorrNormalized f t n norm method aligned bg var 1 "corr" false = .ok out ∧
      IsCurve n' (selfPairsAt (stream f t)) (fun P => mean reProd P - reProd bg.fst bg.snd) out := by
  obtain ⟨sq, s1, e, -, -⟩ := acorrNormalized_eq f t n norm method aligned n' call hd
  rw [e, normalize_standard]
  refine ⟨_, rfl, isCurve_of _ _ _ _ (fun k _ h => ?_) (fun k _ h => ?_)⟩
  · simp [normOpsR, corrBaselineR, h, divCount]
  · exact cell_corrBaselineR h _ _

/-- Auto-correlation with the background `b`. -/
theorem C21_auto (call : AutoCall f.length t n norm method n')
    (hd : effMethod method n ≠ "diff") (hs : AskSums norm method n false)
    (z : Int) (hz : z = 5 ∨ z = 13) :
    ∃ out, acorrNormalized f t n norm method aligned (.one b) var z "corr" false = .ok out ∧
      IsCurve n' (selfPairsAt (stream f t)) (mean fun x y => reProd (x - b) (y - b)) out := by
  obtain ⟨sq, s1, e, -, hs'⟩ := acorrNormalized_eq f t n norm method aligned n' call hd
  obtain rfl := hs' hs
  rw [e, normalize_subtracted _ _ _ _ _ _ _ _ _ _ _ hz]
  refine ⟨_, rfl, isCurve_of _ _ _ _ (fun k _ h => ?_) (fun k _ h => ?_)⟩
  · simp [normOpsR, corrSubtractedR, h, divCount]
  · exact cell_corrSubtractedR h _ _ _ _ (total_half_dot _ _)

theorem C21_auto_background_free (call : AutoCall f.length t n norm method n')
    (hd : effMethod method n ≠ "diff") (hs : AskSums norm method n false)
    (z : Int) (hz : z = 5 ∨ z = 13) :
    acorrNormalized f t n norm method aligned (.one b) var z "corr" false
      = acorrNormalized (f.map (· - b)) t n norm method aligned (.one 0) var 1 "corr" false := by
  obtain ⟨o, e, h⟩ := C21_auto f t n norm method aligned n' var b call hd hs z hz
  obtain ⟨o', e', h'⟩ := C21_auto_standard (f.map (· - b)) t n norm method aligned n' (.one 0) var
    (by simpa using call) hd
  rw [e, e']
  congr 1
  have hp : ∀ k, selfPairsAt (stream (f.map (· - b)) t) k
      = (selfPairsAt (stream f t) k).map (Prod.map (· - b) (· - b)) := by
    intro k; exact selfPairsAt_stream_map ..
  refine isCurve_unique h h' (fun k _ => by rw [hp]; simp) (fun k _ _ => ?_)
  rw [hp, mean_map]
  simp [Background.fst, Background.snd, reProd]

theorem C22_auto (call : AutoCall f.length t n norm method n')
    (hd : effMethod method n ≠ "diff") (hs : AskSquares norm method n false) :
    ∃ out, acorrNormalized f t n norm method aligned bg (some v) 2 "corr" false = .ok out ∧
      IsCurve n' (selfPairsAt (stream f t))
        (fun P => v.offset - (1 / 2) * mean dist2 P + (1 / 2) * dist2 bg.fst bg.snd) out := by
  obtain ⟨sq, s1, e, hs', -⟩ := acorrNormalized_eq f t n norm method aligned n' call hd
  obtain rfl := hs' hs
  rw [e, normalize_structured]
  refine ⟨_, rfl, isCurve_of _ _ _ _ (fun k _ h => ?_) (fun k _ h => ?_)⟩
  · simp [normOpsR, structBaselineR, h, divCount]
  · exact cell_structBaselineR h _ _ _

theorem C22_auto_subtracted (call : AutoCall f.length t n norm method n')
    (hd : effMethod method n ≠ "diff") (hq : AskSquares norm method n false)
    (hs : AskSums norm method n false) (z : Int) (hz : z = 6 ∨ z = 14) :
    ∃ out, acorrNormalized f t n norm method aligned (.one b) (some v) z "corr" false = .ok out ∧
      IsCurve n' (selfPairsAt (stream f t))
        (fun P => v.offset - (1 / 2) * mean (fun x y => dist2 (x - b) (y - b)) P) out := by
  obtain ⟨sq, s1, e, hq', hs'⟩ := acorrNormalized_eq f t n norm method aligned n' call hd
  obtain rfl := hq' hq
  obtain rfl := hs' hs
  rw [e, normalize_structSubtracted _ _ _ _ _ _ _ _ _ _ _ hz]
  refine ⟨_, rfl, isCurve_of _ _ _ _ (fun k _ h => ?_) (fun k _ h => ?_)⟩
  · simp [normOpsR, structSubtractedR, h, divCount]
  · exact cell_structSubtractedR h _ _ _ _ _ (by simp [dot, Background.fst, Background.snd])

theorem C22_auto_complex (call : AutoCall f.length t n norm method n')
    (hd : effMethod method n ≠ "diff") (hs : AskSquares norm method n false) :
    ∃ out, acorrNormalizedC f t n norm method aligned bg (some v) 2 "corr" false = .ok out ∧
      IsCurve n' (selfPairsFwdAt (stream f t))
        (fun P => (⟨v.offset - (1 / 2) * mean dist2 P + (1 / 2) * dist2 bg.fst bg.snd,
          v.offset - (1 / 2) * mean (fun a b => dist2 (Cx.I * a) b) P
            + (1 / 2) * dist2 (Cx.I * bg.fst) bg.snd⟩ : Cx ℝ)) out := by
  obtain ⟨sq, s1, e, hs', -⟩ := acorrNormalizedC_eq f t n norm method aligned n' call hd
  obtain rfl := hs' hs
  rw [e, normalize_structured]
  refine ⟨_, rfl, isCurve_of _ _ _ _ (fun k _ h => ?_) (fun k _ h => ?_)⟩
  · simp [normOpsC, structBaselineC, h, divCount]
  · exact cell_structBaselineC h _ _ _

theorem C23_auto (normD : Option Int)
    (callD : AutoCall f.length t n normD (some "diff") n')
    (call : AutoCall f.length t n norm method n')
    (hd : effMethod method n ≠ "diff") (hq : AskSquares norm method n false) (mode : String)
    (scale : Bool) :
    acorrNormalized f t n normD (some "diff") aligned bg (some v) 2 mode scale
      = acorrNormalized f t n norm method aligned bg (some v) 2 mode scale := by
  obtain ⟨sq, s1, e, hq', -⟩ := acorrNormalized_eq f t n norm method aligned n' call hd
  obtain rfl := hq' hq
  rw [e, acorrNormalized_diff_eq f t n normD aligned n' callD]
  congr 1
  refine normalize_agree normOpsR ofReal_R _ _ _ _ _ (by decide) _ ?_ mode scale
  rw [normalize_structured, normalize_diff_corr]
  congr 3
  funext k
  by_cases h : selfPairsAt (stream f t) k = []
  · simp [normOpsR, structBaselineR, cdiff1, h, divCount]
  · refine Eq.trans ?_ (cell_structBaselineR h _ _ _).symm
    rw [cell_cdiff1 h, Option.map_some, diff2corr_R]
    congr 1
    ring

end auto

/-! ### Concrete cases -/

/-- An accepted call of `ccorr`: irregular times, default method and norm. -/
theorem crossCall_example (full : Bool) :
    CrossCall full 3 3 (some [4, 0, 1]) (some [1, 5, 2]) none none none 6 := by
  have hm := manageable_default (C := ℝ) full "fft" 3 (some [4, 0, 1]) (some [1, 5, 2]) (by decide)
    (by intro l h; rw [← Option.some.inj h]; decide) (by intro l h; rw [← Option.some.inj h]; decide)
  have hD : defaultN 3 (some [4, 0, 1]) (some [1, 5, 2]) = 6 := by decide
  rw [hD] at hm
  refine ⟨by rw [hD]; rfl, ?_, by rw [hD]; exact hD ▸ hm.cor, fun _ => hm.fft rfl⟩
  cases full <;> simp [CcorrRefused, effMethod, effNorm, SupportedNorm, ValidCross]

example : AskSums none none none true ∧ AskSquares none none none true ∧
    effMethod none none ≠ "diff" := by
  simp [AskSums, AskSquares, effMethod, effNorm, WantsSums, WantsSquares]

/-- Method 'diff' on the same times. -/
example : CrossCall false 3 3 (some [4, 0, 1]) (some [1, 5, 2]) none none (some "diff") 6 ∧
    AskSums none (some "diff") none true := by
  have hD : defaultN 3 (some [4, 0, 1]) (some [1, 5, 2]) = 6 := by decide
  refine ⟨⟨by rw [hD]; rfl, ?_, ?_, by simp [effMethod]⟩, ?_⟩
  · simp [CcorrRefused, effMethod, effNorm, SupportedNorm, ValidCross]
  · simp [SafeLen, effMethod]
  · simp [AskSums, effMethod, effNorm, WantsSums]

/-- Three regular frames, two delays, method 'corr'. -/
theorem autoCall_example (N : Nat) (hN : 1 ≤ N) : AutoCall N none (some 2) none (some "corr") 2 := by
  refine ⟨rfl, ?_, ?_, by intro l h; simp at h, by simp [effMethod]⟩
  · simp [AcorrRefused, effMethod, effNorm, SupportedNorm, ValidAuto]
  · simp [SafeLen, effMethod, defaultN]
    omega

example : AskSums none (some "corr") (some 2) false ∧ AskSquares none (some "corr") (some 2) false ∧
    effMethod (some "corr") (some 2) ≠ "diff" := by
  simp [AskSums, AskSquares, effMethod, effNorm, WantsSums, WantsSquares]

-- The theorems applied to them: three frames of each camera at irregular times, two backgrounds, both variances.
example := C21_cross [⟨1, 2⟩, ⟨0, -1⟩, ⟨3, 1⟩] [⟨2, 0⟩, ⟨1, 1⟩, ⟨-1, 4⟩] (some [4, 0, 1]) (some [1, 5, 2]) none none none true 6
  (.two ⟨1, 0⟩ ⟨0, 1⟩) none (crossCall_example false) (by simp [effMethod]) (by simp [AskSums, effMethod, effNorm, WantsSums]) 5
  (Or.inl rfl)
example := C22_cross_complex_subtracted [⟨1, 2⟩, ⟨0, -1⟩, ⟨3, 1⟩] [⟨2, 0⟩, ⟨1, 1⟩, ⟨-1, 4⟩] (some [4, 0, 1]) (some [1, 5, 2]) none none
  none true 6 (.two ⟨1, 0⟩ ⟨0, 1⟩) (.two 2 3) (crossCall_example true) 11 rfl
  (by simp [AskSquares, effMethod, effNorm, WantsSquares]) (by simp [AskSums, effMethod, effNorm, WantsSums]) 14 (Or.inr rfl)
example := C22_auto_subtracted [⟨1, 2⟩, ⟨0, -1⟩, ⟨3, 1⟩] none (some 2) none (some "corr") false 2 (.one 2) ⟨1, 1⟩
  (autoCall_example 3 (by decide)) (by simp [effMethod]) (by simp [AskSquares, effMethod, effNorm, WantsSquares])
  (by simp [AskSums, effMethod, effNorm, WantsSums]) 6 (Or.inl rfl)
-- Norms that are not weighted, as in C23.
example : (5 : Int) ≠ 3 ∧ (5 : Int) ≠ 7 ∧ (5 : Int) ≠ 11 ∧ (5 : Int) ≠ 15 := by decide

end Cddm
