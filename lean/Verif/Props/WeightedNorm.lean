import Verif.Lemmas.NormWeighted
import Verif.Props.Weight

/-!
# C23, C26, C70: the weighted normalization
-/

namespace Cddm
open Spec

/-- From the weighted branch and the plain branch to `normalize`. -/
theorem normalize_map {C : Type} [AddCommGroup C] [Module ℝ C] (ops : NormOps C) (φ : C → C)
    (data : NormData C) (bg : Option Background) (v : Variance) (z : Option Int)
    (mode mode' : String) (hm : mode = "corr" ∨ mode = "diff") (hm' : mode' = "corr" ∨ mode' = "diff")
    (scale scale' : Bool) (w : Option (List C))
    (hp : ∀ z, normalizePlain ops data bg (some v) z mode' scale'
      = (normalizePlain ops data bg (some v) z mode scale).map (List.map (Option.map φ)))
    (hq : ∀ z, normalizeWeighted ops data bg (some v) z mode' scale' w
      = (normalizeWeighted ops data bg (some v) z mode scale w).map fun p => (p.1.map (Option.map φ), p.2)) :
    normalize ops data bg (some v) z mode' scale' w
      = (normalize ops data bg (some v) z mode scale w).map
          fun p => (p.1.map (Option.map φ), p.2) := by
  have e : ∀ b : Bool, (if b then (scaleFactor (some v)).map some else .ok none : Py (Option ℝ))
      = .ok (if b then some v.offset else none) := by
    intro b
    cases b <;> simp [scaleFactor_some, Except.map]
  simp only [normalize, inspectMode, if_pos hm, if_pos hm', bind, Except.bind, e, hp, hq]
  cases normOf data z with
  | error => rfl
  | ok x =>
    dsimp only
    by_cases h : x &&& 3 = 3
    · rw [if_pos h, if_pos h]
      cases normalizeWeighted ops data bg (some v) x mode scale w with
      | error => rfl
      | ok p => simp [Except.map]
    · rw [if_neg h, if_neg h]
      cases normalizePlain ops data bg (some v) x mode scale <;> rfl

theorem denoiseR_map (a c : ℝ) (x : List ℝ) :
    normOpsR.denoise (x.map fun u => a * u + c)
      = (normOpsR.denoise x).map (List.map fun u => a * u + c) := denoise_affine a c 3 x

theorem denoiseC_map (a c : ℝ) (x : List (Cx ℝ)) :
    normOpsC.denoise (x.map fun u => a • u + Cx.ofR c)
      = (normOpsC.denoise x).map (List.map fun u => a • u + Cx.ofR c) := denoiseCx_affine a c 3 x

section
variable (bg : Option Background) (v : Variance) (z : Option Int)

/-- What the modes mean for every norm, weighted or not, given or default: mode 'diff' returns
`2 (offset - c)` where mode 'corr' returns `c`, with the same weight. -/
theorem C23_all_norms (data : NormData ℝ) (w : Option (List ℝ)) :
    normalize normOpsR data bg (some v) z "diff" false w
      = (normalize normOpsR data bg (some v) z "corr" false w).map
          fun p => (p.1.map (Option.map fun x => 2 * (v.offset - x)), p.2) := by
  have eφ : (fun x => 2 * (v.offset - x)) = fun x : ℝ => (-2) * x + 2 * v.offset := by
    funext x; ring
  have hp : ∀ z, normalizePlain normOpsR data bg (some v) z "diff" false
      = (normalizePlain normOpsR data bg (some v) z "corr" false).map
          (List.map (Option.map fun x => 2 * (v.offset - x))) :=
    normalizePlain_mode normOpsR ofReal_R data bg v
  refine normalize_map normOpsR (fun x => 2 * (v.offset - x)) data bg v z _ _ (by simp) (by simp)
    _ _ w hp fun z => ?_
  refine normalizeWeighted_map normOpsR (fun x => 2 * (v.offset - x)) ?_ ?_ data bg v z _ _ (by simp)
    (by simp) _ _ hp Iff.rfl Iff.rfl ?_ w
  · intro x; rw [eφ]; exact denoiseR_map _ _ x
  · intro x y w
    simp only [normOpsR, weightedSumR]; ring
  · intro δ δ' h h' h0 x
    rw [h] at h'
    obtain rfl := Option.some.inj h'
    simp only [Bool.false_eq_true, if_false] at h0
    simp only [Bool.false_eq_true, if_false, show ¬ "diff" = "corr" by decide, if_true, normOpsR,
      weightFromD, smul_eq_mul]
    congr 1
    field_simp
    ring

theorem C23_all_norms_complex (data : NormData (Cx ℝ)) (w : Option (List (Cx ℝ))) :
    normalize normOpsC data bg (some v) z "diff" false w
      = (normalize normOpsC data bg (some v) z "corr" false w).map
          fun p => (p.1.map (Option.map fun x => (2 : ℝ) • (Cx.ofR v.offset - x)), p.2) := by
  have eφ : (fun x => (2 : ℝ) • (Cx.ofR v.offset - x))
      = fun x : Cx ℝ => (-2 : ℝ) • x + Cx.ofR (2 * v.offset) := by
    funext x; exact Cx.ext (by simp; ring) (by simp)
  have hp : ∀ z, normalizePlain normOpsC data bg (some v) z "diff" false
      = (normalizePlain normOpsC data bg (some v) z "corr" false).map
          (List.map (Option.map fun x => (2 : ℝ) • (Cx.ofR v.offset - x))) :=
    normalizePlain_mode normOpsC ofReal_C data bg v
  refine normalize_map normOpsC (fun x => (2 : ℝ) • (Cx.ofR v.offset - x)) data bg v z _ _ (by simp) (by simp)
    _ _ w hp fun z => ?_
  refine normalizeWeighted_map normOpsC (fun x => (2 : ℝ) • (Cx.ofR v.offset - x)) ?_ ?_ data bg v z _ _ (by simp)
    (by simp) _ _ hp Iff.rfl Iff.rfl ?_ w
  · intro x; rw [eφ]; exact denoiseC_map _ _ x
  · intro x y w
    simp only [normOpsC, weightedSumC]
    exact Cx.ext (by simp; ring) (by simp; ring)
  · intro δ δ' h h' h0 x
    rw [h] at h'
    obtain rfl := Option.some.inj h'
    simp only [Bool.false_eq_true, if_false] at h0
    simp only [Bool.false_eq_true, if_false, show ¬ "diff" = "corr" by decide, if_true, normOpsC,
      weightFromDC]
    congr 1
    apply Cx.ext
    · simp; field_simp; ring
    · simp; field_simp

/-- The same with `scale = True`, where the offset is one. -/
theorem C23_all_norms_scaled (data : NormData ℝ) (w : Option (List ℝ)) (hv : v.offset ≠ 0) :
    normalize normOpsR data bg (some v) z "diff" true w
      = (normalize normOpsR data bg (some v) z "corr" true w).map
          fun p => (p.1.map (Option.map fun x => 2 * (1 - x)), p.2) := by
  have eφ : (fun x => 2 * (1 - x)) = fun x : ℝ => (-2) * x + 2 := by
    funext x; ring
  have hp : ∀ z, normalizePlain normOpsR data bg (some v) z "diff" true
      = (normalizePlain normOpsR data bg (some v) z "corr" true).map
          (List.map (Option.map fun x => 2 * (1 - x))) := by
    intro z
    rw [normalizePlain_scale _ _ _ _ _ _ hv, normalizePlain_scale _ _ _ _ _ _ hv,
      normalizePlain_mode normOpsR ofReal_R]
    cases normalizePlain normOpsR data bg (some v) z "corr" false with
    | error => rfl
    | ok r =>
      simp only [Except.map, List.map_map]
      congr 2
      funext x
      cases x with
      | none => rfl
      | some x =>
        simp only [Function.comp, Option.map_some, toDiff, normOpsR, smul_eq_mul, Option.some.injEq]
        field_simp
  refine normalize_map normOpsR _ data bg v z _ _ (by simp) (by simp) _ _ w hp fun z => ?_
  refine normalizeWeighted_map normOpsR _ ?_ ?_ data bg v z _ _ (by simp) (by simp) _ _
    hp Iff.rfl Iff.rfl ?_ w
  · intro x; rw [eφ]; exact denoiseR_map _ _ x
  · intro x y w
    simp only [normOpsR, weightedSumR]; ring
  · intro δ δ' h h' h0 x
    rw [h] at h'
    obtain rfl := Option.some.inj h'
    simp only [show ¬ "diff" = "corr" by decide, if_true, if_false, normOpsR,
      weightFromD, smul_eq_mul]
    congr 1
    field_simp
    ring

example : (Variance.two 1 3).offset ≠ 0 := by simp [Variance.offset]; norm_num

/-! ### C70 -/

/-- Equal (or a single) variances: for every norm, weighted or not, scaling divides the curve by
the variance and leaves the weight alone.
Missing: different variances, for which this fails (`C70_refuted`). -/
theorem C70_scale_partial (data : NormData ℝ) (mode : String)
    (w : Option (List ℝ)) (hv : v.offset ≠ 0) (he : ∀ v1 v2, v = .two v1 v2 → v1 = v2) :
    normalize normOpsR data bg (some v) z mode true w
      = (normalize normOpsR data bg (some v) z mode false w).map
          fun p => (p.1.map (Option.map fun x => x / v.offset), p.2) := by
  by_cases hm : mode = "corr" ∨ mode = "diff"
  swap
  · rw [normalize_badMode _ _ _ _ _ _ (by tauto), normalize_badMode _ _ _ _ _ _ (by tauto)]
    rfl
  have eφ : (fun x => x / v.offset) = fun x : ℝ => (1 / v.offset) * x + 0 := by
    funext x; ring
  have hp : ∀ z, normalizePlain normOpsR data bg (some v) z mode true
      = (normalizePlain normOpsR data bg (some v) z mode false).map
          (List.map (Option.map fun x => x / v.offset)) := by
    intro z
    rw [normalizePlain_scale _ _ _ _ _ _ hv]
    congr 3
    funext x
    simp only [smul_eq_mul]; ring
  have hδ : ∀ b, noiseDelta v b = some 0 := by
    intro b
    cases v with
    | one v => rfl
    | two v1 v2 =>
      obtain rfl := he v1 v2 rfl
      have : v1 + v1 ≠ 0 := by
        simp only [Variance.offset] at hv
        intro h
        exact hv (by rw [h]; simp)
      cases b <;> simp [noiseDelta, fdiv, this]
  refine normalize_map normOpsR _ data bg v z _ _ hm hm _ _ w hp fun z => ?_
  refine normalizeWeighted_map normOpsR _ ?_ ?_ data bg v z _ _ hm hm _ _
    hp (by rw [hδ, hδ]) (by simp [hv]) ?_ w
  · intro x; rw [eφ]; exact denoiseR_map _ _ x
  · intro x y w
    simp only [normOpsR, weightedSumR]; ring
  · intro δ δ' h h' h0 x
    rw [hδ] at h h'
    obtain rfl := Option.some.inj h'
    obtain rfl := Option.some.inj h
    simp only [if_true, Bool.false_eq_true, if_false, normOpsR, smul_eq_mul]
    congr 2 <;> ring_nf

example : (Variance.two 2 2).offset ≠ 0 ∧ ∀ v1 v2, Variance.two 2 2 = .two v1 v2 → v1 = v2 := by
  refine ⟨by simp [Variance.offset], ?_⟩
  intro v1 v2 h
  cases h
  rfl

end

theorem denoise_const (x : ℝ) (n : Nat) : denoise [x, x, x] n = .ok [x, x, x] := by
  induction n with
  | zero => rfl
  | succ n ih =>
    have e1 : stencil med3 [x, x, x] = [x, x, x] := by simp [stencil, med3]
    have e2 : stencil (conv3 ℝ) [x, x, x] = [x, x, x] := by
      simp [stencil, conv3]; ring
    simp only [denoise, medianInto_eq [x, x, x] [x, x, x] rfl (by simp), e1, bind, Except.bind,
      convolveInto_eq ℝ [x, x, x] [x, x, x] rfl (by simp), e2, ih]


/-- Constant curves: one round of weighting. -/
theorem weightFromData_const (x δ s : ℝ) (hs : s ≠ 0) :
    weightFromData normOpsR [x, x, x] δ s "corr"
      = .ok [weightFromG (x / s) δ, weightFromG (x / s) δ, weightFromG (x / s) δ] := by
  simp only [weightFromData, normOpsR, denoise_const, bind, Except.bind, if_neg hs]
  simp [div_eq_inv_mul]

theorem weightedCurve_const (x y w : ℝ) :
    weightedCurve normOpsR [some x, some x, some x] [some y, some y, some y] [w, w, w]
      = .ok [some (weightedSumR x y w), some (weightedSumR x y w), some (weightedSumR x y w)] := by
  simp [weightedCurve, normOpsR]

/-- The data of the counterexample: three equal delays. -/
noncomputable def c70Data : NormData ℝ :=
  .corr [1, 1, 1] [1, 1, 1] (some [6, 6, 6]) none none

theorem c70_plain (scale : Bool) :
    normalizePlain normOpsR c70Data (some (.one 0)) (some (.two 1 3)) 1 "corr" scale
        = .ok (if scale then [some (1 / 2), some (1 / 2), some (1 / 2)] else [some 1, some 1, some 1]) ∧
      normalizePlain normOpsR c70Data (some (.one 0)) (some (.two 1 3)) 2 "corr" scale
        = .ok [some 0, some 0, some 0] := by
  have e : (1 : ℝ) + 3 = 4 := by norm_num
  cases scale <;>
    simp [normalizePlain, c70Data, inspectBackground, normCorr, needArray, finishCorr, finishScale,
      scaleFactor, normOpsR, corrBaselineR, structBaselineR, divCount, bind, Except.bind, e] <;>
    norm_num

theorem c70_run (scale : Bool) (δ : ℝ) (h : noiseDelta (.two 1 3) scale = some δ) (w1 w2 w3 : ℝ)
    (h1 : weightFromG (1 / 2) δ = w1) (h2 : weightFromG ((1 - w1) / 2) δ = w2)
    (h3 : weightFromG ((1 - w2) / 2) δ = w3) :
    normalize normOpsR c70Data (some (.one 0)) (some (.two 1 3)) (some 3) "corr" scale none
      = .ok (if scale then [some ((1 - w3) / 2), some ((1 - w3) / 2), some ((1 - w3) / 2)]
          else [some (1 - w3), some (1 - w3), some (1 - w3)], some [w3, w3, w3]) := by
  have hn : ∀ z : Int, z ∈ [1, 2, 3] → normOf c70Data (some z) = .ok z.toNat := by
    simp only [c70Data, normOf, Option.isSome_some, Option.isSome_none]; decide
  have hf : ∀ x : ℝ, allFinite [some x, some x, some x] = .ok [x, x, x] := fun x => rfl
  have e3 : normOf c70Data (some 3) = .ok 3 := hn 3 (by simp)
  have e2 : normOf c70Data (some (((3 &&& (4 ||| 8)) ||| 2 : Nat) : Int)) = .ok 2 := hn 2 (by simp)
  have e1 : normOf c70Data (some (((3 &&& (4 ||| 8)) ||| 1 : Nat) : Int)) = .ok 1 := hn 1 (by simp)
  have ec : inspectMode "corr" = .ok "corr" := by decide
  have es : scaleFactor (some (.two 1 3)) = .ok 2 := by simp [scaleFactor]; norm_num
  have eb : ∀ m, inspectBackground (some (.one 0)) m = .ok (0, 0) := fun _ => rfl
  cases scale
  · simp only [normalize, normalizeWeighted, e3, e2, e1, ec, es, eb, h, c70_plain, bind, Except.bind,
      Bool.false_eq_true, if_false, if_true, hf, show 3 &&& 3 = 3 by decide]
    rw [weightFromData_const 1 δ 2 (by norm_num), h1]
    dsimp only
    rw [weightedCurve_const]
    dsimp only
    rw [hf]
    have x1 : weightedSumR 0 1 w1 = 1 - w1 := by simp [weightedSumR]
    have x2 : weightedSumR 0 1 w2 = 1 - w2 := by simp [weightedSumR]
    have x3 : weightedSumR 0 1 w3 = 1 - w3 := by simp [weightedSumR]
    rw [x1]
    dsimp only
    rw [weightFromData_const _ δ 2 (by norm_num), h2]
    dsimp only
    rw [weightedCurve_const, x2]
    dsimp only
    rw [hf]
    dsimp only
    rw [weightFromData_const _ δ 2 (by norm_num), h3]
    dsimp only
    rw [weightedCurve_const, x3]
  · simp only [normalize, normalizeWeighted, e3, e2, e1, ec, es, eb, h, c70_plain, bind, Except.bind,
      if_true, hf, show 3 &&& 3 = 3 by decide, Except.map]
    rw [weightFromData_const (1 / 2) δ 1 (by norm_num), div_one, h1]
    dsimp only
    rw [weightedCurve_const]
    dsimp only
    rw [hf]
    have x1 : weightedSumR 0 (1 / 2) w1 = (1 - w1) / 2 := by simp [weightedSumR]; ring
    have x2 : weightedSumR 0 (1 / 2) w2 = (1 - w2) / 2 := by simp [weightedSumR]; ring
    have x3 : weightedSumR 0 (1 / 2) w3 = (1 - w3) / 2 := by simp [weightedSumR]; ring
    rw [x1]
    dsimp only
    rw [weightFromData_const _ δ 1 (by norm_num), div_one, h2]
    dsimp only
    rw [weightedCurve_const, x2]
    dsimp only
    rw [hf]
    dsimp only
    rw [weightFromData_const _ δ 1 (by norm_num), div_one, h3]
    dsimp only
    rw [weightedCurve_const, x3]

/-- Different variances: the weight, and with it the curve, depends on `scale`. -/
theorem C70_refuted :
    ∃ a b wa wb, normalize normOpsR c70Data (some (.one 0)) (some (.two 1 3)) (some 3) "corr" false none
        = .ok (a, some wa) ∧
      normalize normOpsR c70Data (some (.one 0)) (some (.two 1 3)) (some 3) "corr" true none
        = .ok (b, some wb) ∧
      (Variance.two 1 3).offset = 2 ∧ b ≠ a.map (Option.map fun x => x / 2) ∧ wa ≠ wb := by
  refine ⟨_, _, _, _, c70_run false 1 (by simp [noiseDelta, fdiv]; norm_num) (4 / 9) (180 / 673)
      (1327156 / 3866481) (by norm_num [weightFromG]) (by norm_num [weightFromG])
      (by norm_num [weightFromG]),
    c70_run true (1 / 2) (by simp [noiseDelta, fdiv]; norm_num) (2 / 3) (6 / 23)
      (782 / 1467) (by norm_num [weightFromG]) (by norm_num [weightFromG])
      (by norm_num [weightFromG]), ?_, ?_, ?_⟩
  · simp [Variance.offset]; norm_num
  · norm_num
  · norm_num

/-! ### C26 -/

theorem allFinite_eq {α : Type} {x : List (Option α)} {y : List α} (h : allFinite x = .ok y) :
    x = y.map some := by
  unfold allFinite at h
  have key : ∀ (x : List (Option α)) (y : List α), x.mapM id = some y → x = y.map some := by
    intro x
    induction x with
    | nil => intro y h; simp at h; subst h; rfl
    | cons u l ih =>
      intro y h
      simp only [List.mapM_cons] at h
      cases u with
      | none => simp at h
      | some u =>
        cases hl : l.mapM id with
        | none => simp [hl] at h
        | some t =>
          simp [hl] at h
          subst h
          rw [ih t hl]
          rfl
  split at h
  · next hx => rw [← Except.ok.inj h]; exact key _ _ hx
  · cases h

theorem normOf_number {C : Type} (data : NormData C) (z : Int) (x : Nat)
    (h : normOf data (some z) = .ok x) : x = z.toNat := by
  cases data with
  | corr cor count sq s1 s2 =>
    simp only [normOf, normFromCcorrData] at h
    split at h
    · simp at h
    · split at h
      · exact (Except.ok.inj h).symm
      · simp at h
  | diff dif count s1 s2 =>
    simp only [normOf, normFromCdiffData] at h
    split at h
    · simp at h
    · generalize (if s1.isSome = false ∨ s2.isSome = false then 2 else (2 ||| 4)) = d at h
      split at h
      · exact (Except.ok.inj h).symm
      · simp at h
  | other => simp [normOf] at h

/-- A weighted norm is the weighted sum of the two curves of the structured and the standard norm,
for real and complex data, with the given weight or with a weight computed by `weight_from_data`. -/
theorem normalize_weighted_ok {C : Type} [AddCommGroup C] [Module ℝ C] (ops : NormOps C)
    (data : NormData C) (bg : Option Background) (var : Option Variance) (z : Int)
    (hz : z = 3 ∨ z = 7 ∨ z = 11 ∨ z = 15) (mode : String) (scale : Bool)
    (weight : Option (List C)) (out : List (Option C)) (w' : Option (List C))
    (h : normalize ops data bg var (some z) mode scale weight = .ok (out, w')) :
    ∃ s b w, normalize ops data bg var (some (z - 1)) mode scale none = .ok (s, none) ∧
      normalize ops data bg var (some (z - 2)) mode scale none = .ok (b, none) ∧
      w' = some w ∧ weightedCurve ops s b w = .ok out ∧
      (∀ w0, weight = some w0 → w = w0) ∧
      (weight = none → ∃ x δ o, weightFromData ops x δ o mode = .ok w) := by
  simp only [normalize, bind, Except.bind] at h
  cases hm : inspectMode mode with
  | error => simp [hm] at h
  | ok m =>
    simp only [hm] at h
    have hm' : m = mode := by
      unfold inspectMode at hm
      split at hm
      · exact (Except.ok.inj hm).symm
      · cases hm
    subst hm'
    cases hx : normOf data (some z) with
    | error => simp [hx] at h
    | ok x =>
      simp only [hx] at h
      have ex := normOf_number data z x hx
      cases hsf : (if scale then (scaleFactor var).map some else .ok none : Py (Option ℝ)) with
      | error => simp [hsf] at h
      | ok o =>
        simp only [hsf] at h
        have e3 : x &&& 3 = 3 := by subst ex; rcases hz with rfl | rfl | rfl | rfl <;> decide
        have e2 : (((x &&& (4 ||| 8)) ||| 2 : Nat) : Int) = z - 1 := by
          subst ex; rcases hz with rfl | rfl | rfl | rfl <;> decide
        have e1 : (((x &&& (4 ||| 8)) ||| 1 : Nat) : Int) = z - 2 := by
          subst ex; rcases hz with rfl | rfl | rfl | rfl <;> decide
        rw [if_pos e3] at h
        simp only [normalizeWeighted, e1, e2, bind, Except.bind] at h
        rw [normalize_plain ops data bg var (z - 1) (by omega) m scale none,
          normalize_plain ops data bg var (z - 2) (by omega) m scale none]
        simp only [hm, hsf, bind, Except.bind]
        cases hbg : inspectBackground bg x with
        | error => simp [hbg] at h
        | ok b0 =>
          simp only [hbg] at h
          cases hc : normOf data (some (z - 1)) with
          | error => simp [hc] at h
          | ok zc =>
            simp only [hc] at h
            cases hpc : normalizePlain ops data bg var zc m scale with
            | error => simp [hpc] at h
            | ok comp =>
              simp only [hpc] at h
              cases hb : normOf data (some (z - 2)) with
              | error => simp [hb] at h
              | ok zb =>
                simp only [hb] at h
                cases hpb : normalizePlain ops data bg var zb m scale with
                | error => simp [hpb] at h
                | ok base =>
                  simp only [hpb] at h
                  simp only [hpc, hpb]
                  cases hso : (if scale = true then .ok 1 else scaleFactor var : Py ℝ) with
                  | error => simp [hso] at h
                  | ok so =>
                    simp only [hso] at h
                    have key : ∀ w r, weightedCurve ops comp base w = .ok r →
                        out = r → w' = some w →
                        (∀ w0, weight = some w0 → w = w0) →
                        (weight = none → ∃ x δ o, weightFromData ops x δ o m = .ok w) →
                        ∃ s' b' w, (.ok (comp, none) : Py (List (Option C) × Option (List C))) = .ok (s', none) ∧
                          (.ok (base, none) : Py (List (Option C) × Option (List C))) = .ok (b', none) ∧
                          w' = some w ∧ weightedCurve ops s' b' w = .ok out ∧
                          (∀ w0, weight = some w0 → w = w0) ∧
                          (weight = none → ∃ x δ o, weightFromData ops x δ o m = .ok w) := by
                      intro w r hr ho hw' h1 h2
                      exact ⟨comp, base, w, rfl, rfl, hw', by rw [ho, hr], h1, h2⟩
                    cases weight with
                    | some w0 =>
                      dsimp only at h
                      cases hr : weightedCurve ops comp base w0 with
                      | error => simp [hr] at h
                      | ok r =>
                        simp only [hr, Except.ok.injEq, Prod.mk.injEq] at h
                        exact key w0 r hr h.1.symm h.2.symm (fun w1 h => Option.some.inj h) (by simp)
                    | none =>
                      dsimp only at h
                      cases var with
                      | none => simp at h
                      | some v =>
                        dsimp only at h
                        cases hd : noiseDelta v scale with
                        | none => simp [hd] at h
                        | some δ =>
                          simp only [hd] at h
                          cases hf0 : allFinite base with
                          | error => simp [hf0] at h
                          | ok x0 =>
                          simp only [hf0] at h
                          cases hw1 : weightFromData ops x0 δ so m with
                          | error => simp [hw1] at h
                          | ok w1 =>
                            simp only [hw1] at h
                            cases hc1 : weightedCurve ops comp base w1 with
                            | error => simp [hc1] at h
                            | ok r1 =>
                              simp only [hc1] at h
                              cases hf1 : allFinite r1 with
                              | error => simp [hf1] at h
                              | ok x1 =>
                              simp only [hf1] at h
                              cases hw2 : weightFromData ops x1 δ so m with
                              | error => simp [hw2] at h
                              | ok w2 =>
                                simp only [hw2] at h
                                cases hc2 : weightedCurve ops comp base w2 with
                                | error => simp [hc2] at h
                                | ok r2 =>
                                  simp only [hc2] at h
                                  cases hf2 : allFinite r2 with
                                  | error => simp [hf2] at h
                                  | ok x2 =>
                                  simp only [hf2] at h
                                  cases hw3 : weightFromData ops x2 δ so m with
                                  | error => simp [hw3] at h
                                  | ok w3 =>
                                    simp only [hw3] at h
                                    cases hr : weightedCurve ops comp base w3 with
                                    | error => simp [hr] at h
                                    | ok r =>
                                      simp only [hr, Except.ok.injEq, Prod.mk.injEq] at h
                                      exact key w3 r hr h.1.symm h.2.symm (by simp)
                                        (fun _ => ⟨_, _, _, hw3⟩)

/-- A given weight of the right length is used for the two curves. -/
theorem normalize_given_weight {C : Type} [AddCommGroup C] [Module ℝ C] (ops : NormOps C)
    (data : NormData C) (bg : Option Background) (var : Option Variance) (z : Int)
    (hz : z = 3 ∨ z = 7 ∨ z = 11 ∨ z = 15) (mode : String) (scale : Bool) (w : List C) (s b : List (Option C))
    (hs : normalize ops data bg var (some (z - 1)) mode scale none = .ok (s, none))
    (hb : normalize ops data bg var (some (z - 2)) mode scale none = .ok (b, none))
    (hv : var.isSome) :
    normalize ops data bg var (some z) mode scale (some w) = (weightedCurve ops s b w).map fun r => (r, some w) := by
  have hzo : normOf data (some z) = .ok z.toNat := by
    rw [normalize_plain ops data bg var (z - 1) (by omega) mode scale none] at hs
    rw [normalize_plain ops data bg var (z - 2) (by omega) mode scale none] at hb
    cases hm : inspectMode mode with
    | error => simp [hm, bind, Except.bind] at hs
    | ok m =>
      simp only [hm, bind, Except.bind] at hs hb
      cases h1 : normOf data (some (z - 1)) with
      | error => simp [h1] at hs
      | ok x1 =>
        cases h2 : normOf data (some (z - 2)) with
        | error => simp [h2] at hb
        | ok x2 =>
          cases data with
          | corr cor count sq s1 s2 =>
            simp only [normOf] at h1 h2 ⊢
            revert h1 h2
            generalize sq.isSome = p
            generalize s1.isSome = q
            cases p <;> cases q <;> rcases hz with rfl | rfl | rfl | rfl <;>
              simp [normFromCcorrData, ccorrNorms, allNorms]
          | diff dif count s1 s2 =>
            simp only [normOf] at h2
            revert h2
            rcases hz with rfl | rfl | rfl | rfl <;> simp [normFromCdiffData]
          | other => simp [normOf] at h1
  have e3 : z.toNat &&& 3 = 3 := by rcases hz with rfl | rfl | rfl | rfl <;> decide
  have e2 : (((z.toNat &&& (4 ||| 8)) ||| 2 : Nat) : Int) = z - 1 := by
    rcases hz with rfl | rfl | rfl | rfl <;> decide
  have e1 : (((z.toNat &&& (4 ||| 8)) ||| 1 : Nat) : Int) = z - 2 := by
    rcases hz with rfl | rfl | rfl | rfl <;> decide
  obtain ⟨v, rfl⟩ := Option.isSome_iff_exists.mp hv
  rw [normalize_plain ops data bg _ (z - 1) (by omega) mode scale none] at hs
  rw [normalize_plain ops data bg _ (z - 2) (by omega) mode scale none] at hb
  cases hm : inspectMode mode with
  | error => simp [hm, bind, Except.bind] at hs
  | ok m =>
    have hm' : m = mode := by
      unfold inspectMode at hm
      split at hm
      · exact (Except.ok.inj hm).symm
      · cases hm
    subst hm'
    have ho : ∃ o, (if scale then (scaleFactor (some v)).map some else .ok none : Py (Option ℝ)) = .ok o := by
      cases scale
      · exact ⟨none, by simp⟩
      · exact ⟨some v.offset, by simp [scaleFactor_some, Except.map]⟩
    obtain ⟨o, ho⟩ := ho
    have hq : ∃ q, (if scale then .ok 1 else scaleFactor (some v) : Py ℝ) = .ok q := by
      cases scale
      · exact ⟨v.offset, by simp [scaleFactor_some]⟩
      · exact ⟨1, by simp⟩
    obtain ⟨q, hq⟩ := hq
    simp only [hm, ho, bind, Except.bind] at hs hb
    simp only [normalize, normalizeWeighted, hm, hzo, ho, hq, bind, Except.bind]
    rw [if_pos e3, e1, e2]
    cases h1 : normOf data (some (z - 1)) with
    | error => simp [h1] at hs
    | ok x1 =>
      cases h2 : normOf data (some (z - 2)) with
      | error => simp [h2] at hb
      | ok x2 =>
        simp only [h1] at hs
        simp only [h2] at hb
        have hbg : ∃ p, inspectBackground bg z.toNat = .ok p := by
          cases bg with
          | some b => cases b <;> exact ⟨_, rfl⟩
          | none =>
            exfalso
            have := normOf_number data (z - 2) x2 h2
            simp [normalizePlain, inspectBackground, bind, Except.bind, show x2 > 0 by omega] at hb
        obtain ⟨p, hbg⟩ := hbg
        rw [hbg]
        dsimp only
        cases hc : normalizePlain ops data bg (some v) x1 m scale with
        | error => simp [hc] at hs
        | ok comp =>
          cases hd : normalizePlain ops data bg (some v) x2 m scale with
          | error => simp [hd] at hb
          | ok base =>
            simp only [hc, Except.ok.injEq, Prod.mk.injEq, and_true] at hs
            simp only [hd, Except.ok.injEq, Prod.mk.injEq, and_true] at hb
            subst hs hb
            dsimp only
            cases weightedCurve ops comp base w <;> rfl

theorem weightedCurve_cells {C : Type} [AddCommGroup C] [Module ℝ C] (ops : NormOps C) (s b : List (Option C)) (w : List C)
    (out : List (Option C)) (h : weightedCurve ops s b w = .ok out) :
    s.length = out.length ∧ b.length = out.length ∧ w.length = out.length ∧
      (∀ k : Nat, s[k]? = some none ∨ b[k]? = some none → out[k]? = some none) ∧
      ∀ (k : Nat) sk bk wk, s[k]? = some (some sk) → b[k]? = some (some bk) → w[k]? = some wk →
        out[k]? = some (some (ops.weightedSum sk bk wk)) := by
  unfold weightedCurve at h
  split at h
  · next hl =>
    have ho := Except.ok.inj h
    have hlen : out.length = w.length := by rw [← ho]; simp [hl.1, hl.2]
    refine ⟨by omega, by omega, by omega, fun k hk => ?_, fun k sk bk wk hs hb hw => ?_⟩
    · have hkl : k < out.length := by
        rcases hk with hk | hk
        · have := (List.getElem?_eq_some_iff.mp hk).1; omega
        · have := (List.getElem?_eq_some_iff.mp hk).1; omega
      obtain ⟨sk, hs⟩ : ∃ x, s[k]? = some x := ⟨_, List.getElem?_eq_getElem (by omega)⟩
      obtain ⟨bk, hb⟩ : ∃ x, b[k]? = some x := ⟨_, List.getElem?_eq_getElem (by omega)⟩
      obtain ⟨wk, hw⟩ : ∃ x, w[k]? = some x := ⟨_, List.getElem?_eq_getElem (by omega)⟩
      rw [← ho, List.getElem?_zipWith, hs]
      simp only [List.zip, List.getElem?_zipWith, hb, hw]
      rw [hs, hb] at hk
      rcases hk with hk | hk
      · obtain rfl := Option.some.inj hk; rfl
      · obtain rfl := Option.some.inj hk; cases sk <;> rfl
    · rw [← ho, List.getElem?_zipWith, hs]
      simp [List.zip, List.getElem?_zipWith, hb, hw]
  · split at h <;> cases h

theorem weightFromData_range (x : List ℝ) (δ o : ℝ) (mode : String) (w : List ℝ)
    (h : weightFromData normOpsR x δ o mode = .ok w) : ∀ u ∈ w, -1 ≤ u ∧ u ≤ 1 := by
  simp only [weightFromData] at h
  split at h
  · simp only [bind, Except.bind] at h
    cases hd : normOpsR.denoise x with
    | error => simp [hd] at h
    | ok y =>
      simp only [hd] at h
      split at h
      · cases h
      · rw [← Except.ok.inj h]
        intro u hu
        obtain ⟨g, -, rfl⟩ := List.mem_map.mp hu
        split
        · exact ⟨(C25_range _ _).1, (C25_range _ _).2.1⟩
        · exact ⟨(C25_range _ _).1, (C25_range _ _).2.1⟩
  · cases h

/-- The curve returned for a weighted norm: a weighted sum of the curves that `normalize` returns
for the structured and for the standard norm with the same other flags.  The weight is the given
one, or a number between -1 and 1.  With a weight between 0 and 1 the curve lies between the two.
Where one of the two is not finite, the result is not finite. -/
theorem C26_normalize (data : NormData ℝ) (bg : Option Background) (var : Option Variance) (z : Int)
    (hz : z = 3 ∨ z = 7 ∨ z = 11 ∨ z = 15) (mode : String) (scale : Bool)
    (weight : Option (List ℝ)) (out : List (Option ℝ)) (w' : Option (List ℝ))
    (h : normalize normOpsR data bg var (some z) mode scale weight = .ok (out, w')) :
    ∃ (s b : List (Option ℝ)) (w : List ℝ), normalize normOpsR data bg var (some (z - 1)) mode scale none = .ok (s, none) ∧
      normalize normOpsR data bg var (some (z - 2)) mode scale none = .ok (b, none) ∧
      w' = some w ∧ (∀ w0, weight = some w0 → w = w0) ∧
      (weight = none → ∀ u ∈ w, -1 ≤ u ∧ u ≤ 1) ∧
      s.length = out.length ∧ b.length = out.length ∧ w.length = out.length ∧
      (∀ k : Nat, s[k]? = some none ∨ b[k]? = some none → out[k]? = some none) ∧
      ∀ (k : Nat) sk bk wk, s[k]? = some (some sk) → b[k]? = some (some bk) → w[k]? = some wk →
        ∃ o, out[k]? = some (some o) ∧ o = sk * wk + (1 - wk) * bk ∧
          (0 ≤ wk → wk ≤ 1 → min sk bk ≤ o ∧ o ≤ max sk bk) := by
  obtain ⟨s, b, w, h1, h2, h3, h4, h6, h7⟩ :=
    normalize_weighted_ok normOpsR data bg var z hz mode scale weight out w' h
  refine ⟨s, b, w, h1, h2, h3, h6, ?_, ?_⟩
  · intro hw
    obtain ⟨x, δ, o, hx⟩ := h7 hw
    exact weightFromData_range x δ o mode w hx
  · obtain ⟨l1, l2, l3, c1, c2⟩ := weightedCurve_cells normOpsR s b w out h4
    refine ⟨l1, l2, l3, c1, fun k sk bk wk hs hb hw => ⟨_, c2 k sk bk wk hs hb hw, rfl, fun h0 h1 => C26_between sk bk wk h0 h1⟩⟩

/-- Weights of constant curves: the data of `C70_refuted` satisfy the hypothesis. -/
example : ∃ a wa, normalize normOpsR c70Data (some (.one 0)) (some (.two 1 3)) (some 3) "corr" false none
    = .ok (a, some wa) :=
  ⟨_, _, c70_run false 1 (by simp [noiseDelta, fdiv]; norm_num) _ _ _ rfl rfl rfl⟩

/-- Complex data: the same, part by part. -/
theorem C26_normalize_complex (data : NormData (Cx ℝ)) (bg : Option Background)
    (var : Option Variance) (z : Int)
    (hz : z = 3 ∨ z = 7 ∨ z = 11 ∨ z = 15) (mode : String) (scale : Bool)
    (weight : Option (List (Cx ℝ))) (out : List (Option (Cx ℝ))) (w' : Option (List (Cx ℝ)))
    (h : normalize normOpsC data bg var (some z) mode scale weight = .ok (out, w')) :
    ∃ (s b : List (Option (Cx ℝ))) (w : List (Cx ℝ)),
      normalize normOpsC data bg var (some (z - 1)) mode scale none = .ok (s, none) ∧
      normalize normOpsC data bg var (some (z - 2)) mode scale none = .ok (b, none) ∧
      w' = some w ∧ (∀ w0, weight = some w0 → w = w0) ∧
      s.length = out.length ∧ b.length = out.length ∧ w.length = out.length ∧
      (∀ k : Nat, s[k]? = some none ∨ b[k]? = some none → out[k]? = some none) ∧
      ∀ (k : Nat) sk bk wk, s[k]? = some (some sk) → b[k]? = some (some bk) → w[k]? = some wk →
        ∃ o, out[k]? = some (some o) ∧ o.re = sk.re * wk.re + (1 - wk.re) * bk.re ∧
          o.im = sk.im * wk.im + (1 - wk.im) * bk.im := by
  obtain ⟨s, b, w, h1, h2, h3, h4, h6, h7⟩ :=
    normalize_weighted_ok normOpsC data bg var z hz mode scale weight out w' h
  obtain ⟨l1, l2, l3, c1, c2⟩ := weightedCurve_cells normOpsC s b w out h4
  exact ⟨s, b, w, h1, h2, h3, h6, l1, l2, l3, c1, fun k sk bk wk hs hb hw => ⟨_, c2 k sk bk wk hs hb hw, rfl, rfl⟩⟩

/-- A given weight is always accepted if it has the length of the curves; any norm the data support. -/
theorem C26_given_weight (data : NormData ℝ) (bg : Option Background) (var : Option Variance) (z : Int)
    (hz : z = 3 ∨ z = 7 ∨ z = 11 ∨ z = 15) (mode : String) (scale : Bool) (w : List ℝ) (s b : List (Option ℝ))
    (hs : normalize normOpsR data bg var (some (z - 1)) mode scale none = .ok (s, none))
    (hb : normalize normOpsR data bg var (some (z - 2)) mode scale none = .ok (b, none))
    (hv : var.isSome) (h1 : s.length = w.length) (h2 : b.length = w.length) :
    ∃ out, normalize normOpsR data bg var (some z) mode scale (some w) = .ok (out, some w) := by
  rw [normalize_given_weight normOpsR data bg var z hz mode scale w s b hs hb hv, weightedCurve, if_pos ⟨h1, h2⟩]
  exact ⟨_, rfl⟩

example : normalize normOpsR c70Data (some (.one 0)) (some (.two 1 3)) (some 2) "corr" false none
      = .ok ([some 0, some 0, some 0], none) ∧
    normalize normOpsR c70Data (some (.one 0)) (some (.two 1 3)) (some 1) "corr" false none
      = .ok ([some 1, some 1, some 1], none) := by
  have hn : ∀ z : Int, z ∈ [1, 2, 3] → normOf c70Data (some z) = .ok z.toNat := by
    simp only [c70Data, normOf, Option.isSome_some, Option.isSome_none]; decide
  have ec : inspectMode "corr" = .ok "corr" := by decide
  constructor
  · rw [normalize_plain _ _ _ _ _ (by decide), hn 2 (by simp), ec]
    simp [bind, Except.bind, (c70_plain false).2]
  · rw [normalize_plain _ _ _ _ _ (by decide), hn 1 (by simp), ec]
    simp [bind, Except.bind, (c70_plain false).1]

end Cddm
