import Verif.Props.CorrViewer
import Verif.Props.ViewerAvgCases
import Verif.Props.Compensated

/-!
# The viewers of raw correlation data (C91): a case and counterexamples
-/

namespace Cddm
open Spec

/-! ### Folding -/

/-- A pixel with complex data: values 2, 1 and 0 at delays 0, 1 and -1. -/
noncomputable def foldCase : NormData (Cx ℝ) := .corr [⟨2, 0⟩, ⟨1, 0⟩, ⟨0, 0⟩] [1, 1, 1] none none none

theorem foldCase_normalized (ops : NormOps (Cx ℝ)) (ho : ops.corrBaseline = corrBaselineC) (var : Option Variance)
    (bg : Background) (hb : bg.fst = 0) (z : Option Int) (hz : z = some 1) :
    normalize ops foldCase (some bg) var z "corr" false none = .ok (([⟨2, 0⟩, ⟨1, 0⟩, ⟨0, 0⟩] : List (Cx ℝ)).map some, none) := by
  subst hz
  have e : normOf foldCase (some 1) = .ok 1 := by simp [normOf, foldCase, normFromCcorrData, allNorms, ccorrNorms]
  unfold normalize
  rw [show inspectMode "corr" = .ok "corr" by simp [inspectMode]]
  dsimp only [bind, Except.bind]
  rw [e]
  cases bg <;>
  · simp only [Background.fst] at hb
    subst hb
    simp [normalizePlain, inspectBackground, foldCase, normCorr, needArray, finishCorr, finishScale, ho, corrBaselineC,
      divCount, bind, Except.bind]

theorem foldCase_mean : foldData (.cplx [⟨2, 0⟩, ⟨1, 0⟩, ⟨0, 0⟩]) 0 = .ok [⟨2, 0⟩, ⟨1 / 2, 0⟩] := by
  obtain ⟨r, e, hl, h0, h1⟩ := C29_fold_mean 2 (by norm_num) [⟨2, 0⟩, ⟨1, 0⟩, ⟨0, 0⟩] rfl
  obtain ⟨x, y, hx, hy, h⟩ := h1 1 le_rfl (by norm_num)
  rw [e]
  congr 1
  match r, hl with
  | [a, b], _ =>
    simp at h0 hx hy h
    rw [h0, h, ← hx, ← hy]
    congr 2
    ext <;> simp [Cx.conj]

theorem foldCase_positive : foldData (.cplx [⟨2, 0⟩, ⟨1, 0⟩, ⟨0, 0⟩]) 1 = .ok [⟨2, 0⟩, ⟨1, 0⟩] := by
  obtain ⟨r, e, hl, h1⟩ := C29_fold_positive 2 (by norm_num) [⟨2, 0⟩, ⟨1, 0⟩, ⟨0, 0⟩] rfl
  have a0 := h1 0 (by norm_num)
  have a1 := h1 1 (by norm_num)
  rw [e]
  congr 1
  match r, hl with
  | [a, b], _ =>
    simp at a0 a1
    rw [a0, a1]

/-- Data with a single background: not folded if `fold` is None, folded if it is False. -/
theorem C91_fold_false_folds_refuted (b : Cx ℝ) (v : ℝ) :
    corrCurve viewOpsC ⟨.num (some 1), false, none, true, none, .array, .missing⟩ ⟨foldCase, 0, b, v, v⟩ =
      .ok ([0, 1, 2], [some ⟨2, 0⟩, some ⟨1, 0⟩, some ⟨0, 0⟩]) ∧
    corrCurve viewOpsC ⟨.num (some 1), false, none, true, some false, .array, .missing⟩ ⟨foldCase, 0, b, v, v⟩ =
      .ok ([0, 1], [some ⟨2, 0⟩, some ⟨1 / 2, 0⟩]) := by
  have e := foldCase_normalized viewOpsC.norm rfl none (.one 0) rfl (some 1) rfl
  constructor
  · simp only [corrCurve, viewNormalize, ViewArg.background, ViewArg.variance, e, bind, Except.bind]
    simp [ViewConfig.foldFun, viewOpsC, foldCurve]
    rfl
  · simp only [corrCurve, viewNormalize, ViewArg.background, ViewArg.variance, e, bind, Except.bind]
    simp only [ViewConfig.foldFun, viewOpsC, foldCurve, Option.isSome_some, or_true, if_true, allFinite_some, bind,
      Except.bind, foldCase_mean]
    rfl

/-- The two viewers do not show the same for the same cross-correlation data: a `CorrViewer` the mean of the positive and
the negative delays, a `MultitauViewer` the positive delays only. -/
theorem C91_multi_one_sided_refuted (v1 v2 : ℝ) :
    corrCurve viewOpsC ⟨.num (some 1), false, none, false, none, .tuple, .tuple⟩ ⟨foldCase, 0, 0, v1, v2⟩ =
      .ok ([0, 1], [some ⟨2, 0⟩, some ⟨1 / 2, 0⟩]) ∧
    multiCurve viewOpsC ⟨.num (some 1), false, none, false, none, .tuple, .tuple⟩ ⟨(foldCase, []), 0, 0, v1, v2⟩ =
      .ok ([0, 1], [some ⟨2, 0⟩, some ⟨1, 0⟩]) := by
  have e := foldCase_normalized viewOpsC.norm rfl (some (.two v1 v2)) (.two 0 0) rfl (some 1) rfl
  constructor
  · simp only [corrCurve, viewNormalize, ViewArg.background, ViewArg.variance, e, bind, Except.bind]
    simp only [ViewConfig.foldFun, viewOpsC, foldCurve, true_or, if_true, allFinite_some, bind,
      Except.bind, foldCase_mean]
    rfl
  · have hm : multiNorm foldCase (.num (some 1)) "corr" = .ok 1 := by
      rw [multiNorm_num _ _ _ (Or.inl rfl)]
      simp [normOf, foldCase, normFromCcorrData, allNorms, ccorrNorms]
    simp only [multiCurve, normalizeMulti, ViewArg.background, ViewArg.variance, hm, bind, Except.bind, Nat.cast_one, e]
    simp only [ViewConfig.foldFun, viewOpsC, foldCurve, true_or, if_true, allFinite_some, bind,
      Except.bind, foldCase_positive, List.mapM_nil, pure, Except.pure, Bool.false_eq_true, if_false]
    rfl

/-! ### A case: 3 frames of 3 x 3 pixels, the upper half plane -/

/-- An odd function of the wave vector. -/
def oddCase (i j : Nat) : ℝ := if i = 2 then 1 else if i = 1 then -1 else if j = 1 then 1 else if j = 2 then -1 else 0

/-- The signals of the case. -/
def signalCase (i j : Nat) : List (Cx ℝ) := [⟨1, oddCase i j⟩, ⟨2, 0⟩, ⟨0, -oddCase i j⟩]

theorem signalCase_hermitian : Hermitian (List.map Cx.conj) ⟨3, 3, signalCase⟩ := by
  intro i j hi hj
  have hi : i < 3 := hi
  have hj : j < 3 := hj
  show signalCase (wrap 3 _) (wrap 3 _) = _
  interval_cases i <;> interval_cases j <;> simp [wrap, signalCase, oddCase, Cx.conj]

theorem oddCase_up : ∀ p ∈ caseS, oddCase p.1 p.2 = 1 := by
  rintro ⟨i, j⟩ hp
  simp only [caseS, Finset.mem_insert, Finset.mem_singleton, Prod.mk.injEq] at hp
  rcases hp with ⟨rfl, rfl⟩ | ⟨rfl, rfl⟩ | ⟨rfl, rfl⟩ | ⟨rfl, rfl⟩ <;> simp [oddCase]

theorem meanOver_caseS {V : Type} [AddCommGroup V] [Module ℝ V] (f : Nat → Nat → Option V) (y : V)
    (hf : ∀ p ∈ caseS, f p.1 p.2 = some y) : meanOver caseS f = some y := by
  rw [meanOver_congr caseS f (fun _ _ => some y) hf]
  have : ((1 : ℝ) / 4) • ((4 : ℕ) • y) = y := by
    rw [← Nat.cast_smul_eq_nsmul ℝ, smul_smul]; norm_num
  simpa [meanOver, caseS] using this

theorem viewCall : CrossCall false 3 3 none none none none (some "corr") 3 := by
  refine ⟨rfl, ?_, ?_, by simp [effMethod]⟩
  · simp [CcorrRefused, effMethod, effNorm, SupportedNorm, ValidCross]
  · simp [SafeLen, effMethod, defaultN]

/-- The mean over the four wave vectors that point up: 7/3, 1 and -1 at delays 0, 1 and 2. -/
example : ∃ F : Arr2 (Option (ViewCell (NormData ℝ))), ∃ v,
    (DataView.new none none).run ([.data F, .select (fun _ _ => true) 1 90 180 1].map (ViewReq.op none false)) = .ok v ∧
      corrShown viewOpsR ⟨.num (some 1), false, none, true, none, .tuple, .tuple⟩ v =
        .ok ([0, 1, 2], [some (7 / 3), some 1, some (-1)]) := by
  have hr : ∀ i j, ∃ r, ccorr (signalCase i j) (signalCase i j) none none none none (some "corr") true none none {} = .ok r := by
    intro i j
    obtain ⟨out, e, -⟩ := ccorr_formula (signalCase i j) (signalCase i j) none none none none (some "corr") true 3
      (.two 0 0) (.two 0 0) viewCall (by simp [effMethod]) 1 (by simp [GivenNorm])
      (by simp [Prepared])
    unfold ccorrNormalized at e
    cases hc : ccorr (signalCase i j) (signalCase i j) none none none none (some "corr") true none none {} with
    | ok r => exact ⟨r, rfl⟩
    | error x => rw [hc] at e; cases e
  choose r hr using hr
  let F : Arr2 (Option (ViewCell (NormData ℝ))) := ⟨3, 3, fun i j => some ⟨(r i j).toData (effMethod (some "corr") none), 0, 0, 0, 0⟩⟩
  obtain ⟨v, h1, h2⟩ := C91_signals_partial (shape := none) (computed := none) (flat := false) (h := 3) (w := 3)
    ⟨.num (some 1), false, none, true, none, .tuple, .tuple⟩ 1 (by simp [GivenNorm]) rfl rfl rfl rfl rfl
    signalCase signalCase none none none none (some "corr") true 3 3 3 (fun _ _ => 0) (fun _ _ => 0) (fun _ _ => 0)
    (fun _ _ => 0) signalCase_hermitian signalCase_hermitian
    (fun i j _ _ => by ext <;> simp [Cx.conj]) (fun i j _ _ => by ext <;> simp [Cx.conj])
    (fun _ _ _ _ => rfl) (fun _ _ _ _ => rfl) (fun _ _ => rfl) (fun _ _ => rfl) viewCall
    (Or.inl ⟨by simp [effMethod], by simp [Prepared]⟩)
    (by norm_num) (by norm_num) (Or.inr ⟨rfl, fun s h => by cases h⟩)
    (fun c h => by cases h) (fun h => by cases h) F ⟨rfl, rfl⟩
    [.select (fun _ _ => true) 1 90 180 1]
    (by
      intro r hr
      simp only [List.mem_cons, List.not_mem_nil, or_false] at hr
      subst hr
      norm_num [ViewReq.Valid])
    1 90 180 1 rfl caseS caseS_cells ⟨(0, 1), by decide⟩ (C84_odd (by norm_num) (by norm_num) _ _ _ _)
    (fun i j _ _ => ⟨_, rfl, ⟨r i j, hr i j, rfl⟩, rfl, rfl, rfl, rfl⟩)
  refine ⟨F, v, h1, ?_⟩
  rw [h2]
  congr 2
  have hv : ∀ d y, (∀ p ∈ caseS, (if pairsAt false (stream (signalCase p.1 p.2) none) (stream (signalCase p.1 p.2) none) 3 d = [] then none
        else some (crossFormula (.two 0 0) ((0 + 0) / 2) 1
          (pairsAt false (stream (signalCase p.1 p.2) none) (stream (signalCase p.1 p.2) none) 3 d))) = some y) →
      meanOver caseS (fun i j => if pairsAt false (stream (signalCase i j) none) (stream (signalCase i j) none) 3 d = [] then none
        else some (crossFormula (.two 0 0) ((0 + 0) / 2) 1
          (pairsAt false (stream (signalCase i j) none) (stream (signalCase i j) none) 3 d))) = some y :=
    fun d y hd => meanOver_caseS _ y hd
  have hz : reProd (0 : Cx ℝ) 0 = 0 := by simp [reProd]
  unfold averageCurve
  rw [show List.range 3 = [0, 1, 2] from rfl]
  simp only [List.map_cons, List.map_nil]
  rw [hv 0 (7 / 3), hv 1 1, hv 2 (-1)]
  all_goals
    intro p hp
    simp [pairsAt, stream, regular, signalCase, oddCase_up p hp, delay, crossFormula, normFormula, mean, total, reProd,
      Background.fst, Background.snd, Cx.conj, SProd.sprod, List.product, List.filter]
    try norm_num

theorem viewCallC : CrossCall true 3 3 none none none none (some "corr") 3 := by
  refine ⟨rfl, ?_, ?_, by simp [effMethod]⟩
  · simp [CcorrRefused, effMethod, effNorm, SupportedNorm, ValidCross]
  · simp [SafeLen, effMethod, defaultN]

theorem signalCase_pairs (i j : Nat) (d : Int) (h1 : -3 < d) (h2 : d < 3) :
    signedPairs (stream (signalCase i j) none) (stream (signalCase i j) none) d ≠ [] := by
  interval_cases d <;> simp [signedPairs, stream, regular, signalCase, delay, SProd.sprod, List.product, List.filter]

/-- Complex data of the same signals: 7/3, 1 - 2i and -1 - i at delays 0, 1 and 2. -/
example : ∃ F : Arr2 (Option (ViewCell (NormData (Cx ℝ)))), ∃ v,
    (DataView.new none none).run ([.data F, .select (fun _ _ => true) 1 90 180 1].map (ViewReq.op none false)) = .ok v ∧
      corrShown viewOpsC ⟨.num (some 1), false, none, true, none, .tuple, .missing⟩ v =
        .ok ([0, 1, 2], [some ⟨7 / 3, 0⟩, some ⟨1, -2⟩, some ⟨-1, -1⟩]) := by
  have hr : ∀ i j, ∃ r, ccorrComplex (signalCase i j) (signalCase i j) none none none none (some "corr") true none none {} = .ok r := by
    intro i j
    obtain ⟨out, e, -⟩ := C21_standard_complex (signalCase i j) (signalCase i j) none none none none (some "corr") true 3
      (.two 0 0) none viewCallC _ rfl
    unfold ccorrNormalizedC at e
    cases hc : ccorrComplex (signalCase i j) (signalCase i j) none none none none (some "corr") true none none {} with
    | ok r => exact ⟨r, rfl⟩
    | error x => rw [hc] at e; cases e
  choose r hr using hr
  let F : Arr2 (Option (ViewCell (NormData (Cx ℝ)))) :=
    ⟨3, 3, fun i j => some ⟨(r i j).toData (effMethod (some "corr") none), 0, 0, 0, 0⟩⟩
  obtain ⟨v, h1, h2⟩ := C91_signals_complex_partial (shape := none) (computed := none) (flat := false) (h := 3) (w := 3)
    ⟨.num (some 1), false, none, true, none, .tuple, .missing⟩ 1 (Or.inl rfl) rfl rfl rfl rfl
    signalCase signalCase none none none none (some "corr") true 3 3 3 (by norm_num) (fun _ _ => 0) (fun _ _ => 0)
    signalCase_hermitian signalCase_hermitian
    (fun i j _ _ => by ext <;> simp [Cx.conj]) (fun i j _ _ => by ext <;> simp [Cx.conj])
    (fun _ _ => rfl) (fun _ _ => rfl) viewCallC (fun h => absurd rfl h)
    (fun d l1 l2 i j => signalCase_pairs i j d l1 l2)
    (by norm_num) (by norm_num) (Or.inr ⟨rfl, fun s h => by cases h⟩)
    (fun c h => by cases h) (fun h => by cases h) F ⟨rfl, rfl⟩
    [.select (fun _ _ => true) 1 90 180 1]
    (by
      intro r hr
      simp only [List.mem_cons, List.not_mem_nil, or_false] at hr
      subst hr
      norm_num [ViewReq.Valid])
    1 90 180 1 rfl caseS caseS_cells ⟨(0, 1), by decide⟩ (C84_odd (by norm_num) (by norm_num) _ _ _ _)
    (fun i j _ _ => ⟨_, rfl, ⟨r i j, hr i j, rfl⟩, rfl, rfl⟩)
  refine ⟨F, v, h1, ?_⟩
  rw [h2]
  congr 2
  unfold averageCurve
  rw [show List.range 3 = [0, 1, 2] from rfl]
  simp only [List.map_cons, List.map_nil]
  congr 1
  · refine meanOver_caseS _ _ fun p hp => ?_
    congr 1
    ext <;> simp [signedPairs, stream, regular, signalCase, oddCase_up p hp, delay, crossFormulaC, mean, total, cxProd,
      Cx.conj, SProd.sprod, List.product, List.filter] <;> norm_num
  congr 1
  · refine meanOver_caseS _ _ fun p hp => ?_
    congr 1
    ext <;> simp [signedPairs, stream, regular, signalCase, oddCase_up p hp, delay, crossFormulaC, mean, total, cxProd,
      Cx.conj, SProd.sprod, List.product, List.filter] <;> norm_num
  congr 1
  · refine meanOver_caseS _ _ fun p hp => ?_
    congr 1
    ext <;> simp [signedPairs, stream, regular, signalCase, oddCase_up p hp, delay, crossFormulaC, mean, total, cxProd,
      Cx.conj, SProd.sprod, List.product, List.filter] <;> norm_num

/-- Multi-tau data, equal at all wave vectors. -/
example : ∃ v,
    (DataView.new none none).run ([.data ⟨3, 3, fun _ _ => some ⟨(foldCase, []), 0, 0, 0, 0⟩⟩,
      .select (fun _ _ => true) 1 90 180 1].map (ViewReq.op none false)) = .ok v ∧
      multiShown viewOpsC ⟨.num (some 1), false, none, false, none, .tuple, .tuple⟩ v =
        .ok ([0, 1], [some ⟨2, 0⟩, some ⟨1, 0⟩]) := by
  obtain ⟨v, h1, h2⟩ := C91_multi_partial (shape := none) (computed := none) (flat := false) (h := 3) (w := 3)
    viewOpsC ⟨.num (some 1), false, none, false, none, .tuple, .tuple⟩
    (by norm_num) (by norm_num) (Or.inr ⟨rfl, fun s h => by cases h⟩)
    (fun c h => by cases h) (fun h => by cases h) ⟨3, 3, fun _ _ => some ⟨(foldCase, []), 0, 0, 0, 0⟩⟩ ⟨rfl, rfl⟩
    [.select (fun _ _ => true) 1 90 180 1]
    (by
      intro r hr
      simp only [List.mem_cons, List.not_mem_nil, or_false] at hr
      subst hr
      norm_num [ViewReq.Valid])
    1 90 180 1 rfl caseS caseS_cells ⟨(0, 1), by decide⟩ (C84_odd (by norm_num) (by norm_num) _ _ _ _)
    (fun _ _ => ⟨(foldCase, []), 0, 0, 0, 0⟩) (fun _ _ _ _ _ => rfl) [0, 1] 2 (fun _ _ => [some ⟨2, 0⟩, some ⟨1, 0⟩])
    (fun _ _ _ _ _ => ⟨(C91_multi_one_sided_refuted 0 0).2, rfl⟩)
  refine ⟨v, h1, ?_⟩
  rw [h2]
  congr 2
  unfold averageCurve
  rw [show List.range 2 = [0, 1] from rfl]
  simp only [List.map_cons, List.map_nil]
  rw [meanOver_caseS _ ⟨2, 0⟩, meanOver_caseS _ ⟨1, 0⟩]
  all_goals
    intro p hp
    unfold fullSpace
    split <;> simp [viewOpsC, Cx.conj]

end Cddm
