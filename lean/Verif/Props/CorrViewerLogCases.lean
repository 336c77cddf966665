import Verif.Props.CorrViewerLog

/-!
# Log-averaging and merging in the viewers (C91): cases
-/

namespace Cddm
open Spec

section
variable {C : Type} [AddCommGroup C] [Module ℝ C]

/-- Data of one pixel, one pair of samples for each delay. -/
def onceData (l : List C) : NormData C := .corr l (List.replicate l.length 1) none none none

theorem onceData_normalized (ops : NormOps C) (ho : ∀ x, ops.corrBaseline x 1 0 0 = some x) (l : List C) :
    normalizeArg ops (onceData l) (some (.two 0 0)) (some (.two 1 3)) (.num (some 1)) "corr" true =
      .ok ((l.map fun x => (1 / 2 : ℝ) • x).map some) := by
  have e : normOf (onceData l) (some 1) = .ok 1 := by simp [normOf, onceData, normFromCcorrData, allNorms, ccorrNorms]
  have hz : (List.zip l (List.replicate l.length 1)).map (fun p => ops.corrBaseline p.1 p.2 0 0) = l.map some := by
    apply List.ext_getElem?
    intro k
    by_cases hk : k < l.length
    · simp [hk, ho]
    · simp [List.getElem?_eq_none (show l.length ≤ k by omega)]
      omega
  unfold normalizeArg normalize
  rw [show inspectMode "corr" = .ok "corr" by simp [inspectMode]]
  dsimp only [bind, Except.bind]
  rw [e]
  have h2 : ((1 : ℝ) + 3) / 2 = 2 := by norm_num
  simp [normalizePlain, inspectBackground, onceData, normCorr, needArray, finishCorr, finishScale,
    bind, Except.bind, scaleFactor, Except.map, h2, hz, -List.map_zip_eq_zipWith]

theorem onceData_real (l : List ℝ) :
    normalizeArg normOpsR (onceData l) (some (.two 0 0)) (some (.two 1 3)) (.num (some 1)) "corr" true =
      .ok ((l.map fun x => (1 / 2 : ℝ) • x).map some) :=
  onceData_normalized normOpsR (fun x => by simp [normOpsR, corrBaselineR, divCount]) l

theorem onceData_complex (l : List (Cx ℝ)) :
    normalizeArg normOpsC (onceData l) (some (.two 0 0)) (some (.two 1 3)) (.num (some 1)) "corr" true =
      .ok ((l.map fun x => (1 / 2 : ℝ) • x).map some) :=
  onceData_normalized normOpsC (fun x => by simp [normOpsC, corrBaselineC, divCount]) l

end

theorem times_case : IsLogTimes 4 1 [0, 1, 2] := by
  refine ⟨by decide, 1, ⟨by norm_num, fun l hl => by obtain rfl : l = 0 := by omega
                                                     norm_num⟩, fun t => ?_⟩
  simp only [List.mem_cons, List.not_mem_nil, or_false]
  constructor
  · rintro (rfl | rfl | rfl)
    · exact Or.inl (by norm_num)
    · exact Or.inl (by norm_num)
    · exact Or.inr ⟨1, 1, by norm_num⟩
  · rintro (h | ⟨l, j, a1, a2, a3, a4, rfl⟩)
    · omega
    · obtain rfl : l = 1 := by omega
      obtain rfl : j = 1 := by omega
      norm_num

theorem average_case {V : Type} [AddCommGroup V] [Module ℝ V] (a b c d : V) {x : List Nat} {y : List (Option V)}
    (h : IsLogAverage ℝ [a, b, c, d] 1 x y) :
    x = [0, 1, 2] ∧ y = [some a, some b, some ((1 / 4 : ℝ) • b + (1 / 2 : ℝ) • c + (1 / 4 : ℝ) • d)] := by
  obtain rfl := logTimes_unique h.1 times_case
  refine ⟨rfl, ?_⟩
  obtain ⟨-, hl, hv⟩ := h
  match y, hl with
  | [p, q, r], _ =>
    have e0 := (hv 0 p (by simp)).2.1 (by norm_num)
    have e1 := (hv 1 q (by simp)).2.1 (by norm_num)
    obtain ⟨l, j, a1, a2, a3, a4, a5⟩ := (hv 2 r (by simp)).2.2 (by norm_num)
    obtain rfl : j = 1 := by omega
    obtain rfl : l = 1 := by
      by_contra hne
      have : 2 ^ 2 ≤ 2 ^ l := Nat.pow_le_pow_right (by norm_num) (by omega)
      omega
    rw [e0, e1, a5 (by norm_num)]
    have hI : Finset.Ioo (-((2 ^ 1 : Nat) : ℤ)) ((2 ^ 1 : Nat) : ℤ) = {-1, 0, 1} := by decide
    unfold triangularMean
    rw [hI]
    rw [Finset.sum_insert (by decide), Finset.sum_insert (by decide), Finset.sum_singleton]
    have s1 : sampleAt [a, b, c, d] (((2 : Nat) : ℤ) + -1) = b := rfl
    have s2 : sampleAt [a, b, c, d] (((2 : Nat) : ℤ) + 0) = c := rfl
    have s3 : sampleAt [a, b, c, d] (((2 : Nat) : ℤ) + 1) = d := rfl
    rw [s1, s2, s3]
    norm_num [add_assoc]

/-- Data 0, 2, 8, 18 at all wave vectors, variances 1 and 3: scaled to 0, 1, 4, 9, of which the last three are averaged. -/
example : ∃ v,
    (DataView.new none none).run ([.data ⟨3, 3, fun _ _ => some ⟨onceData [0, 2, 8, 18], 0, 0, 1, 3⟩⟩, .select (fun _ _ => true) 1 90 180 1].map (ViewReq.op none false)) = .ok v ∧
      corrShown viewOpsR ⟨.num (some 1), true, some 1, true, none, .tuple, .tuple⟩ v = .ok ([0, 1, 2], [some 0, some 1, some (9 / 2)]) := by
  obtain ⟨v, h1, t, y, h2, h3⟩ := C91_log_partial (shape := none) (computed := none) (flat := false) (h := 3) (w := 3)
    ⟨.num (some 1), true, some 1, true, none, .tuple, .tuple⟩ 1 4 (by norm_num) rfl (by norm_num) (by norm_num) (Or.inr ⟨rfl, fun s h => by cases h⟩)
    (fun c h => by cases h) (fun h => by cases h) ⟨3, 3, fun _ _ => some ⟨onceData [0, 2, 8, 18], 0, 0, 1, 3⟩⟩ ⟨rfl, rfl⟩
    [.select (fun _ _ => true) 1 90 180 1]
    (by
      intro r hr
      simp only [List.mem_cons, List.not_mem_nil, or_false] at hr
      subst hr
      norm_num [ViewReq.Valid])
    1 90 180 1 rfl caseS caseS_cells ⟨(0, 1), by decide⟩ (C84_odd (by norm_num) (by norm_num) _ _ _ _)
    (fun _ _ => ⟨onceData [0, 2, 8, 18], 0, 0, 1, 3⟩) (fun _ _ _ _ => rfl) (fun _ _ => [0, 2, 8, 18].map fun x => (1 / 2 : ℝ) • x)
    (fun _ _ => rfl) (fun _ _ _ _ => onceData_real _)
  refine ⟨v, h1, ?_⟩
  have hy : ∀ i j, y i j = [some 0, some 1, some (9 / 2)] := fun i j => by rw [(average_case _ _ _ _ (h2 i j)).2]; norm_num
  obtain rfl : t = [0, 1, 2] := (average_case _ _ _ _ (h2 0 0)).1
  rw [h3]
  congr 2
  unfold averageCurve
  simp only [hy, List.length_cons, List.length_nil]
  rw [show List.range _ = [0, 1, 2] from rfl]
  simp only [List.map_cons, List.map_nil]
  rw [meanOver_caseS _ 0, meanOver_caseS _ 1, meanOver_caseS _ (9 / 2)]
  all_goals
    intro p hp
    unfold fullSpace
    split <;> simp [Cx.conj]

theorem merge_case {V : Type} [AddCommGroup V] [Module ℝ V] (a b c d e f g h : V) {x : List Nat} {y : List (Option V)}
    (hm : IsLogMerge ℝ [a, b, c, d] [[e, f], [g, h]] 2 2 x y) :
    x = [0, 1, 2, 4, 8] ∧
      y = [some a, some b, some ((1 / 4 : ℝ) • b + (1 / 2 : ℝ) • c + (1 / 4 : ℝ) • d), some f, some h] := by
  obtain ⟨xf, yf, xs, ys, rfl, rfl, a1, a2, a3, a4⟩ := hm
  obtain ⟨rfl, rfl⟩ := average_case a b c d a1
  have row : ∀ (t : Nat) (v : Option V), (t, v) ∈ xs.zip ys ↔ (t = 4 ∧ v = some f) ∨ (t = 8 ∧ v = some h) := by
    intro t v
    rw [a4]
    constructor
    · rintro ⟨l, r, j, w, g1, g2, rfl, g4, rfl⟩
      match l, g1 with
      | 0, g1 =>
        simp only [List.getElem?_cons_zero, Option.some.injEq] at g1
        subst g1
        match j, g2, g4 with
        | 1, g2, _ => simp at g2; left; simp [g2]
      | 1, g1 =>
        simp only [List.getElem?_cons_succ, List.getElem?_cons_zero, Option.some.injEq] at g1
        subst g1
        match j, g2, g4 with
        | 1, g2, _ => simp at g2; right; simp [g2]
    · rintro (⟨rfl, rfl⟩ | ⟨rfl, rfl⟩)
      · exact ⟨0, [e, f], 1, f, rfl, rfl, rfl, by norm_num, by norm_num⟩
      · exact ⟨1, [g, h], 1, h, rfl, rfl, rfl, by norm_num, by norm_num⟩
  obtain rfl : xs = [4, 8] := by
    refine increasing_ext a2 (by decide) fun t => ?_
    rw [zip_times xs ys a3]
    simp only [row, List.mem_cons, List.not_mem_nil, or_false]
    constructor
    · rintro ⟨v, h | h⟩
      · exact Or.inl h.1
      · exact Or.inr h.1
    · rintro (h | h)
      · exact ⟨_, Or.inl ⟨h, rfl⟩⟩
      · exact ⟨_, Or.inr ⟨h, rfl⟩⟩
  match ys, a3 with
  | [p, q], _ =>
    have r1 := (row 4 p).mp (by simp)
    have r2 := (row 8 q).mp (by simp)
    simp at r1 r2
    exact ⟨rfl, by rw [r1, r2]; rfl⟩

/-- Multi-tau data with two levels and period 2. -/
example : ∃ v,
    (DataView.new none none).run ([.data ⟨3, 3, fun _ _ => some ⟨(onceData [0, 2, 8, 18], [onceData [4, 6], onceData [5, 10]]), 0, 0, 1, 3⟩⟩, .select (fun _ _ => true) 1 90 180 1].map (ViewReq.op none false)) = .ok v ∧
      multiShown viewOpsR ⟨.num (some 1), true, none, true, none, .tuple, .tuple⟩ v = .ok ([0, 1, 2, 4, 8], [some 0, some 1, some (9 / 2), some 3, some 5]) := by
  obtain ⟨v, h1, t, y, h2, h3⟩ := C91_merge_partial (shape := none) (computed := none) (flat := false) (h := 3) (w := 3)
    ⟨.num (some 1), true, none, true, none, .tuple, .tuple⟩ rfl 2 2 2 (by norm_num) (by norm_num) rfl (by norm_num) (by norm_num) (by norm_num) (Or.inr ⟨rfl, fun s h => by cases h⟩)
    (fun c h => by cases h) (fun h => by cases h) ⟨3, 3, fun _ _ => some ⟨(onceData [0, 2, 8, 18], [onceData [4, 6], onceData [5, 10]]), 0, 0, 1, 3⟩⟩ ⟨rfl, rfl⟩
    [.select (fun _ _ => true) 1 90 180 1]
    (by
      intro r hr
      simp only [List.mem_cons, List.not_mem_nil, or_false] at hr
      subst hr
      norm_num [ViewReq.Valid])
    1 90 180 1 rfl caseS caseS_cells ⟨(0, 1), by decide⟩ (C84_odd (by norm_num) (by norm_num) _ _ _ _)
    (fun _ _ => ⟨(onceData [0, 2, 8, 18], [onceData [4, 6], onceData [5, 10]]), 0, 0, 1, 3⟩) (fun _ _ _ _ => rfl) (fun _ _ => [0, 2, 8, 18].map fun x => (1 / 2 : ℝ) • x)
    (fun _ _ => [[4, 6], [5, 10]].map (List.map fun x => (1 / 2 : ℝ) • x)) (fun _ _ => rfl) (fun _ _ => by simp)
    (by
      intro _ _ _ _ d hd
      simp only [List.mem_cons, List.not_mem_nil, or_false] at hd
      rcases hd with rfl | rfl <;> simp [SameForm, onceData])
    (fun _ _ _ _ => onceData_real _)
    (fun _ _ _ _ => by
      simp only [List.mapM_cons, List.mapM_nil, ViewArg.background, ViewArg.variance, onceData_real]
      rfl)
  refine ⟨v, h1, ?_⟩
  have hy : ∀ i j, y i j = [some 0, some 1, some (9 / 2), some 3, some 5] := fun i j => by
    rw [(merge_case _ _ _ _ _ _ _ _ (h2 i j)).2]
    norm_num
  obtain rfl : t = [0, 1, 2, 4, 8] := (merge_case _ _ _ _ _ _ _ _ (h2 0 0)).1
  rw [h3]
  congr 2
  unfold averageCurve
  simp only [hy, List.length_cons, List.length_nil]
  rw [show List.range _ = [0, 1, 2, 3, 4] from rfl]
  simp only [List.map_cons, List.map_nil]
  rw [meanOver_caseS _ 0, meanOver_caseS _ 1, meanOver_caseS _ (9 / 2), meanOver_caseS _ 3, meanOver_caseS _ 5]
  all_goals
    intro p hp
    unfold fullSpace
    split <;> simp [Cx.conj]

/-- The same data, linear plot. -/
example : ∃ v,
    (DataView.new none none).run ([.data ⟨3, 3, fun _ _ => some ⟨(onceData [0, 2, 8, 18], [onceData [4, 6], onceData [5, 10]]), 0, 0, 1, 3⟩⟩, .select (fun _ _ => true) 1 90 180 1].map (ViewReq.op none false)) = .ok v ∧
      multiShown viewOpsR ⟨.num (some 1), true, none, false, none, .tuple, .tuple⟩ v = .ok ([0, 1, 2, 3], [some 0, some 1, some 4, some 9]) := by
  obtain ⟨v, h1, h2⟩ := C91_linear_partial (shape := none) (computed := none) (flat := false) (h := 3) (w := 3)
    ⟨.num (some 1), true, none, false, none, .tuple, .tuple⟩ rfl 4 (by norm_num) (by norm_num) (Or.inr ⟨rfl, fun s h => by cases h⟩)
    (fun c h => by cases h) (fun h => by cases h) ⟨3, 3, fun _ _ => some ⟨(onceData [0, 2, 8, 18], [onceData [4, 6], onceData [5, 10]]), 0, 0, 1, 3⟩⟩ ⟨rfl, rfl⟩
    [.select (fun _ _ => true) 1 90 180 1]
    (by
      intro r hr
      simp only [List.mem_cons, List.not_mem_nil, or_false] at hr
      subst hr
      norm_num [ViewReq.Valid])
    1 90 180 1 rfl caseS caseS_cells ⟨(0, 1), by decide⟩ (C84_odd (by norm_num) (by norm_num) _ _ _ _)
    (fun _ _ => ⟨(onceData [0, 2, 8, 18], [onceData [4, 6], onceData [5, 10]]), 0, 0, 1, 3⟩) (fun _ _ _ _ => rfl) (fun _ _ => ([0, 2, 8, 18].map fun x => (1 / 2 : ℝ) • x).map some)
    (fun _ _ => ([[4, 6], [5, 10]].map (List.map fun x => (1 / 2 : ℝ) • x)).map (List.map some)) (fun _ _ => rfl)
    (by
      intro _ _ _ _ d hd
      simp only [List.mem_cons, List.not_mem_nil, or_false] at hd
      rcases hd with rfl | rfl <;> simp [SameForm, onceData])
    (fun _ _ _ _ => onceData_real _)
    (fun _ _ _ _ => by
      simp only [List.mapM_cons, List.mapM_nil, ViewArg.background, ViewArg.variance, onceData_real]
      rfl)
  refine ⟨v, h1, ?_⟩
  rw [h2]
  congr 2
  unfold averageCurve
  rw [show List.range 4 = [0, 1, 2, 3] from rfl]
  simp only [List.map_cons, List.map_nil]
  rw [meanOver_caseS _ 0, meanOver_caseS _ 1, meanOver_caseS _ 4, meanOver_caseS _ 9]
  all_goals
    intro p hp
    unfold fullSpace
    split <;> norm_num

/-- Complex data at the delays 0, 1, 2, 3, -3, -2, -1. -/
def twoSided : List (Cx ℝ) := [⟨0, 0⟩, ⟨1, 1⟩, ⟨8, 0⟩, ⟨18, 2⟩, ⟨18, 2⟩, ⟨8, 0⟩, ⟨3, 1⟩]

theorem twoSided_folded : foldData (.cplx (twoSided.map fun x => (1 / 2 : ℝ) • x)) 0 =
    .ok [⟨0, 0⟩, ⟨1, 0⟩, ⟨4, 0⟩, ⟨9, 0⟩] := by
  obtain ⟨r, e, hl, h0, h1⟩ := C29_fold_mean 4 (by norm_num) (twoSided.map fun x => (1 / 2 : ℝ) • x) rfl
  obtain ⟨x1, y1, hx1, hy1, e1⟩ := h1 1 (by norm_num) (by norm_num)
  obtain ⟨x2, y2, hx2, hy2, e2⟩ := h1 2 (by norm_num) (by norm_num)
  obtain ⟨x3, y3, hx3, hy3, e3⟩ := h1 3 (by norm_num) (by norm_num)
  rw [e]
  congr 1
  match r, hl with
  | [a, b, c, d], _ =>
    simp [twoSided] at h0 hx1 hy1 e1 hx2 hy2 e2 hx3 hy3 e3
    subst hx1 hy1 hx2 hy2 hx3 hy3 h0 e1 e2 e3
    simp only [List.cons.injEq, Cx.ext_iff, and_true]
    norm_num [Cx.conj]

/-- Positive delays first, then the negative ones. -/
def oneSided (l : List ℝ) : List (Cx ℝ) := l.map Cx.ofR ++ List.replicate (l.length - 1) ⟨0, 1⟩

theorem oneSided_folded (l : List ℝ) (hl : 1 ≤ l.length) : foldData (.cplx ((oneSided l).map fun x => (1 / 2 : ℝ) • x)) 1 =
    .ok ((l.map Cx.ofR).map fun x => (1 / 2 : ℝ) • x) := by
  obtain ⟨r, e, hr, h⟩ := C29_fold_positive l.length hl ((oneSided l).map fun x => (1 / 2 : ℝ) • x)
    (by simp [oneSided]; omega)
  rw [e]
  congr 1
  apply List.ext_getElem?
  intro k
  by_cases hk : k < l.length
  · rw [h k hk]
    unfold oneSided
    rw [List.map_append, List.getElem?_append_left (by simpa using hk)]
  · rw [List.getElem?_eq_none (by omega), List.getElem?_eq_none (by simp; omega)]

/-- Complex data, folded to 0, 1, 4, 9. -/
example : ∃ v,
    (DataView.new none none).run ([.data ⟨3, 3, fun _ _ => some ⟨onceData twoSided, 0, 0, 1, 3⟩⟩, .select (fun _ _ => true) 1 90 180 1].map (ViewReq.op none false)) = .ok v ∧
      corrShown viewOpsC ⟨.num (some 1), true, some 1, true, none, .tuple, .tuple⟩ v = .ok ([0, 1, 2], [some ⟨0, 0⟩, some ⟨1, 0⟩, some ⟨9 / 2, 0⟩]) := by
  obtain ⟨v, h1, t, y, h2, h3⟩ := C91_log_complex_partial (shape := none) (computed := none) (flat := false) (h := 3) (w := 3)
    ⟨.num (some 1), true, some 1, true, none, .tuple, .tuple⟩ rfl 1 4 (by norm_num) rfl (by norm_num) (by norm_num) (Or.inr ⟨rfl, fun s h => by cases h⟩)
    (fun c h => by cases h) (fun h => by cases h) ⟨3, 3, fun _ _ => some ⟨onceData twoSided, 0, 0, 1, 3⟩⟩ ⟨rfl, rfl⟩
    [.select (fun _ _ => true) 1 90 180 1]
    (by
      intro r hr
      simp only [List.mem_cons, List.not_mem_nil, or_false] at hr
      subst hr
      norm_num [ViewReq.Valid])
    1 90 180 1 rfl caseS caseS_cells ⟨(0, 1), by decide⟩ (C84_odd (by norm_num) (by norm_num) _ _ _ _)
    (fun _ _ => ⟨onceData twoSided, 0, 0, 1, 3⟩) (fun _ _ _ _ => rfl) (fun _ _ => [⟨0, 0⟩, ⟨1, 0⟩, ⟨4, 0⟩, ⟨9, 0⟩]) (fun _ _ => twoSided.map fun x => (1 / 2 : ℝ) • x)
    (fun _ _ => rfl) (fun _ _ _ _ => onceData_complex _) (fun _ _ _ _ => twoSided_folded)
  refine ⟨v, h1, ?_⟩
  have hy : ∀ i j, y i j = [some ⟨0, 0⟩, some ⟨1, 0⟩, some ⟨9 / 2, 0⟩] := fun i j => by
    rw [(average_case _ _ _ _ (h2 i j)).2]
    simp only [List.cons.injEq, Option.some.injEq, Cx.ext_iff, and_true]
    norm_num
  obtain rfl : t = [0, 1, 2] := (average_case _ _ _ _ (h2 0 0)).1
  rw [h3]
  congr 2
  unfold averageCurve
  simp only [hy, List.length_cons, List.length_nil]
  rw [show List.range _ = [0, 1, 2] from rfl]
  simp only [List.map_cons, List.map_nil]
  rw [meanOver_caseS _ ⟨0, 0⟩, meanOver_caseS _ ⟨1, 0⟩, meanOver_caseS _ ⟨9 / 2, 0⟩]
  all_goals
    intro p hp
    unfold fullSpace
    split <;> simp [Cx.conj]

/-- Complex multi-tau data; the negative delays are ignored. -/
example : ∃ v,
    (DataView.new none none).run ([.data ⟨3, 3, fun _ _ => some ⟨(onceData (oneSided [0, 2, 8, 18]), [onceData (oneSided [4, 6]), onceData (oneSided [5, 10])]), 0, 0, 1, 3⟩⟩, .select (fun _ _ => true) 1 90 180 1].map (ViewReq.op none false)) = .ok v ∧
      multiShown viewOpsC ⟨.num (some 1), true, none, true, none, .tuple, .tuple⟩ v = .ok ([0, 1, 2, 4, 8], [some ⟨0, 0⟩, some ⟨1, 0⟩, some ⟨9 / 2, 0⟩, some ⟨3, 0⟩, some ⟨5, 0⟩]) := by
  obtain ⟨v, h1, t, y, h2, h3⟩ := C91_merge_complex_partial (shape := none) (computed := none) (flat := false) (h := 3) (w := 3)
    ⟨.num (some 1), true, none, true, none, .tuple, .tuple⟩ rfl rfl (some 1) rfl 2 2 2 (by norm_num) (by norm_num) rfl
    (by norm_num) (by norm_num) (by norm_num) (Or.inr ⟨rfl, fun s h => by cases h⟩)
    (fun c h => by cases h) (fun h => by cases h) ⟨3, 3, fun _ _ => some ⟨(onceData (oneSided [0, 2, 8, 18]), [onceData (oneSided [4, 6]), onceData (oneSided [5, 10])]), 0, 0, 1, 3⟩⟩ ⟨rfl, rfl⟩
    [.select (fun _ _ => true) 1 90 180 1]
    (by
      intro r hr
      simp only [List.mem_cons, List.not_mem_nil, or_false] at hr
      subst hr
      norm_num [ViewReq.Valid])
    1 90 180 1 rfl caseS caseS_cells ⟨(0, 1), by decide⟩ (C84_odd (by norm_num) (by norm_num) _ _ _ _)
    (fun _ _ => ⟨(onceData (oneSided [0, 2, 8, 18]), [onceData (oneSided [4, 6]), onceData (oneSided [5, 10])]), 0, 0, 1, 3⟩) (fun _ _ _ _ => rfl) (fun _ _ => ([0, 2, 8, 18].map Cx.ofR).map fun x => (1 / 2 : ℝ) • x)
    (fun _ _ => (oneSided [0, 2, 8, 18]).map fun x => (1 / 2 : ℝ) • x)
    (fun _ _ => [([4, 6].map Cx.ofR).map fun x => (1 / 2 : ℝ) • x, ([5, 10].map Cx.ofR).map fun x => (1 / 2 : ℝ) • x])
    (fun _ _ => [(oneSided [4, 6]).map fun x => (1 / 2 : ℝ) • x, (oneSided [5, 10]).map fun x => (1 / 2 : ℝ) • x])
    (fun _ _ => rfl) (fun _ _ => by simp)
    (by
      intro _ _ _ _ d hd
      simp only [List.mem_cons, List.not_mem_nil, or_false] at hd
      rcases hd with rfl | rfl <;> simp [SameForm, onceData])
    (fun _ _ _ _ => onceData_complex _)
    (fun _ _ _ _ => by
      simp only [List.mapM_cons, List.mapM_nil, ViewArg.background, ViewArg.variance, onceData_complex]
      rfl)
    (fun _ _ _ _ => oneSided_folded _ (by simp))
    (fun _ _ _ _ => by
      simp only [List.mapM_cons, List.mapM_nil]
      rw [oneSided_folded _ (by simp), oneSided_folded _ (by simp)]
      rfl)
  refine ⟨v, h1, ?_⟩
  have hy : ∀ i j, y i j = [some ⟨0, 0⟩, some ⟨1, 0⟩, some ⟨9 / 2, 0⟩, some ⟨3, 0⟩, some ⟨5, 0⟩] := fun i j => by
    rw [(merge_case _ _ _ _ _ _ _ _ (h2 i j)).2]
    simp only [List.cons.injEq, Option.some.injEq, Cx.ext_iff, and_true]
    norm_num [Cx.ofR]
  obtain rfl : t = [0, 1, 2, 4, 8] := (merge_case _ _ _ _ _ _ _ _ (h2 0 0)).1
  rw [h3]
  congr 2
  unfold averageCurve
  simp only [hy, List.length_cons, List.length_nil]
  rw [show List.range _ = [0, 1, 2, 3, 4] from rfl]
  simp only [List.map_cons, List.map_nil]
  rw [meanOver_caseS _ ⟨0, 0⟩, meanOver_caseS _ ⟨1, 0⟩, meanOver_caseS _ ⟨9 / 2, 0⟩, meanOver_caseS _ ⟨3, 0⟩, meanOver_caseS _ ⟨5, 0⟩]
  all_goals
    intro p hp
    unfold fullSpace
    split <;> simp [Cx.conj]

end Cddm
