import Verif.Lemmas.NormMulti
import Verif.Props.Multitau
import Verif.Props.NormReject

/-!
# C79: normalization of multiple tau data (`normalize_multi`)

`finePairs m f1 f2 n k` (Spec/NormMulti) are all pairs of samples out of two blocks of `m` samples at block distance
`k`; `crossFormula bg v z`, `autoFormula bg v z` are the formulas of the norms as means over pairs.
-/

namespace Cddm
open Spec

section parts
variable {C : Type} [AddCommGroup C] [Module ℝ C] (ops : NormOps C)

theorem normalize_again (d : NormData C) (bg : Option Background) (var : Option Variance) (z : Option Int) (x : Nat)
    (mode : String) (scale : Bool) (h : normOf d z = .ok x) :
    normalize ops d bg var (some (x : Int)) mode scale none = normalize ops d bg var z mode scale none := by
  unfold normalize
  rw [h, normOf_again d z x h]

theorem normFromString_error {s : List Char} {e : PyErr} (h : normFromString s = .error e) : e = .valueError := by
  simp only [normFromString, bind, Except.bind] at h
  split at h
  · next h' => rw [← Except.error.inj h]; exact normParts_error _ _ _ h'
  · cases h

omit [AddCommGroup C] [Module ℝ C] in
theorem normOf_error {d : NormData C} {z : Option Int} {e : PyErr} (h : normOf d z = .error e) : e = .valueError := by
  cases z with
  | none => cases d <;> simp [normOf, normFromCcorrData, normFromCdiffData] at h <;> exact h.symm
  | some z =>
    by_cases hs : Supports d z
    · rw [(normOf_supports d z).1 hs] at h; cases h
    · rw [(normOf_supports d z).2 hs] at h; exact (Except.error.inj h).symm

omit [AddCommGroup C] [Module ℝ C] in
/-- The number a norm argument stands for. -/
theorem multiNorm_num (d : NormData C) (z : Option Int) (mode : String) (hm : mode = "corr" ∨ mode = "diff") :
    multiNorm d (.num z) mode = normOf d z := by
  unfold multiNorm inspectMode
  rw [if_pos hm]
  cases d <;> rfl

omit [AddCommGroup C] [Module ℝ C] in
theorem multiNorm_str (d : NormData C) (s : List Char) (x : Nat) (hs : normFromString s = .ok x) (mode : String)
    (hm : mode = "corr" ∨ mode = "diff") : multiNorm d (.str s) mode = normOf d (some (x : Int)) := by
  unfold multiNorm inspectMode
  rw [if_pos hm]
  dsimp only
  rw [hs]
  cases d <;> rfl

omit [AddCommGroup C] [Module ℝ C] in
theorem multiNorm_bad (d : NormData C) (norm : NormArg) (mode : String)
    (h : ¬ (mode = "corr" ∨ mode = "diff") ∨ ∃ s e, norm = .str s ∧ normFromString s = .error e) :
    multiNorm d norm mode = .error .valueError := by
  unfold multiNorm inspectMode
  by_cases hm : mode = "corr" ∨ mode = "diff"
  · obtain ⟨s, e, rfl, he⟩ := h.resolve_left (not_not.2 hm)
    rw [if_pos hm]
    dsimp only
    rw [he, normFromString_error he]
    cases d <;> rfl
  · rw [if_neg hm]
    cases d <;> rfl

theorem normalizeArg_bad (d : NormData C) (bg : Option Background) (var : Option Variance) (norm : NormArg)
    (mode : String) (scale : Bool)
    (h : ¬ (mode = "corr" ∨ mode = "diff") ∨ ∃ s e, norm = .str s ∧ normFromString s = .error e) :
    normalizeArg ops d bg var norm mode scale = .error .valueError := by
  unfold normalizeArg
  by_cases hm : mode = "corr" ∨ mode = "diff"
  · obtain ⟨s, e, rfl, he⟩ := h.resolve_left (not_not.2 hm)
    simp only [normalizeStr, inspectMode, if_pos hm, he, normFromString_error he]
    cases d <;> rfl
  · cases norm with
    | num z => simp only [normalize, inspectMode, if_neg hm]; rfl
    | str s =>
      simp only [normalizeStr, inspectMode, if_neg hm]
      cases d <;> rfl

/-- What both functions do with a norm given by number. -/
theorem parts_num (lin : NormData C) (multi : List (NormData C)) (bg : Option Background) (var : Option Variance)
    (z : Option Int) (mode : String) (hm : mode = "corr" ∨ mode = "diff") (scale : Bool) (norm : NormArg)
    (hf : ∀ d ∈ multi, SameForm d lin) (h1 : multiNorm lin norm mode = normOf lin z)
    (h2 : ∀ d, normalizeArg ops d bg var norm mode scale
      = (do let r ← normalize ops d bg var z mode scale none; .ok r.1)) :
    normalizeMulti ops lin multi bg var norm mode scale = (do
      let l ← normalizeArg ops lin bg var norm mode scale
      let m ← multi.mapM fun d => normalizeArg ops d bg var norm mode scale
      .ok (l, m)) := by
  simp only [h2]
  unfold normalizeMulti
  rw [h1]
  cases hx : normOf lin z with
  | error e =>
    have : normalize ops lin bg var z mode scale none = .error e := by
      unfold normalize
      rw [hx]
      simp only [inspectMode, if_pos hm]
      rfl
    rw [this]
    rfl
  | ok x =>
    have e : ∀ d, SameForm d lin →
        normalize ops d bg var (some (x : Int)) mode scale none = normalize ops d bg var z mode scale none :=
      fun d hd => normalize_again ops d bg var z x mode scale (by rw [normOf_sameForm hd, hx])
    have e1 := normalize_again ops lin bg var z x mode scale hx
    have em : (multi.mapM fun d => (do
          let r ← normalize ops d bg var (some (x : Int)) mode scale none
          .ok r.1 : Py (List (Option C))))
        = multi.mapM fun d => (do
          let r ← normalize ops d bg var z mode scale none
          .ok r.1 : Py (List (Option C))) :=
      mapM_congr _ _ _ fun d hd => by rw [e d (hf d hd)]
    change (normalize ops lin bg var (some (x : Int)) mode scale none).bind (fun l => (multi.mapM fun d => (do
          let r ← normalize ops d bg var (some (x : Int)) mode scale none
          .ok r.1 : Py (List (Option C)))).bind fun m => .ok (l.1, m)) = _
    rw [e1, em]
    cases normalize ops lin bg var z mode scale none <;> rfl

end parts

/-- Data whose levels have the same arrays as the linear part: the linear part and each level are normalised like data
of their own, with the same arguments.  This holds for all norms, modes and scalings, and for errors. -/
theorem C79_parts (lin : NormData ℝ) (multi : List (NormData ℝ)) (bg : Option Background) (var : Option Variance)
    (norm : NormArg) (mode : String) (scale : Bool) (hf : ∀ d ∈ multi, SameForm d lin) :
    normalizeMulti normOpsR lin multi bg var norm mode scale = (do
      let l ← normalizeArg normOpsR lin bg var norm mode scale
      let m ← multi.mapM fun d => normalizeArg normOpsR d bg var norm mode scale
      .ok (l, m)) := by
  by_cases hm : mode = "corr" ∨ mode = "diff"
  · cases norm with
    | num z => exact parts_num normOpsR lin multi bg var z mode hm scale _ hf (multiNorm_num _ _ _ hm) fun d => rfl
    | str s =>
      cases hs : normFromString s with
      | error e =>
        rw [normalizeArg_bad normOpsR lin bg var _ mode scale (.inr ⟨s, e, rfl, hs⟩)]
        unfold normalizeMulti
        rw [multiNorm_bad _ _ _ (.inr ⟨s, e, rfl, hs⟩)]
        rfl
      | ok x =>
        refine parts_num normOpsR lin multi bg var (some (x : Int)) mode hm scale _ hf
          (multiNorm_str _ _ _ hs _ hm) fun d => ?_
        unfold normalizeArg
        dsimp only
        rw [(C28_string d bg var s mode scale none).2 x hs]
  · rw [normalizeArg_bad normOpsR lin bg var _ mode scale (.inl hm)]
    unfold normalizeMulti
    rw [multiNorm_bad _ _ _ (.inl hm)]
    rfl

/-- A norm the linear data do not support, a missing background, a missing variance which is needed, or an unknown
mode: ValueError. -/
theorem C79_rejects (lin : NormData ℝ) (multi : List (NormData ℝ)) (bg : Option Background) (var : Option Variance)
    (z : Int) (mode : String) (scale : Bool) (h : ¬ Complete lin bg var z mode scale) :
    normalizeMulti normOpsR lin multi bg var (.num (some z)) mode scale = .error .valueError := by
  unfold normalizeMulti
  by_cases hm : mode = "corr" ∨ mode = "diff"
  · rw [multiNorm_num _ _ _ hm]
    cases hx : normOf lin (some z) with
    | error e => rw [normOf_error hx]; rfl
    | ok x =>
      have := normalize_again normOpsR lin bg var (some z) x mode scale hx
      simp only [bind, Except.bind]
      rw [this, C28_rejects _ _ _ _ _ _ _ h]
  · rw [multiNorm_bad _ _ _ (.inl hm)]
    rfl

example : ¬ Complete (.corr [1, 2] [1, 1] none none none : NormData ℝ) (some (.one 0)) (some (.one 1)) 2 "corr" false := by
  simp [Complete, Supports]

theorem sameForm_cross (m : String) (hm : m ≠ "diff") (v : Int) (L L' : Nat) (s1 s2 s1' s2' : Stream (Cx ℝ))
    (q1 q2 q1' q2' : Stream ℝ) :
    SameForm ((crossData false (productOf m) m v L s1 s2 q1 q2).toData m)
      ((crossData false (productOf m) m v L' s1' s2' q1' q2').toData m) := by
  simp only [CorrAout.toData, crossData, if_neg hm, SameForm]
  refine ⟨?_, ?_, ?_⟩ <;> split <;> rfl

theorem sameForm_auto (m : String) (hm : m ≠ "diff") (v : Int) (L L' : Nat) (s s' : Stream (Cx ℝ))
    (q q' : Stream ℝ) :
    SameForm ((autoData (productOf m) m v L s q).toData m) ((autoData (productOf m) m v L' s' q').toData m) := by
  simp only [CorrAout.toData, autoData, if_neg hm, SameForm]
  refine ⟨?_, ?_, trivial⟩ <;> split <;> rfl

theorem sameForm_cross_diff (v : Int) (L L' : Nat) (s1 s2 s1' s2' : Stream (Cx ℝ))
    (q1 q2 q1' q2' : Stream ℝ) :
    SameForm ((crossData false (productOf "diff") "diff" v L s1 s2 q1 q2).toData "diff")
      ((crossData false (productOf "diff") "diff" v L' s1' s2' q1' q2').toData "diff") := by
  simp only [CorrAout.toData, crossData, if_true, SameForm]
  refine ⟨?_, ?_⟩ <;> split <;> rfl

theorem sameForm_auto_diff (v : Int) (L L' : Nat) (s s' : Stream (Cx ℝ)) (q q' : Stream ℝ) :
    SameForm ((autoData (productOf "diff") "diff" v L s q).toData "diff")
      ((autoData (productOf "diff") "diff" v L' s' q').toData "diff") := by
  simp only [CorrAout.toData, autoData, if_true, SameForm]
  refine ⟨?_, trivial⟩
  split <;> rfl

theorem normalize_crossDiff {v : Int} {L : Nat} {s1 s2 : Stream (Cx ℝ)} {q1 q2 : Stream ℝ} (bg : Background)
    (var : Variance) {z : Int} (hz : z = 2 ∨ z = 6 ∧ WantsSums v) :
    ∃ out, normalize normOpsR ((crossData false (productOf "diff") "diff" v L s1 s2 q1 q2).toData "diff") (some bg)
      (some var) (some z) "corr" false none = .ok (out, none) ∧
      IsCurve L (pairsAt false s1 s2 L) (crossFormula bg var.offset z) out := by
  have hg : productOf "diff" = dist2 := rfl
  rw [hg]
  simp only [CorrAout.toData, crossData, if_true, cells]
  rw [funext (cellSum_total false dist2 s1 s2 L), funext (cellSum_total false (fun a _ => a) s1 s2 L),
    funext (cellSum_total false (fun _ b => b) s1 s2 L), funext (cellSum_total false (fun _ _ => 1) s1 s2 L)]
  rcases hz with rfl | ⟨rfl, hs⟩
  · rw [normalize_diff_corr]
    refine ⟨_, rfl, isCurve_of _ _ _ _ (fun k _ h => by simp [h, cdiff1, divCount]) (fun k _ h => ?_)⟩
    have := cell_cdiff1 h bg.fst bg.snd
    rw [total_count]
    rw [this, Option.map_some, diff2corr_R]
    simp [crossFormula, normFormula]
    ring
  · rw [if_pos hs, if_pos hs, normalize_diffSubtracted_corr]
    refine ⟨_, rfl, isCurve_of _ _ _ _ (fun k _ h => by simp [h, cdiff3, divCount]) (fun k _ h => ?_)⟩
    have := cell_cdiff3 h bg.fst bg.snd
    rw [total_count]
    rw [this, Option.map_some, diff2corr_R]
    simp [crossFormula, normFormula]

theorem normalize_autoDiff {v : Int} {L : Nat} {s : Stream (Cx ℝ)} {q : Stream ℝ} (bg : Background)
    (var : Variance) :
    ∃ out, normalize normOpsR ((autoData (productOf "diff") "diff" v L s q).toData "diff") (some bg)
      (some var) (some 2) "corr" false none = .ok (out, none) ∧
      IsCurve L (selfPairsAt s) (autoFormula bg var.offset 2) out := by
  have hg : productOf "diff" = dist2 := rfl
  rw [hg]
  simp only [CorrAout.toData, autoData, if_true, cells]
  rw [funext (selfSum_total' dist2 s), funext (selfSum_total' (fun _ _ => 1) s), normalize_diff_corr]
  refine ⟨_, rfl, isCurve_of _ _ _ _ (fun k _ h => by simp [h, cdiff1, divCount]) (fun k _ h => ?_)⟩
  have := cell_cdiff1 h bg.fst bg.snd
  rw [total_count]
  rw [this, Option.map_some, diff2corr_R]
  simp [autoFormula, normFormula]
  ring

/-- Putting the normalised parts together. -/
theorem normalizeMulti_levels (lin : NormData ℝ) (nl : Nat) (lev : Nat → NormData ℝ) (bg : Background)
    (var : Variance) (z : Int) (hf : ∀ j < nl, SameForm (lev j) lin) (Q : List (Option ℝ) → Prop)
    (Ql : Nat → List (Option ℝ) → Prop)
    (h : ∃ out, normalize normOpsR lin (some bg) (some var) (some z) "corr" false none = .ok (out, none) ∧ Q out)
    (hl : ∀ j < nl, ∃ out, normalize normOpsR (lev j) (some bg) (some var) (some z) "corr" false none = .ok (out, none)
      ∧ Ql j out) :
    ∃ (out : List (Option ℝ)) (outs : Nat → List (Option ℝ)),
      normalizeMulti normOpsR lin ((List.range nl).map lev) (some bg) (some var) (.num (some z)) "corr" false
        = .ok (out, (List.range nl).map outs) ∧ Q out ∧ ∀ j < nl, Ql j (outs j) := by
  obtain ⟨out, ho, hQ⟩ := h
  obtain ⟨outs, hos, hQl⟩ := mapM_range_ok nl
    (fun j => normalizeArg normOpsR (lev j) (some bg) (some var) (.num (some z)) "corr" false) Ql fun j hj => by
      obtain ⟨o, h1, h2⟩ := hl j hj
      refine ⟨o, ?_, h2⟩
      unfold normalizeArg
      dsimp only
      rw [h1]
      rfl
  refine ⟨out, outs, ?_, hQ, hQl⟩
  rw [C79_parts _ _ _ _ _ _ _ (by
    intro d hd
    obtain ⟨j, hj, rfl⟩ := List.mem_map.1 hd
    exact hf j (List.mem_range.1 hj))]
  have e : normalizeArg normOpsR lin (some bg) (some var) (.num (some z)) "corr" false = .ok out := by
    unfold normalizeArg
    dsimp only
    rw [ho]
    rfl
  rw [e, List.mapM_map, Function.comp_def, hos]
  rfl

/-! ### Averaging -/

/-- `normalize_multi` of the data of `ccorr_multi`, averaged levels: delay `k` of level `j` is the norm's formula for
all pairs of samples out of two blocks of `2^(j+1)` samples at block distance `k`, just as for single samples in the
linear part.  There are as many levels as the data allow. -/
theorem C79_cross_mean (f1 f2 : List (Cx ℝ)) (t1 t2 : Option (List Int)) (n : Nat)
    (norm : Option Int) (method : Option String) (period : Nat) (binning : Option Int)
    (al : Nat → Bool) (r : Nat → ℚ) (m : String) (v : Int)
    (hm : m = method.getD "corr") (hm' : m = "corr" ∨ m = "fft") (hb : binning.getD 1 = 1)
    (hv : v = effNorm norm m true)
    (hargs : CrossArgs m v f1.length f2.length t1 t2 (period * n)) (hn : 5 ≤ n)
    (hN : n ≤ f1.length) (bg : Background) (var : Variance) (z : Int) (hz : PlainNorm z) (hp : Prepared v z) :
    ∃ nl lin levels, n ≤ f1.length / 2 ^ nl ∧ f1.length / 2 ^ (nl + 1) < n ∧
      ccorrMultiNormalized f1 f2 t1 t2 n norm method period binning none al r bg (some var) z "corr" false
        = .ok (lin, (List.range nl).map levels) ∧
      IsCurve (period * n) (pairsAt false (stream f1 t1) (stream f2 t2) (period * n))
        (crossFormula bg var.offset z) lin ∧
      ∀ j < nl, IsCurve n (finePairs (2 ^ (j + 1)) f1 f2 n) (crossFormula bg var.offset z) (levels j) := by
  obtain ⟨nl, h1, h2, -, h4⟩ := C38_cross_mean f1 f2 t1 t2 n norm method period binning al r m v hm hm' hb hv hargs hn hN
  have hd : m ≠ "diff" := by rcases hm' with rfl | rfl <;> decide
  obtain ⟨out, outs, h5, h6, h7⟩ := normalizeMulti_levels
    ((crossData false (productOf m) m v (period * n) (stream f1 t1) (stream f2 t2)
      (stream (f1.map Cx.abs2) t1) (stream (f2.map Cx.abs2) t2)).toData m) nl
    (fun j => (crossData false (productOf m) m v n
      (regular (blockMeans (2 ^ (j + 1)) f1)) (regular (blockMeans (2 ^ (j + 1)) f2))
      (regular (blockMeans (2 ^ (j + 1)) (f1.map Cx.abs2)))
      (regular (blockMeans (2 ^ (j + 1)) (f2.map Cx.abs2)))).toData m) bg var z
    (fun j _ => sameForm_cross m hd v _ _ _ _ _ _ _ _ _ _) _ _
    (normalize_crossData hm' (holds_cross f1 f2 t1 t2 (period * n))
      (fun k => by rw [cellSum_total]; simp) (fun k => by rw [cellSum_total]; simp) bg var hz hp)
    (fun j _ => normalize_crossData hm' (holds_cross_fine f1 f2 (2 ^ (j + 1)) n (Nat.two_pow_pos _))
      (fun k => by
        rw [blockMeans_eq, blockMeans_eq, cellSum_blocks]
        exact fine_fst (Nat.two_pow_pos _) (even_pairs _ n k f1 f2))
      (fun k => by
        rw [blockMeans_eq, blockMeans_eq, cellSum_blocks]
        exact fine_snd (Nat.two_pow_pos _) (even_pairs _ n k f1 f2)) bg var hz hp)
  refine ⟨nl, out, outs, h1, h2, ?_, h6, h7⟩
  unfold ccorrMultiNormalized
  rw [h4, ← hm]
  simp only [bind, Except.bind, List.map_map]
  exact h5

/-- `acorr_multi` likewise; the subtracted norms take one background. -/
theorem C79_auto_mean (f : List (Cx ℝ)) (t : Option (List Int)) (n : Nat)
    (norm : Option Int) (method : Option String) (period : Nat) (binning : Option Int)
    (al : Nat → Bool) (r : Nat → ℚ) (m : String) (v : Int)
    (hm : m = method.getD "corr") (hm' : m = "corr" ∨ m = "fft") (hb : binning.getD 1 = 1)
    (hv : v = effNorm norm m false)
    (hargs : AutoArgs m v f.length t (period * n)) (hn : 5 ≤ n) (hN : n ≤ f.length)
    (bg : Background) (var : Variance) (z : Int) (hz : PlainNorm z) (hp : Prepared v z)
    (hbg : z = 5 ∨ z = 13 ∨ z = 6 ∨ z = 14 → bg.fst = bg.snd) :
    ∃ nl lin levels, n ≤ f.length / 2 ^ nl ∧ f.length / 2 ^ (nl + 1) < n ∧
      acorrMultiNormalized f t n norm method period binning none al r bg (some var) z "corr" false
        = .ok (lin, (List.range nl).map levels) ∧
      IsCurve (period * n) (selfPairsAt (stream f t)) (autoFormula bg var.offset z) lin ∧
      ∀ j < nl, IsCurve n (selfFinePairs (2 ^ (j + 1)) f) (autoFormula bg var.offset z) (levels j) := by
  obtain ⟨nl, h1, h2, -, h4⟩ := C38_auto_mean f t n norm method period binning al r m v hm hm' hb hv hargs hn hN
  have hd : m ≠ "diff" := by rcases hm' with rfl | rfl <;> decide
  obtain ⟨out, outs, h5, h6, h7⟩ := normalizeMulti_levels
    ((autoData (productOf m) m v (period * n) (stream f t) (stream (f.map Cx.abs2) t)).toData m) nl
    (fun j => (autoData (productOf m) m v n
      (regular (blockMeans (2 ^ (j + 1)) f)) (regular (blockMeans (2 ^ (j + 1)) (f.map Cx.abs2)))).toData m) bg var z
    (fun j _ => sameForm_auto m hd v _ _ _ _ _ _) _ _
    (normalize_autoData hm' (holds_auto f t) (fun k => by rw [selfSum_total']; simp) bg var hz hp hbg)
    (fun j _ => normalize_autoData hm' (holds_auto_fine f (2 ^ (j + 1)) (Nat.two_pow_pos _))
      (fun k => by
        have e := even_selfPairs (2 ^ (j + 1)) k f
        have hm0 := Nat.two_pow_pos (j + 1)
        rw [blockMeans_eq, selfSum_blocks]
        rw [total_half, show selfFinePairs (2 ^ (j + 1)) f k = fineOf (selfPairsAt (regular (blocks (2 ^ (j + 1)) f)) k) from rfl,
          fine_fst hm0 e, fine_snd hm0 e, total_half_map]
        module) bg var hz hp hbg)
  refine ⟨nl, out, outs, h1, h2, ?_, h6, h7⟩
  unfold acorrMultiNormalized
  rw [h4, ← hm]
  simp only [bind, Except.bind, List.map_map]
  exact h5

/-- Non-trivial case: default norm 7, twelve samples, one level; all the norms which are not weighted can be applied. -/
example (f : List (Cx ℝ)) (hf : f.length = 12) :
    CrossArgs "corr" 7 f.length f.length none none (2 * 5) ∧ AutoArgs "corr" 7 f.length none (2 * 5) ∧
      effNorm none "corr" true = 7 ∧ (∀ z, PlainNorm z → Prepared 7 z) ∧ 5 ≤ f.length / 2 ^ 1 ∧
      f.length / 2 ^ (1 + 1) < 5 := by
  refine ⟨⟨.inl rfl, by simp [SupportedNorm], rfl, ?_, by simp⟩,
    ⟨.inl rfl, by simp [SupportedNorm], trivial, by simp [Distinct], ?_, by simp⟩, rfl, ?_, by omega, by omega⟩
  · intro _
    simp [defaultN, hf]
  · intro _
    simp [defaultN, hf]
  · intro z _
    simp [Prepared, WantsSquares, WantsSums]

/-- The pairs of blocks of two at distance one. -/
example : finePairs 2 [1, 2, 3, 4, 5] [6, 7, 8, 9, 10] 3 1
    = [(1, 8), (1, 9), (2, 8), (2, 9), (3, 6), (3, 7), (4, 6), (4, 7)] := by decide +kernel

example : selfFinePairs 2 [1, 2, 3, 4, 5] 1 = [(1, 3), (1, 4), (2, 3), (2, 4)] := by decide +kernel
example : selfFinePairs 2 [1, 2, 3, 4, 5] 0
    = [(1, 1), (1, 2), (2, 1), (2, 2), (3, 3), (3, 4), (4, 3), (4, 4)] := by decide +kernel

/-! ### The first frame of each block -/

/-- Binning FIRST: level `j` is normalised over the pairs of the first frames of the blocks. -/
theorem C79_cross_first (f1 f2 : List (Cx ℝ)) (t1 t2 : Option (List Int)) (n : Nat)
    (norm : Option Int) (method : Option String) (period : Nat)
    (al : Nat → Bool) (r : Nat → ℚ) (m : String) (v : Int)
    (hm : m = method.getD "corr") (hm' : m = "corr" ∨ m = "fft") (hv : v = effNorm norm m true)
    (hargs : CrossArgs m v f1.length f2.length t1 t2 (period * n)) (hn : 5 ≤ n)
    (hN : n ≤ f1.length) (bg : Background) (var : Variance) (z : Int) (hz : PlainNorm z) (hp : Prepared v z) :
    ∃ nl lin levels, n ≤ f1.length / 2 ^ nl ∧ f1.length / 2 ^ (nl + 1) < n ∧
      ccorrMultiNormalized f1 f2 t1 t2 n norm method period (some 0) none al r bg (some var) z "corr" false
        = .ok (lin, (List.range nl).map levels) ∧
      IsCurve (period * n) (pairsAt false (stream f1 t1) (stream f2 t2) (period * n))
        (crossFormula bg var.offset z) lin ∧
      ∀ j < nl, IsCurve n (pairsAt false (regular (blockFirsts (2 ^ (j + 1)) f1))
        (regular (blockFirsts (2 ^ (j + 1)) f2)) n) (crossFormula bg var.offset z) (levels j) := by
  obtain ⟨nl, h1, h2, h4⟩ := C38_cross_first f1 f2 t1 t2 n norm method period (some 0) al r m v hm (.inl rfl) hv
    hargs hn hN
  have hd : m ≠ "diff" := by rcases hm' with rfl | rfl <;> decide
  obtain ⟨out, outs, h5, h6, h7⟩ := normalizeMulti_levels
    ((crossData false (productOf m) m v (period * n) (stream f1 t1) (stream f2 t2)
      (stream (f1.map Cx.abs2) t1) (stream (f2.map Cx.abs2) t2)).toData m) nl
    (fun j => (crossData false (productOf m) m v n
      (regular (blockFirsts (2 ^ (j + 1)) f1)) (regular (blockFirsts (2 ^ (j + 1)) f2))
      (regular (blockFirsts (2 ^ (j + 1)) (f1.map Cx.abs2)))
      (regular (blockFirsts (2 ^ (j + 1)) (f2.map Cx.abs2)))).toData m) bg var z
    (fun j _ => sameForm_cross m hd v _ _ _ _ _ _ _ _ _ _) _ _
    (normalize_crossData hm' (holds_cross f1 f2 t1 t2 (period * n))
      (fun k => by rw [cellSum_total]; simp) (fun k => by rw [cellSum_total]; simp) bg var hz hp)
    (fun j _ => normalize_crossData hm' (by
        rw [blockFirsts_map, blockFirsts_map]
        exact holds_cross (blockFirsts (2 ^ (j + 1)) f1) (blockFirsts (2 ^ (j + 1)) f2) none none n)
      (fun k => by rw [cellSum_total]; simp [stream]) (fun k => by rw [cellSum_total]; simp [stream]) bg var hz hp)
  refine ⟨nl, out, outs, h1, h2, ?_, h6, h7⟩
  unfold ccorrMultiNormalized
  rw [h4, ← hm]
  simp only [bind, Except.bind, List.map_map]
  exact h5

/-- `acorr_multi` likewise. -/
theorem C79_auto_first (f : List (Cx ℝ)) (t : Option (List Int)) (n : Nat)
    (norm : Option Int) (method : Option String) (period : Nat)
    (al : Nat → Bool) (r : Nat → ℚ) (m : String) (v : Int)
    (hm : m = method.getD "corr") (hm' : m = "corr" ∨ m = "fft") (hv : v = effNorm norm m false)
    (hargs : AutoArgs m v f.length t (period * n)) (hn : 5 ≤ n) (hN : n ≤ f.length)
    (bg : Background) (var : Variance) (z : Int) (hz : PlainNorm z) (hp : Prepared v z)
    (hbg : z = 5 ∨ z = 13 ∨ z = 6 ∨ z = 14 → bg.fst = bg.snd) :
    ∃ nl lin levels, n ≤ f.length / 2 ^ nl ∧ f.length / 2 ^ (nl + 1) < n ∧
      acorrMultiNormalized f t n norm method period (some 0) none al r bg (some var) z "corr" false
        = .ok (lin, (List.range nl).map levels) ∧
      IsCurve (period * n) (selfPairsAt (stream f t)) (autoFormula bg var.offset z) lin ∧
      ∀ j < nl, IsCurve n (selfPairsAt (regular (blockFirsts (2 ^ (j + 1)) f))) (autoFormula bg var.offset z)
        (levels j) := by
  obtain ⟨nl, h1, h2, h4⟩ := C38_auto_first f t n norm method period (some 0) al r m v hm (.inl rfl) hv hargs hn hN
  have hd : m ≠ "diff" := by rcases hm' with rfl | rfl <;> decide
  obtain ⟨out, outs, h5, h6, h7⟩ := normalizeMulti_levels
    ((autoData (productOf m) m v (period * n) (stream f t) (stream (f.map Cx.abs2) t)).toData m) nl
    (fun j => (autoData (productOf m) m v n
      (regular (blockFirsts (2 ^ (j + 1)) f)) (regular (blockFirsts (2 ^ (j + 1)) (f.map Cx.abs2)))).toData m) bg var z
    (fun j _ => sameForm_auto m hd v _ _ _ _ _ _) _ _
    (normalize_autoData hm' (holds_auto f t) (fun k => by rw [selfSum_total']; simp) bg var hz hp hbg)
    (fun j _ => normalize_autoData hm' (by
        rw [blockFirsts_map]
        exact holds_auto (blockFirsts (2 ^ (j + 1)) f) none)
      (fun k => by rw [selfSum_total']; simp [stream]) bg var hz hp hbg)
  refine ⟨nl, out, outs, h1, h2, ?_, h6, h7⟩
  unfold acorrMultiNormalized
  rw [h4, ← hm]
  simp only [bind, Except.bind, List.map_map]
  exact h5

/-! ### Differences -/

/-- The difference data (method 'diff') of `ccorr_multi`, which bins by taking the first frame of each block: also
normalised over the pairs of these frames, with the same formulas. -/
theorem C79_cross_diff (f1 f2 : List (Cx ℝ)) (t1 t2 : Option (List Int)) (n : Nat)
    (norm : Option Int) (period : Nat) (binning : Option Int) (hb : binning = none ∨ binning = some 0)
    (al : Nat → Bool) (r : Nat → ℚ) (v : Int) (hv : v = effNorm norm "diff" true)
    (hargs : CrossArgs "diff" v f1.length f2.length t1 t2 (period * n)) (hn : 5 ≤ n)
    (hN : n ≤ f1.length) (bg : Background) (var : Variance) (z : Int) (hz : z = 2 ∨ z = 6 ∧ WantsSums v) :
    ∃ nl lin levels, n ≤ f1.length / 2 ^ nl ∧ f1.length / 2 ^ (nl + 1) < n ∧
      ccorrMultiNormalized f1 f2 t1 t2 n norm (some "diff") period binning none al r bg (some var) z "corr" false
        = .ok (lin, (List.range nl).map levels) ∧
      IsCurve (period * n) (pairsAt false (stream f1 t1) (stream f2 t2) (period * n))
        (crossFormula bg var.offset z) lin ∧
      ∀ j < nl, IsCurve n (pairsAt false (regular (blockFirsts (2 ^ (j + 1)) f1))
        (regular (blockFirsts (2 ^ (j + 1)) f2)) n) (crossFormula bg var.offset z) (levels j) := by
  obtain ⟨nl, h1, h2, h4⟩ := C38_cross_first f1 f2 t1 t2 n norm (some "diff") period binning al r "diff" v rfl
    (by tauto) hv hargs hn hN
  obtain ⟨out, outs, h5, h6, h7⟩ := normalizeMulti_levels
    ((crossData false (productOf "diff") "diff" v (period * n) (stream f1 t1) (stream f2 t2)
      (stream (f1.map Cx.abs2) t1) (stream (f2.map Cx.abs2) t2)).toData "diff") nl
    (fun j => (crossData false (productOf "diff") "diff" v n
      (regular (blockFirsts (2 ^ (j + 1)) f1)) (regular (blockFirsts (2 ^ (j + 1)) f2))
      (regular (blockFirsts (2 ^ (j + 1)) (f1.map Cx.abs2)))
      (regular (blockFirsts (2 ^ (j + 1)) (f2.map Cx.abs2)))).toData "diff") bg var z
    (fun j _ => sameForm_cross_diff v _ _ _ _ _ _ _ _ _ _) _ _
    (normalize_crossDiff bg var hz) (fun j _ => normalize_crossDiff bg var hz)
  refine ⟨nl, out, outs, h1, h2, ?_, h6, h7⟩
  unfold ccorrMultiNormalized
  rw [h4]
  simp only [bind, Except.bind, List.map_map, Option.getD_some]
  exact h5

/-- `acorr_multi` likewise, norm 2 only. -/
theorem C79_auto_diff (f : List (Cx ℝ)) (t : Option (List Int)) (n : Nat)
    (norm : Option Int) (period : Nat) (binning : Option Int) (hb : binning = none ∨ binning = some 0)
    (al : Nat → Bool) (r : Nat → ℚ) (v : Int) (hv : v = effNorm norm "diff" false)
    (hargs : AutoArgs "diff" v f.length t (period * n)) (hn : 5 ≤ n) (hN : n ≤ f.length)
    (bg : Background) (var : Variance) :
    ∃ nl lin levels, n ≤ f.length / 2 ^ nl ∧ f.length / 2 ^ (nl + 1) < n ∧
      acorrMultiNormalized f t n norm (some "diff") period binning none al r bg (some var) 2 "corr" false
        = .ok (lin, (List.range nl).map levels) ∧
      IsCurve (period * n) (selfPairsAt (stream f t)) (autoFormula bg var.offset 2) lin ∧
      ∀ j < nl, IsCurve n (selfPairsAt (regular (blockFirsts (2 ^ (j + 1)) f))) (autoFormula bg var.offset 2)
        (levels j) := by
  obtain ⟨nl, h1, h2, h4⟩ := C38_auto_first f t n norm (some "diff") period binning al r "diff" v rfl
    (by tauto) hv hargs hn hN
  obtain ⟨out, outs, h5, h6, h7⟩ := normalizeMulti_levels
    ((autoData (productOf "diff") "diff" v (period * n) (stream f t) (stream (f.map Cx.abs2) t)).toData "diff") nl
    (fun j => (autoData (productOf "diff") "diff" v n
      (regular (blockFirsts (2 ^ (j + 1)) f)) (regular (blockFirsts (2 ^ (j + 1)) (f.map Cx.abs2)))).toData "diff")
    bg var 2 (fun j _ => sameForm_auto_diff v _ _ _ _ _ _) _ _
    (normalize_autoDiff bg var) (fun j _ => normalize_autoDiff bg var)
  refine ⟨nl, out, outs, h1, h2, ?_, h6, h7⟩
  unfold acorrMultiNormalized
  rw [h4]
  simp only [bind, Except.bind, List.map_map, Option.getD_some]
  exact h5

example (f : List (Cx ℝ)) (hf : f.length = 12) :
    CrossArgs "diff" 6 f.length f.length none none (2 * 5) ∧ AutoArgs "diff" 2 f.length none (2 * 5) ∧
      effNorm none "diff" true = 6 ∧ effNorm none "diff" false = 2 ∧ WantsSums 6 := by
  refine ⟨⟨.inr (.inr rfl), by simp [SupportedNorm], rfl, ?_, by simp⟩,
    ⟨.inr (.inr rfl), by simp [SupportedNorm], trivial, by simp [Distinct], ?_, by simp⟩, rfl, rfl, ?_⟩
  · intro _
    simp [defaultN, hf]
  · intro _
    simp [defaultN, hf]
  · simp [WantsSums]

/-! ### What the formulas mean -/

/-- The structured norms of subtracted or compensated data never exceed the variance, in no level. -/
theorem C79_bound (bg : Background) (v : ℝ) (z : Int) (hz : z = 6 ∨ z = 10 ∨ z = 14) (n : Nat)
    (P : Nat → List (Cx ℝ × Cx ℝ)) (out : List (Option ℝ))
    (h : IsCurve n P (crossFormula bg v z) out ∨ IsCurve n P (autoFormula bg v z) out) (x : ℝ) (hx : some x ∈ out) :
    x ≤ v := by
  have key : ∀ F : List (Cx ℝ × Cx ℝ) → ℝ, (∀ Q, F Q ≤ v) → IsCurve n P F out → x ≤ v := by
    intro F hF h
    obtain ⟨k, hk, hk'⟩ := List.getElem_of_mem hx
    have hk1 : k < n := h.1 ▸ hk
    have e : out[k]? = some (some x) := by rw [List.getElem?_eq_getElem hk, hk']
    by_cases hP : P k = []
    · rw [(h.2 k hk1).1 hP] at e; simp at e
    · rw [(h.2 k hk1).2 hP] at e
      simp only [Option.some.injEq] at e
      rw [← e]
      exact hF _
  have hF : ∀ b1 b2 c1 c2 Q, normFormula b1 b2 c1 c2 v z Q ≤ v := by
    intro b1 b2 c1 c2 Q
    have hd : ∀ a b : Cx ℝ, 0 ≤ mean (fun x y => dist2 (x - a) (y - b)) Q :=
      fun a b => mean_dist2_nonneg Q (fun x => x - a) (fun y => y - b)
    have e1 := hd b1 b2
    have e2 := hd c1 c2
    unfold normFormula
    rcases hz with rfl | rfl | rfl <;> norm_num <;> linarith
  rcases h with h | h
  · exact key _ (fun Q => hF _ _ _ _ Q) h
  · exact key _ (fun Q => hF _ _ _ _ Q) h

end Cddm
