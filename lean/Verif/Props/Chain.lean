import Verif.Lemmas.Chain
import Verif.Spec.Chain
import Verif.Props.MultiAny
import Verif.Props.IterAny
import Verif.Props.LogAny
import Verif.Props.NormMulti
import Verif.Props.IterMulti

/-!
# C126: from videos to curves

`normalize_multi` of the data of `ccorr_multi`, `acorr_multi`, `iccorr_multi` and `iacorr_multi` of whole videos: every pixel's curve is the formula
of the norm, applied to the pairs of samples of that pixel.
-/

namespace Cddm
open Spec

/-- The number of levels is determined by the number of frames. -/
theorem levels_unique {N n a b : Nat} (ha : n ≤ N / 2 ^ a) (ha' : N / 2 ^ (a + 1) < n) (hb : n ≤ N / 2 ^ b) (hb' : N / 2 ^ (b + 1) < n) :
    a = b := by
  have key : ∀ {a b : Nat}, N / 2 ^ (a + 1) < n → n ≤ N / 2 ^ b → b ≤ a := by
    intro a b h1 h2
    by_contra h
    have : N / 2 ^ b ≤ N / 2 ^ (a + 1) := Nat.div_le_div_left (Nat.pow_le_pow_right (by norm_num) (by omega)) (by positivity)
    omega
  exact le_antisymm (key hb' ha) (key ha' hb)

theorem chain_curves {C : Type} {frame : List Nat} {n L m : Nat} {res : Py (Tensor (Option C) × Tensor (Option C))}
    {one : List Nat → Py (List (Option C) × List (List (Option C)))} (h : MultiWise frame n L m res one)
    {Q : List Nat → List (Option C) → Prop} {R : List Nat → Nat → List (Option C) → Prop}
    (ho : ∀ p, InShape p frame → ∃ (lin : List (Option C)) (levels : Nat → List (Option C)), one p = .ok (lin, (List.range L).map levels) ∧
      Q p lin ∧ ∀ j < L, R p j (levels j)) :
    ∃ a b, res = .ok (a, b) ∧ a.shape = frame ++ [n] ∧ b.shape = L :: frame ++ [m] ∧
      ∀ p, InShape p frame → Q p (curveAt a p) ∧ ∀ j < L, R p j (curveAt b (j :: p)) := by
  rcases res with e | ⟨a, b⟩
  · obtain ⟨q, e', hq, he⟩ := h
    obtain ⟨lin, levels, h1, -⟩ := ho q hq
    rw [h1] at he
    cases he
  · obtain ⟨h1, h2, h3⟩ := h
    refine ⟨a, b, rfl, h1, h2, fun p hp => ?_⟩
    obtain ⟨lin, levels, e, hQ, hR⟩ := ho p hp
    have := (h3 p hp).symm.trans e
    simp only [Except.ok.injEq, Prod.mk.injEq] at this
    refine ⟨this.1 ▸ hQ, fun j hj => ?_⟩
    have e2 := congrArg (fun l => l[j]?) this.2
    simp only [levelsAt, h2, List.cons_append, List.headD_cons, List.getElem?_map, List.getElem?_range hj, Option.map_some,
      Option.some.injEq] at e2
    rw [e2]
    exact hR j hj

theorem shown_corr (c x : ℝ) : shownAs "corr" false c x = x := by simp [shownAs]

theorem shown_comp {α : Type} (c : ℝ) (F : α → ℝ) : shownAs "corr" false c ∘ F = F := funext fun x => shown_corr c (F x)

theorem mapM_shown {α β : Type} (ψ : β → β) (G G' : α → Py β) (h : ∀ d, G' d = (G d).map ψ) (l : List α) (out : List β)
    (ho : l.mapM G = .ok out) : l.mapM G' = .ok (out.map ψ) := by
  induction l generalizing out with
  | nil =>
    cases ho
    rfl
  | cons a l ih =>
    rw [List.mapM_cons] at ho ⊢
    rw [h a]
    cases hG : G a with
    | error e =>
      rw [hG] at ho
      cases ho
    | ok b =>
      rw [hG] at ho
      cases hl : l.mapM G with
      | error e =>
        rw [hl] at ho
        cases ho
      | ok bs =>
        rw [hl] at ho
        cases ho
        rw [ih bs hl]
        rfl

theorem normalize_shown (data : NormData ℝ) (bg : Option Background) (v : Variance) (z : Int) (hz : z ≠ 3 ∧ z ≠ 7 ∧ z ≠ 11 ∧ z ≠ 15)
    (mode : String) (hm : mode = "corr" ∨ mode = "diff") (scale : Bool) (hs : scale = true → v.offset ≠ 0) :
    normalize normOpsR data bg (some v) (some z) mode scale none
      = (normalize normOpsR data bg (some v) (some z) "corr" false none).map
          fun p => (p.1.map (Option.map (shownAs mode scale v.offset)), p.2) := by
  have e1 : normalize normOpsR data bg (some v) (some z) mode false none
      = (normalize normOpsR data bg (some v) (some z) "corr" false none).map
          fun p => (p.1.map (Option.map (shownAs mode false v.offset)), p.2) := by
    rcases hm with rfl | rfl
    · rcases normalize normOpsR data bg (some v) (some z) "corr" false none with e | ⟨a, b⟩
      · rfl
      · simp [Except.map, show shownAs "corr" false v.offset = id from funext fun x => shown_corr _ x]
    · rw [C23_modes bg v z hz, show shownAs "diff" false v.offset = fun x => 2 * (v.offset - x) from funext fun x => by simp [shownAs]]
  cases scale with
  | false => exact e1
  | true =>
    have h0 := hs rfl
    rw [C23_scale bg v z hz, e1]
    rcases normalize normOpsR data bg (some v) (some z) "corr" false none with e | ⟨a, b⟩
    · rfl
    · simp only [Except.map, List.map_map, if_neg h0]
      congr 3
      funext x
      cases x with
      | none => rfl
      | some x => simp [shownAs]

theorem normalizeMulti_shown {lin : NormData ℝ} {multi : List (NormData ℝ)} {bg : Option Background} {v : Variance} {z : Int}
    (hz : PlainNorm z) {mode : String} (hm : mode = "corr" ∨ mode = "diff") {scale : Bool} (hs : scale = true → v.offset ≠ 0)
    {a : List (Option ℝ)} {nl : Nat} {levels : Nat → List (Option ℝ)}
    (h : normalizeMulti normOpsR lin multi bg (some v) (.num (some z)) "corr" false = .ok (a, (List.range nl).map levels)) :
    normalizeMulti normOpsR lin multi bg (some v) (.num (some z)) mode scale
      = .ok (a.map (Option.map (shownAs mode scale v.offset)),
          (List.range nl).map fun j => (levels j).map (Option.map (shownAs mode scale v.offset))) := by
  have hmn : multiNorm lin (.num (some z)) mode = multiNorm lin (.num (some z)) "corr" := by
    unfold multiNorm inspectMode
    rw [if_pos hm, if_pos (Or.inl rfl)]
    rfl
  unfold normalizeMulti at h ⊢
  rw [hmn]
  cases hx : multiNorm lin (.num (some z)) "corr" with
  | error e =>
    rw [hx] at h
    cases h
  | ok x =>
    have hxz : (x : Int) = z := by
      have hn : normOf lin (some z) = .ok x := by
        rw [multiNorm_num _ _ _ (Or.inl rfl)] at hx
        exact hx
      have h0 : 0 ≤ z := by
        simp only [PlainNorm, List.mem_cons, List.not_mem_nil, or_false] at hz
        omega
      unfold normOf normFromCcorrData normFromCdiffData at hn
      dsimp only at hn
      split at hn
      · split_ifs at hn
        cases hn
        omega
      · split_ifs at hn
        all_goals cases hn; omega
      · cases hn
    rw [hx] at h
    simp only [bind, Except.bind] at h ⊢
    have hz' : z ≠ 3 ∧ z ≠ 7 ∧ z ≠ 11 ∧ z ≠ 15 := by
      simp only [PlainNorm, List.mem_cons, List.not_mem_nil, or_false] at hz
      omega
    rw [hxz] at h ⊢
    rw [normalize_shown lin bg v z hz' mode hm scale hs]
    cases hl : normalize normOpsR lin bg (some v) (some z) "corr" false none with
    | error e =>
      rw [hl] at h
      cases h
    | ok r =>
      rw [hl] at h
      simp only at h
      split at h
      · cases h
      · rename_i out ho
        have := mapM_shown (fun c : List (Option ℝ) => c.map (Option.map (shownAs mode scale v.offset))) _
          (fun d => do
            let r ← normalize normOpsR d bg (some v) (some z) mode scale none
            Except.ok r.1) (fun d => by
              rw [normalize_shown d bg v z hz' mode hm scale hs]
              cases normalize normOpsR d bg (some v) (some z) "corr" false none <;> rfl) multi out ho
        simp only [bind, Except.bind] at this
        simp only [Except.ok.injEq, Prod.mk.injEq] at h
        simp only [Except.map]
        rw [this]
        simp [← h.1, h.2, Function.comp_def]

theorem isCurve_shown {α β : Type} {n : Nat} {P : Nat → List (α × β)} {F : List (α × β) → ℝ} {out : List (Option ℝ)} (h : IsCurve n P F out)
    (φ : ℝ → ℝ) : IsCurve n P (φ ∘ F) (out.map (Option.map φ)) := by
  refine ⟨by simpa using h.1, fun k hk => ⟨fun e => ?_, fun e => ?_⟩⟩
  · simp [(h.2 k hk).1 e]
  · simp [(h.2 k hk).2 e]

theorem sizedData_cross {m : String} {v : Int} {L : Nat} {s1 s2 : Stream (Cx ℝ)} {q1 q2 : Stream ℝ} :
    SizedData L (crossData false (productOf m) m v L s1 s2 q1 q2) where
  cor := ⟨_, rfl, by simp [cells]⟩
  count := ⟨_, rfl, by simp [cells]⟩
  sq x h := by
    unfold crossData at h
    dsimp only at h
    split at h <;> cases h
    simp [cells]
  ds1 x h := by
    unfold crossData at h
    dsimp only at h
    split at h <;> cases h
    simp [cells]
  ds2 x h := by
    unfold crossData at h
    dsimp only at h
    split at h <;> cases h
    simp [cells]

theorem sizedData_auto {m : String} {v : Int} {L : Nat} {s : Stream (Cx ℝ)} {q : Stream ℝ} :
    SizedData L (autoData (productOf m) m v L s q) where
  cor := ⟨_, rfl, by simp [cells]⟩
  count := ⟨_, rfl, by simp [cells]⟩
  sq x h := by
    unfold autoData at h
    dsimp only at h
    split at h <;> cases h
    simp [cells]
  ds1 x h := by
    unfold autoData at h
    dsimp only at h
    split at h <;> cases h
    simp [cells]
  ds2 x h := by cases h

theorem allOrNone_ite {α β : Type} (l : List β) (P : Prop) [Decidable P] (g : β → α) :
    AllOrNone (l.map fun b => if P then some (g b) else none) := by
  by_cases h : P
  · left
    intro x hx
    obtain ⟨b, -, rfl⟩ := List.mem_map.1 hx
    simp [h]
  · right
    intro x hx
    obtain ⟨b, -, rfl⟩ := List.mem_map.1 hx
    simp [h]

/-- The curves of cross-correlation data that are, at each pixel, those of `ccorr_multi` of the samples `y1 p` and `y2 p`. -/
theorem chain_cross {d : CorrAoutAny ℝ × List (CorrAoutAny ℝ)} {frame : List Nat} (hne : 0 ∉ frame) (h1 : AoutFits frame d.1)
    (h2 : ∀ l ∈ d.2, AoutFits frame l) (y1 y2 : List Nat → List (Cx ℝ)) (t1 t2 : Option (List Int)) (n : Nat)
    (norm : Option Int) (method : Option String) (period : Nat) (binning : Option Int)
    (al : Nat → Bool) (r : Nat → ℚ) (m : String) (v : Int) (N : Nat) (hy1 : ∀ p, (y1 p).length = N) (hy2 : ∀ p, (y2 p).length = N)
    (hone : ∀ p, InShape p frame → ccorrMulti (y1 p) (y2 p) t1 t2 n norm method period binning none al r =
      .ok (aoutAt frame d.1 p, d.2.map fun l => aoutAt frame l p))
    (hm : m = method.getD "corr") (hm' : m = "corr" ∨ m = "fft") (hb : binning.getD 1 = 1)
    (hv : v = effNorm norm m true) (hargs : CrossArgs m v N N t1 t2 (period * n)) (hn : 5 ≤ n) (hN : 2 * n ≤ N)
    (bg : FrameArg (Cx ℝ)) (var : FrameArg ℝ) (hbg : ArgFits frame bg ∨ ArgFits [] bg) (hvar : ArgFits frame var ∨ ArgFits [] var)
    (z : Int) (hz : PlainNorm z) (hp : Prepared v z)
    (mode : String) (hmo : mode = "corr" ∨ mode = "diff") (scale : Bool)
    (hsc : scale = true → ∀ p, InShape p frame → (varianceAt var p).offset ≠ 0) :
    ∃ nl lin multi, n ≤ N / 2 ^ nl ∧ N / 2 ^ (nl + 1) < n ∧
      normalizeLevels normOpsR method d (some bg) (some var) (.num (some z)) mode scale none = .ok (lin, multi) ∧
      lin.shape = frame ++ [period * n] ∧ multi.shape = nl :: frame ++ [n] ∧ ∀ p, InShape p frame →
        IsCurve (period * n) (pairsAt false (stream (y1 p) t1) (stream (y2 p) t2) (period * n))
          (shownAs mode scale (varianceAt var p).offset ∘ crossFormula (backgroundAt bg p) (varianceAt var p).offset z) (curveAt lin p) ∧
        ∀ j < nl, IsCurve n (finePairs (2 ^ (j + 1)) (y1 p) (y2 p) n)
          (shownAs mode scale (varianceAt var p).offset ∘ crossFormula (backgroundAt bg p) (varianceAt var p).offset z) (curveAt multi (j :: p)) := by
  obtain ⟨nl, k1, k2, -, -⟩ := C38_cross_mean (y1 []) (y2 []) t1 t2 n norm method period binning al r m v hm hm' hb hv
    (by rw [hy1, hy2]; exact hargs) hn (by rw [hy1]; omega)
  rw [hy1] at k1 k2
  have hnl : 1 ≤ nl := by
    by_contra h
    have : nl = 0 := by omega
    rw [this] at k2
    have : n ≤ N / 2 ^ (0 + 1) := by rw [zero_add, pow_one]; omega
    omega
  have hdata : ∀ p, ccorrMulti (y1 p) (y2 p) t1 t2 n norm method period binning none al r = .ok
        (crossData false (productOf m) m v (period * n) (stream (y1 p) t1) (stream (y2 p) t2)
          (stream ((y1 p).map Cx.abs2) t1) (stream ((y2 p).map Cx.abs2) t2),
        (List.range nl).map fun j => crossData false (productOf m) m v n
          (regular (blockMeans (2 ^ (j + 1)) (y1 p))) (regular (blockMeans (2 ^ (j + 1)) (y2 p)))
          (regular (blockMeans (2 ^ (j + 1)) ((y1 p).map Cx.abs2)))
          (regular (blockMeans (2 ^ (j + 1)) ((y2 p).map Cx.abs2)))) := by
    intro p
    obtain ⟨nl', a1, a2, -, a4⟩ := C38_cross_mean (y1 p) (y2 p) t1 t2 n norm method period binning al r m v hm hm' hb hv
      (by rw [hy1, hy2]; exact hargs) hn (by rw [hy1]; omega)
    rw [hy1] at a1 a2
    rw [levels_unique k1 k2 a1 a2]
    exact a4
  have key := normalizeLevels_ok normOpsR method (d := d) (frame := frame) (n := period * n) (L := nl) (m := n) hne hnl h1 h2
    (fun p => (crossData false (productOf m) m v (period * n) (stream (y1 p) t1) (stream (y2 p) t2)
          (stream ((y1 p).map Cx.abs2) t1) (stream ((y2 p).map Cx.abs2) t2),
        (List.range nl).map fun j => crossData false (productOf m) m v n
          (regular (blockMeans (2 ^ (j + 1)) (y1 p))) (regular (blockMeans (2 ^ (j + 1)) (y2 p)))
          (regular (blockMeans (2 ^ (j + 1)) ((y1 p).map Cx.abs2)))
          (regular (blockMeans (2 ^ (j + 1)) ((y2 p).map Cx.abs2)))))
    (fun p hp => by
      have := (hdata p).symm.trans (hone p hp)
      exact Except.ok.inj this)
    (fun p => sizedData_cross) (fun p => by simp)
    (fun p l hl => by
      obtain ⟨j, -, rfl⟩ := List.mem_map.1 hl
      exact sizedData_cross)
    (fun p => by
      rw [List.map_map]
      exact allOrNone_ite _ _ _)
    (fun p => by
      rw [List.map_map]
      exact allOrNone_ite _ _ _)
    (fun p => by
      rw [List.map_map]
      exact allOrNone_ite _ _ _)
    (some bg) (some var) (.num (some z)) mode scale (fun x hx => by cases hx; exact hbg) (fun x hx => by cases hx; exact hvar)
  obtain ⟨a, b, e, s1, s2, hcur⟩ := chain_curves key (Q := fun p c =>
      IsCurve (period * n) (pairsAt false (stream (y1 p) t1) (stream (y2 p) t2) (period * n))
          (shownAs mode scale (varianceAt var p).offset ∘ crossFormula (backgroundAt bg p) (varianceAt var p).offset z) c)
    (R := fun p j c => IsCurve n (finePairs (2 ^ (j + 1)) (y1 p) (y2 p) n)
          (shownAs mode scale (varianceAt var p).offset ∘ crossFormula (backgroundAt bg p) (varianceAt var p).offset z) c) (fun p hp' => by
      obtain ⟨nl', lin, levels, a1, a2, a3, a4, a5⟩ := C79_cross_mean (y1 p) (y2 p) t1 t2 n norm method period binning al r m v hm hm' hb hv
        (by rw [hy1, hy2]; exact hargs) hn (by rw [hy1]; omega) (backgroundAt bg p) (varianceAt var p) z hz hp
      rw [hy1] at a1 a2
      obtain rfl := levels_unique k1 k2 a1 a2
      refine ⟨_, _, normalizeMulti_shown hz hmo (fun h => hsc h p hp') ?_, isCurve_shown a4 _, fun j hj => isCurve_shown (a5 j hj) _⟩
      unfold ccorrMultiNormalized at a3
      rw [hdata p] at a3
      exact a3)
  exact ⟨nl, a, b, k1, k2, e, s1, s2, hcur⟩

/-- The curves of auto-correlation data that are, at each pixel, those of `acorr_multi` of the samples `y p`. -/
theorem chain_auto {d : CorrAoutAny ℝ × List (CorrAoutAny ℝ)} {frame : List Nat} (hne : 0 ∉ frame) (h1 : AoutFits frame d.1)
    (h2 : ∀ l ∈ d.2, AoutFits frame l) (y : List Nat → List (Cx ℝ)) (t : Option (List Int)) (n : Nat)
    (norm : Option Int) (method : Option String) (period : Nat) (binning : Option Int)
    (al : Nat → Bool) (r : Nat → ℚ) (m : String) (v : Int) (N : Nat) (hy : ∀ p, (y p).length = N)
    (hone : ∀ p, InShape p frame → acorrMulti (y p) t n norm method period binning none al r =
      .ok (aoutAt frame d.1 p, d.2.map fun l => aoutAt frame l p))
    (hm : m = method.getD "corr") (hm' : m = "corr" ∨ m = "fft") (hb : binning.getD 1 = 1)
    (hv : v = effNorm norm m false) (hargs : AutoArgs m v N t (period * n)) (hn : 5 ≤ n) (hN : 2 * n ≤ N)
    (bg : FrameArg (Cx ℝ)) (var : FrameArg ℝ) (hbg : ArgFits frame bg ∨ ArgFits [] bg) (hvar : ArgFits frame var ∨ ArgFits [] var)
    (z : Int) (hz : PlainNorm z) (hp : Prepared v z)
    (hsame : z = 5 ∨ z = 13 ∨ z = 6 ∨ z = 14 → ∀ p, (backgroundAt bg p).fst = (backgroundAt bg p).snd)
    (mode : String) (hmo : mode = "corr" ∨ mode = "diff") (scale : Bool)
    (hsc : scale = true → ∀ p, InShape p frame → (varianceAt var p).offset ≠ 0) :
    ∃ nl lin multi, n ≤ N / 2 ^ nl ∧ N / 2 ^ (nl + 1) < n ∧
      normalizeLevels normOpsR method d (some bg) (some var) (.num (some z)) mode scale none = .ok (lin, multi) ∧
      lin.shape = frame ++ [period * n] ∧ multi.shape = nl :: frame ++ [n] ∧ ∀ p, InShape p frame →
        IsCurve (period * n) (selfPairsAt (stream (y p) t))
          (shownAs mode scale (varianceAt var p).offset ∘ autoFormula (backgroundAt bg p) (varianceAt var p).offset z) (curveAt lin p) ∧
        ∀ j < nl, IsCurve n (selfFinePairs (2 ^ (j + 1)) (y p))
          (shownAs mode scale (varianceAt var p).offset ∘ autoFormula (backgroundAt bg p) (varianceAt var p).offset z) (curveAt multi (j :: p)) := by
  obtain ⟨nl, k1, k2, -, -⟩ := C38_auto_mean (y []) t n norm method period binning al r m v hm hm' hb hv
    (by rw [hy]; exact hargs) hn (by rw [hy]; omega)
  rw [hy] at k1 k2
  have hnl : 1 ≤ nl := by
    by_contra h
    have : nl = 0 := by omega
    rw [this] at k2
    have : n ≤ N / 2 ^ (0 + 1) := by rw [zero_add, pow_one]; omega
    omega
  have hdata : ∀ p, acorrMulti (y p) t n norm method period binning none al r = .ok
        (autoData (productOf m) m v (period * n) (stream (y p) t) (stream ((y p).map Cx.abs2) t),
        (List.range nl).map fun j => autoData (productOf m) m v n
          (regular (blockMeans (2 ^ (j + 1)) (y p))) (regular (blockMeans (2 ^ (j + 1)) ((y p).map Cx.abs2)))) := by
    intro p
    obtain ⟨nl', a1, a2, -, a4⟩ := C38_auto_mean (y p) t n norm method period binning al r m v hm hm' hb hv
      (by rw [hy]; exact hargs) hn (by rw [hy]; omega)
    rw [hy] at a1 a2
    rw [levels_unique k1 k2 a1 a2]
    exact a4
  have key := normalizeLevels_ok normOpsR method (d := d) (frame := frame) (n := period * n) (L := nl) (m := n) hne hnl h1 h2
    (fun p => (autoData (productOf m) m v (period * n) (stream (y p) t) (stream ((y p).map Cx.abs2) t),
        (List.range nl).map fun j => autoData (productOf m) m v n
          (regular (blockMeans (2 ^ (j + 1)) (y p))) (regular (blockMeans (2 ^ (j + 1)) ((y p).map Cx.abs2)))))
    (fun p hp => by
      have := (hdata p).symm.trans (hone p hp)
      exact Except.ok.inj this)
    (fun p => sizedData_auto) (fun p => by simp)
    (fun p l hl => by
      obtain ⟨j, -, rfl⟩ := List.mem_map.1 hl
      exact sizedData_auto)
    (fun p => by
      rw [List.map_map]
      exact allOrNone_ite _ _ _)
    (fun p => by
      rw [List.map_map]
      exact allOrNone_ite _ _ _)
    (fun p => by
      rw [List.map_map]
      exact Or.inr fun x hx => by
        obtain ⟨b, -, rfl⟩ := List.mem_map.1 hx
        rfl)
    (some bg) (some var) (.num (some z)) mode scale (fun x hx => by cases hx; exact hbg) (fun x hx => by cases hx; exact hvar)
  obtain ⟨a, b, e, s1, s2, hcur⟩ := chain_curves key (Q := fun p c =>
      IsCurve (period * n) (selfPairsAt (stream (y p) t)) (shownAs mode scale (varianceAt var p).offset ∘ autoFormula (backgroundAt bg p) (varianceAt var p).offset z) c)
    (R := fun p j c => IsCurve n (selfFinePairs (2 ^ (j + 1)) (y p))
          (shownAs mode scale (varianceAt var p).offset ∘ autoFormula (backgroundAt bg p) (varianceAt var p).offset z) c) (fun p hp' => by
      obtain ⟨nl', lin, levels, a1, a2, a3, a4, a5⟩ := C79_auto_mean (y p) t n norm method period binning al r m v hm hm' hb hv
        (by rw [hy]; exact hargs) hn (by rw [hy]; omega) (backgroundAt bg p) (varianceAt var p) z hz hp (fun h => hsame h p)
      rw [hy] at a1 a2
      obtain rfl := levels_unique k1 k2 a1 a2
      refine ⟨_, _, normalizeMulti_shown hz hmo (fun h => hsc h p hp') ?_, isCurve_shown a4 _, fun j hj => isCurve_shown (a5 j hj) _⟩
      unfold acorrMultiNormalized at a3
      rw [hdata p] at a3
      exact a3)
  exact ⟨nl, a, b, k1, k2, e, s1, s2, hcur⟩

/-! ### The theorems -/

/-- **C126** for `ccorr_multi`: videos along any axis, any thread divisor for which C123 holds, at least one level.  `normalize_multi` with a
background and a variance for each pixel, or for all, gives for each pixel the curve of the norm's formula over the pairs of samples of that
pixel at each delay, and in level `j` over the pairs of samples out of two blocks of `2^(j+1)` samples. -/
theorem C126_ccorr_multi_partial (flags : Nat → Bool × Bool) (f1 f2 : Tensor (Cx ℝ)) (t1 t2 : Option (List Int)) (axis : Int)
    (n : Nat) (norm : Option Int) (method : Option String) (period : Nat) (binning : Option Int)
    (align contiguous : Bool) (divisor : Option Int) (r : Nat → ℚ) (ax : Nat) (hs : f2.shape = f1.shape)
    (hax : NamesAxis f1.shape.length axis ax) (hd : DivisorFits f1.shape ax divisor) (hne : 0 ∉ frameShape f1.shape ax)
    (N : Nat) (hN : f1.shape.getD ax 0 = N) (m : String) (v : Int)
    (hm : m = method.getD "corr") (hm' : m = "corr" ∨ m = "fft") (hb : binning.getD 1 = 1)
    (hv : v = effNorm norm m true) (hargs : CrossArgs m v N N t1 t2 (period * n)) (hn : 5 ≤ n) (h2 : 2 * n ≤ N)
    (bg : FrameArg (Cx ℝ)) (var : FrameArg ℝ) (hbg : ArgFits (frameShape f1.shape ax) bg ∨ ArgFits [] bg)
    (hvar : ArgFits (frameShape f1.shape ax) var ∨ ArgFits [] var) (z : Int) (hz : PlainNorm z) (hp : Prepared v z)
    (mode : String) (hmo : mode = "corr" ∨ mode = "diff") (scale : Bool)
    (hsc : scale = true → ∀ p, InShape p (frameShape f1.shape ax) → (varianceAt var p).offset ≠ 0) :
    ∃ d nl lin multi, n ≤ N / 2 ^ nl ∧ N / 2 ^ (nl + 1) < n ∧
      ccorrMultiAny flags f1 f2 t1 t2 axis n norm method period binning none align contiguous divisor r = .ok d ∧
      normalizeLevels normOpsR method d (some bg) (some var) (.num (some z)) mode scale none = .ok (lin, multi) ∧
      lin.shape = frameShape f1.shape ax ++ [period * n] ∧ multi.shape = nl :: frameShape f1.shape ax ++ [n] ∧
      ∀ p, InShape p (frameShape f1.shape ax) →
        IsCurve (period * n) (pairsAt false (stream (along f1 ax p) t1) (stream (along f2 ax p) t2) (period * n))
          (shownAs mode scale (varianceAt var p).offset ∘ crossFormula (backgroundAt bg p) (varianceAt var p).offset z) (curveAt lin p) ∧
        ∀ j < nl, IsCurve n (finePairs (2 ^ (j + 1)) (along f1 ax p) (along f2 ax p) n)
          (shownAs mode scale (varianceAt var p).offset ∘ crossFormula (backgroundAt bg p) (varianceAt var p).offset z) (curveAt multi (j :: p)) := by
  have l1 : ∀ p, (along f1 ax p).length = N := fun p => by rw [along_length, hN]
  have l2 : ∀ p, (along f2 ax p).length = N := fun p => by rw [along_length, hs, hN]
  obtain ⟨al, hpw⟩ := C123_ccorr_multi_partial flags f1 f2 t1 t2 axis n norm method period binning none align contiguous divisor r ax hs hax hd
    (fun h => by
      rw [hN]
      have := hargs.span (Or.inr h)
      subst h
      simpa [defaultN] using this) (by simp)
  obtain ⟨p0, hp0⟩ : ∃ p, InShape p (frameShape f1.shape ax) := ⟨_, inShape_zeros _ hne⟩
  rcases hres : ccorrMultiAny flags f1 f2 t1 t2 axis n norm method period binning none align contiguous divisor r with e | d
  · rw [hres] at hpw
    obtain ⟨nl, -, -, -, h4⟩ := C38_cross_mean (along f1 ax p0) (along f2 ax p0) t1 t2 n norm method period binning al r m v hm hm' hb hv
      (by rw [l1, l2]; exact hargs) hn (by rw [l1]; omega)
    have := (hpw p0 hp0).symm.trans h4
    cases this
  · rw [hres] at hpw
    obtain ⟨g1, g2, g3⟩ := hpw
    obtain ⟨nl, lin, multi, k⟩ := chain_cross hne g1 g2 (along f1 ax) (along f2 ax) t1 t2 n norm method period binning al r m v N l1 l2 g3
      hm hm' hb hv hargs hn h2 bg var hbg hvar z hz hp mode hmo scale hsc
    exact ⟨d, nl, lin, multi, k.1, k.2.1, rfl, k.2.2⟩

/-- C126 for `acorr_multi`; the subtracted norms take one background. -/
theorem C126_acorr_multi_partial (flags : Nat → Bool × Bool) (f : Tensor (Cx ℝ)) (t : Option (List Int)) (axis : Int)
    (n : Nat) (norm : Option Int) (method : Option String) (period : Nat) (binning : Option Int)
    (align contiguous : Bool) (divisor : Option Int) (r : Nat → ℚ) (ax : Nat)
    (hax : NamesAxis f.shape.length axis ax) (hd : DivisorFits f.shape ax divisor) (hne : 0 ∉ frameShape f.shape ax)
    (N : Nat) (hN : f.shape.getD ax 0 = N) (m : String) (v : Int)
    (hm : m = method.getD "corr") (hm' : m = "corr" ∨ m = "fft") (hb : binning.getD 1 = 1)
    (hv : v = effNorm norm m false) (hargs : AutoArgs m v N t (period * n)) (hn : 5 ≤ n) (h2 : 2 * n ≤ N)
    (bg : FrameArg (Cx ℝ)) (var : FrameArg ℝ) (hbg : ArgFits (frameShape f.shape ax) bg ∨ ArgFits [] bg)
    (hvar : ArgFits (frameShape f.shape ax) var ∨ ArgFits [] var) (z : Int) (hz : PlainNorm z) (hp : Prepared v z)
    (hsame : z = 5 ∨ z = 13 ∨ z = 6 ∨ z = 14 → ∀ p, (backgroundAt bg p).fst = (backgroundAt bg p).snd)
    (mode : String) (hmo : mode = "corr" ∨ mode = "diff") (scale : Bool)
    (hsc : scale = true → ∀ p, InShape p (frameShape f.shape ax) → (varianceAt var p).offset ≠ 0) :
    ∃ d nl lin multi, n ≤ N / 2 ^ nl ∧ N / 2 ^ (nl + 1) < n ∧
      acorrMultiAny flags f t axis n norm method period binning none align contiguous divisor r = .ok d ∧
      normalizeLevels normOpsR method d (some bg) (some var) (.num (some z)) mode scale none = .ok (lin, multi) ∧
      lin.shape = frameShape f.shape ax ++ [period * n] ∧ multi.shape = nl :: frameShape f.shape ax ++ [n] ∧
      ∀ p, InShape p (frameShape f.shape ax) →
        IsCurve (period * n) (selfPairsAt (stream (along f ax p) t))
          (shownAs mode scale (varianceAt var p).offset ∘ autoFormula (backgroundAt bg p) (varianceAt var p).offset z) (curveAt lin p) ∧
        ∀ j < nl, IsCurve n (selfFinePairs (2 ^ (j + 1)) (along f ax p))
          (shownAs mode scale (varianceAt var p).offset ∘ autoFormula (backgroundAt bg p) (varianceAt var p).offset z) (curveAt multi (j :: p)) := by
  have l1 : ∀ p, (along f ax p).length = N := fun p => by rw [along_length, hN]
  obtain ⟨al, hpw⟩ := C123_acorr_multi_partial flags f t axis n norm method period binning none align contiguous divisor r ax hax hd
    (fun h => by
      rw [hN]
      have := hargs.span (Or.inr h)
      subst h
      simpa [defaultN] using this) (by simp)
  obtain ⟨p0, hp0⟩ : ∃ p, InShape p (frameShape f.shape ax) := ⟨_, inShape_zeros _ hne⟩
  rcases hres : acorrMultiAny flags f t axis n norm method period binning none align contiguous divisor r with e | d
  · rw [hres] at hpw
    obtain ⟨nl, -, -, -, h4⟩ := C38_auto_mean (along f ax p0) t n norm method period binning al r m v hm hm' hb hv
      (by rw [l1]; exact hargs) hn (by rw [l1]; omega)
    have := (hpw p0 hp0).symm.trans h4
    cases this
  · rw [hres] at hpw
    obtain ⟨g1, g2, g3⟩ := hpw
    obtain ⟨nl, lin, multi, k⟩ := chain_auto hne g1 g2 (along f ax) t n norm method period binning al r m v N l1 g3
      hm hm' hb hv hargs hn h2 bg var hbg hvar z hz hp hsame mode hmo scale hsc
    exact ⟨d, nl, lin, multi, k.1, k.2.1, rfl, k.2.2⟩

/-- C126 for `iccorr_multi` in mode 'full' with an automatic number of levels, under the conditions of C34 and C124: the samples are the frames
taken, less their automatic background. -/
theorem C126_iccorr_multi_partial (flags : Nat → Bool × Bool) (data : List (Tensor (Cx ℝ) × Tensor (Cx ℝ))) (t1 t2 : Option (List Int))
    (o : MultiOpts) (divisor : Option Int) (env : IterEnvAny) (F : List Nat) (hd : IterDivisorFits F divisor)
    (hne : 0 ∉ F) (hdata : ∀ x ∈ data, x.1.shape = F ∧ x.2.shape = F)
    (e : Eff) (h : IterCall true false t1 t2 env.dataLen o e)
    (hmode : o.mode = "full") (hb' : e.binning = 1)
    (hsp : Spaced e.chunk e.frames (o.period * o.levelSize) e.T1 e.T2)
    (hlen : e.frames ≤ data.length) (h5 : 5 ≤ o.levelSize) (hnl : o.nlevel = none)
    (m : String) (v : Int) (hm : m = o.method.getD "corr") (hm' : m = "corr" ∨ m = "fft") (hb : o.binning.getD 1 = 1)
    (hv : v = effNorm o.norm m true)
    (hargs : CrossArgs m v e.frames e.frames (t1.map (List.take e.frames)) (t2.map (List.take e.frames)) (o.period * o.levelSize))
    (h2 : 2 * o.levelSize ≤ e.frames)
    (bg : FrameArg (Cx ℝ)) (var : FrameArg ℝ) (hbg : ArgFits F bg ∨ ArgFits [] bg) (hvar : ArgFits F var ∨ ArgFits [] var)
    (z : Int) (hz : PlainNorm z) (hp : Prepared v z) (y1 y2 : List Nat → List (Cx ℝ))
    (hy1 : ∀ p, y1 p = processed o.autoBackground e.chunk e.frames (data.map fun x => x.1.get p))
    (hy2 : ∀ p, y2 p = processed o.autoBackground e.chunk e.frames (data.map fun x => x.2.get p))
    (mode : String) (hmo : mode = "corr" ∨ mode = "diff") (scale : Bool)
    (hsc : scale = true → ∀ p, InShape p F → (varianceAt var p).offset ≠ 0) :
    ∃ out nl lin multi, o.levelSize ≤ e.frames / 2 ^ nl ∧ e.frames / 2 ^ (nl + 1) < o.levelSize ∧
      iccorrMultiAny flags data t1 t2 o divisor env = .ok out ∧
      normalizeLevels normOpsR o.method (out.2.fast, out.2.slow) (some bg) (some var) (.num (some z)) mode scale none =
        .ok (lin, multi) ∧
      lin.shape = F ++ [o.period * o.levelSize] ∧ multi.shape = nl :: F ++ [o.levelSize] ∧ ∀ p, InShape p F →
        IsCurve (o.period * o.levelSize) (pairsAt false (stream (y1 p) (t1.map (List.take e.frames)))
            (stream (y2 p) (t2.map (List.take e.frames))) (o.period * o.levelSize))
          (shownAs mode scale (varianceAt var p).offset ∘ crossFormula (backgroundAt bg p) (varianceAt var p).offset z) (curveAt lin p) ∧
        ∀ j < nl, IsCurve o.levelSize (finePairs (2 ^ (j + 1)) (y1 p) (y2 p) o.levelSize)
          (shownAs mode scale (varianceAt var p).offset ∘ crossFormula (backgroundAt bg p) (varianceAt var p).offset z) (curveAt multi (j :: p)) := by
  have hlen' : ∀ (x : List (Cx ℝ)), x.length = data.length → (processed o.autoBackground e.chunk e.frames x).length = e.frames := by
    intro x hx
    unfold processed
    rw [List.length_take]
    split <;> simp [hx, hlen]
  have l1 : ∀ p, (y1 p).length = e.frames := fun p => by rw [hy1]; exact hlen' _ (by simp)
  have l2 : ∀ p, (y2 p).length = e.frames := fun p => by rw [hy2]; exact hlen' _ (by simp)
  obtain ⟨junk, junkSq, hpw⟩ := C124_iccorr_multi_partial flags data t1 t2 o divisor env F hd ⟨_, inShape_zeros _ hne⟩ hdata
  have one : ∀ p, _ := fun p => C34_iccorr_multi_partial (data.map fun x => (x.1.get p, x.2.get p)) t1 t2 o
    ⟨env.dataLen, junk p, junkSq p, false, false, env.rand⟩ e h hmode hb' hsp (by simpa using hlen) h5 (Or.inl hnl)
    (fun ht => by
      have := hargs.span (Or.inr (by rw [ht]; rfl))
      subst ht
      simpa [defaultN] using this) (y1 p) (y2 p) (by rw [hy1, List.map_map]; rfl) (by rw [hy2, List.map_map]; rfl)
      (fun _ => false) (fun _ => 0)
  obtain ⟨p0, hp0⟩ : ∃ p, InShape p F := ⟨_, inShape_zeros _ hne⟩
  rcases hres : iccorrMultiAny flags data t1 t2 o divisor env with er | out
  · rw [hres] at hpw
    obtain ⟨taken, fast, slow, stats, h4, -⟩ := one p0
    have := (hpw p0 hp0).symm.trans h4
    cases this
  · rw [hres] at hpw
    obtain ⟨g1, g2, -, g3⟩ := hpw
    obtain ⟨nl, lin, multi, k⟩ := chain_cross (d := (out.2.fast, out.2.slow)) hne g1 g2 y1 y2 (t1.map (List.take e.frames))
      (t2.map (List.take e.frames)) o.levelSize o.norm o.method o.period o.binning (fun _ => false) (fun _ => 0) m v e.frames l1 l2
      (fun p hp => by
        obtain ⟨taken, fast, slow, stats, h4, h5⟩ := one p
        have e4 := (g3 p hp).symm.trans h4
        simp only [Except.ok.injEq, Prod.mk.injEq, IterOut.mk.injEq, id] at e4
        rw [← hnl, h5, ← e4.2.1, ← e4.2.2.1])
      hm hm' hb hv hargs h5 h2 bg var hbg hvar z hz hp mode hmo scale hsc
    exact ⟨out, nl, lin, multi, k.1, k.2.1, rfl, k.2.2⟩

/-- C126 for `iacorr_multi` in mode 'full' with an automatic number of levels, under the conditions of C34 and C124. -/
theorem C126_iacorr_multi_partial (flags : Nat → Bool × Bool) (data : List (Tensor (Cx ℝ))) (t : Option (List Int))
    (o : MultiOpts) (divisor : Option Int) (env : IterEnvAny) (F : List Nat) (hd : IterDivisorFits F divisor)
    (hne : 0 ∉ F) (hdata : ∀ x ∈ data, x.shape = F)
    (e : Eff) (h : IterCall false false t none env.dataLen o e)
    (hmode : o.mode = "full") (hb' : e.binning = 1)
    (hsp : Spaced e.chunk e.frames (o.period * o.levelSize) e.T1 e.T1)
    (hlen : e.frames ≤ data.length) (h5 : 5 ≤ o.levelSize) (hnl : o.nlevel = none)
    (m : String) (v : Int) (hm : m = o.method.getD "corr") (hm' : m = "corr" ∨ m = "fft") (hb : o.binning.getD 1 = 1)
    (hv : v = effNorm o.norm m false)
    (hargs : AutoArgs m v e.frames (t.map (List.take e.frames)) (o.period * o.levelSize))
    (h2 : 2 * o.levelSize ≤ e.frames)
    (bg : FrameArg (Cx ℝ)) (var : FrameArg ℝ) (hbg : ArgFits F bg ∨ ArgFits [] bg) (hvar : ArgFits F var ∨ ArgFits [] var)
    (z : Int) (hz : PlainNorm z) (hp : Prepared v z)
    (hsame : z = 5 ∨ z = 13 ∨ z = 6 ∨ z = 14 → ∀ p, (backgroundAt bg p).fst = (backgroundAt bg p).snd) (y : List Nat → List (Cx ℝ))
    (hy : ∀ p, y p = processed o.autoBackground e.chunk e.frames (data.map fun x => x.get p))
    (mode : String) (hmo : mode = "corr" ∨ mode = "diff") (scale : Bool)
    (hsc : scale = true → ∀ p, InShape p F → (varianceAt var p).offset ≠ 0) :
    ∃ out nl lin multi, o.levelSize ≤ e.frames / 2 ^ nl ∧ e.frames / 2 ^ (nl + 1) < o.levelSize ∧
      iacorrMultiAny flags data t o divisor env = .ok out ∧
      normalizeLevels normOpsR o.method (out.2.fast, out.2.slow) (some bg) (some var) (.num (some z)) mode scale none =
        .ok (lin, multi) ∧
      lin.shape = F ++ [o.period * o.levelSize] ∧ multi.shape = nl :: F ++ [o.levelSize] ∧ ∀ p, InShape p F →
        IsCurve (o.period * o.levelSize) (selfPairsAt (stream (y p) (t.map (List.take e.frames))))
          (shownAs mode scale (varianceAt var p).offset ∘ autoFormula (backgroundAt bg p) (varianceAt var p).offset z) (curveAt lin p) ∧
        ∀ j < nl, IsCurve o.levelSize (selfFinePairs (2 ^ (j + 1)) (y p))
          (shownAs mode scale (varianceAt var p).offset ∘ autoFormula (backgroundAt bg p) (varianceAt var p).offset z) (curveAt multi (j :: p)) := by
  have l1 : ∀ p, (y p).length = e.frames := fun p => by
    rw [hy]
    unfold processed
    rw [List.length_take]
    split <;> simp [hlen]
  obtain ⟨junk, junkSq, hpw⟩ := C124_iacorr_multi_partial flags data t o divisor env F hd ⟨_, inShape_zeros _ hne⟩ hdata
  have one : ∀ p, _ := fun p => C34_iacorr_multi_partial (data.map fun x => x.get p) t o
    ⟨env.dataLen, junk p, junkSq p, false, false, env.rand⟩ e h hmode hb' hsp (by simpa using hlen) h5 (Or.inl hnl)
    (fun ht => by
      have := hargs.span (Or.inr (by rw [ht]; rfl))
      subst ht
      simpa [defaultN] using this) (y p) (hy p) (fun _ => false) (fun _ => 0)
  obtain ⟨p0, hp0⟩ : ∃ p, InShape p F := ⟨_, inShape_zeros _ hne⟩
  rcases hres : iacorrMultiAny flags data t o divisor env with er | out
  · rw [hres] at hpw
    obtain ⟨taken, fast, slow, stats, h4, -⟩ := one p0
    have := (hpw p0 hp0).symm.trans h4
    cases this
  · rw [hres] at hpw
    obtain ⟨g1, g2, -, g3⟩ := hpw
    obtain ⟨nl, lin, multi, k⟩ := chain_auto (d := (out.2.fast, out.2.slow)) hne g1 g2 y (t.map (List.take e.frames))
      o.levelSize o.norm o.method o.period o.binning (fun _ => false) (fun _ => 0) m v e.frames l1
      (fun p hp => by
        obtain ⟨taken, fast, slow, stats, h4, h5⟩ := one p
        have e4 := (g3 p hp).symm.trans h4
        simp only [Except.ok.injEq, Prod.mk.injEq, IterOut.mk.injEq, id] at e4
        rw [← hnl, h5, ← e4.2.1, ← e4.2.2.1])
      hm hm' hb hv hargs h5 h2 bg var hbg hvar z hz hp hsame mode hmo scale hsc
    exact ⟨out, nl, lin, multi, k.1, k.2.1, rfl, k.2.2⟩

/-! ### Up to `log_merge` -/

theorem regular_get {α : Type} {x : List α} {i : Nat} (h : i < x.length) : ((i : Int), x[i]) ∈ regular x := by
  unfold regular
  rw [List.mem_mapIdx]
  exact ⟨i, h, rfl⟩

theorem pairs_ne {α β : Type} {x : List α} {y : List β} {N L k : Nat} (hx : x.length = N) (hy : y.length = N) (hk : k < N) :
    pairsAt false (regular x) (regular y) L k ≠ [] := by
  have h1 := regular_get (x := x) (i := 0) (by omega)
  have h2 := regular_get (x := y) (i := k) (by omega)
  refine List.ne_nil_of_mem (a := (x[0], y[k])) ?_
  unfold pairsAt
  rw [if_neg (by simp), List.mem_map]
  exact ⟨(_, _), List.mem_filter.2 ⟨List.mem_product.2 ⟨h1, h2⟩, by simp [delay]⟩, rfl⟩

theorem blocks_count {α : Type} {m : Nat} {x : List α} : (blocks m x).length = x.length / m := by simp [blocks]

theorem finePairs_ne {α : Type} {x y : List α} {N n k m : Nat} (hx : x.length = N) (hy : y.length = N) (hm : 0 < m) (hk : k < N / m) :
    finePairs m x y n k ≠ [] := by
  obtain ⟨⟨a, b⟩, hab⟩ := List.exists_mem_of_ne_nil _ (pairs_ne (L := n) (blocks_count.trans (by rw [hx])) (blocks_count.trans (by rw [hy])) hk)
  have hmem := hab
  unfold pairsAt at hab
  rw [if_neg (by simp), List.mem_map] at hab
  obtain ⟨⟨⟨s, a'⟩, ⟨u, b'⟩⟩, h1, h2⟩ := hab
  have h3 := List.mem_product.1 (List.mem_filter.1 h1).1
  cases h2
  have la := blocks_length (mem_regular h3.1)
  have lb := blocks_length (mem_regular h3.2)
  obtain ⟨u1, hu1⟩ := List.exists_mem_of_length_pos (by rw [la]; exact hm)
  obtain ⟨u2, hu2⟩ := List.exists_mem_of_length_pos (by rw [lb]; exact hm)
  refine List.ne_nil_of_mem (a := (u1, u2)) ?_
  unfold finePairs
  rw [List.mem_flatMap]
  exact ⟨_, hmem, List.mem_product.2 ⟨hu1, hu2⟩⟩

theorem isCurve_numbers {α β : Type} {n : Nat} {P : Nat → List (α × β)} {F : List (α × β) → ℝ} {x : Tensor (Option ℝ)} {q : List Nat}
    (h : IsCurve n P F (curveAt x q)) (hP : ∀ k < n, P k ≠ []) :
    curveAt (numbers x) q = (List.range n).map (fun k => F (P k)) ∧ ∀ k < n, x.get (q ++ [k]) ≠ none := by
  obtain ⟨h1, h2⟩ := h
  have hl : x.shape.getLastD 0 = n := by simpa [curveAt] using h1
  have hk : ∀ k < n, x.get (q ++ [k]) = some (F (P k)) := by
    intro k hk
    have := (h2 k hk).2 (hP k hk)
    unfold curveAt at this
    rw [hl] at this
    simpa [hk] using this
  refine ⟨?_, fun k hk' => by rw [hk k hk']; simp⟩
  unfold curveAt
  show (List.range (x.shape.getLastD 0)).map _ = _
  rw [hl]
  refine List.map_congr_left fun k hk' => ?_
  show (x.get (q ++ [k])).getD 0 = _
  rw [hk k (List.mem_range.1 hk')]
  rfl

theorem inShape_concat {p s : List Nat} {n : Nat} (h : InShape p (s ++ [n])) : ∃ q k, p = q ++ [k] ∧ InShape q s ∧ k < n := by
  induction s generalizing p with
  | nil =>
    cases h with
    | cons h1 h2 => cases h2; exact ⟨[], _, rfl, List.Forall₂.nil, h1⟩
  | cons a s ih =>
    cases h with
    | cons h1 h2 =>
      obtain ⟨q, k, rfl, hq, hk⟩ := ih h2
      exact ⟨_ :: q, k, rfl, List.Forall₂.cons h1 hq, hk⟩

/-- `log_merge` of what `normalize_multi` returns. -/
theorem chain_merge {lin multi : Tensor (Option ℝ)} {F : List Nat} (hne : 0 ∉ F) {nl n period N : Nat} (hper : 1 ≤ period) (hn : 2 ≤ n)
    (he : n % 2 = 0) (hfit : period * n ≤ N) (hnl : n ≤ N / 2 ^ nl) (s1 : lin.shape = F ++ [period * n])
    (s2 : multi.shape = nl :: F ++ [n]) (y1 y2 : List Nat → List (Cx ℝ)) (l1 : ∀ p, (y1 p).length = N) (l2 : ∀ p, (y2 p).length = N)
    (bg : List Nat → Background) (c : List Nat → ℝ) (z : Int) (φ : List Nat → ℝ → ℝ)
    (h : ∀ p, InShape p F → IsCurve (period * n) (pairsAt false (regular (y1 p)) (regular (y2 p)) (period * n))
          (φ p ∘ crossFormula (bg p) (c p) z) (curveAt lin p) ∧
        ∀ j < nl, IsCurve n (finePairs (2 ^ (j + 1)) (y1 p) (y2 p) n) (φ p ∘ crossFormula (bg p) (c p) z) (curveAt multi (j :: p))) :
    NoNan lin ∧ NoNan multi ∧ ∃ x y, logMergeAny ℝ (numbers lin) (numbers multi) 1 (fun _ => false) = .ok (x, y) ∧
      y.shape = F ++ [x.length] ∧ ∀ p, InShape p F → IsLogMerge ℝ ((linearCurve (bg p) (c p) z (y1 p) (y2 p) (period * n)).map (φ p))
        ((levelCurves (bg p) (c p) z (y1 p) (y2 p) nl n).map (List.map (φ p))) period n x (curveAt y p) := by
  have a1 : ∀ p, InShape p F → _ := fun p hp => isCurve_numbers (h p hp).1 fun k hk => pairs_ne (l1 p) (l2 p) (by omega)
  have hdiv : ∀ j < nl, n ≤ N / 2 ^ (j + 1) := fun j hj =>
    hnl.trans (Nat.div_le_div_left (Nat.pow_le_pow_right (by norm_num) (by omega)) (by positivity))
  have a2 : ∀ p, InShape p F → ∀ j < nl, _ := fun p hp j hj => isCurve_numbers ((h p hp).2 j hj) fun k hk =>
    finePairs_ne (l1 p) (l2 p) (by positivity) (lt_of_lt_of_le hk (hdiv j hj))
  refine ⟨fun p hp => ?_, fun p hp => ?_, ?_⟩
  · rw [s1] at hp
    obtain ⟨q, k, rfl, hq, hk⟩ := inShape_concat hp
    exact (a1 q hq).2 k hk
  · rw [s2] at hp
    cases hp with
    | cons hj hp =>
      obtain ⟨q, k, rfl, hq, hk⟩ := inShape_concat hp
      exact (a2 q hq _ hj).2 k hk
  · obtain ⟨x, y, e, hs, hm⟩ := C120_log_merge ℝ F nl period n (numbers lin) (numbers multi) hper hn he s1 s2 hne
    refine ⟨x, y, e, hs, fun p hp => ?_⟩
    have := hm p hp
    rw [(a1 p hp).1, show (List.range (period * n)).map (fun k => (φ p ∘ crossFormula (bg p) (c p) z)
        (pairsAt false (regular (y1 p)) (regular (y2 p)) (period * n) k)) = (linearCurve (bg p) (c p) z (y1 p) (y2 p) (period * n)).map (φ p) by
      simp [linearCurve, Function.comp_def]] at this
    have e2 : levelsAt (numbers multi) p = (levelCurves (bg p) (c p) z (y1 p) (y2 p) nl n).map (List.map (φ p)) := by
      unfold levelsAt levelCurves
      have : (numbers multi).shape.headD 0 = nl := by show multi.shape.headD 0 = nl; rw [s2]; rfl
      rw [this]
      rw [List.map_map]
      refine List.map_congr_left fun j hj => ((a2 p hp j (List.mem_range.1 hj)).1).trans ?_
      simp [Function.comp_def]
    rw [e2] at this
    exact this

/-- C126 up to the data that are plotted: `log_merge(*normalize_multi(ccorr_multi(f1, f2, ...), ...))` of two videos without times, `n` even.
No entry is NaN, and each pixel's curve is the log-averaged and merged curve of the norm's formula over the pairs of samples of that pixel. -/
theorem C126_log_merge_partial (flags : Nat → Bool × Bool) (f1 f2 : Tensor (Cx ℝ)) (axis : Int)
    (n : Nat) (norm : Option Int) (method : Option String) (period : Nat) (binning : Option Int)
    (align contiguous : Bool) (divisor : Option Int) (r : Nat → ℚ) (ax : Nat) (hs : f2.shape = f1.shape)
    (hax : NamesAxis f1.shape.length axis ax) (hd : DivisorFits f1.shape ax divisor) (hne : 0 ∉ frameShape f1.shape ax)
    (N : Nat) (hN : f1.shape.getD ax 0 = N) (m : String) (v : Int)
    (hm : m = method.getD "corr") (hm' : m = "corr" ∨ m = "fft") (hb : binning.getD 1 = 1)
    (hv : v = effNorm norm m true) (hargs : CrossArgs m v N N none none (period * n)) (hn : 5 ≤ n) (h2 : 2 * n ≤ N)
    (hper : 1 ≤ period) (he : n % 2 = 0) (hfit : period * n ≤ N)
    (bg : FrameArg (Cx ℝ)) (var : FrameArg ℝ) (hbg : ArgFits (frameShape f1.shape ax) bg ∨ ArgFits [] bg)
    (hvar : ArgFits (frameShape f1.shape ax) var ∨ ArgFits [] var) (z : Int) (hz : PlainNorm z) (hp : Prepared v z)
    (mode : String) (hmo : mode = "corr" ∨ mode = "diff") (scale : Bool)
    (hsc : scale = true → ∀ p, InShape p (frameShape f1.shape ax) → (varianceAt var p).offset ≠ 0) :
    ∃ d nl lin multi x y, n ≤ N / 2 ^ nl ∧ N / 2 ^ (nl + 1) < n ∧
      ccorrMultiAny flags f1 f2 none none axis n norm method period binning none align contiguous divisor r = .ok d ∧
      normalizeLevels normOpsR method d (some bg) (some var) (.num (some z)) mode scale none = .ok (lin, multi) ∧
      NoNan lin ∧ NoNan multi ∧ logMergeAny ℝ (numbers lin) (numbers multi) 1 (fun _ => false) = .ok (x, y) ∧
      y.shape = frameShape f1.shape ax ++ [x.length] ∧ ∀ p, InShape p (frameShape f1.shape ax) →
        IsLogMerge ℝ ((linearCurve (backgroundAt bg p) (varianceAt var p).offset z (along f1 ax p) (along f2 ax p) (period * n)).map
            (shownAs mode scale (varianceAt var p).offset))
          ((levelCurves (backgroundAt bg p) (varianceAt var p).offset z (along f1 ax p) (along f2 ax p) nl n).map
            (List.map (shownAs mode scale (varianceAt var p).offset))) period n x (curveAt y p) := by
  obtain ⟨d, nl, lin, multi, k1, k2, e1, e2, s1, s2, hc⟩ := C126_ccorr_multi_partial flags f1 f2 none none axis n norm method period binning
    align contiguous divisor r ax hs hax hd hne N hN m v hm hm' hb hv hargs hn h2 bg var hbg hvar z hz hp mode hmo scale hsc
  obtain ⟨g1, g2, x, y, g3, g4, g5⟩ := chain_merge hne hper (by omega) he hfit k1 s1 s2 (along f1 ax) (along f2 ax)
    (fun p => by rw [along_length, hN]) (fun p => by rw [along_length, hs, hN]) (backgroundAt bg) (fun p => (varianceAt var p).offset) z (fun p => shownAs mode scale (varianceAt var p).offset) hc
  exact ⟨d, nl, lin, multi, x, y, k1, k2, e1, e2, g1, g2, g3, g4, g5⟩

/-- The same for `iccorr_multi` without times, the samples being the frames taken less their automatic background. -/
theorem C126_log_merge_iccorr_partial (flags : Nat → Bool × Bool) (data : List (Tensor (Cx ℝ) × Tensor (Cx ℝ)))
    (o : MultiOpts) (divisor : Option Int) (env : IterEnvAny) (F : List Nat) (hd : IterDivisorFits F divisor)
    (hne : 0 ∉ F) (hdata : ∀ x ∈ data, x.1.shape = F ∧ x.2.shape = F)
    (e : Eff) (h : IterCall true false none none env.dataLen o e)
    (hmode : o.mode = "full") (hb' : e.binning = 1)
    (hsp : Spaced e.chunk e.frames (o.period * o.levelSize) e.T1 e.T2)
    (hlen : e.frames ≤ data.length) (h5 : 5 ≤ o.levelSize) (hnl : o.nlevel = none)
    (m : String) (v : Int) (hm : m = o.method.getD "corr") (hm' : m = "corr" ∨ m = "fft") (hb : o.binning.getD 1 = 1)
    (hv : v = effNorm o.norm m true)
    (hargs : CrossArgs m v e.frames e.frames none none (o.period * o.levelSize))
    (h2 : 2 * o.levelSize ≤ e.frames) (hper : 1 ≤ o.period) (he : o.levelSize % 2 = 0) (hfit : o.period * o.levelSize ≤ e.frames)
    (bg : FrameArg (Cx ℝ)) (var : FrameArg ℝ) (hbg : ArgFits F bg ∨ ArgFits [] bg) (hvar : ArgFits F var ∨ ArgFits [] var)
    (z : Int) (hz : PlainNorm z) (hp : Prepared v z) (y1 y2 : List Nat → List (Cx ℝ))
    (hy1 : ∀ p, y1 p = processed o.autoBackground e.chunk e.frames (data.map fun x => x.1.get p))
    (hy2 : ∀ p, y2 p = processed o.autoBackground e.chunk e.frames (data.map fun x => x.2.get p))
    (mode : String) (hmo : mode = "corr" ∨ mode = "diff") (scale : Bool)
    (hsc : scale = true → ∀ p, InShape p F → (varianceAt var p).offset ≠ 0) :
    ∃ out nl lin multi x y, o.levelSize ≤ e.frames / 2 ^ nl ∧ e.frames / 2 ^ (nl + 1) < o.levelSize ∧
      iccorrMultiAny flags data none none o divisor env = .ok out ∧
      normalizeLevels normOpsR o.method (out.2.fast, out.2.slow) (some bg) (some var) (.num (some z)) mode scale none =
        .ok (lin, multi) ∧
      NoNan lin ∧ NoNan multi ∧ logMergeAny ℝ (numbers lin) (numbers multi) 1 (fun _ => false) = .ok (x, y) ∧
      y.shape = F ++ [x.length] ∧ ∀ p, InShape p F →
        IsLogMerge ℝ ((linearCurve (backgroundAt bg p) (varianceAt var p).offset z (y1 p) (y2 p) (o.period * o.levelSize)).map
            (shownAs mode scale (varianceAt var p).offset))
          ((levelCurves (backgroundAt bg p) (varianceAt var p).offset z (y1 p) (y2 p) nl o.levelSize).map
            (List.map (shownAs mode scale (varianceAt var p).offset))) o.period o.levelSize x
          (curveAt y p) := by
  have l : ∀ (x : List (Cx ℝ)), x.length = data.length → (processed o.autoBackground e.chunk e.frames x).length = e.frames := by
    intro x hx
    unfold processed
    rw [List.length_take]
    split <;> simp [hx, hlen]
  obtain ⟨out, nl, lin, multi, k1, k2, e1, e2, s1, s2, hc⟩ := C126_iccorr_multi_partial flags data none none o divisor env F hd hne hdata e h
    hmode hb' hsp hlen h5 hnl m v hm hm' hb hv hargs h2 bg var hbg hvar z hz hp y1 y2 hy1 hy2 mode hmo scale hsc
  obtain ⟨g1, g2, x, y, g3, g4, g5⟩ := chain_merge hne hper (by omega) he hfit k1 s1 s2 y1 y2
    (fun p => by rw [hy1]; exact l _ (by simp)) (fun p => by rw [hy2]; exact l _ (by simp))
    (backgroundAt bg) (fun p => (varianceAt var p).offset) z (fun p => shownAs mode scale (varianceAt var p).offset) hc
  exact ⟨out, nl, lin, multi, x, y, k1, k2, e1, e2, g1, g2, g3, g4, g5⟩

/-- C126 meets its hypotheses: two videos of 64 frames of 3 × 2 pixels, sixteen delays per level, the other arguments default, a
background for each pixel, the subtracted structure function (norm 6): merged curves of every pixel. -/
example (flags : Nat → Bool × Bool) (f1 f2 : Tensor (Cx ℝ)) (r : Nat → ℚ) (h1 : f1.shape = [64, 3, 2]) (h2 : f2.shape = [64, 3, 2])
    (g : List Nat → Cx ℝ) :
    let var : FrameArg ℝ := .arr ⟨[], fun _ => 3⟩
    ∃ d nl lin multi x y, 16 ≤ 64 / 2 ^ nl ∧ 64 / 2 ^ (nl + 1) < 16 ∧
      ccorrMultiAny flags f1 f2 none none 0 16 none none 1 none none false false none r = .ok d ∧
      normalizeLevels normOpsR none d (some (.arr ⟨[3, 2], g⟩)) (some var) (.num (some 6)) "diff" true none =
        .ok (lin, multi) ∧
      NoNan lin ∧ NoNan multi ∧ logMergeAny ℝ (numbers lin) (numbers multi) 1 (fun _ => false) = .ok (x, y) ∧
      y.shape = frameShape f1.shape 0 ++ [x.length] ∧ ∀ p, InShape p (frameShape f1.shape 0) →
        IsLogMerge ℝ ((linearCurve (backgroundAt (.arr ⟨[3, 2], g⟩) p) (varianceAt var p).offset 6 (along f1 0 p)
            (along f2 0 p) (1 * 16)).map fun x => 2 * (3 - x) / 3)
          ((levelCurves (backgroundAt (.arr ⟨[3, 2], g⟩) p) (varianceAt var p).offset 6 (along f1 0 p)
            (along f2 0 p) nl 16).map (List.map fun x => 2 * (3 - x) / 3)) 1 16 x (curveAt y p) :=
  C126_log_merge_partial flags f1 f2 0 16 none none 1 none false false none r 0 (h2.trans h1.symm)
    (by rw [h1]; exact ⟨by simp, Or.inl rfl⟩) (by rw [h1]; exact Or.inl ⟨rfl, by simp [frameShape]⟩) (by rw [h1]; simp [frameShape])
    64 (by rw [h1]; rfl) "corr" 7 rfl (Or.inl rfl) rfl rfl
    ⟨.inl rfl, by simp [SupportedNorm], rfl, fun _ => by simp [defaultN], by simp⟩ (by decide) (by decide) (by decide) (by decide) (by decide)
    (.arr ⟨[3, 2], g⟩) (.arr ⟨[], fun _ => 3⟩) (Or.inl (by rw [h1]; exact ⟨rfl, by simp [frameShape]⟩)) (Or.inr ⟨rfl, by simp⟩) 6 (by simp [PlainNorm])
    (by simp [Prepared, WantsSquares, WantsSums]) "diff" (Or.inr rfl) true (by simp [varianceAt, Variance.offset, valueAt])

/-- The same for frames that arrive one by one: 24 pairs in chunks of 6, levels of 6 delays. -/
example (flags : Nat → Bool × Bool) (data : List (Tensor (Cx ℝ) × Tensor (Cx ℝ))) (hlen : data.length = 24)
    (hdata : ∀ x ∈ data, x.1.shape = [3, 2] ∧ x.2.shape = [3, 2]) (env : IterEnvAny) (henv : env.dataLen = some 24) (g : List Nat → Cx ℝ) :
    ∃ out lin multi x y, iccorrMultiAny flags data none none { levelSize := 6, chunkSize := some 6, mode := "full" } none env = .ok out ∧
      normalizeLevels normOpsR none (out.2.fast, out.2.slow) (some (.arr ⟨[3, 2], g⟩)) (some (.arr ⟨[], fun _ => 0⟩)) (.num (some 2)) "corr"
        false none = .ok (lin, multi) ∧
      logMergeAny ℝ (numbers lin) (numbers multi) 1 (fun _ => false) = .ok (x, y) ∧ y.shape = [3, 2] ++ [x.length] := by
  have h : IterCall true false none none (some 24) { levelSize := 6, chunkSize := some 6, mode := "full" }
    ⟨upTo 24, upTo 24, 24, 6, 2, 24, 2, "corr", 1, 7⟩ := {
      pair := fun _ => rfl
      mode := .inl rfl
      times := ⟨.inr ⟨rfl, by simp, fun _ => rfl⟩, rfl, rfl, by decide, rfl⟩
      frames := ⟨.inl rfl, by decide, by decide, by decide, by decide, by decide⟩
      levels := ⟨2, by decide, by decide, fun _ => rfl, by simp⟩
      binning := ⟨rfl, rfl, .inl ⟨.inl rfl, .inr (.inl rfl)⟩⟩
      norm := rfl
      args := ⟨.inl rfl, by simp [SupportedNorm], by simp, by decide, by decide, by simp, by simp⟩
      period := by decide
      fft := by simp }
  obtain ⟨out, nl, lin, multi, x, y, -, -, e1, e2, -, -, e3, e4, -⟩ := C126_log_merge_iccorr_partial flags data
    { levelSize := 6, chunkSize := some 6, mode := "full" } none env [3, 2] (Or.inl ⟨rfl, by simp⟩) (by simp) hdata _ (henv ▸ h) rfl rfl
    (spaced_mono (C31_spaced_regular 6 24 6 (by decide) (by decide)) (by decide)) (by simp [hlen]) (by decide) rfl "corr" 7 rfl
    (Or.inl rfl) rfl rfl ⟨.inl rfl, by simp [SupportedNorm], rfl, fun _ => by simp [defaultN], by simp⟩ (by decide) (by decide) (by decide)
    (by decide) (.arr ⟨[3, 2], g⟩) (.arr ⟨[], fun _ => 0⟩) (Or.inl ⟨rfl, by simp⟩) (Or.inr ⟨rfl, by simp⟩) 2 (by simp [PlainNorm])
    (by simp [Prepared, WantsSquares]) _ _ (fun _ => rfl) (fun _ => rfl) "corr" (Or.inl rfl) false (by simp)
  exact ⟨out, lin, multi, x, y, e1, e2, e3, e4⟩

/-- The autocorrelation's conditions: 64 frames of 3 × 2 pixels along the first axis, norm 3 prepared, norm 6 evaluated. -/
example : AutoArgs "corr" 3 64 none (1 * 16) ∧ effNorm (some 3) "corr" false = 3 ∧ 2 * 16 ≤ 64 ∧ 0 ∉ frameShape [64, 3, 2] 0 := by
  refine ⟨⟨.inl rfl, by simp [SupportedNorm], trivial, by simp [Distinct], fun _ => by simp [defaultN], by simp⟩, rfl, by decide,
    by simp [frameShape]⟩

end Cddm
