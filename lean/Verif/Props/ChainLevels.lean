import Verif.Props.ChainMerge

/-!
# C126 for a given number of levels
-/

namespace Cddm
open Spec

/-- C79 for `ccorr_multi` with a given number of levels, each of which holds `level_size` samples or more. -/
theorem C79_cross_mean_nlevel (f1 f2 : List (Cx ℝ)) (t1 t2 : Option (List Int)) (n : Nat)
    (norm : Option Int) (method : Option String) (period : Nat) (binning : Option Int) (nl : Nat)
    (al : Nat → Bool) (r : Nat → ℚ) (m : String) (v : Int)
    (hm : m = method.getD "corr") (hm' : m = "corr" ∨ m = "fft") (hb : binning.getD 1 = 1)
    (hv : v = effNorm norm m true)
    (hargs : CrossArgs m v f1.length f2.length t1 t2 (period * n)) (hn : 5 ≤ n)
    (hN : n ≤ f1.length / 2 ^ nl) (bg : Background) (var : Variance) (z : Int) (hz : PlainNorm z) (hp : Prepared v z) :
    ∃ lin levels,
      ccorrMultiNormalized f1 f2 t1 t2 n norm method period binning (some nl) al r bg (some var) z "corr" false
        = .ok (lin, (List.range nl).map levels) ∧
      IsCurve (period * n) (pairsAt false (stream f1 t1) (stream f2 t2) (period * n))
        (crossFormula bg var.offset z) lin ∧
      ∀ j < nl, IsCurve n (finePairs (2 ^ (j + 1)) f1 f2 n) (crossFormula bg var.offset z) (levels j) := by
  have h4 := C38_cross_mean_nlevel f1 f2 t1 t2 n norm method period binning nl al r m v hm hm' hb hv hargs hn hN
  have hd : m ≠ "diff" := by rcases hm' with rfl | rfl <;> decide
  obtain ⟨out, outs, h5, h6, h7⟩ := normalizeMulti_levels
    ((crossData false (productOf m) m v (period * n) (stream f1 t1) (stream f2 t2)
      (stream (f1.map Cx.abs2) t1) (stream (f2.map Cx.abs2) t2)).toData m) nl
    (fun j => (crossData false (productOf m) m v n
      (regular (blockMeans (2 ^ (j + 1)) f1)) (regular (blockMeans (2 ^ (j + 1)) f2))
      (regular (blockMeans (2 ^ (j + 1)) (f1.map Cx.abs2)))
      (regular (blockMeans (2 ^ (j + 1)) (f2.map Cx.abs2)))).toData m) bg var z
    (fun j _ => sameForm_cross m hd v _ _ _ _ _ _ _ _ _ _) _ _
    (normalize_crossData hm' (holds_cross f1 f2 t1 t2 (period * n))
      (fun k => by rw [cellSum_total]; simp) (fun k => by rw [cellSum_total]; simp) bg var hz hp)
    (fun j _ => normalize_crossData hm' (holds_cross_fine f1 f2 (2 ^ (j + 1)) n (Nat.two_pow_pos _))
      (fun k => by
        rw [blockMeans_eq, blockMeans_eq, cellSum_blocks]
        exact fine_fst (Nat.two_pow_pos _) (even_pairs _ n k f1 f2))
      (fun k => by
        rw [blockMeans_eq, blockMeans_eq, cellSum_blocks]
        exact fine_snd (Nat.two_pow_pos _) (even_pairs _ n k f1 f2)) bg var hz hp)
  refine ⟨out, outs, ?_, h6, h7⟩
  unfold ccorrMultiNormalized
  rw [h4, ← hm]
  simp only [bind, Except.bind, List.map_map]
  exact h5

/-- C79 for `acorr_multi` with a given number of levels. -/
theorem C79_auto_mean_nlevel (f : List (Cx ℝ)) (t : Option (List Int)) (n : Nat)
    (norm : Option Int) (method : Option String) (period : Nat) (binning : Option Int) (nl : Nat)
    (al : Nat → Bool) (r : Nat → ℚ) (m : String) (v : Int)
    (hm : m = method.getD "corr") (hm' : m = "corr" ∨ m = "fft") (hb : binning.getD 1 = 1)
    (hv : v = effNorm norm m false)
    (hargs : AutoArgs m v f.length t (period * n)) (hn : 5 ≤ n) (hN : n ≤ f.length / 2 ^ nl)
    (bg : Background) (var : Variance) (z : Int) (hz : PlainNorm z) (hp : Prepared v z)
    (hbg : z = 5 ∨ z = 13 ∨ z = 6 ∨ z = 14 → bg.fst = bg.snd) :
    ∃ lin levels,
      acorrMultiNormalized f t n norm method period binning (some nl) al r bg (some var) z "corr" false
        = .ok (lin, (List.range nl).map levels) ∧
      IsCurve (period * n) (selfPairsAt (stream f t)) (autoFormula bg var.offset z) lin ∧
      ∀ j < nl, IsCurve n (selfFinePairs (2 ^ (j + 1)) f) (autoFormula bg var.offset z) (levels j) := by
  have h4 := C38_auto_mean_nlevel f t n norm method period binning nl al r m v hm hm' hb hv hargs hn hN
  have hd : m ≠ "diff" := by rcases hm' with rfl | rfl <;> decide
  obtain ⟨out, outs, h5, h6, h7⟩ := normalizeMulti_levels
    ((autoData (productOf m) m v (period * n) (stream f t) (stream (f.map Cx.abs2) t)).toData m) nl
    (fun j => (autoData (productOf m) m v n
      (regular (blockMeans (2 ^ (j + 1)) f)) (regular (blockMeans (2 ^ (j + 1)) (f.map Cx.abs2)))).toData m) bg var z
    (fun j _ => sameForm_auto m hd v _ _ _ _ _ _) _ _
    (normalize_autoData hm' (holds_auto f t) (fun k => by rw [selfSum_total']; simp) bg var hz hp hbg)
    (fun j _ => normalize_autoData hm' (holds_auto_fine f (2 ^ (j + 1)) (Nat.two_pow_pos _))
      (fun k => by
        have e := even_selfPairs (2 ^ (j + 1)) k f
        have hm0 := Nat.two_pow_pos (j + 1)
        rw [blockMeans_eq, selfSum_blocks]
        rw [total_half, show selfFinePairs (2 ^ (j + 1)) f k = fineOf (selfPairsAt (regular (blocks (2 ^ (j + 1)) f)) k) from rfl,
          fine_fst hm0 e, fine_snd hm0 e, total_half_map]
        module) bg var hz hp hbg)
  refine ⟨out, outs, ?_, h6, h7⟩
  unfold acorrMultiNormalized
  rw [h4, ← hm]
  simp only [bind, Except.bind, List.map_map]
  exact h5

/-- C126 for `ccorr_multi` with a given number `nl ≥ 1` of levels, each of which holds `level_size` samples or more. -/
theorem C126_ccorr_multi_nlevel_partial (flags : Nat → Bool × Bool) (f1 f2 : Tensor (Cx ℝ)) (t1 t2 : Option (List Int)) (axis : Int)
    (n : Nat) (norm : Option Int) (method : Option String) (period : Nat) (binning : Option Int) (nl : Nat)
    (align contiguous : Bool) (divisor : Option Int) (r : Nat → ℚ) (ax : Nat) (hs : f2.shape = f1.shape)
    (hax : NamesAxis f1.shape.length axis ax) (hd : DivisorFits f1.shape ax divisor) (hne : 0 ∉ frameShape f1.shape ax)
    (N : Nat) (hN : f1.shape.getD ax 0 = N) (m : String) (v : Int)
    (hm : m = method.getD "corr") (hm' : m = "corr" ∨ m = "fft") (hb : binning.getD 1 = 1)
    (hv : v = effNorm norm m true) (hargs : CrossArgs m v N N t1 t2 (period * n)) (hn : 5 ≤ n) (hnl : 1 ≤ nl) (h2 : n ≤ N / 2 ^ nl)
    (bg : FrameArg (Cx ℝ)) (var : FrameArg ℝ) (hbg : ArgFits (frameShape f1.shape ax) bg ∨ ArgFits [] bg)
    (hvar : ArgFits (frameShape f1.shape ax) var ∨ ArgFits [] var) (z : Int) (hz : PlainNorm z) (hp : Prepared v z)
    (mode : String) (hmo : mode = "corr" ∨ mode = "diff") (scale : Bool)
    (hsc : scale = true → ∀ p, InShape p (frameShape f1.shape ax) → (varianceAt var p).offset ≠ 0) :
    ∃ d lin multi,
      ccorrMultiAny flags f1 f2 t1 t2 axis n norm method period binning (some nl) align contiguous divisor r = .ok d ∧
      normalizeLevels normOpsR method d (some bg) (some var) (.num (some z)) mode scale none = .ok (lin, multi) ∧
      lin.shape = frameShape f1.shape ax ++ [period * n] ∧ multi.shape = nl :: frameShape f1.shape ax ++ [n] ∧
      ∀ p, InShape p (frameShape f1.shape ax) →
        IsCurve (period * n) (pairsAt false (stream (along f1 ax p) t1) (stream (along f2 ax p) t2) (period * n))
          (shownAs mode scale (varianceAt var p).offset ∘ crossFormula (backgroundAt bg p) (varianceAt var p).offset z)
          (curveAt lin p) ∧
        ∀ j < nl, IsCurve n (finePairs (2 ^ (j + 1)) (along f1 ax p) (along f2 ax p) n)
          (shownAs mode scale (varianceAt var p).offset ∘ crossFormula (backgroundAt bg p) (varianceAt var p).offset z)
          (curveAt multi (j :: p)) := by
  have l1 : ∀ p, (along f1 ax p).length = N := fun p => by rw [along_length, hN]
  have l2 : ∀ p, (along f2 ax p).length = N := fun p => by rw [along_length, hs, hN]
  obtain ⟨al, hpw⟩ := C123_ccorr_multi_partial flags f1 f2 t1 t2 axis n norm method period binning (some nl) align contiguous divisor r ax
    hs hax hd
    (fun h => by
      rw [hN]
      have := hargs.span (Or.inr h)
      subst h
      simpa [defaultN] using this) (by
      intro k hk
      cases hk
      rw [hN]
      exact h2)
  obtain ⟨p0, hp0⟩ : ∃ p, InShape p (frameShape f1.shape ax) := ⟨_, inShape_zeros _ hne⟩
  have hdata : ∀ p, _ := fun p => C38_cross_mean_nlevel (along f1 ax p) (along f2 ax p) t1 t2 n norm method period binning nl al r m v
    hm hm' hb hv (by rw [l1, l2]; exact hargs) hn (by rw [l1]; exact h2)
  rcases hres : ccorrMultiAny flags f1 f2 t1 t2 axis n norm method period binning (some nl) align contiguous divisor r with e | d
  · rw [hres] at hpw
    have := (hpw p0 hp0).symm.trans (hdata p0)
    cases this
  · rw [hres] at hpw
    obtain ⟨g1, g2, g3⟩ := hpw
    obtain ⟨lin, multi, k⟩ := chain_cross_of hne g1 g2 method hnl
      (fun p => stream (along f1 ax p) t1) (fun p => stream (along f2 ax p) t2)
      (fun p => stream ((along f1 ax p).map Cx.abs2) t1) (fun p => stream ((along f2 ax p).map Cx.abs2) t2)
      (fun p j => regular (blockMeans (2 ^ (j + 1)) (along f1 ax p))) (fun p j => regular (blockMeans (2 ^ (j + 1)) (along f2 ax p)))
      (fun p j => regular (blockMeans (2 ^ (j + 1)) ((along f1 ax p).map Cx.abs2)))
      (fun p j => regular (blockMeans (2 ^ (j + 1)) ((along f2 ax p).map Cx.abs2)))
      (fun p hp => Except.ok.inj ((hdata p).symm.trans (g3 p hp))) bg var hbg hvar z mode scale
      (fun p c => IsCurve (period * n) (pairsAt false (stream (along f1 ax p) t1) (stream (along f2 ax p) t2) (period * n))
          (shownAs mode scale (varianceAt var p).offset ∘ crossFormula (backgroundAt bg p) (varianceAt var p).offset z) c)
      (fun p j c => IsCurve n (finePairs (2 ^ (j + 1)) (along f1 ax p) (along f2 ax p) n)
          (shownAs mode scale (varianceAt var p).offset ∘ crossFormula (backgroundAt bg p) (varianceAt var p).offset z) c)
      (fun p hp' => by
        obtain ⟨lin, levels, a3, a4, a5⟩ := C79_cross_mean_nlevel (along f1 ax p) (along f2 ax p) t1 t2 n norm method period binning nl al r
          m v hm hm' hb hv (by rw [l1, l2]; exact hargs) hn (by rw [l1]; exact h2) (backgroundAt bg p) (varianceAt var p) z hz hp
        refine ⟨_, _, normalizeMulti_shown hz hmo (fun h => hsc h p hp') ?_, isCurve_shown a4 _, fun j hj => isCurve_shown (a5 j hj) _⟩
        unfold ccorrMultiNormalized at a3
        rw [hdata p] at a3
        exact a3)
    exact ⟨d, lin, multi, rfl, k⟩

/-- C126 for `acorr_multi` with a given number `nl ≥ 1` of levels; the subtracted norms take one background. -/
theorem C126_acorr_multi_nlevel_partial (flags : Nat → Bool × Bool) (f : Tensor (Cx ℝ)) (t : Option (List Int)) (axis : Int)
    (n : Nat) (norm : Option Int) (method : Option String) (period : Nat) (binning : Option Int) (nl : Nat)
    (align contiguous : Bool) (divisor : Option Int) (r : Nat → ℚ) (ax : Nat)
    (hax : NamesAxis f.shape.length axis ax) (hd : DivisorFits f.shape ax divisor) (hne : 0 ∉ frameShape f.shape ax)
    (N : Nat) (hN : f.shape.getD ax 0 = N) (m : String) (v : Int)
    (hm : m = method.getD "corr") (hm' : m = "corr" ∨ m = "fft") (hb : binning.getD 1 = 1)
    (hv : v = effNorm norm m false) (hargs : AutoArgs m v N t (period * n)) (hn : 5 ≤ n) (hnl : 1 ≤ nl) (h2 : n ≤ N / 2 ^ nl)
    (bg : FrameArg (Cx ℝ)) (var : FrameArg ℝ) (hbg : ArgFits (frameShape f.shape ax) bg ∨ ArgFits [] bg)
    (hvar : ArgFits (frameShape f.shape ax) var ∨ ArgFits [] var) (z : Int) (hz : PlainNorm z) (hp : Prepared v z)
    (hsame : z = 5 ∨ z = 13 ∨ z = 6 ∨ z = 14 → ∀ p, (backgroundAt bg p).fst = (backgroundAt bg p).snd)
    (mode : String) (hmo : mode = "corr" ∨ mode = "diff") (scale : Bool)
    (hsc : scale = true → ∀ p, InShape p (frameShape f.shape ax) → (varianceAt var p).offset ≠ 0) :
    ∃ d lin multi,
      acorrMultiAny flags f t axis n norm method period binning (some nl) align contiguous divisor r = .ok d ∧
      normalizeLevels normOpsR method d (some bg) (some var) (.num (some z)) mode scale none = .ok (lin, multi) ∧
      lin.shape = frameShape f.shape ax ++ [period * n] ∧ multi.shape = nl :: frameShape f.shape ax ++ [n] ∧
      ∀ p, InShape p (frameShape f.shape ax) →
        IsCurve (period * n) (selfPairsAt (stream (along f ax p) t))
          (shownAs mode scale (varianceAt var p).offset ∘ autoFormula (backgroundAt bg p) (varianceAt var p).offset z)
          (curveAt lin p) ∧
        ∀ j < nl, IsCurve n (selfFinePairs (2 ^ (j + 1)) (along f ax p))
          (shownAs mode scale (varianceAt var p).offset ∘ autoFormula (backgroundAt bg p) (varianceAt var p).offset z)
          (curveAt multi (j :: p)) := by
  have l1 : ∀ p, (along f ax p).length = N := fun p => by rw [along_length, hN]
  obtain ⟨al, hpw⟩ := C123_acorr_multi_partial flags f t axis n norm method period binning (some nl) align contiguous divisor r ax hax hd
    (fun h => by
      rw [hN]
      have := hargs.span (Or.inr h)
      subst h
      simpa [defaultN] using this) (by
      intro k hk
      cases hk
      rw [hN]
      exact h2)
  obtain ⟨p0, hp0⟩ : ∃ p, InShape p (frameShape f.shape ax) := ⟨_, inShape_zeros _ hne⟩
  have hdata : ∀ p, _ := fun p => C38_auto_mean_nlevel (along f ax p) t n norm method period binning nl al r m v
    hm hm' hb hv (by rw [l1]; exact hargs) hn (by rw [l1]; exact h2)
  rcases hres : acorrMultiAny flags f t axis n norm method period binning (some nl) align contiguous divisor r with e | d
  · rw [hres] at hpw
    have := (hpw p0 hp0).symm.trans (hdata p0)
    cases this
  · rw [hres] at hpw
    obtain ⟨g1, g2, g3⟩ := hpw
    obtain ⟨lin, multi, k⟩ := chain_auto_of hne g1 g2 method hnl
      (fun p => stream (along f ax p) t) (fun p => stream ((along f ax p).map Cx.abs2) t)
      (fun p j => regular (blockMeans (2 ^ (j + 1)) (along f ax p)))
      (fun p j => regular (blockMeans (2 ^ (j + 1)) ((along f ax p).map Cx.abs2)))
      (fun p hp => Except.ok.inj ((hdata p).symm.trans (g3 p hp))) bg var hbg hvar z mode scale
      (fun p c => IsCurve (period * n) (selfPairsAt (stream (along f ax p) t))
          (shownAs mode scale (varianceAt var p).offset ∘ autoFormula (backgroundAt bg p) (varianceAt var p).offset z) c)
      (fun p j c => IsCurve n (selfFinePairs (2 ^ (j + 1)) (along f ax p))
          (shownAs mode scale (varianceAt var p).offset ∘ autoFormula (backgroundAt bg p) (varianceAt var p).offset z) c)
      (fun p hp' => by
        obtain ⟨lin, levels, a3, a4, a5⟩ := C79_auto_mean_nlevel (along f ax p) t n norm method period binning nl al r
          m v hm hm' hb hv (by rw [l1]; exact hargs) hn (by rw [l1]; exact h2) (backgroundAt bg p) (varianceAt var p) z hz hp
          (fun h => hsame h p)
        refine ⟨_, _, normalizeMulti_shown hz hmo (fun h => hsc h p hp') ?_, isCurve_shown a4 _, fun j hj => isCurve_shown (a5 j hj) _⟩
        unfold acorrMultiNormalized at a3
        rw [hdata p] at a3
        exact a3)
    exact ⟨d, lin, multi, rfl, k⟩

theorem given_levels {cross cplx : Bool} {t1 t2 : Option (List Int)} {len : Option Nat} {o : MultiOpts} {e : Eff}
    (h : IterCall cross cplx t1 t2 len o e) (hnl : o.nlevel = some (e.nlevel : Int)) : o.levelSize ≤ e.frames / 2 ^ e.nlevel := by
  obtain ⟨nl0, a, -, -, d⟩ := h.levels
  have := d _ hnl
  exact a.trans (Nat.div_le_div_left (Nat.pow_le_pow_right (by norm_num) (by omega)) (by positivity))

/-- C126 for `iccorr_multi` in mode 'full' with a given number of levels, under the conditions of C34 and C124. -/
theorem C126_iccorr_multi_nlevel_partial (flags : Nat → Bool × Bool) (data : List (Tensor (Cx ℝ) × Tensor (Cx ℝ))) (t1 t2 : Option (List Int))
    (o : MultiOpts) (divisor : Option Int) (env : IterEnvAny) (F : List Nat) (hd : IterDivisorFits F divisor)
    (hne : 0 ∉ F) (hdata : ∀ x ∈ data, x.1.shape = F ∧ x.2.shape = F)
    (e : Eff) (h : IterCall true false t1 t2 env.dataLen o e)
    (hmode : o.mode = "full") (hb' : e.binning = 1)
    (hsp : Spaced e.chunk e.frames (o.period * o.levelSize) e.T1 e.T2)
    (hlen : e.frames ≤ data.length) (h5 : 5 ≤ o.levelSize) (hnl : o.nlevel = some (e.nlevel : Int)) (hk : e.nlevel ≤ e.k)
    (hnl1 : 1 ≤ e.nlevel)
    (m : String) (v : Int) (hm : m = o.method.getD "corr") (hm' : m = "corr" ∨ m = "fft") (hb : o.binning.getD 1 = 1)
    (hv : v = effNorm o.norm m true)
    (hargs : CrossArgs m v e.frames e.frames (t1.map (List.take e.frames)) (t2.map (List.take e.frames)) (o.period * o.levelSize))
    (bg : FrameArg (Cx ℝ)) (var : FrameArg ℝ) (hbg : ArgFits F bg ∨ ArgFits [] bg) (hvar : ArgFits F var ∨ ArgFits [] var)
    (z : Int) (hz : PlainNorm z) (hp : Prepared v z) (y1 y2 : List Nat → List (Cx ℝ))
    (hy1 : ∀ p, y1 p = processed o.autoBackground e.chunk e.frames (data.map fun x => x.1.get p))
    (hy2 : ∀ p, y2 p = processed o.autoBackground e.chunk e.frames (data.map fun x => x.2.get p))
    (mode : String) (hmo : mode = "corr" ∨ mode = "diff") (scale : Bool)
    (hsc : scale = true → ∀ p, InShape p F → (varianceAt var p).offset ≠ 0) :
    ∃ out lin multi,
      iccorrMultiAny flags data t1 t2 o divisor env = .ok out ∧
      normalizeLevels normOpsR o.method (out.2.fast, out.2.slow) (some bg) (some var) (.num (some z)) mode scale none =
        .ok (lin, multi) ∧
      lin.shape = F ++ [o.period * o.levelSize] ∧ multi.shape = e.nlevel :: F ++ [o.levelSize] ∧ ∀ p, InShape p F →
        IsCurve (o.period * o.levelSize) (pairsAt false (stream (y1 p) (t1.map (List.take e.frames)))
            (stream (y2 p) (t2.map (List.take e.frames))) (o.period * o.levelSize))
          (shownAs mode scale (varianceAt var p).offset ∘ crossFormula (backgroundAt bg p) (varianceAt var p).offset z) (curveAt lin p) ∧
        ∀ j < e.nlevel, IsCurve o.levelSize (finePairs (2 ^ (j + 1)) (y1 p) (y2 p) o.levelSize)
          (shownAs mode scale (varianceAt var p).offset ∘ crossFormula (backgroundAt bg p) (varianceAt var p).offset z)
          (curveAt multi (j :: p)) := by
  have h2 := given_levels h hnl
  have hlen' : ∀ (x : List (Cx ℝ)), x.length = data.length → (processed o.autoBackground e.chunk e.frames x).length = e.frames := by
    intro x hx
    unfold processed
    rw [List.length_take]
    split <;> simp [hx, hlen]
  have l1 : ∀ p, (y1 p).length = e.frames := fun p => by rw [hy1]; exact hlen' _ (by simp)
  have l2 : ∀ p, (y2 p).length = e.frames := fun p => by rw [hy2]; exact hlen' _ (by simp)
  obtain ⟨junk, junkSq, hpw⟩ := C124_iccorr_multi_partial flags data t1 t2 o divisor env F hd ⟨_, inShape_zeros _ hne⟩ hdata
  have one : ∀ p, _ := fun p => C34_iccorr_multi_partial (data.map fun x => (x.1.get p, x.2.get p)) t1 t2 o
    ⟨env.dataLen, junk p, junkSq p, false, false, env.rand⟩ e h hmode hb' hsp (by simpa using hlen) h5 (Or.inr ⟨hnl, hk⟩)
    (fun ht => by
      have := hargs.span (Or.inr (by rw [ht]; rfl))
      subst ht
      simpa [defaultN] using this) (y1 p) (y2 p) (by rw [hy1, List.map_map]; rfl) (by rw [hy2, List.map_map]; rfl)
      (fun _ => false) (fun _ => 0)
  have hdata' : ∀ p, _ := fun p => C38_cross_mean_nlevel (y1 p) (y2 p) (t1.map (List.take e.frames)) (t2.map (List.take e.frames))
    o.levelSize o.norm o.method o.period o.binning e.nlevel (fun _ => false) (fun _ => 0) m v
    hm hm' hb hv (by rw [l1, l2]; exact hargs) h5 (by rw [l1]; exact h2)
  obtain ⟨p0, hp0⟩ : ∃ p, InShape p F := ⟨_, inShape_zeros _ hne⟩
  rcases hres : iccorrMultiAny flags data t1 t2 o divisor env with er | out
  · rw [hres] at hpw
    obtain ⟨taken, fast, slow, stats, h4, -⟩ := one p0
    have := (hpw p0 hp0).symm.trans h4
    cases this
  · rw [hres] at hpw
    obtain ⟨g1, g2, -, g3⟩ := hpw
    obtain ⟨lin, multi, k⟩ := chain_cross_of (d := (out.2.fast, out.2.slow)) hne g1 g2 o.method hnl1
      (fun p => stream (y1 p) (t1.map (List.take e.frames))) (fun p => stream (y2 p) (t2.map (List.take e.frames)))
      (fun p => stream ((y1 p).map Cx.abs2) (t1.map (List.take e.frames))) (fun p => stream ((y2 p).map Cx.abs2) (t2.map (List.take e.frames)))
      (fun p j => regular (blockMeans (2 ^ (j + 1)) (y1 p))) (fun p j => regular (blockMeans (2 ^ (j + 1)) (y2 p)))
      (fun p j => regular (blockMeans (2 ^ (j + 1)) ((y1 p).map Cx.abs2)))
      (fun p j => regular (blockMeans (2 ^ (j + 1)) ((y2 p).map Cx.abs2)))
      (fun p hp => by
        obtain ⟨taken, fast, slow, stats, h4, h5⟩ := one p
        have e4 := (g3 p hp).symm.trans h4
        simp only [Except.ok.injEq, Prod.mk.injEq, IterOut.mk.injEq, id] at e4
        rw [hnl, hdata' p] at h5
        rw [← e4.2.1, ← e4.2.2.1] at h5
        exact Except.ok.inj h5) bg var hbg hvar z mode scale
      (fun p c => IsCurve (o.period * o.levelSize) (pairsAt false (stream (y1 p) (t1.map (List.take e.frames)))
            (stream (y2 p) (t2.map (List.take e.frames))) (o.period * o.levelSize))
          (shownAs mode scale (varianceAt var p).offset ∘ crossFormula (backgroundAt bg p) (varianceAt var p).offset z) c)
      (fun p j c => IsCurve o.levelSize (finePairs (2 ^ (j + 1)) (y1 p) (y2 p) o.levelSize)
          (shownAs mode scale (varianceAt var p).offset ∘ crossFormula (backgroundAt bg p) (varianceAt var p).offset z) c)
      (fun p hp' => by
        obtain ⟨lin, levels, a3, a4, a5⟩ := C79_cross_mean_nlevel (y1 p) (y2 p) (t1.map (List.take e.frames)) (t2.map (List.take e.frames))
          o.levelSize o.norm o.method o.period o.binning e.nlevel (fun _ => false) (fun _ => 0) m v hm hm' hb hv
          (by rw [l1, l2]; exact hargs) h5 (by rw [l1]; exact h2) (backgroundAt bg p) (varianceAt var p) z hz hp
        refine ⟨_, _, normalizeMulti_shown hz hmo (fun h => hsc h p hp') ?_, isCurve_shown a4 _, fun j hj => isCurve_shown (a5 j hj) _⟩
        unfold ccorrMultiNormalized at a3
        rw [hdata' p] at a3
        exact a3)
    exact ⟨out, lin, multi, rfl, k⟩

/-- C126 for `iacorr_multi` in mode 'full' with a given number of levels, under the conditions of C34 and C124. -/
theorem C126_iacorr_multi_nlevel_partial (flags : Nat → Bool × Bool) (data : List (Tensor (Cx ℝ))) (t : Option (List Int))
    (o : MultiOpts) (divisor : Option Int) (env : IterEnvAny) (F : List Nat) (hd : IterDivisorFits F divisor)
    (hne : 0 ∉ F) (hdata : ∀ x ∈ data, x.shape = F)
    (e : Eff) (h : IterCall false false t none env.dataLen o e)
    (hmode : o.mode = "full") (hb' : e.binning = 1)
    (hsp : Spaced e.chunk e.frames (o.period * o.levelSize) e.T1 e.T1)
    (hlen : e.frames ≤ data.length) (h5 : 5 ≤ o.levelSize) (hnl : o.nlevel = some (e.nlevel : Int)) (hk : e.nlevel ≤ e.k)
    (hnl1 : 1 ≤ e.nlevel)
    (m : String) (v : Int) (hm : m = o.method.getD "corr") (hm' : m = "corr" ∨ m = "fft") (hb : o.binning.getD 1 = 1)
    (hv : v = effNorm o.norm m false)
    (hargs : AutoArgs m v e.frames (t.map (List.take e.frames)) (o.period * o.levelSize))
    (bg : FrameArg (Cx ℝ)) (var : FrameArg ℝ) (hbg : ArgFits F bg ∨ ArgFits [] bg) (hvar : ArgFits F var ∨ ArgFits [] var)
    (z : Int) (hz : PlainNorm z) (hp : Prepared v z)
    (hsame : z = 5 ∨ z = 13 ∨ z = 6 ∨ z = 14 → ∀ p, (backgroundAt bg p).fst = (backgroundAt bg p).snd) (y : List Nat → List (Cx ℝ))
    (hy : ∀ p, y p = processed o.autoBackground e.chunk e.frames (data.map fun x => x.get p))
    (mode : String) (hmo : mode = "corr" ∨ mode = "diff") (scale : Bool)
    (hsc : scale = true → ∀ p, InShape p F → (varianceAt var p).offset ≠ 0) :
    ∃ out lin multi,
      iacorrMultiAny flags data t o divisor env = .ok out ∧
      normalizeLevels normOpsR o.method (out.2.fast, out.2.slow) (some bg) (some var) (.num (some z)) mode scale none =
        .ok (lin, multi) ∧
      lin.shape = F ++ [o.period * o.levelSize] ∧ multi.shape = e.nlevel :: F ++ [o.levelSize] ∧ ∀ p, InShape p F →
        IsCurve (o.period * o.levelSize) (selfPairsAt (stream (y p) (t.map (List.take e.frames))))
          (shownAs mode scale (varianceAt var p).offset ∘ autoFormula (backgroundAt bg p) (varianceAt var p).offset z) (curveAt lin p) ∧
        ∀ j < e.nlevel, IsCurve o.levelSize (selfFinePairs (2 ^ (j + 1)) (y p))
          (shownAs mode scale (varianceAt var p).offset ∘ autoFormula (backgroundAt bg p) (varianceAt var p).offset z)
          (curveAt multi (j :: p)) := by
  have h2 := given_levels h hnl
  have l1 : ∀ p, (y p).length = e.frames := fun p => by
    rw [hy]
    unfold processed
    rw [List.length_take]
    split <;> simp [hlen]
  obtain ⟨junk, junkSq, hpw⟩ := C124_iacorr_multi_partial flags data t o divisor env F hd ⟨_, inShape_zeros _ hne⟩ hdata
  have one : ∀ p, _ := fun p => C34_iacorr_multi_partial (data.map fun x => x.get p) t o
    ⟨env.dataLen, junk p, junkSq p, false, false, env.rand⟩ e h hmode hb' hsp (by simpa using hlen) h5 (Or.inr ⟨hnl, hk⟩)
    (fun ht => by
      have := hargs.span (Or.inr (by rw [ht]; rfl))
      subst ht
      simpa [defaultN] using this) (y p) (hy p) (fun _ => false) (fun _ => 0)
  have hdata' : ∀ p, _ := fun p => C38_auto_mean_nlevel (y p) (t.map (List.take e.frames))
    o.levelSize o.norm o.method o.period o.binning e.nlevel (fun _ => false) (fun _ => 0) m v
    hm hm' hb hv (by rw [l1]; exact hargs) h5 (by rw [l1]; exact h2)
  obtain ⟨p0, hp0⟩ : ∃ p, InShape p F := ⟨_, inShape_zeros _ hne⟩
  rcases hres : iacorrMultiAny flags data t o divisor env with er | out
  · rw [hres] at hpw
    obtain ⟨taken, fast, slow, stats, h4, -⟩ := one p0
    have := (hpw p0 hp0).symm.trans h4
    cases this
  · rw [hres] at hpw
    obtain ⟨g1, g2, -, g3⟩ := hpw
    obtain ⟨lin, multi, k⟩ := chain_auto_of (d := (out.2.fast, out.2.slow)) hne g1 g2 o.method hnl1
      (fun p => stream (y p) (t.map (List.take e.frames)))
      (fun p => stream ((y p).map Cx.abs2) (t.map (List.take e.frames)))
      (fun p j => regular (blockMeans (2 ^ (j + 1)) (y p)))
      (fun p j => regular (blockMeans (2 ^ (j + 1)) ((y p).map Cx.abs2)))
      (fun p hp => by
        obtain ⟨taken, fast, slow, stats, h4, h5⟩ := one p
        have e4 := (g3 p hp).symm.trans h4
        simp only [Except.ok.injEq, Prod.mk.injEq, IterOut.mk.injEq, id] at e4
        rw [hnl, hdata' p] at h5
        rw [← e4.2.1, ← e4.2.2.1] at h5
        exact Except.ok.inj h5) bg var hbg hvar z mode scale
      (fun p c => IsCurve (o.period * o.levelSize) (selfPairsAt (stream (y p) (t.map (List.take e.frames))))
          (shownAs mode scale (varianceAt var p).offset ∘ autoFormula (backgroundAt bg p) (varianceAt var p).offset z) c)
      (fun p j c => IsCurve o.levelSize (selfFinePairs (2 ^ (j + 1)) (y p))
          (shownAs mode scale (varianceAt var p).offset ∘ autoFormula (backgroundAt bg p) (varianceAt var p).offset z) c)
      (fun p hp' => by
        obtain ⟨lin, levels, a3, a4, a5⟩ := C79_auto_mean_nlevel (y p) (t.map (List.take e.frames))
          o.levelSize o.norm o.method o.period o.binning e.nlevel (fun _ => false) (fun _ => 0) m v hm hm' hb hv
          (by rw [l1]; exact hargs) h5 (by rw [l1]; exact h2) (backgroundAt bg p) (varianceAt var p) z hz hp (fun h => hsame h p)
        refine ⟨_, _, normalizeMulti_shown hz hmo (fun h => hsc h p hp') ?_, isCurve_shown a4 _, fun j hj => isCurve_shown (a5 j hj) _⟩
        unfold acorrMultiNormalized at a3
        rw [hdata' p] at a3
        exact a3)
    exact ⟨out, lin, multi, rfl, k⟩

/-- C126 up to `log_merge` for `ccorr_multi` with a given number of levels, without times, `n` even. -/
theorem C126_log_merge_nlevel_partial (flags : Nat → Bool × Bool) (f1 f2 : Tensor (Cx ℝ)) (axis : Int)
    (n : Nat) (norm : Option Int) (method : Option String) (period : Nat) (binning : Option Int) (nl : Nat)
    (align contiguous : Bool) (divisor : Option Int) (r : Nat → ℚ) (ax : Nat) (hs : f2.shape = f1.shape)
    (hax : NamesAxis f1.shape.length axis ax) (hd : DivisorFits f1.shape ax divisor) (hne : 0 ∉ frameShape f1.shape ax)
    (N : Nat) (hN : f1.shape.getD ax 0 = N) (m : String) (v : Int)
    (hm : m = method.getD "corr") (hm' : m = "corr" ∨ m = "fft") (hb : binning.getD 1 = 1)
    (hv : v = effNorm norm m true) (hargs : CrossArgs m v N N none none (period * n)) (hn : 5 ≤ n) (hnl : 1 ≤ nl) (h2 : n ≤ N / 2 ^ nl)
    (hper : 1 ≤ period) (he : n % 2 = 0) (hfit : period * n ≤ N)
    (bg : FrameArg (Cx ℝ)) (var : FrameArg ℝ) (hbg : ArgFits (frameShape f1.shape ax) bg ∨ ArgFits [] bg)
    (hvar : ArgFits (frameShape f1.shape ax) var ∨ ArgFits [] var) (z : Int) (hz : PlainNorm z) (hp : Prepared v z)
    (mode : String) (hmo : mode = "corr" ∨ mode = "diff") (scale : Bool)
    (hsc : scale = true → ∀ p, InShape p (frameShape f1.shape ax) → (varianceAt var p).offset ≠ 0) :
    ∃ d lin multi x y,
      ccorrMultiAny flags f1 f2 none none axis n norm method period binning (some nl) align contiguous divisor r = .ok d ∧
      normalizeLevels normOpsR method d (some bg) (some var) (.num (some z)) mode scale none = .ok (lin, multi) ∧
      NoNan lin ∧ NoNan multi ∧ logMergeAny ℝ (numbers lin) (numbers multi) 1 (fun _ => false) = .ok (x, y) ∧
      y.shape = frameShape f1.shape ax ++ [x.length] ∧ ∀ p, InShape p (frameShape f1.shape ax) →
        IsLogMerge ℝ ((linearCurve (backgroundAt bg p) (varianceAt var p).offset z (along f1 ax p) (along f2 ax p) (period * n)).map
            (shownAs mode scale (varianceAt var p).offset))
          ((levelCurves (backgroundAt bg p) (varianceAt var p).offset z (along f1 ax p) (along f2 ax p) nl n).map
            (List.map (shownAs mode scale (varianceAt var p).offset))) period n x (curveAt y p) := by
  obtain ⟨d, lin, multi, e1, e2, s1, s2, hc⟩ := C126_ccorr_multi_nlevel_partial flags f1 f2 none none axis n norm method period binning nl
    align contiguous divisor r ax hs hax hd hne N hN m v hm hm' hb hv hargs hn hnl h2 bg var hbg hvar z hz hp mode hmo scale hsc
  obtain ⟨g1, g2, x, y, g3, g4, g5⟩ := chain_merge hne hper (by omega) he hfit h2 s1 s2 (along f1 ax) (along f2 ax)
    (fun p => by rw [along_length, hN]) (fun p => by rw [along_length, hs, hN]) (backgroundAt bg) (fun p => (varianceAt var p).offset) z
    (fun p => shownAs mode scale (varianceAt var p).offset) hc
  exact ⟨d, lin, multi, x, y, e1, e2, g1, g2, g3, g4, g5⟩

/-- ... and for `acorr_multi`. -/
theorem C126_log_merge_acorr_nlevel_partial (flags : Nat → Bool × Bool) (f : Tensor (Cx ℝ)) (axis : Int)
    (n : Nat) (norm : Option Int) (method : Option String) (period : Nat) (binning : Option Int) (nl : Nat)
    (align contiguous : Bool) (divisor : Option Int) (r : Nat → ℚ) (ax : Nat)
    (hax : NamesAxis f.shape.length axis ax) (hd : DivisorFits f.shape ax divisor) (hne : 0 ∉ frameShape f.shape ax)
    (N : Nat) (hN : f.shape.getD ax 0 = N) (m : String) (v : Int)
    (hm : m = method.getD "corr") (hm' : m = "corr" ∨ m = "fft") (hb : binning.getD 1 = 1)
    (hv : v = effNorm norm m false) (hargs : AutoArgs m v N none (period * n)) (hn : 5 ≤ n) (hnl : 1 ≤ nl) (h2 : n ≤ N / 2 ^ nl)
    (hper : 1 ≤ period) (he : n % 2 = 0) (hfit : period * n ≤ N)
    (bg : FrameArg (Cx ℝ)) (var : FrameArg ℝ) (hbg : ArgFits (frameShape f.shape ax) bg ∨ ArgFits [] bg)
    (hvar : ArgFits (frameShape f.shape ax) var ∨ ArgFits [] var) (z : Int) (hz : PlainNorm z) (hp : Prepared v z)
    (hsame : z = 5 ∨ z = 13 ∨ z = 6 ∨ z = 14 → ∀ p, (backgroundAt bg p).fst = (backgroundAt bg p).snd)
    (mode : String) (hmo : mode = "corr" ∨ mode = "diff") (scale : Bool)
    (hsc : scale = true → ∀ p, InShape p (frameShape f.shape ax) → (varianceAt var p).offset ≠ 0) :
    ∃ d lin multi x y,
      acorrMultiAny flags f none axis n norm method period binning (some nl) align contiguous divisor r = .ok d ∧
      normalizeLevels normOpsR method d (some bg) (some var) (.num (some z)) mode scale none = .ok (lin, multi) ∧
      NoNan lin ∧ NoNan multi ∧ logMergeAny ℝ (numbers lin) (numbers multi) 1 (fun _ => false) = .ok (x, y) ∧
      y.shape = frameShape f.shape ax ++ [x.length] ∧ ∀ p, InShape p (frameShape f.shape ax) →
        IsLogMerge ℝ ((List.range (period * n)).map fun k =>
            shownAs mode scale (varianceAt var p).offset <|
              autoFormula (backgroundAt bg p) (varianceAt var p).offset z (selfPairsAt (regular (along f ax p)) k))
          ((List.range nl).map fun j => (List.range n).map fun k =>
            shownAs mode scale (varianceAt var p).offset <|
              autoFormula (backgroundAt bg p) (varianceAt var p).offset z (selfFinePairs (2 ^ (j + 1)) (along f ax p) k))
          period n x (curveAt y p) := by
  have l1 : ∀ p, (along f ax p).length = N := fun p => by rw [along_length, hN]
  obtain ⟨d, lin, multi, e1, e2, s1, s2, hc⟩ := C126_acorr_multi_nlevel_partial flags f none axis n norm method period binning nl
    align contiguous divisor r ax hax hd hne N hN m v hm hm' hb hv hargs hn hnl h2 bg var hbg hvar z hz hp hsame mode hmo scale hsc
  obtain ⟨g1, g2, x, y, g3, g4, g5⟩ := chain_merge_of hne hper (by omega) he s1 s2 (fun p k => selfPairsAt (regular (along f ax p)) k)
    (fun p j k => selfFinePairs (2 ^ (j + 1)) (along f ax p) k)
    (fun p => shownAs mode scale (varianceAt var p).offset ∘ autoFormula (backgroundAt bg p) (varianceAt var p).offset z)
    (fun p _ k hk => selfPairs_regular_ne (l1 p) (by omega))
    (fun p _ j hj k hk => selfFinePairs_ne (l1 p) (by positivity) (lt_of_lt_of_le hk (level_div h2 hj))) hc
  exact ⟨d, lin, multi, x, y, e1, e2, g1, g2, g3, g4, g5⟩

/-- C126 with a given number of levels meets its hypotheses: 64 frames of 3 × 2 pixels, one level of sixteen delays, though there are
enough samples for two. -/
example (flags : Nat → Bool × Bool) (f1 f2 : Tensor (Cx ℝ)) (r : Nat → ℚ) (h1 : f1.shape = [64, 3, 2]) (h2 : f2.shape = [64, 3, 2])
    (g : List Nat → Cx ℝ) :
    ∃ d lin multi,
      ccorrMultiAny flags f1 f2 none none 0 16 none none 1 none (some 1) false false none r = .ok d ∧
      normalizeLevels normOpsR none d (some (.arr ⟨[3, 2], g⟩)) (some (.arr ⟨[], fun _ => 0⟩)) (.num (some 6)) "diff" false none =
        .ok (lin, multi) ∧ lin.shape = [3, 2, 16] ∧ multi.shape = [1, 3, 2, 16] := by
  obtain ⟨d, lin, multi, e1, e2, e3, e4, -⟩ := C126_ccorr_multi_nlevel_partial flags f1 f2 none none 0 16 none none 1 none 1 false false none r 0
    (h2.trans h1.symm)
    (by rw [h1]; exact ⟨by simp, Or.inl rfl⟩) (by rw [h1]; exact Or.inl ⟨rfl, by simp [frameShape]⟩) (by rw [h1]; simp [frameShape])
    64 (by rw [h1]; rfl) "corr" 7 rfl (Or.inl rfl) rfl rfl
    ⟨.inl rfl, by simp [SupportedNorm], rfl, fun _ => by simp [defaultN], by simp⟩ (by decide) (by decide) (by decide)
    (.arr ⟨[3, 2], g⟩) (.arr ⟨[], fun _ => 0⟩) (Or.inl (by rw [h1]; exact ⟨rfl, by simp [frameShape]⟩)) (Or.inr ⟨rfl, by simp⟩) 6
    (by simp [PlainNorm]) (by simp [Prepared, WantsSquares, WantsSums]) "diff" (Or.inr rfl) false (by simp)
  rw [h1] at e3 e4
  exact ⟨d, lin, multi, e1, e2, e3, e4⟩

/-- The same for frames that arrive one by one: 24 pairs in chunks of 6, one level of 6 delays though two would be possible. -/
example (flags : Nat → Bool × Bool) (data : List (Tensor (Cx ℝ) × Tensor (Cx ℝ))) (hlen : data.length = 24)
    (hdata : ∀ x ∈ data, x.1.shape = [3, 2] ∧ x.2.shape = [3, 2]) (env : IterEnvAny) (henv : env.dataLen = some 24) (g : List Nat → Cx ℝ) :
    ∃ out lin multi,
      iccorrMultiAny flags data none none { levelSize := 6, chunkSize := some 6, mode := "full", nlevel := some 1 } none env = .ok out ∧
      normalizeLevels normOpsR none (out.2.fast, out.2.slow) (some (.arr ⟨[3, 2], g⟩)) (some (.arr ⟨[], fun _ => 0⟩)) (.num (some 2)) "corr"
        false none = .ok (lin, multi) ∧ multi.shape = [1, 3, 2, 6] := by
  have h : IterCall true false none none (some 24) { levelSize := 6, chunkSize := some 6, mode := "full", nlevel := some 1 }
    ⟨upTo 24, upTo 24, 24, 6, 2, 24, 1, "corr", 1, 7⟩ := {
      pair := fun _ => rfl
      mode := .inl rfl
      times := ⟨.inr ⟨rfl, by simp, fun _ => rfl⟩, rfl, rfl, by decide, rfl⟩
      frames := ⟨.inl rfl, by decide, by decide, by decide, by decide, by decide⟩
      levels := ⟨2, by decide, by decide, by simp, by simp⟩
      binning := ⟨rfl, rfl, .inl ⟨.inl rfl, .inr (.inl rfl)⟩⟩
      norm := rfl
      args := ⟨.inl rfl, by simp [SupportedNorm], by simp, by decide, by decide, by simp, by simp⟩
      period := by decide
      fft := by simp }
  obtain ⟨out, lin, multi, e1, e2, -, e4, -⟩ := C126_iccorr_multi_nlevel_partial flags data none none
    { levelSize := 6, chunkSize := some 6, mode := "full", nlevel := some 1 } none env [3, 2] (Or.inl ⟨rfl, by simp⟩) (by simp) hdata _ (henv ▸ h)
    rfl rfl
    (spaced_mono (C31_spaced_regular 6 24 6 (by decide) (by decide)) (by decide)) (by simp [hlen]) (by decide) rfl (by decide) (by decide)
    "corr" 7 rfl
    (Or.inl rfl) rfl rfl ⟨.inl rfl, by simp [SupportedNorm], rfl, fun _ => by simp [defaultN], by simp⟩
    (.arr ⟨[3, 2], g⟩) (.arr ⟨[], fun _ => 0⟩) (Or.inl ⟨rfl, by simp⟩) (Or.inr ⟨rfl, by simp⟩) 2 (by simp [PlainNorm])
    (by simp [Prepared, WantsSquares]) _ _ (fun _ => rfl) (fun _ => rfl) "corr" (Or.inl rfl) false (by simp)
  exact ⟨out, lin, multi, e1, e2, e4⟩

end Cddm
