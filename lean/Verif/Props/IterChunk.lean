import Verif.Lemmas.IterLevels
import Verif.Props.IterFull

/-!
# C32, C36: mode 'chunk'; the number of levels
-/

namespace Cddm
open Spec

/-! ### C32

Fast part: the sum over the chunks of the correlation of each chunk with itself.  Slow levels (block
means): the same for the sequence of block means, cut in pieces of one chunk. -/

theorem C32_iccorr_multi_chunk (data : List (Cx ℝ × Cx ℝ)) (t1 t2 : Option (List Int))
    (o : MultiOpts) (env : IterEnv) (e : Eff) (h : IterCall true false t1 t2 env.dataLen o e)
    (hmode : o.mode = "chunk")
    (hlen : e.frames ≤ data.length) (y1 y2 : List (Cx ℝ))
    (hy1 : y1 = processed o.autoBackground e.chunk e.frames (data.map Prod.fst))
    (hy2 : y2 = processed o.autoBackground e.chunk e.frames (data.map Prod.snd)) :
    ∃ taken slow stats, iccorrMulti data t1 t2 o env = .ok (taken,
      ⟨crossDataSum false (productOf e.method) e.method e.norm (o.period * o.levelSize)
          (e.frames / e.chunk)
          (fun q => stream (piece e.chunk q y1) (some (piece e.chunk q (e.T1.take e.frames))))
          (fun q => stream (piece e.chunk q y2) (some (piece e.chunk q (e.T2.take e.frames))))
          (fun q => stream (piece e.chunk q (y1.map Cx.abs2))
            (some (piece e.chunk q (e.T1.take e.frames))))
          (fun q => stream (piece e.chunk q (y2.map Cx.abs2))
            (some (piece e.chunk q (e.T2.take e.frames)))), slow, stats⟩) ∧
      (e.binning = 1 → o.nlevel = none ∨ e.nlevel ≤ e.k →
        slow = (List.range e.nlevel).map fun j =>
          crossDataSum false (productOf e.method) e.method e.norm o.levelSize
            (pieces e.chunk (e.frames / 2 ^ (j + 1)))
            (fun q => regular (piece e.chunk q (blockMeans (2 ^ (j + 1)) y1)))
            (fun q => regular (piece e.chunk q (blockMeans (2 ^ (j + 1)) y2)))
            (fun q => regular (piece e.chunk q (blockMeans (2 ^ (j + 1)) (y1.map Cx.abs2))))
            (fun q => regular (piece e.chunk q (blockMeans (2 ^ (j + 1)) (y2.map Cx.abs2))))) := by
  obtain ⟨slow, h1, -, h2⟩ := cross_chunk ccorr_CrossOK h hmode hlen hy1 hy2
  exact ⟨_, slow, _, h1, h2⟩

theorem C32_iccorr_multi_chunk_complex (data : List (Cx ℝ × Cx ℝ)) (t1 t2 : Option (List Int))
    (o : MultiOpts) (env : IterEnv) (e : Eff) (h : IterCall true true t1 t2 env.dataLen o e)
    (hmode : o.mode = "chunk")
    (hlen : e.frames ≤ data.length) (y1 y2 : List (Cx ℝ))
    (hy1 : y1 = processed o.autoBackground e.chunk e.frames (data.map Prod.fst))
    (hy2 : y2 = processed o.autoBackground e.chunk e.frames (data.map Prod.snd)) :
    ∃ taken slow stats, iccorrMultiComplex data t1 t2 o env = .ok (taken,
      ⟨crossDataSum true cxProd e.method e.norm (2 * (o.period * o.levelSize) - 1)
          (e.frames / e.chunk)
          (fun q => stream (piece e.chunk q y1) (some (piece e.chunk q (e.T1.take e.frames))))
          (fun q => stream (piece e.chunk q y2) (some (piece e.chunk q (e.T2.take e.frames))))
          (fun q => stream (piece e.chunk q (y1.map Cx.abs2))
            (some (piece e.chunk q (e.T1.take e.frames))))
          (fun q => stream (piece e.chunk q (y2.map Cx.abs2))
            (some (piece e.chunk q (e.T2.take e.frames)))), slow, stats⟩) ∧
      (e.binning = 1 → o.nlevel = none ∨ e.nlevel ≤ e.k →
        slow = (List.range e.nlevel).map fun j =>
          crossDataSum true cxProd e.method e.norm (2 * o.levelSize - 1)
            (pieces e.chunk (e.frames / 2 ^ (j + 1)))
            (fun q => regular (piece e.chunk q (blockMeans (2 ^ (j + 1)) y1)))
            (fun q => regular (piece e.chunk q (blockMeans (2 ^ (j + 1)) y2)))
            (fun q => regular (piece e.chunk q (blockMeans (2 ^ (j + 1)) (y1.map Cx.abs2))))
            (fun q => regular (piece e.chunk q (blockMeans (2 ^ (j + 1)) (y2.map Cx.abs2))))) := by
  obtain ⟨slow, h1, -, h2⟩ := cross_chunk ccorrComplex_CrossOK h hmode hlen hy1 hy2
  exact ⟨_, slow, _, h1, h2⟩

theorem C32_iacorr_multi_chunk (data : List (Cx ℝ)) (t : Option (List Int))
    (o : MultiOpts) (env : IterEnv) (e : Eff) (h : IterCall false false t none env.dataLen o e)
    (hmode : o.mode = "chunk")
    (hlen : e.frames ≤ data.length) (y : List (Cx ℝ))
    (hy : y = processed o.autoBackground e.chunk e.frames data) :
    ∃ taken slow stats, iacorrMulti data t o env = .ok (taken,
      ⟨autoDataSum (selfSum (productOf e.method)) e.method e.norm (o.period * o.levelSize)
          (e.frames / e.chunk)
          (fun q => stream (piece e.chunk q y) (some (piece e.chunk q (e.T1.take e.frames))))
          (fun q => stream (piece e.chunk q (y.map Cx.abs2))
            (some (piece e.chunk q (e.T1.take e.frames)))), slow, stats⟩) ∧
      (e.binning = 1 → o.nlevel = none ∨ e.nlevel ≤ e.k →
        slow = (List.range e.nlevel).map fun j =>
          autoDataSum (selfSum (productOf e.method)) e.method e.norm o.levelSize
            (pieces e.chunk (e.frames / 2 ^ (j + 1)))
            (fun q => regular (piece e.chunk q (blockMeans (2 ^ (j + 1)) y)))
            (fun q => regular (piece e.chunk q (blockMeans (2 ^ (j + 1)) (y.map Cx.abs2))))) := by
  obtain ⟨slow, h1, -, h2⟩ := auto_chunk ccorr_CrossOK acorr_AutoOK
    (fun _ _ _ => funext (selfSum_shift _ _ _)) h hmode hlen hy
  exact ⟨_, slow, _, h1, h2⟩

theorem C32_iacorr_multi_chunk_complex (data : List (Cx ℝ)) (t : Option (List Int))
    (o : MultiOpts) (env : IterEnv) (e : Eff) (h : IterCall false true t none env.dataLen o e)
    (hmode : o.mode = "chunk")
    (hlen : e.frames ≤ data.length) (y : List (Cx ℝ))
    (hy : y = processed o.autoBackground e.chunk e.frames data) :
    ∃ taken slow stats, iacorrMultiComplex data t o env = .ok (taken,
      ⟨autoDataSum (selfSumFwd cxProd) e.method e.norm (o.period * o.levelSize)
          (e.frames / e.chunk)
          (fun q => stream (piece e.chunk q y) (some (piece e.chunk q (e.T1.take e.frames))))
          (fun q => stream (piece e.chunk q (y.map Cx.abs2))
            (some (piece e.chunk q (e.T1.take e.frames)))), slow, stats⟩) ∧
      (e.binning = 1 → o.nlevel = none ∨ e.nlevel ≤ e.k →
        slow = (List.range e.nlevel).map fun j =>
          autoDataSum (selfSumFwd cxProd) e.method e.norm o.levelSize
            (pieces e.chunk (e.frames / 2 ^ (j + 1)))
            (fun q => regular (piece e.chunk q (blockMeans (2 ^ (j + 1)) y)))
            (fun q => regular (piece e.chunk q (blockMeans (2 ^ (j + 1)) (y.map Cx.abs2))))) := by
  obtain ⟨slow, h1, -, h2⟩ := auto_chunk ccorrComplex_CrossOK acorrComplex_AutoOK
    (fun _ _ _ => funext (selfSumFwd_shift _ _ _)) h hmode hlen hy
  exact ⟨_, slow, _, h1, h2⟩

/-! Counts: at most those of mode 'full', in every cell, for any binning and frame times. -/

theorem C32_iccorr_multi_counts (data : List (Cx ℝ × Cx ℝ)) (t1 t2 : Option (List Int))
    (o : MultiOpts) (env : IterEnv) (e : Eff) (h : IterCall true false t1 t2 env.dataLen o e)
    (hlen : e.frames ≤ data.length) :
    ∃ taken fast slow stats fast' slow',
      iccorrMulti data t1 t2 { o with mode := "chunk" } env = .ok (taken, ⟨fast, slow, stats⟩) ∧
      iccorrMulti data t1 t2 { o with mode := "full" } env = .ok (taken, ⟨fast', slow', stats⟩) ∧
      CountsLe fast fast' ∧ List.Forall₂ CountsLe slow slow' :=
  cross_counts ccorr_CrossOK h hlen

theorem C32_iccorr_multi_counts_complex (data : List (Cx ℝ × Cx ℝ)) (t1 t2 : Option (List Int))
    (o : MultiOpts) (env : IterEnv) (e : Eff) (h : IterCall true true t1 t2 env.dataLen o e)
    (hlen : e.frames ≤ data.length) :
    ∃ taken fast slow stats fast' slow',
      iccorrMultiComplex data t1 t2 { o with mode := "chunk" } env
        = .ok (taken, ⟨fast, slow, stats⟩) ∧
      iccorrMultiComplex data t1 t2 { o with mode := "full" } env
        = .ok (taken, ⟨fast', slow', stats⟩) ∧
      CountsLe fast fast' ∧ List.Forall₂ CountsLe slow slow' :=
  cross_counts ccorrComplex_CrossOK h hlen

theorem C32_iacorr_multi_counts (data : List (Cx ℝ)) (t : Option (List Int))
    (o : MultiOpts) (env : IterEnv) (e : Eff) (h : IterCall false false t none env.dataLen o e)
    (hlen : e.frames ≤ data.length) :
    ∃ taken fast slow stats fast' slow',
      iacorrMulti data t { o with mode := "chunk" } env = .ok (taken, ⟨fast, slow, stats⟩) ∧
      iacorrMulti data t { o with mode := "full" } env = .ok (taken, ⟨fast', slow', stats⟩) ∧
      CountsLe fast fast' ∧ List.Forall₂ CountsLe slow slow' :=
  auto_counts ccorr_CrossOK acorr_AutoOK (fun _ _ _ => funext (selfSum_shift _ _ _)) h hlen

theorem C32_iacorr_multi_counts_complex (data : List (Cx ℝ)) (t : Option (List Int))
    (o : MultiOpts) (env : IterEnv) (e : Eff) (h : IterCall false true t none env.dataLen o e)
    (hlen : e.frames ≤ data.length) :
    ∃ taken fast slow stats fast' slow',
      iacorrMultiComplex data t { o with mode := "chunk" } env
        = .ok (taken, ⟨fast, slow, stats⟩) ∧
      iacorrMultiComplex data t { o with mode := "full" } env
        = .ok (taken, ⟨fast', slow', stats⟩) ∧
      CountsLe fast fast' ∧ List.Forall₂ CountsLe slow slow' :=
  auto_counts ccorrComplex_CrossOK acorrComplex_AutoOK
    (fun _ _ _ => funext (selfSumFwd_shift _ _ _)) h hlen

/-- Non-trivial case: irregular times, two chunks of two, mode 'chunk'. -/
example : IterCall true true (some [0, 3, 4, 6]) (some [1, 2, 5, 7]) none
    { levelSize := 2, chunkSize := some 2, period := 2, norm := some 3, mode := "chunk" }
    ⟨[0, 3, 4, 6], [1, 2, 5, 7], 4, 2, 1, 4, 1, "corr", 1, 3⟩ :=
  IterCall.withMode C31_case_irregular "chunk" (.inr rfl)

/-! ### C36

False in general: the counts of the levels beyond the number of doublings stay zero when the number
of levels is given explicitly. -/

theorem pairSum_count_pos {α β : Type} {s1 : Stream α} {s2 : Stream β} {a : Int × α} {b : Int × β}
    (ha : a ∈ s1) (hb : b ∈ s2) (hab : a.1 = b.1) :
    0 < pairSum (fun _ _ => (1 : Nat)) s1 s2 0 := by
  unfold pairSum
  have : ((a, b) : _ × _) ∈ (s1 ×ˢ s2).filter fun p => |delay p| = ((0 : Nat) : Int) := by
    rw [List.mem_filter]
    refine ⟨List.pair_mem_product.2 ⟨ha, hb⟩, ?_⟩
    simp [delay, hab]
  have h1 : 1 ∈ ((s1 ×ˢ s2).filter fun p => |delay p| = ((0 : Nat) : Int)).map
      fun _ => (1 : Nat) := List.mem_map.2 ⟨_, this, rfl⟩
  exact List.sum_pos_iff_exists_pos_nat.2 ⟨1, h1, by norm_num⟩

theorem regular_count_pos {α β : Type} {x : List α} {y : List β} (hx : x ≠ []) (hy : y ≠ []) :
    0 < pairSum (fun _ _ => (1 : Nat)) (regular x) (regular y) 0 := by
  obtain ⟨a, x, rfl⟩ := List.exists_cons_of_ne_nil hx
  obtain ⟨b, y, rfl⟩ := List.exists_cons_of_ne_nil hy
  exact pairSum_count_pos (a := (0, a)) (b := (0, b)) (by simp [regular]) (by simp [regular]) rfl

theorem cells_succ {M : Type} (L : Nat) (δ : Nat → Nat → M) :
    cells (L + 1) δ = δ (L + 1) 0 :: (List.range L).map fun k => δ (L + 1) (k + 1) := by
  simp [cells, List.range_succ_eq_map]

theorem C36_iccorr_multi_false (data : List (Cx ℝ × Cx ℝ)) (t1 t2 : Option (List Int))
    (o : MultiOpts) (env : IterEnv) (e : Eff) (h : IterCall true false t1 t2 env.dataLen o e)
    (hmode : o.mode = "full") (hb : e.binning = 1)
    (hsp : Spaced e.chunk e.frames (o.period * o.levelSize) e.T1 e.T2)
    (hlen : e.frames ≤ data.length)
    (hn : o.nlevel = none) (hk : e.k < e.nlevel) :
    ∃ taken fast slow stats taken' fast' slow' stats',
      iccorrMulti data t1 t2 o env = .ok (taken, ⟨fast, slow, stats⟩) ∧ slow.length = e.nlevel ∧
      iccorrMulti data t1 t2 { o with nlevel := some (slow.length : Int) } env
        = .ok (taken', ⟨fast', slow', stats'⟩) ∧ slow'.length = slow.length ∧
      (∀ row, slow'[e.nlevel - 1]? = some row →
        row.count = some (List.replicate o.levelSize 0)) ∧
      (∀ row, slow[e.nlevel - 1]? = some row → ∃ x l, row.count = some (x :: l) ∧ 0 < x) ∧
      slow ≠ slow' := by
  obtain ⟨slow, h1, h2, h3⟩ := cross_full ccorr_CrossOK h hmode hsp hlen rfl rfl
  obtain ⟨taken', fast', slow', stats', f1, f2, f3⟩ := cross_levels_zero ccorr_CrossOK
    (IterCall.withLevels h hn) (by simp) hlen
  have hs := h3 hb (.inl hn)
  have hzero : ∀ row, slow'[e.nlevel - 1]? = some row →
      row.count = some (List.replicate o.levelSize 0) := fun row hr => f3 _ row (by omega) hr
  have hone : ∀ row, slow[e.nlevel - 1]? = some row → ∃ x l, row.count = some (x :: l) ∧ 0 < x := by
    intro row hr
    rw [hs, List.getElem?_map, List.getElem?_range (by omega), Option.map_some] at hr
    rw [← Option.some.inj hr]
    obtain ⟨L, hL⟩ : ∃ L, o.levelSize = L + 1 := ⟨o.levelSize - 1, by have := h.frames.level; omega⟩
    have hlev := level_size_le h.levels (show e.nlevel - 1 < e.nlevel by omega)
    have hne : ∀ f : Cx ℝ × Cx ℝ → Cx ℝ,
        blockMeans (2 ^ (e.nlevel - 1 + 1)) (processed o.autoBackground e.chunk e.frames
          (data.map f)) ≠ [] := by
      intro f hh
      have := congrArg List.length hh
      rw [blockMeans_length, processed_length _ _ _ (by simpa using hlen)] at this
      have h0 := h.frames.level
      have h2 : (0 : Nat) = e.frames / 2 ^ (e.nlevel - 1 + 1) := this.symm
      omega
    have hc := cells_succ L fun L k => cellSum false (fun _ _ => (1 : Nat))
      (regular (blockMeans (2 ^ (e.nlevel - 1 + 1)) (processed o.autoBackground e.chunk e.frames
        (data.map Prod.fst))))
      (regular (blockMeans (2 ^ (e.nlevel - 1 + 1)) (processed o.autoBackground e.chunk e.frames
        (data.map Prod.snd)))) L k
    rw [← hL] at hc
    exact ⟨_, _, congrArg some hc, regular_count_pos (hne Prod.fst) (hne Prod.snd)⟩
  refine ⟨_, _, slow, _, taken', fast', slow', stats', h1, h2, by rw [h2]; exact f1,
    f2.trans h2.symm, hzero, hone, ?_⟩
  intro heq
  have hlt : e.nlevel - 1 < slow.length := by omega
  have hg := List.getElem?_eq_getElem hlt
  obtain ⟨x, l, e1, e2⟩ := hone _ hg
  have e4 := hzero _ ((congrArg (·[e.nlevel - 1]?) heq.symm).trans hg)
  rw [e1] at e4
  obtain ⟨L, hL⟩ : ∃ L, o.levelSize = L + 1 := ⟨o.levelSize - 1, by have := h.frames.level; omega⟩
  rw [hL, List.replicate_succ] at e4
  simp at e4
  omega

/-- The hypotheses hold with the default arguments: 64 frames, level size 16: one chunk of 64, and
two slow levels. -/
theorem C36_case : IterCall true false none none (some 64) {}
    ⟨upTo 64, upTo 64, 64, 64, 0, 64, 2, "corr", 1, 7⟩ where
  pair := fun _ => rfl
  mode := .inl rfl
  times := ⟨.inr ⟨rfl, by simp, fun _ => rfl⟩, rfl, rfl, by decide, rfl⟩
  frames := ⟨.inr ⟨rfl, 0, by decide, by decide, by simp⟩, by decide, by decide, by decide, by decide, by decide⟩
  levels := ⟨2, by decide, by decide, fun _ => rfl, by simp⟩
  binning := ⟨rfl, rfl, .inl ⟨.inl rfl, .inr (.inl rfl)⟩⟩
  norm := rfl
  args := ⟨.inl rfl, by simp [SupportedNorm], by simp, by decide, by decide, by simp, by simp⟩
  period := by decide
  fft := by simp

example : Spaced 64 64 (1 * 16) (upTo 64) (upTo 64) :=
  C31_spaced_regular 64 64 16 (by decide) (by decide)

/-- True for block means if the default number of levels is within the number of doublings. -/
theorem C36_iccorr_multi_partial (data : List (Cx ℝ × Cx ℝ)) (t1 t2 : Option (List Int))
    (o : MultiOpts) (env : IterEnv) (e : Eff) (h : IterCall true false t1 t2 env.dataLen o e)
    (hn : o.nlevel = none) (hb : e.binning = 1) (hk : e.nlevel ≤ e.k) (hne : data ≠ []) :
    iccorrMulti data t1 t2 { o with nlevel := some (e.nlevel : Int) } env
      = iccorrMulti data t1 t2 o env :=
  cross_levels_same ccorr_CrossOK h hn hb hk hne

theorem C36_iccorr_multi_complex_partial (data : List (Cx ℝ × Cx ℝ)) (t1 t2 : Option (List Int))
    (o : MultiOpts) (env : IterEnv) (e : Eff) (h : IterCall true true t1 t2 env.dataLen o e)
    (hn : o.nlevel = none) (hb : e.binning = 1) (hk : e.nlevel ≤ e.k) (hne : data ≠ []) :
    iccorrMultiComplex data t1 t2 { o with nlevel := some (e.nlevel : Int) } env
      = iccorrMultiComplex data t1 t2 o env :=
  cross_levels_same ccorrComplex_CrossOK h hn hb hk hne

theorem C36_iacorr_multi_partial (data : List (Cx ℝ)) (t : Option (List Int))
    (o : MultiOpts) (env : IterEnv) (e : Eff) (h : IterCall false false t none env.dataLen o e)
    (hn : o.nlevel = none) (hb : e.binning = 1) (hk : e.nlevel ≤ e.k) (hne : data ≠ []) :
    iacorrMulti data t { o with nlevel := some (e.nlevel : Int) } env
      = iacorrMulti data t o env :=
  auto_levels_same ccorr_CrossOK acorr_AutoOK (fun _ _ _ => funext (selfSum_shift _ _ _)) h hn hb hk
    hne

theorem C36_iacorr_multi_complex_partial (data : List (Cx ℝ)) (t : Option (List Int))
    (o : MultiOpts) (env : IterEnv) (e : Eff) (h : IterCall false true t none env.dataLen o e)
    (hn : o.nlevel = none) (hb : e.binning = 1) (hk : e.nlevel ≤ e.k) (hne : data ≠ []) :
    iacorrMultiComplex data t { o with nlevel := some (e.nlevel : Int) } env
      = iacorrMultiComplex data t o env :=
  auto_levels_same ccorrComplex_CrossOK acorrComplex_AutoOK
    (fun _ _ _ => funext (selfSumFwd_shift _ _ _)) h hn hb hk hne

/-- Non-trivial case of the hypotheses: `C31_case_regular`, with two levels and two doublings. -/
example : (⟨upTo 20, upTo 20, 20, 4, 2, 16, 2, "corr", 1, 7⟩ : Eff).nlevel ≤ 2 := by decide

end Cddm
