import Verif.Lemmas.IterView
import Verif.Props.IterFwd

/-!
# C85: what a viewer is shown while an iterative function runs

`everyNth v ys` are the entries of `ys` at the positions divisible by `v`; `binnedFrames o e n j` are
those of the first `n` frames that fill whole chunks of level `j` (Spec/IterYield).  A yield is the
content of the arrays at that time.
-/

namespace Cddm
open Spec

/-! ### The result depends neither on the viewer nor on `stats` (for all inputs) -/

theorem C85_iccorr_multi_result {C : Type} [Zero C] (cplx : Bool) (cc : CrossFn C)
    (data : List (Cx ℝ × Cx ℝ)) (t1 t2 : Option (List Int)) (o : MultiOpts) (env : IterEnv)
    (stats : Bool) (viewer : Option Int) (hv : viewer ≠ some 0) :
    (iccorrMultiView cplx cc data t1 t2 o env stats viewer).2
      = (iccorrMultiOf cplx cc data t1 t2 o env).map fun r =>
          (r.1, if stats then r.2 else { r.2 with stats := [] }) := by
  unfold iccorrMultiView iccorrMultiOf
  split
  · rfl
  · have : (watch viewer ((crossGen cplx cc data t1 t2 o env).1.map (withStats stats),
        (crossGen cplx cc data t1 t2 o env).2)).2
        = (watch none ((crossGen cplx cc data t1 t2 o env).1.map (withStats stats),
        (crossGen cplx cc data t1 t2 o env).2)).2 := by
      cases viewer with
      | none => rfl
      | some v => rw [watch_some (by simpa using hv)]
    rw [this, watch_map, crossGen_result]
    rfl

theorem C85_iacorr_multi_result {C : Type} [Zero C] [Add C] (ac : AutoFn C) (cc : CrossFn C)
    (data : List (Cx ℝ)) (t : Option (List Int)) (o : MultiOpts) (env : IterEnv)
    (stats : Bool) (viewer : Option Int) (hv : viewer ≠ some 0) :
    (iacorrMultiView ac cc data t o env stats viewer).2
      = (autoIterOf ac cc data t o env).map fun r =>
          (r.1, if stats then r.2 else { r.2 with stats := [] }) := by
  unfold iacorrMultiView
  have : (watch viewer ((autoGen ac cc data t o env).1.map (withStats stats),
      (autoGen ac cc data t o env).2)).2
      = (watch none ((autoGen ac cc data t o env).1.map (withStats stats),
      (autoGen ac cc data t o env).2)).2 := by
    cases viewer with
    | none => rfl
    | some v => rw [watch_some (by simpa using hv)]
  simp only
  rw [this, watch_map, autoGen_result]
  rfl

theorem C85_iccorr_result {C : Type} [Zero C] (cplx : Bool) (cc : CrossFn C)
    (data : List (Cx ℝ × Cx ℝ)) (t1 t2 : Option (List Int)) (o : IccorrOpts) (env : IterEnv)
    (stats : Bool) (viewer : Option Int) (hv : viewer ≠ some 0) :
    (iccorrView cplx cc data t1 t2 o env stats viewer).2
      = (iccorrOf cplx cc data t1 t2 o env).map fun r =>
          (r.1, r.2.1, if stats then r.2.2 else []) := by
  have key : ∀ (gen : List (IterOut C) × Py Nat),
      (watch viewer (gen.1.map (fun y => ((withStats stats y).fast, (withStats stats y).stats)),
        gen.2)).2 = ((watch none gen).2.map fun r =>
          (r.1, r.2.fast, if stats then r.2.stats else [])) := by
    intro gen
    have h1 : (watch viewer (gen.1.map (fun y => ((withStats stats y).fast,
        (withStats stats y).stats)), gen.2)).2 = (watch none (gen.1.map (fun y =>
        ((withStats stats y).fast, (withStats stats y).stats)), gen.2)).2 := by
      cases viewer with
      | none => rfl
      | some v => rw [watch_some (by simpa using hv)]
    rw [h1, watch_map]
    unfold withStats
    cases stats <;> rfl
  unfold iccorrView iccorrOf
  split
  · rfl
  · simp only [bind, Except.bind]
    cases defaultNormOpt o.norm o.method true with
    | error e => rfl
    | ok nm =>
      simp only
      cases o.n with
      | none =>
        simp only
        unfold noLevelSize
        split
        · rfl
        · simp only [bind, Except.bind]
          cases defaultMethodBinning o.method none with
          | error e => rfl
          | ok _ =>
            simp only
            cases inspectT1T2Count t1 t2 o.count env.dataLen <;> rfl
      | some n =>
        simp only
        rw [key, crossGen_result]
        generalize crossIterOf cplx cc data t1 t2 _ env = x
        cases x <;> rfl

theorem C85_iacorr_result {C : Type} [Zero C] [Add C] (ac : AutoFn C) (cc : CrossFn C)
    (data : List (Cx ℝ)) (t : Option (List Int)) (o : IacorrOpts) (env : IterEnv)
    (stats : Bool) (viewer : Option Int) (hv : viewer ≠ some 0) :
    (iacorrView ac cc data t o env stats viewer).2
      = (iacorrOf ac cc data t o env).map fun r =>
          (r.1, r.2.1, if stats then r.2.2 else []) := by
  have key : ∀ (gen : List (IterOut C) × Py Nat),
      (watch viewer (gen.1.map (fun y => ((withStats stats y).fast, (withStats stats y).stats)),
        gen.2)).2 = ((watch none gen).2.map fun r =>
          (r.1, r.2.fast, if stats then r.2.stats else [])) := by
    intro gen
    have h1 : (watch viewer (gen.1.map (fun y => ((withStats stats y).fast,
        (withStats stats y).stats)), gen.2)).2 = (watch none (gen.1.map (fun y =>
        ((withStats stats y).fast, (withStats stats y).stats)), gen.2)).2 := by
      cases viewer with
      | none => rfl
      | some v => rw [watch_some (by simpa using hv)]
    rw [h1, watch_map]
    unfold withStats
    cases stats <;> rfl
  unfold iacorrView iacorrOf
  simp only [bind, Except.bind]
  cases defaultNormOpt o.norm o.method false with
  | error e => rfl
  | ok nm =>
    simp only
    cases o.n with
    | none =>
      simp only
      unfold noLevelSize
      split
      · rfl
      · simp only [bind, Except.bind]
        cases defaultMethodBinning o.method none with
        | error e => rfl
        | ok _ =>
          simp only
          cases inspectT1T2Count t none o.count env.dataLen <;> rfl
    | some n =>
      simp only
      rw [key, autoGen_result]
      generalize autoIterOf ac cc data t _ env = x
      cases x <;> rfl

/-! ### Every `viewer_interval`-th yield is shown (for all inputs) -/

theorem C85_iccorr_multi_every {C : Type} [Zero C] (cplx : Bool) (cc : CrossFn C)
    (data : List (Cx ℝ × Cx ℝ)) (t1 t2 : Option (List Int)) (o : MultiOpts) (env : IterEnv)
    (stats : Bool) :
    (iccorrMultiView cplx cc data t1 t2 o env stats none).1 = [] ∧
    ∀ v : Int, v ≠ 0 → (iccorrMultiView cplx cc data t1 t2 o env stats (some v)).1
      = (everyNth v (iccorrMultiView cplx cc data t1 t2 o env true (some 1)).1).map fun y =>
          if stats then y else { y with stats := [] } := by
  have hid : (withStats (C := C) true) = id := rfl
  unfold iccorrMultiView
  refine ⟨?_, fun v hv => ?_⟩
  · split
    · rfl
    · exact watch_none_fst _
  · split
    · rfl
    · simp only
      rw [watch_some hv, watch_some one_ne_zero]
      simp only
      rw [everyNth_one, everyNth_map, hid, List.map_id]
      rfl

theorem C85_iacorr_multi_every {C : Type} [Zero C] [Add C] (ac : AutoFn C) (cc : CrossFn C)
    (data : List (Cx ℝ)) (t : Option (List Int)) (o : MultiOpts) (env : IterEnv)
    (stats : Bool) :
    (iacorrMultiView ac cc data t o env stats none).1 = [] ∧
    ∀ v : Int, v ≠ 0 → (iacorrMultiView ac cc data t o env stats (some v)).1
      = (everyNth v (iacorrMultiView ac cc data t o env true (some 1)).1).map fun y =>
          if stats then y else { y with stats := [] } := by
  have hid : (withStats (C := C) true) = id := rfl
  unfold iacorrMultiView
  refine ⟨watch_none_fst _, fun v hv => ?_⟩
  simp only
  rw [watch_some hv, watch_some one_ne_zero]
  simp only
  rw [everyNth_one, everyNth_map, hid, List.map_id]
  rfl

example : everyNth 2 ["a", "b", "c", "d"] = ["a", "c"] := by decide
example : everyNth (-3) ["a", "b", "c", "d"] = ["a", "d"] := by decide

theorem crossView_one {C : Type} [Zero C] {cplx : Bool} {cc : CrossFn C}
    {data : List (Cx ℝ × Cx ℝ)} {t1 t2 : Option (List Int)} {o : MultiOpts} {env : IterEnv}
    (h : t1.isSome = t2.isSome) :
    (iccorrMultiView cplx cc data t1 t2 o env true (some 1)).1
      = (crossGen cplx cc data t1 t2 o env).1 := by
  have hid : (withStats (C := C) true) = id := rfl
  unfold iccorrMultiView
  rw [if_neg (pair_check h)]
  simp only
  rw [watch_some one_ne_zero]
  simp only
  rw [everyNth_one, hid, List.map_id]

theorem autoView_one {C : Type} [Zero C] [Add C] {ac : AutoFn C} {cc : CrossFn C}
    {data : List (Cx ℝ)} {t : Option (List Int)} {o : MultiOpts} {env : IterEnv} :
    (iacorrMultiView ac cc data t o env true (some 1)).1 = (autoGen ac cc data t o env).1 := by
  have hid : (withStats (C := C) true) = id := rfl
  unfold iacorrMultiView
  simp only
  rw [watch_some one_ne_zero]
  simp only
  rw [everyNth_one, hid, List.map_id]

/-! ### The yield after `n = (p+1) * chunk` frames is the result for these frames -/

theorem C85_iccorr_multi_progress (data : List (Cx ℝ × Cx ℝ)) (t1 t2 : Option (List Int))
    (o : MultiOpts) (env : IterEnv) (e : Eff) (h : IterCall true false t1 t2 env.dataLen o e)
    (p n : Nat) (hn : n = (p + 1) * e.chunk) (hlen : n ≤ data.length) (hfr : n ≤ e.frames)
    (y1 y2 : List (Cx ℝ))
    (hy1 : y1 = processed o.autoBackground e.chunk n (data.map Prod.fst))
    (hy2 : y2 = processed o.autoBackground e.chunk n (data.map Prod.snd)) :
    ∃ y, (iccorrMultiView false ccorr data t1 t2 o env true (some 1)).1[p]? = some y ∧
      y.stats = [some (meanOf y1, varianceOf y1), some (meanOf y2, varianceOf y2)] ∧
      y.slow.length = e.nlevel ∧
      (o.mode = "full" → Spaced e.chunk e.frames (o.period * o.levelSize) e.T1 e.T2 →
        y.fast = crossData false (productOf e.method) e.method e.norm (o.period * o.levelSize)
          (stream y1 (some (e.T1.take n))) (stream y2 (some (e.T2.take n)))
          (stream (y1.map Cx.abs2) (some (e.T1.take n)))
          (stream (y2.map Cx.abs2) (some (e.T2.take n)))) ∧
      (o.mode = "chunk" →
        y.fast = crossDataSum false (productOf e.method) e.method e.norm (o.period * o.levelSize)
          (p + 1)
          (fun q => stream (piece e.chunk q y1) (some (piece e.chunk q (e.T1.take n))))
          (fun q => stream (piece e.chunk q y2) (some (piece e.chunk q (e.T2.take n))))
          (fun q => stream (piece e.chunk q (y1.map Cx.abs2))
            (some (piece e.chunk q (e.T1.take n))))
          (fun q => stream (piece e.chunk q (y2.map Cx.abs2))
            (some (piece e.chunk q (e.T2.take n))))) ∧
      (o.mode = "full" → e.binning = 1 → ∀ j z1 z2, j < e.nlevel →
        z1 = processed o.autoBackground e.chunk (binnedFrames o e n (j + 1)) (data.map Prod.fst) →
        z2 = processed o.autoBackground e.chunk (binnedFrames o e n (j + 1)) (data.map Prod.snd) →
        y.slow[j]? = some (crossData false (productOf e.method) e.method e.norm o.levelSize
          (regular (blockMeans (2 ^ (j + 1)) z1)) (regular (blockMeans (2 ^ (j + 1)) z2))
          (regular (blockMeans (2 ^ (j + 1)) (z1.map Cx.abs2)))
          (regular (blockMeans (2 ^ (j + 1)) (z2.map Cx.abs2))))) := by
  rw [crossView_one (h.pair rfl)]
  exact cross_at ccorr_CrossOK h hn hlen hfr hy1 hy2

theorem C85_iccorr_multi_progress_complex (data : List (Cx ℝ × Cx ℝ)) (t1 t2 : Option (List Int))
    (o : MultiOpts) (env : IterEnv) (e : Eff) (h : IterCall true true t1 t2 env.dataLen o e)
    (p n : Nat) (hn : n = (p + 1) * e.chunk) (hlen : n ≤ data.length) (hfr : n ≤ e.frames)
    (y1 y2 : List (Cx ℝ))
    (hy1 : y1 = processed o.autoBackground e.chunk n (data.map Prod.fst))
    (hy2 : y2 = processed o.autoBackground e.chunk n (data.map Prod.snd)) :
    ∃ y, (iccorrMultiView true ccorrComplex data t1 t2 o env true (some 1)).1[p]? = some y ∧
      y.stats = [some (meanOf y1, varianceOf y1), some (meanOf y2, varianceOf y2)] ∧
      y.slow.length = e.nlevel ∧
      (o.mode = "full" → Spaced e.chunk e.frames (o.period * o.levelSize) e.T1 e.T2 →
        y.fast = crossData true cxProd e.method e.norm (2 * (o.period * o.levelSize) - 1)
          (stream y1 (some (e.T1.take n))) (stream y2 (some (e.T2.take n)))
          (stream (y1.map Cx.abs2) (some (e.T1.take n)))
          (stream (y2.map Cx.abs2) (some (e.T2.take n)))) ∧
      (o.mode = "chunk" →
        y.fast = crossDataSum true cxProd e.method e.norm (2 * (o.period * o.levelSize) - 1)
          (p + 1)
          (fun q => stream (piece e.chunk q y1) (some (piece e.chunk q (e.T1.take n))))
          (fun q => stream (piece e.chunk q y2) (some (piece e.chunk q (e.T2.take n))))
          (fun q => stream (piece e.chunk q (y1.map Cx.abs2))
            (some (piece e.chunk q (e.T1.take n))))
          (fun q => stream (piece e.chunk q (y2.map Cx.abs2))
            (some (piece e.chunk q (e.T2.take n))))) ∧
      (o.mode = "full" → e.binning = 1 → ∀ j z1 z2, j < e.nlevel →
        z1 = processed o.autoBackground e.chunk (binnedFrames o e n (j + 1)) (data.map Prod.fst) →
        z2 = processed o.autoBackground e.chunk (binnedFrames o e n (j + 1)) (data.map Prod.snd) →
        y.slow[j]? = some (crossData true cxProd e.method e.norm (2 * o.levelSize - 1)
          (regular (blockMeans (2 ^ (j + 1)) z1)) (regular (blockMeans (2 ^ (j + 1)) z2))
          (regular (blockMeans (2 ^ (j + 1)) (z1.map Cx.abs2)))
          (regular (blockMeans (2 ^ (j + 1)) (z2.map Cx.abs2))))) := by
  rw [crossView_one (h.pair rfl)]
  exact cross_at ccorrComplex_CrossOK h hn hlen hfr hy1 hy2

theorem C85_iacorr_multi_progress (data : List (Cx ℝ)) (t : Option (List Int))
    (o : MultiOpts) (env : IterEnv) (e : Eff) (h : IterCall false false t none env.dataLen o e)
    (p n : Nat) (hn : n = (p + 1) * e.chunk) (hlen : n ≤ data.length) (hfr : n ≤ e.frames)
    (y1 : List (Cx ℝ)) (hy1 : y1 = processed o.autoBackground e.chunk n data) :
    ∃ y, (iacorrMultiView acorr ccorr data t o env true (some 1)).1[p]? = some y ∧
      y.stats = [some (meanOf y1, varianceOf y1)] ∧ y.slow.length = e.nlevel ∧
      (o.mode = "full" → Spaced e.chunk e.frames (o.period * o.levelSize) e.T1 e.T1 →
        y.fast = autoData (productOf e.method) e.method e.norm (o.period * o.levelSize)
          (stream y1 (some (e.T1.take n))) (stream (y1.map Cx.abs2) (some (e.T1.take n)))) ∧
      (o.mode = "chunk" →
        y.fast = autoDataSum (selfSum (productOf e.method)) e.method e.norm
          (o.period * o.levelSize) (p + 1)
          (fun q => stream (piece e.chunk q y1) (some (piece e.chunk q (e.T1.take n))))
          (fun q => stream (piece e.chunk q (y1.map Cx.abs2))
            (some (piece e.chunk q (e.T1.take n))))) ∧
      (o.mode = "full" → e.binning = 1 → ∀ j z1, j < e.nlevel →
        z1 = processed o.autoBackground e.chunk (binnedFrames o e n (j + 1)) data →
        y.slow[j]? = some (autoData (productOf e.method) e.method e.norm o.levelSize
          (regular (blockMeans (2 ^ (j + 1)) z1))
          (regular (blockMeans (2 ^ (j + 1)) (z1.map Cx.abs2))))) := by
  rw [autoView_one]
  obtain ⟨y, a1, a2, a3, a4⟩ := auto_at ccorr_CrossOK acorr_AutoOK
    (fun m c s => funext (selfSum_shift _ _ _)) h hn hlen hfr hy1
  refine ⟨y, a1, a2, a3, fun hm => ?_, a4, fun hm => ?_⟩
  · obtain ⟨y', b1, b2, b3⟩ := auto_at_full h hm hn hlen hfr hy1
    rw [a1] at b1
    obtain rfl := Option.some.inj b1
    exact b2
  · obtain ⟨y', b1, b2, b3⟩ := auto_at_full h hm hn hlen hfr hy1
    rw [a1] at b1
    obtain rfl := Option.some.inj b1
    exact b3

/-- `complex = True`: in mode 'full' the pairs of frames in different chunks are missing (C37), so
mode 'chunk' only. -/
theorem C85_iacorr_multi_progress_complex (data : List (Cx ℝ)) (t : Option (List Int))
    (o : MultiOpts) (env : IterEnv) (e : Eff) (h : IterCall false true t none env.dataLen o e)
    (p n : Nat) (hn : n = (p + 1) * e.chunk) (hlen : n ≤ data.length) (hfr : n ≤ e.frames)
    (y1 : List (Cx ℝ)) (hy1 : y1 = processed o.autoBackground e.chunk n data) :
    ∃ y, (iacorrMultiView acorrComplex ccorrComplex data t o env true (some 1)).1[p]? = some y ∧
      y.stats = [some (meanOf y1, varianceOf y1)] ∧ y.slow.length = e.nlevel ∧
      (o.mode = "chunk" →
        y.fast = autoDataSum (selfSumFwd cxProd) e.method e.norm
          (o.period * o.levelSize) (p + 1)
          (fun q => stream (piece e.chunk q y1) (some (piece e.chunk q (e.T1.take n))))
          (fun q => stream (piece e.chunk q (y1.map Cx.abs2))
            (some (piece e.chunk q (e.T1.take n))))) := by
  rw [autoView_one]
  exact auto_at ccorrComplex_CrossOK acorrComplex_AutoOK
    (fun _ _ _ => funext (selfSumFwd_shift _ _ _)) h hn hlen hfr hy1

/-! ### How many, and which is the last one -/

theorem C85_iccorr_multi_number (data : List (Cx ℝ × Cx ℝ)) (t1 t2 : Option (List Int))
    (o : MultiOpts) (env : IterEnv) (e : Eff) (h : IterCall true false t1 t2 env.dataLen o e)
    (hne : data ≠ []) :
    (iccorrMultiView false ccorr data t1 t2 o env true (some 1)).1.length
      = min data.length e.frames / e.chunk + (if e.frames ≤ data.length then 1 else 0) ∧
    (data.length < e.frames →
      (iccorrMultiView false ccorr data t1 t2 o env true (some 1)).2 = .error .valueError) := by
  refine ⟨by rw [crossView_one (h.pair rfl)]; exact cross_count ccorr_CrossOK h hne, fun hl => ?_⟩
  rw [C85_iccorr_multi_result _ _ _ _ _ _ _ _ _ (by simp), cross_short ccorr_CrossOK h hl hne]
  rfl

theorem C85_iacorr_multi_number (data : List (Cx ℝ)) (t : Option (List Int))
    (o : MultiOpts) (env : IterEnv) (e : Eff) (h : IterCall false false t none env.dataLen o e)
    (hne : data ≠ []) :
    (iacorrMultiView acorr ccorr data t o env true (some 1)).1.length
      = min data.length e.frames / e.chunk + (if e.frames ≤ data.length then 1 else 0) ∧
    (data.length < e.frames →
      (iacorrMultiView acorr ccorr data t o env true (some 1)).2 = .error .valueError) := by
  refine ⟨?_, fun hl => ?_⟩
  · rw [autoView_one]
    exact auto_count ccorr_CrossOK acorr_AutoOK
      (fun m c s => funext (selfSum_shift _ _ _)) h hne
  rw [C85_iacorr_multi_result _ _ _ _ _ _ _ _ (by simp), auto_short ccorr_CrossOK acorr_AutoOK
    (fun m c s => funext (selfSum_shift _ _ _)) h hl hne]
  rfl

theorem last_of_watch {Y : Type} {gen : List Y × Py Nat} {taken : Nat} {y : Y}
    (h : (watch none gen).2 = .ok (taken, y)) : gen.1.getLast? = some y := by
  unfold watch at h
  rw [watchLoop_none] at h
  simp only [Option.toList_none, List.nil_append] at h
  cases hg : gen.2 with
  | error e => rw [hg] at h; simp [Except.bind] at h
  | ok t =>
    rw [hg] at h
    cases hl : gen.1.getLast? with
    | none => rw [hl] at h; simp [Except.bind] at h
    | some z =>
      rw [hl] at h
      simp [Except.bind] at h
      rw [h.2]

/-- With all frames there are `2^k` chunks; the result is yielded as number `2^k`, and the last yield
shown is the last one whose number is divisible by the interval. -/
theorem C85_iccorr_multi_last (data : List (Cx ℝ × Cx ℝ)) (t1 t2 : Option (List Int))
    (o : MultiOpts) (env : IterEnv) (e : Eff) (h : IterCall true false t1 t2 env.dataLen o e)
    (hlen : e.frames ≤ data.length) (v : Int) (hv : v ≠ 0) :
    ∃ taken y, (iccorrMultiView false ccorr data t1 t2 o env true (some v)).2 = .ok (taken, y) ∧
      (iccorrMultiView false ccorr data t1 t2 o env true (some 1)).1[2 ^ e.k]? = some y ∧
      (iccorrMultiView false ccorr data t1 t2 o env true (some v)).1.getLast?
        = (iccorrMultiView false ccorr data t1 t2 o env true (some 1)).1[
            2 ^ e.k / v.natAbs * v.natAbs]? := by
  have hpos := IterCall.pos h
  have hc : 0 < e.chunk := h.frames.level.trans_le h.frames.lo
  have hne : data ≠ [] := by rintro rfl; simp at hlen; omega
  obtain ⟨fast, slow, h1, -⟩ := cross_any ccorr_CrossOK h hlen rfl rfl
  have hl : (iccorrMultiView false ccorr data t1 t2 o env true (some 1)).1.length = 2 ^ e.k + 1 := by
    rw [(C85_iccorr_multi_number data t1 t2 o env e h hne).1, min_eq_right hlen, if_pos hlen,
      h.frames.frames, Nat.mul_div_cancel_left _ hc]
  have hres := C85_iccorr_multi_result false ccorr data t1 t2 o env true (some v) (by simpa using hv)
  rw [h1] at hres
  refine ⟨_, _, hres, ?_, ?_⟩
  · have hr2 := crossGen_result false ccorr data t1 t2 o env
    have hcall : iccorrMultiOf false ccorr data t1 t2 o env
        = crossIterOf false ccorr data t1 t2 o env := by
      unfold iccorrMultiOf
      rw [if_neg (pair_check (h.pair rfl))]
    rw [← hcall, h1] at hr2
    have := last_of_watch hr2
    rw [← crossView_one (h.pair rfl), List.getLast?_eq_getElem?, hl, Nat.add_sub_cancel] at this
    exact this
  · have := (C85_iccorr_multi_every false ccorr data t1 t2 o env true).2 v hv
    rw [this]
    simp only [if_true, List.map_id']
    rw [everyNth_getLast hv, hl, Nat.add_sub_cancel]

theorem C85_iacorr_multi_last (data : List (Cx ℝ)) (t : Option (List Int))
    (o : MultiOpts) (env : IterEnv) (e : Eff) (h : IterCall false false t none env.dataLen o e)
    (hlen : e.frames ≤ data.length) (v : Int) (hv : v ≠ 0) :
    ∃ taken y, (iacorrMultiView acorr ccorr data t o env true (some v)).2 = .ok (taken, y) ∧
      (iacorrMultiView acorr ccorr data t o env true (some 1)).1[2 ^ e.k]? = some y ∧
      (iacorrMultiView acorr ccorr data t o env true (some v)).1.getLast?
        = (iacorrMultiView acorr ccorr data t o env true (some 1)).1[
            2 ^ e.k / v.natAbs * v.natAbs]? := by
  have hpos := IterCall.pos h
  have hc : 0 < e.chunk := h.frames.level.trans_le h.frames.lo
  have hne : data ≠ [] := by rintro rfl; simp at hlen; omega
  obtain ⟨fast, slow, h1, -⟩ := auto_any ccorr_CrossOK acorr_AutoOK
    (fun m c s => funext (selfSum_shift _ _ _)) h hlen rfl
  have hl : (iacorrMultiView acorr ccorr data t o env true (some 1)).1.length = 2 ^ e.k + 1 := by
    rw [(C85_iacorr_multi_number data t o env e h hne).1, min_eq_right hlen, if_pos hlen,
      h.frames.frames, Nat.mul_div_cancel_left _ hc]
  have hres := C85_iacorr_multi_result acorr ccorr data t o env true (some v) (by simpa using hv)
  rw [h1] at hres
  refine ⟨_, _, hres, ?_, ?_⟩
  · have hr2 := autoGen_result acorr ccorr data t o env
    rw [h1] at hr2
    have := last_of_watch hr2
    rw [← autoView_one, List.getLast?_eq_getElem?, hl, Nat.add_sub_cancel] at this
    exact this
  · have := (C85_iacorr_multi_every acorr ccorr data t o env true).2 v hv
    rw [this]
    simp only [if_true, List.map_id']
    rw [everyNth_getLast hv, hl, Nat.add_sub_cancel]

/-- If the interval divides the number of chunks, the viewer ends with the result. -/
theorem C85_iccorr_multi_ends (data : List (Cx ℝ × Cx ℝ)) (t1 t2 : Option (List Int))
    (o : MultiOpts) (env : IterEnv) (e : Eff) (h : IterCall true false t1 t2 env.dataLen o e)
    (hlen : e.frames ≤ data.length) (v : Int) (hv : v ∣ 2 ^ e.k) :
    ∃ taken y, (iccorrMultiView false ccorr data t1 t2 o env true (some v)).2 = .ok (taken, y) ∧
      (iccorrMultiView false ccorr data t1 t2 o env true (some v)).1.getLast? = some y := by
  have hv0 : v ≠ 0 := by
    rintro rfl
    rw [zero_dvd_iff] at hv
    exact absurd hv (by positivity)
  obtain ⟨taken, y, e1, e2, e3⟩ := C85_iccorr_multi_last data t1 t2 o env e h hlen v hv0
  refine ⟨taken, y, e1, ?_⟩
  rw [e3, Nat.div_mul_cancel, e2]
  have := Int.natAbs_dvd_natAbs.2 hv
  simpa [Int.natAbs_pow] using this

/-! ### `iccorr` and `iacorr` show what the call with no slow levels shows -/

theorem watch_map_fst {Y Z : Type} (f : Y → Z) (viewer : Option Int) (gen : List Y × Py Nat) :
    (watch viewer (gen.1.map f, gen.2)).1 = (watch viewer gen).1.map f := by
  cases viewer with
  | none => rw [watch_none_fst, watch_none_fst]; rfl
  | some v =>
    by_cases hv : v = 0
    · subst hv
      rcases hg : gen.1 with _ | ⟨y, ys⟩
      · have h1 : watch (some 0) ((gen.1.map f), gen.2) = watch none (gen.1.map f, gen.2) := by
          rw [hg]; rfl
        have h2 : watch (some 0) gen = watch none gen := by
          unfold watch; rw [hg]; rfl
        rw [← hg, h1, h2, watch_none_fst, watch_none_fst]; rfl
      · rw [watch_zero (gen := (List.map f (y :: ys), gen.2)) (by simp),
          watch_zero (gen := gen) (by rw [hg]; simp)]
        rfl
    · rw [watch_some hv, watch_some hv]
      simp only
      rw [everyNth_map]

theorem C85_iccorr_shown {C : Type} [Zero C] (cplx : Bool) (cc : CrossFn C)
    (data : List (Cx ℝ × Cx ℝ)) (t1 t2 : Option (List Int)) (o : IccorrOpts) (n : Nat)
    (env : IterEnv) (e : Eff) (hn : o.n = some n)
    (h : IterCall true cplx t1 t2 env.dataLen (iccorrAsMulti o n) e) (stats : Bool)
    (viewer : Option Int) :
    (iccorrView cplx cc data t1 t2 o env stats viewer).1
      = (iccorrMultiView cplx cc data t1 t2 { iccorrAsMulti o n with norm := some e.norm } env stats
          viewer).1.map fun y => (y.fast, y.stats) := by
  have hp := h.pair rfl
  have hnorm : e.norm = effNorm o.norm e.method true := h.norm
  have hs := h.args.norm
  rw [hnorm] at hs
  have hdn := defaultNormOpt_ok (method := o.method) h.binning.method hs
  rw [← hnorm] at hdn hs
  unfold iccorrView iccorrMultiView
  rw [if_neg (pair_check hp), if_neg (pair_check hp)]
  simp only [hdn, hn]
  rw [supported_toNat hs, ← watch_map_fst, List.map_map]
  rfl

theorem C85_iacorr_shown {C : Type} [Zero C] [Add C] (cplx : Bool) (ac : AutoFn C) (cc : CrossFn C)
    (data : List (Cx ℝ)) (t : Option (List Int)) (o : IacorrOpts) (n : Nat)
    (env : IterEnv) (e : Eff) (hn : o.n = some n)
    (h : IterCall false cplx t none env.dataLen (iacorrAsMulti o n) e) (stats : Bool)
    (viewer : Option Int) :
    (iacorrView ac cc data t o env stats viewer).1
      = (iacorrMultiView ac cc data t { iacorrAsMulti o n with norm := some e.norm } env stats
          viewer).1.map fun y => (y.fast, y.stats) := by
  have hnorm : e.norm = effNorm o.norm e.method false := h.norm
  have hs := h.args.norm
  rw [hnorm] at hs
  have hdn := defaultNormOpt_ok (method := o.method) h.binning.method hs
  rw [← hnorm] at hdn hs
  unfold iacorrView iacorrMultiView
  simp only [hdn, hn]
  rw [supported_toNat hs, ← watch_map_fst, List.map_map]
  rfl

/-- The data shown after `m = (p+1) * chunk` frames, mode 'full'. -/
theorem C85_iccorr_progress (data : List (Cx ℝ × Cx ℝ)) (t1 t2 : Option (List Int))
    (o : IccorrOpts) (n : Nat) (env : IterEnv) (e : Eff) (hn : o.n = some n)
    (h : IterCall true false t1 t2 env.dataLen (iccorrAsMulti o n) e) (hmode : o.mode = "full")
    (hsp : Spaced e.chunk e.frames n e.T1 e.T2)
    (p m : Nat) (hm : m = (p + 1) * e.chunk) (hlen : m ≤ data.length) (hfr : m ≤ e.frames)
    (y1 y2 : List (Cx ℝ))
    (hy1 : y1 = processed o.autoBackground e.chunk m (data.map Prod.fst))
    (hy2 : y2 = processed o.autoBackground e.chunk m (data.map Prod.snd)) :
    (iccorrView false ccorr data t1 t2 o env true (some 1)).1[p]?
      = some (crossData false (productOf e.method) e.method e.norm n
          (stream y1 (some (e.T1.take m))) (stream y2 (some (e.T2.take m)))
          (stream (y1.map Cx.abs2) (some (e.T1.take m)))
          (stream (y2.map Cx.abs2) (some (e.T2.take m))),
        [some (meanOf y1, varianceOf y1), some (meanOf y2, varianceOf y2)]) := by
  rw [C85_iccorr_shown false ccorr data t1 t2 o n env e hn h, List.getElem?_map]
  have hl : (iccorrAsMulti o n).period * (iccorrAsMulti o n).levelSize = n := Nat.one_mul n
  obtain ⟨y, a1, a2, -, a4, -⟩ := C85_iccorr_multi_progress data t1 t2 _ env e (IterCall.withNorm h) p m hm hlen
    hfr y1 y2 hy1 hy2
  rw [a1]
  simp only [Option.map_some]
  rw [a2, a4 hmode (by simp only; rw [hl]; exact hsp)]
  simp only
  rw [hl]

theorem C85_iacorr_progress (data : List (Cx ℝ)) (t : Option (List Int))
    (o : IacorrOpts) (n : Nat) (env : IterEnv) (e : Eff) (hn : o.n = some n)
    (h : IterCall false false t none env.dataLen (iacorrAsMulti o n) e) (hmode : o.mode = "full")
    (hsp : Spaced e.chunk e.frames n e.T1 e.T1)
    (p m : Nat) (hm : m = (p + 1) * e.chunk) (hlen : m ≤ data.length) (hfr : m ≤ e.frames)
    (y1 : List (Cx ℝ)) (hy1 : y1 = processed o.autoBackground e.chunk m data) :
    (iacorrView acorr ccorr data t o env true (some 1)).1[p]?
      = some (autoData (productOf e.method) e.method e.norm n
          (stream y1 (some (e.T1.take m))) (stream (y1.map Cx.abs2) (some (e.T1.take m))),
        [some (meanOf y1, varianceOf y1)]) := by
  rw [C85_iacorr_shown false acorr ccorr data t o n env e hn h, List.getElem?_map]
  have hl : (iacorrAsMulti o n).period * (iacorrAsMulti o n).levelSize = n := Nat.one_mul n
  obtain ⟨y, a1, a2, -, a4, -⟩ := C85_iacorr_multi_progress data t _ env e (IterCall.withNorm h) p m hm hlen
    hfr y1 hy1
  rw [a1]
  simp only [Option.map_some]
  rw [a2, a4 hmode (by simp only; rw [hl]; exact hsp)]
  simp only
  rw [hl]

/-! ### An interval of 0 -/

theorem C85_zero_interval (data : List (Cx ℝ × Cx ℝ)) (t1 t2 : Option (List Int))
    (o : MultiOpts) (env : IterEnv) (e : Eff) (h : IterCall true false t1 t2 env.dataLen o e)
    (hlen : e.chunk ≤ data.length) (stats : Bool) :
    iccorrMultiView false ccorr data t1 t2 o env stats (some 0)
      = ([], .error .zeroDivisionError) := by
  have hc : 0 < e.chunk := h.frames.level.trans_le h.frames.lo
  have hne : data ≠ [] := by rintro rfl; simp at hlen; omega
  rw [iccorrMultiView_call (h.pair rfl)]
  apply watch_zero
  intro hnil
  have := congrArg List.length hnil
  simp only [List.length_map, List.length_nil] at this
  rw [cross_count ccorr_CrossOK h hne] at this
  have : 1 ≤ min data.length e.frames / e.chunk := by
    rw [Nat.le_div_iff_mul_le hc]
    have := IterCall.chunk_le h
    omega
  omega

/-! ### "The viewer ends with the result" is false -/

/-- 20 frames in chunks of 4, `viewer_interval = 5`: the viewer is shown the result of the first four
frames only (here: mean 0), whereas the returned one is about 16 frames (mean 3/4). -/
theorem C85_last_shown_refuted (env : IterEnv) (hl : env.dataLen = some 20) :
    ∃ data : List (Cx ℝ × Cx ℝ), ∃ shown taken y y',
      iccorrMultiView false ccorr data none none { levelSize := 4, chunkSize := some 4 } env true
        (some 5) = (shown, .ok (taken, y)) ∧
      shown.getLast? = some y' ∧
      y'.stats.map (Option.map fun p => p.1.re) = [some 0, some 0] ∧
      y.stats.map (Option.map fun p => p.1.re) = [some (3 / 4), some (3 / 4)] := by
  set data : List (Cx ℝ × Cx ℝ) :=
    List.replicate 4 (0, 0) ++ List.replicate 16 (⟨1, 0⟩, ⟨1, 0⟩) with hdata
  have hd : data.length = 20 := by simp [hdata]
  have h := C31_case_regular
  rw [← hl] at h
  obtain ⟨taken, y, e1, e2, e3⟩ := C85_iccorr_multi_last data none none _ env _ h
    (by rw [hd]; decide) 5 (by decide)
  obtain ⟨y', f1, f2, -⟩ := C85_iccorr_multi_progress data none none _ env _ h 0 4 rfl
    (by rw [hd]; decide) (by decide) _ _ rfl rfl
  obtain ⟨fast, slow, g1, -⟩ := cross_any ccorr_CrossOK h (data := data) (by rw [hd]; decide) rfl rfl
  have hr := C85_iccorr_multi_result false ccorr data none none
    { levelSize := 4, chunkSize := some 4 } env true (some 5) (by decide)
  rw [g1, e1] at hr
  have hy : y = _ := (Prod.mk.inj (Except.ok.inj hr)).2
  refine ⟨data, _, taken, y, y', Prod.ext rfl e1, e3.trans f1, ?_, ?_⟩
  · rw [f2]
    norm_num [processed, hdata, List.take_append, meanOf]
  · rw [hy]
    norm_num [processed, hdata, List.take_append, meanOf, List.replicate_succ, Cx.add_re, Cx.zero_re]

/-! ### Cases -/

/-- 16 of 20 frames, chunks of 4: five yields; the third one (`p = 2`) is about 12 frames. -/
example (data : List (Cx ℝ × Cx ℝ)) (hd : data.length = 20) (env : IterEnv)
    (hl : env.dataLen = some 20) :
    (iccorrMultiView false ccorr data none none { levelSize := 4, chunkSize := some 4 } env true
      (some 1)).1.length = 5 := by
  have h := C31_case_regular
  rw [← hl] at h
  rw [(C85_iccorr_multi_number data none none _ env _ h (by rintro rfl; simp at hd)).1, hd]
  rfl

example (data : List (Cx ℝ × Cx ℝ)) (hd : data.length = 20) (env : IterEnv)
    (hl : env.dataLen = some 20) :
    ∃ y, (iccorrMultiView false ccorr data none none { levelSize := 4, chunkSize := some 4 } env true
      (some 1)).1[2]? = some y ∧
      y.stats = [some (meanOf ((data.map Prod.fst).take 12), varianceOf ((data.map Prod.fst).take 12)),
        some (meanOf ((data.map Prod.snd).take 12), varianceOf ((data.map Prod.snd).take 12))] := by
  have h := C31_case_regular
  rw [← hl] at h
  obtain ⟨y, e1, e2, -⟩ := C85_iccorr_multi_progress data none none _ env _ h 2 12 rfl
    (by rw [hd]; decide) (by decide) _ _ rfl rfl
  exact ⟨y, e1, e2⟩

/-- Level 1 has then seen 8 of the 12 frames, level 2 (above the last level that is binned on the
way) none. -/
example : binnedFrames { levelSize := 4, chunkSize := some 4 }
      ⟨upTo 20, upTo 20, 20, 4, 2, 16, 2, "corr", 1, 7⟩ 12 1 = 8 ∧
    binnedFrames { levelSize := 4, chunkSize := some 4 }
      ⟨upTo 20, upTo 20, 20, 4, 2, 16, 2, "corr", 1, 7⟩ 12 2 = 0 := by decide

/-- 11 frames only: two yields, then ValueError. -/
example (data : List (Cx ℝ × Cx ℝ)) (hd : data.length = 11) (env : IterEnv)
    (hl : env.dataLen = some 20) :
    (iccorrMultiView false ccorr data none none { levelSize := 4, chunkSize := some 4 } env true
      (some 1)).1.length = 2 ∧
    (iccorrMultiView false ccorr data none none { levelSize := 4, chunkSize := some 4 } env true
      (some 1)).2 = .error .valueError := by
  have h := C31_case_regular
  rw [← hl] at h
  have := C85_iccorr_multi_number data none none _ env _ h (by rintro rfl; simp at hd)
  exact ⟨by rw [this.1, hd]; rfl, this.2 (by rw [hd]; decide)⟩

/-- The irregular call of C31 (complex, mode 'full'): its first yield is about two frames. -/
example (data : List (Cx ℝ × Cx ℝ)) (hd : data.length = 4) (env : IterEnv)
    (hl : env.dataLen = none) :
    ∃ y, (iccorrMultiView true ccorrComplex data (some [0, 3, 4, 6]) (some [1, 2, 5, 7])
      { levelSize := 2, chunkSize := some 2, period := 2, norm := some 3, mode := "full" } env true
      (some 1)).1[0]? = some y ∧ y.slow.length = 1 := by
  have h : IterCall true true (some [0, 3, 4, 6]) (some [1, 2, 5, 7]) env.dataLen
      { levelSize := 2, chunkSize := some 2, period := 2, norm := some 3, mode := "full" }
      ⟨[0, 3, 4, 6], [1, 2, 5, 7], 4, 2, 1, 4, 1, "corr", 1, 3⟩ := by
    rw [hl]; exact C31_case_irregular
  obtain ⟨y, e1, -, e2, -⟩ := C85_iccorr_multi_progress_complex data _ _ _ env _ h 0 2 rfl
    (by rw [hd]; decide) (by decide) _ _ rfl rfl
  exact ⟨y, e1, e2⟩

/-- Auto-correlation of 8 frames by FFT in chunks of 4: three yields. -/
example (data : List (Cx ℝ)) (hd : data.length = 8) (env : IterEnv) (hl : env.dataLen = some 8) :
    (iacorrMultiView acorr ccorr data none ⟨3, none, some "fft", none, 1, none, some 1, some 4, false, "full"⟩ env true (some 1)).1.length = 3 := by
  have h := C31_case_fft
  rw [← hl] at h
  rw [(C85_iacorr_multi_number data none _ env _ h (by rintro rfl; simp at hd)).1, hd]
  rfl

end Cddm
