import Verif.Lemmas.IterYieldVal

/-!
# The calls of the viewer in the iterative functions
-/

namespace Cddm
open Spec

theorem watch_none_fst {Y : Type} (gen : List Y × Py Nat) : (watch none gen).1 = [] := by
  unfold watch
  rw [watchLoop_none]

theorem watch_some {Y : Type} {v : Int} (hv : v ≠ 0) (gen : List Y × Py Nat) :
    watch (some v) gen = (everyNth v gen.1, (watch none gen).2) := by
  unfold watch
  rw [watchLoop_some gen.2 hv]
  rfl

theorem watch_zero {Y : Type} (gen : List Y × Py Nat) (h : gen.1 ≠ []) :
    watch (some 0) gen = ([], .error .zeroDivisionError) := by
  obtain ⟨ys, ends⟩ := gen
  cases ys with
  | nil => exact absurd rfl h
  | cons y ys => rfl

theorem watch_zero_nil {Y : Type} (gen : List Y × Py Nat) (h : gen.1 = []) :
    watch (some 0) gen = watch none gen := by
  obtain ⟨ys, ends⟩ := gen
  obtain rfl : ys = [] := h
  rfl

theorem watch_map {Y Z : Type} (f : Y → Z) (gen : List Y × Py Nat) :
    (watch none (gen.1.map f, gen.2)).2 = (watch none gen).2.map fun r => (r.1, f r.2) := by
  unfold watch
  rw [watchLoop_none, watchLoop_none]
  simp only [Option.toList_none, List.nil_append, List.getLast?_map]
  cases gen.2 with
  | error e => rfl
  | ok t =>
    cases gen.1.getLast? <;> rfl

theorem zipIdx_filter_map {Y Z : Type} (f : Y → Z) (v : Int) : ∀ (ys : List Y) (i : Nat),
    (((ys.map f).zipIdx i).filter fun p => decide (v ∣ (p.2 : Int))).map Prod.fst
      = (((ys.zipIdx i).filter fun p => decide (v ∣ (p.2 : Int))).map Prod.fst).map f
  | [], _ => rfl
  | y :: ys, i => by
    rw [List.map_cons, List.zipIdx_cons, List.zipIdx_cons]
    by_cases h : v ∣ (i : Int)
    · rw [List.filter_cons_of_pos (by simpa using h), List.filter_cons_of_pos (by simpa using h)]
      simp only [List.map_cons]
      rw [zipIdx_filter_map f v ys]
    · rw [List.filter_cons_of_neg (by simpa using h), List.filter_cons_of_neg (by simpa using h),
        zipIdx_filter_map f v ys]

theorem everyNth_map {Y Z : Type} (f : Y → Z) (v : Int) (ys : List Y) :
    everyNth v (ys.map f) = (everyNth v ys).map f := zipIdx_filter_map f v ys 0

theorem everyNth_one {Y : Type} (ys : List Y) : everyNth 1 ys = ys := by
  unfold everyNth
  rw [List.filter_eq_self.2 (by simp)]
  simp

theorem everyNth_snoc {Y : Type} (v : Int) (ys : List Y) (y : Y) :
    everyNth v (ys ++ [y]) = everyNth v ys ++ if v ∣ (ys.length : Int) then [y] else [] := by
  unfold everyNth
  rw [List.zipIdx_append, List.filter_append, List.map_append]
  congr 1
  by_cases h : v ∣ (ys.length : Int)
  · simp [h]
  · simp [h]

/-- The last one that is selected. -/
theorem everyNth_getLast {Y : Type} {v : Int} (hv : v ≠ 0) (ys : List Y) :
    (everyNth v ys).getLast? = ys[(ys.length - 1) / v.natAbs * v.natAbs]? := by
  induction ys using List.reverseRecOn with
  | nil => rfl
  | append_singleton ys y ih =>
    have hpos : 0 < v.natAbs := Int.natAbs_pos.2 hv
    rw [everyNth_snoc, List.length_append, List.length_singleton, Nat.add_sub_cancel]
    by_cases h : v ∣ (ys.length : Int)
    · rw [if_pos h, List.getLast?_append_of_ne_nil _ (by simp),
        Nat.div_mul_cancel (Int.natCast_dvd_natCast.1 (Int.natAbs_dvd.2 h)),
        List.getElem?_append_right le_rfl]
      simp
    · rw [if_neg h, List.append_nil, ih]
      have hne : ys.length ≠ 0 := by
        intro h0
        rw [h0] at h
        simp at h
      obtain ⟨n, hn⟩ := Nat.exists_eq_succ_of_ne_zero hne
      have h' : ¬ v.natAbs ∣ n + 1 := by
        intro hd
        apply h
        rw [hn]
        exact Int.natAbs_dvd.1 (Int.natCast_dvd_natCast.2 hd)
      rw [hn, Nat.succ_sub_one, Nat.succ_div, if_neg h', Nat.add_zero,
        List.getElem?_append_left]
      have := Nat.div_mul_le_self n v.natAbs
      omega

theorem lastLevel_lt {o : MultiOpts} {e : Eff} {nd j : Nat} (h1 : o.nlevel = none → nd = e.k)
    (h2 : o.nlevel ≠ none → nd = e.nlevel + 1) (hj : 1 ≤ j) : j < nd ↔ j ≤ lastLevel o e := by
  unfold lastLevel
  by_cases h : o.nlevel = none
  · rw [if_pos h, h1 h]; omega
  · rw [if_neg h, h2 h]; omega

theorem getElem?_yields {Y : Type} (f : Nat → Y) {n p : Nat} (h : p < n) (l : List Y) :
    ((List.range n).map f ++ l)[p]? = some (f p) := by
  rw [List.getElem?_append_left (by simpa using h), List.getElem?_map, List.getElem?_range h]
  rfl

/-- A processed beginning of a list of frames. -/
theorem processed_part {α : Type} {cross cplx : Bool} {t1 t2 : Option (List Int)}
    {dl : Option Nat} {o : MultiOpts} {e : Eff} (_ : IterCall cross cplx t1 t2 dl o e) {x : List α}
    (f : α → Cx ℝ) {n m : Nat} (hc : e.chunk ≤ n) (hn : n ≤ x.length) (hm : m ≤ n) :
    processed o.autoBackground e.chunk m (x.map f)
      = (List.range m).map (shown o.autoBackground (frameAt (x.map f)) e.chunk) :=
  processed_eq _ (by rw [List.length_map]; omega) (by rw [List.length_map]; omega)

section cross
variable {C : Type} [AddCommMonoid C] {cplx : Bool} {g : String → Cx ℝ → Cx ℝ → C}
  {cc : CrossFn C} {data : List (Cx ℝ × Cx ℝ)} {t1 t2 : Option (List Int)} {o : MultiOpts}
  {env : IterEnv} {e : Eff}

theorem iccorrMultiView_call {stats : Bool} {viewer : Option Int}
    (h : t1.isSome = t2.isSome) :
    iccorrMultiView cplx cc data t1 t2 o env stats viewer
      = watch viewer ((crossGen cplx cc data t1 t2 o env).1.map (withStats stats),
          (crossGen cplx cc data t1 t2 o env).2) := by
  unfold iccorrMultiView
  rw [if_neg (pair_check h)]

theorem cross_count (K : CrossOK cplx g cc) (h : IterCall true cplx t1 t2 env.dataLen o e)
    (hne : data ≠ []) : (crossGen cplx cc data t1 t2 o env).1.length
      = min data.length e.frames / e.chunk + if e.frames ≤ data.length then 1 else 0 := by
  obtain ⟨nd, -, -, final, hg⟩ := cross_yields K h hne _ _ rfl rfl
  rw [hg]
  simp only [List.length_append, List.length_map, List.length_range]
  split <;> simp

/-- The `p`-th yield. -/
theorem cross_at (K : CrossOK cplx g cc) (h : IterCall true cplx t1 t2 env.dataLen o e)
    {p n : Nat} (hn : n = (p + 1) * e.chunk) (hlen : n ≤ data.length) (hfr : n ≤ e.frames)
    {y1 y2 : List (Cx ℝ)}
    (hy1 : y1 = processed o.autoBackground e.chunk n (data.map Prod.fst))
    (hy2 : y2 = processed o.autoBackground e.chunk n (data.map Prod.snd)) :
    ∃ y, (crossGen cplx cc data t1 t2 o env).1[p]? = some y ∧
      y.stats = [some (meanOf y1, varianceOf y1), some (meanOf y2, varianceOf y2)] ∧
      y.slow.length = e.nlevel ∧
      (o.mode = "full" → Spaced e.chunk e.frames (o.period * o.levelSize) e.T1 e.T2 →
        y.fast = crossData cplx (g e.method) e.method e.norm (iterLen cplx (o.period * o.levelSize))
          (stream y1 (some (e.T1.take n))) (stream y2 (some (e.T2.take n)))
          (stream (y1.map Cx.abs2) (some (e.T1.take n)))
          (stream (y2.map Cx.abs2) (some (e.T2.take n)))) ∧
      (o.mode = "chunk" →
        y.fast = crossDataSum cplx (g e.method) e.method e.norm
          (iterLen cplx (o.period * o.levelSize)) (p + 1)
          (fun q => stream (piece e.chunk q y1) (some (piece e.chunk q (e.T1.take n))))
          (fun q => stream (piece e.chunk q y2) (some (piece e.chunk q (e.T2.take n))))
          (fun q => stream (piece e.chunk q (y1.map Cx.abs2))
            (some (piece e.chunk q (e.T1.take n))))
          (fun q => stream (piece e.chunk q (y2.map Cx.abs2))
            (some (piece e.chunk q (e.T2.take n))))) ∧
      (o.mode = "full" → e.binning = 1 → ∀ j z1 z2, j < e.nlevel →
        z1 = processed o.autoBackground e.chunk (binnedFrames o e n (j + 1)) (data.map Prod.fst) →
        z2 = processed o.autoBackground e.chunk (binnedFrames o e n (j + 1)) (data.map Prod.snd) →
        y.slow[j]? = some (crossData cplx (g e.method) e.method e.norm (iterLen cplx o.levelSize)
          (regular (blockMeans (2 ^ (j + 1)) z1)) (regular (blockMeans (2 ^ (j + 1)) z2))
          (regular (blockMeans (2 ^ (j + 1)) (z1.map Cx.abs2)))
          (regular (blockMeans (2 ^ (j + 1)) (z2.map Cx.abs2))))) := by
  have hc : 0 < e.chunk := h.frames.level.trans_le h.frames.lo
  have hcn : e.chunk ≤ n := by rw [hn]; exact Nat.le_mul_of_pos_left _ (by omega)
  have hne : data ≠ [] := by
    rintro rfl
    simp at hlen
    omega
  obtain ⟨nd, hn1, hn2, final, hg⟩ := cross_yields K h hne _ _ rfl rfl
  have hp : p < min data.length e.frames / e.chunk := by
    rw [Nat.lt_iff_add_one_le, Nat.le_div_iff_mul_le hc, ← hn]
    omega
  have e1 := processed_part h Prod.fst hcn hlen le_rfl
  have e2 := processed_part h Prod.snd hcn hlen le_rfl
  have hT1 := h.args.times1
  have hT2 := h.args.times2
  refine ⟨_, by rw [hg]; exact getElem?_yields _ hp _, ?_, by simp, ?_, ?_, ?_⟩
  · rw [hy1, hy2, e1, e2, hn]
    simp only
    rw [statOf_eq _ (by omega), statOf_eq _ (by omega)]
  · intro hmode hsp
    have := fastAt_full cplx (g e.method) (cfg := callCfg o e nd) (T1 := e.T1) (T2 := e.T2) env.rand
      (needsSquares e.norm.toNat && decide (e.method ≠ "diff"))
      (shown o.autoBackground (frameAt (data.map Prod.fst)) e.chunk)
      (shown o.autoBackground (frameAt (data.map Prod.snd)) e.chunk) (m := e.method) (v := e.norm)
      (n := o.period * o.levelSize) (p := p) h.args.norm rfl
      (by simp [callCfg, cfgOf, hmode]) (le_trans (by rw [hn] at hfr; exact hfr) hT1)
      (le_trans (by rw [hn] at hfr; exact hfr) hT2)
      (spaced_mono hsp (by rw [hn] at hfr; exact hfr))
    rw [hy1, hy2, e1, e2, hn]
    exact this
  · intro hmode
    have := fastAt_chunk cplx (g e.method) (cfg := callCfg o e nd) (T1 := e.T1) (T2 := e.T2) env.rand
      (needsSquares e.norm.toNat && decide (e.method ≠ "diff"))
      (shown o.autoBackground (frameAt (data.map Prod.fst)) e.chunk)
      (shown o.autoBackground (frameAt (data.map Prod.snd)) e.chunk) (m := e.method) (v := e.norm)
      (n := o.period * o.levelSize) (p := p) h.args.norm rfl
      (by simp [callCfg, cfgOf, hmode]) (le_trans (by rw [hn] at hfr; exact hfr) hT1)
      (le_trans (by rw [hn] at hfr; exact hfr) hT2)
    rw [hy1, hy2, e1, e2, hn]
    exact this
  · intro hmode hb j z1 z2 hj hz1 hz2
    have hM : binnedFrames o e n (j + 1) ≤ n := by
      unfold binnedFrames
      split
      · exact Nat.div_mul_le_self _ _
      · exact Nat.zero_le _
    rw [processed_part h Prod.fst hcn hlen hM] at hz1
    rw [processed_part h Prod.snd hcn hlen hM] at hz2
    have := slowAt_full cplx (g e.method) (cfg := callCfg o e nd) (T1 := e.T1) (T2 := e.T2) env.rand
      (needsSquares e.norm.toNat && decide (e.method ≠ "diff"))
      (shown o.autoBackground (frameAt (data.map Prod.fst)) e.chunk)
      (shown o.autoBackground (frameAt (data.map Prod.snd)) e.chunk) (m := e.method) (v := e.norm)
      (n := o.levelSize) (j := j + 1) (p := p) (M := binnedFrames o e n (j + 1)) h.args.norm rfl rfl
      (by simp [callCfg, cfgOf, hmode]) hb (by rw [hn] at hfr; exact hfr) hc h.frames.lo (by omega)
      (by
        have := lastLevel_lt hn1 hn2 (show 1 ≤ j + 1 by omega)
        unfold binnedFrames
        by_cases hlt : j + 1 < nd
        · rw [if_pos (this.1 hlt), hn]
          exact (if_pos hlt).symm
        · rw [if_neg (fun hh => hlt (this.2 hh))]
          exact (if_neg hlt).symm)
    rw [hz1, hz2, List.getElem?_map, List.getElem?_range hj, ← this]
    rfl

end cross

section auto
variable {data : List (Cx ℝ)} {t : Option (List Int)} {o : MultiOpts} {env : IterEnv} {e : Eff}

theorem auto_count {C : Type} [AddCommMonoid C] {cplx : Bool} {g : String → Cx ℝ → Cx ℝ → C}
    {cor : String → Stream (Cx ℝ) → Nat → C} {ac : AutoFn C} {cc : CrossFn C}
    (K : CrossOK cplx g cc) (KA : AutoOK cplx cor ac)
    (hshift : ∀ m c s, cor m (shiftStream c s) = cor m s)
    (h : IterCall false cplx t none env.dataLen o e)
    (hne : data ≠ []) : (autoGen ac cc data t o env).1.length
      = min data.length e.frames / e.chunk + if e.frames ≤ data.length then 1 else 0 := by
  obtain ⟨nd, -, -, final, hg⟩ := auto_yields K KA hshift h hne _ rfl
  rw [hg]
  simp only [List.length_append, List.length_map, List.length_range]
  split <;> simp

/-- The `p`-th yield: statistics, and the fast part in mode 'chunk'. -/
theorem auto_at {C : Type} [AddCommMonoid C] {cplx : Bool} {g : String → Cx ℝ → Cx ℝ → C}
    {cor : String → Stream (Cx ℝ) → Nat → C} {ac : AutoFn C} {cc : CrossFn C}
    (K : CrossOK cplx g cc) (KA : AutoOK cplx cor ac)
    (hshift : ∀ m c s, cor m (shiftStream c s) = cor m s)
    (h : IterCall false cplx t none env.dataLen o e)
    {p n : Nat} (hn : n = (p + 1) * e.chunk) (hlen : n ≤ data.length) (hfr : n ≤ e.frames)
    {y1 : List (Cx ℝ)} (hy1 : y1 = processed o.autoBackground e.chunk n data) :
    ∃ y, (autoGen ac cc data t o env).1[p]? = some y ∧
      y.stats = [some (meanOf y1, varianceOf y1)] ∧ y.slow.length = e.nlevel ∧
      (o.mode = "chunk" →
        y.fast = autoDataSum (cor e.method) e.method e.norm (o.period * o.levelSize) (p + 1)
          (fun q => stream (piece e.chunk q y1) (some (piece e.chunk q (e.T1.take n))))
          (fun q => stream (piece e.chunk q (y1.map Cx.abs2))
            (some (piece e.chunk q (e.T1.take n))))) := by
  have hc : 0 < e.chunk := h.frames.level.trans_le h.frames.lo
  have hcn : e.chunk ≤ n := by rw [hn]; exact Nat.le_mul_of_pos_left _ (by omega)
  have hne : data ≠ [] := by
    rintro rfl
    simp at hlen
    omega
  obtain ⟨nd, hn1, hn2, final, hg⟩ := auto_yields K KA hshift h hne _ rfl
  have hp : p < min data.length e.frames / e.chunk := by
    rw [Nat.lt_iff_add_one_le, Nat.le_div_iff_mul_le hc, ← hn]
    omega
  have e1 := processed_part h id hcn hlen le_rfl
  rw [List.map_id] at e1
  have hT1 := h.args.times1
  refine ⟨_, by rw [hg]; exact getElem?_yields _ hp _, ?_, by simp, ?_⟩
  · rw [hy1, e1, hn]
    simp only
    rw [statOf_eq _ (by omega)]
  · intro hmode
    have := fastAt_chunk_auto cplx (cor e.method) (g e.method) (cfg := callCfg o e nd) (T := e.T1)
      env.rand (needsSquares e.norm.toNat && decide (e.method ≠ "diff"))
      (shown o.autoBackground (frameAt data) e.chunk) (m := e.method) (v := e.norm)
      (n := o.period * o.levelSize) (p := p) h.args.norm
      (by simp [callCfg, cfgOf, hmode]) (le_trans (by rw [hn] at hfr; exact hfr) hT1)
    rw [hy1, e1, hn]
    exact this

/-- Mode 'full', real. -/
theorem auto_at_full (h : IterCall false false t none env.dataLen o e) (hmode : o.mode = "full")
    {p n : Nat} (hn : n = (p + 1) * e.chunk) (hlen : n ≤ data.length) (hfr : n ≤ e.frames)
    {y1 : List (Cx ℝ)} (hy1 : y1 = processed o.autoBackground e.chunk n data) :
    ∃ y, (autoGen acorr ccorr data t o env).1[p]? = some y ∧
      (Spaced e.chunk e.frames (o.period * o.levelSize) e.T1 e.T1 →
        y.fast = autoData (productOf e.method) e.method e.norm (o.period * o.levelSize)
          (stream y1 (some (e.T1.take n))) (stream (y1.map Cx.abs2) (some (e.T1.take n)))) ∧
      (e.binning = 1 → ∀ j z1, j < e.nlevel →
        z1 = processed o.autoBackground e.chunk (binnedFrames o e n (j + 1)) data →
        y.slow[j]? = some (autoData (productOf e.method) e.method e.norm o.levelSize
          (regular (blockMeans (2 ^ (j + 1)) z1))
          (regular (blockMeans (2 ^ (j + 1)) (z1.map Cx.abs2))))) := by
  have hc : 0 < e.chunk := h.frames.level.trans_le h.frames.lo
  have hcn : e.chunk ≤ n := by rw [hn]; exact Nat.le_mul_of_pos_left _ (by omega)
  have hne : data ≠ [] := by
    rintro rfl
    simp at hlen
    omega
  obtain ⟨nd, hn1, hn2, final, hg⟩ := auto_yields ccorr_CrossOK acorr_AutoOK
    (fun m c s => funext (selfSum_shift _ _ _)) h hne _ rfl
  have hp : p < min data.length e.frames / e.chunk := by
    rw [Nat.lt_iff_add_one_le, Nat.le_div_iff_mul_le hc, ← hn]
    omega
  have e1 := processed_part h id hcn hlen le_rfl
  rw [List.map_id] at e1
  have hT1 := h.args.times1
  refine ⟨_, by rw [hg]; exact getElem?_yields _ hp _, ?_, ?_⟩
  · intro hsp
    have := fastAt_full_auto (cfg := callCfg o e nd) (T := e.T1)
      env.rand (needsSquares e.norm.toNat && decide (e.method ≠ "diff"))
      (shown o.autoBackground (frameAt data) e.chunk) (m := e.method) (v := e.norm)
      (n := o.period * o.levelSize) (p := p) h.args.norm
      (by simp [callCfg, cfgOf, hmode]) (le_trans (by rw [hn] at hfr; exact hfr) hT1)
      (spaced_mono hsp (by rw [hn] at hfr; exact hfr))
    rw [hy1, e1, hn]
    exact this
  · intro hb j z1 hj hz1
    have hM : binnedFrames o e n (j + 1) ≤ n := by
      unfold binnedFrames
      split
      · exact Nat.div_mul_le_self _ _
      · exact Nat.zero_le _
    have e2 := processed_part h id hcn hlen hM
    rw [List.map_id] at e2
    rw [e2] at hz1
    have := slowAt_full_auto (cfg := callCfg o e nd) (T := e.T1) env.rand
      (needsSquares e.norm.toNat && decide (e.method ≠ "diff"))
      (shown o.autoBackground (frameAt data) e.chunk) (m := e.method) (v := e.norm)
      (n := o.levelSize) (j := j + 1) (p := p) (M := binnedFrames o e n (j + 1)) h.args.norm rfl
      (by simp [callCfg, cfgOf, hmode]) hb (by rw [hn] at hfr; exact hfr) hc h.frames.lo (by omega)
      (by
        have := lastLevel_lt hn1 hn2 (show 1 ≤ j + 1 by omega)
        unfold binnedFrames
        by_cases hlt : j + 1 < nd
        · rw [if_pos (this.1 hlt), hn]
          exact (if_pos hlt).symm
        · rw [if_neg (fun hh => hlt (this.2 hh))]
          exact (if_neg hlt).symm)
    rw [hz1, List.getElem?_map, List.getElem?_range hj, ← this]
    rfl

end auto

end Cddm
