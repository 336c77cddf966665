import Verif.Lemmas.IterMain
import Mathlib.Tactic.IntervalCases

/-!
# C31, C39: the iterative functions in mode 'full'

`processed ab c N x` (Spec/MultitauIter) are the first `N` frames, less the mean of the first `c` if
`ab`; `crossData`, `autoData` (Spec/Multitau) are the arrays of an un-chunked correlation, written
as sums over all pairs of samples.
-/

namespace Cddm
open Spec

/-! ### C31: chunked = un-chunked -/

theorem C31_iccorr_multi_full (data : List (Cx ℝ × Cx ℝ)) (t1 t2 : Option (List Int))
    (o : MultiOpts) (env : IterEnv) (e : Eff) (h : IterCall true false t1 t2 env.dataLen o e)
    (hmode : o.mode = "full") (hsp : Spaced e.chunk e.frames (o.period * o.levelSize) e.T1 e.T2)
    (hlen : e.frames ≤ data.length) (y1 y2 : List (Cx ℝ))
    (hy1 : y1 = processed o.autoBackground e.chunk e.frames (data.map Prod.fst))
    (hy2 : y2 = processed o.autoBackground e.chunk e.frames (data.map Prod.snd)) :
    ∃ taken slow stats, iccorrMulti data t1 t2 o env = .ok (taken,
      ⟨crossData false (productOf e.method) e.method e.norm (o.period * o.levelSize)
          (stream y1 (some (e.T1.take e.frames))) (stream y2 (some (e.T2.take e.frames)))
          (stream (y1.map Cx.abs2) (some (e.T1.take e.frames)))
          (stream (y2.map Cx.abs2) (some (e.T2.take e.frames))), slow, stats⟩) := by
  obtain ⟨slow, h1, -⟩ := cross_full ccorr_CrossOK h hmode hsp hlen hy1 hy2
  exact ⟨_, slow, _, h1⟩

theorem C31_iccorr_multi_full_complex (data : List (Cx ℝ × Cx ℝ)) (t1 t2 : Option (List Int))
    (o : MultiOpts) (env : IterEnv) (e : Eff) (h : IterCall true true t1 t2 env.dataLen o e)
    (hmode : o.mode = "full") (hsp : Spaced e.chunk e.frames (o.period * o.levelSize) e.T1 e.T2)
    (hlen : e.frames ≤ data.length) (y1 y2 : List (Cx ℝ))
    (hy1 : y1 = processed o.autoBackground e.chunk e.frames (data.map Prod.fst))
    (hy2 : y2 = processed o.autoBackground e.chunk e.frames (data.map Prod.snd)) :
    ∃ taken slow stats, iccorrMultiComplex data t1 t2 o env = .ok (taken,
      ⟨crossData true cxProd e.method e.norm (2 * (o.period * o.levelSize) - 1)
          (stream y1 (some (e.T1.take e.frames))) (stream y2 (some (e.T2.take e.frames)))
          (stream (y1.map Cx.abs2) (some (e.T1.take e.frames)))
          (stream (y2.map Cx.abs2) (some (e.T2.take e.frames))), slow, stats⟩) := by
  obtain ⟨slow, h1, -⟩ := cross_full ccorrComplex_CrossOK h hmode hsp hlen hy1 hy2
  exact ⟨_, slow, _, h1⟩

theorem C31_iacorr_multi_full (data : List (Cx ℝ)) (t : Option (List Int))
    (o : MultiOpts) (env : IterEnv) (e : Eff) (h : IterCall false false t none env.dataLen o e)
    (hmode : o.mode = "full") (hsp : Spaced e.chunk e.frames (o.period * o.levelSize) e.T1 e.T1)
    (hlen : e.frames ≤ data.length) (y : List (Cx ℝ))
    (hy : y = processed o.autoBackground e.chunk e.frames data) :
    ∃ taken slow stats, iacorrMulti data t o env = .ok (taken,
      ⟨autoData (productOf e.method) e.method e.norm (o.period * o.levelSize)
          (stream y (some (e.T1.take e.frames)))
          (stream (y.map Cx.abs2) (some (e.T1.take e.frames))), slow, stats⟩) := by
  obtain ⟨slow, h1, -⟩ := auto_full h hmode hsp hlen hy
  exact ⟨_, slow, _, h1⟩

/-! ... which is what the un-chunked functions return for the same frames. -/

theorem chunk_span {cross cplx : Bool} {m : String} {v : Int} {c N n : Nat} {T1 T2 : List Int}
    (h : IterArgs cross cplx m v c N n T1 T2) (hc : 0 < c) (hcN : c ≤ N) (hm : m = "fft") (D : Nat) :
    1 ≤ n ∧ n ≤ defaultN D (some (T1.take N)) (some (T2.take N)) + 1 := by
  have hf := h.fft hm
  refine ⟨hf.pos, ?_⟩
  obtain ⟨i, j, e1, e2, e3⟩ := hf.span 0 0 (by omega) (by omega) (by omega) (by omega)
  have hi : i < c := by
    by_contra hlt
    have := Nat.div_pos (Nat.le_of_not_lt hlt) hc
    omega
  have hj : j < c := by
    by_contra hlt
    have := Nat.div_pos (Nat.le_of_not_lt hlt) hc
    omega
  have h1 := h.times1
  have h2 := h.times2
  have hm1 : T1.getD i 0 ∈ T1.take N := by
    rw [List.getD_eq_getElem?_getD, List.getElem?_eq_getElem (show i < T1.length by omega),
      Option.getD_some]
    exact List.mem_take_iff_getElem.2 ⟨i, by omega, rfl⟩
  have hm2 : T2.getD j 0 ∈ T2.take N := by
    rw [List.getD_eq_getElem?_getD, List.getElem?_eq_getElem (show j < T2.length by omega),
      Option.getD_some]
    exact List.mem_take_iff_getElem.2 ⟨j, by omega, rfl⟩
  have := lt_defaultN D _ _ hm1 hm2
  rw [Int.abs_eq_natAbs] at e3
  omega

theorem processed_length (ab : Bool) (c N : Nat) {x : List (Cx ℝ)} (h : N ≤ x.length) :
    (processed ab c N x).length = N := by
  unfold processed
  cases ab <;> simp [h]

theorem callOK_whole {cplx : Bool} {t1 t2 : Option (List Int)} {dl : Option Nat} {o : MultiOpts}
    {e : Eff} (h : IterCall true cplx t1 t2 dl o e) {N1 N2 : Nat} (h1 : N1 = e.frames)
    (h2 : N2 = e.frames) :
    CallOK cplx e.method e.norm N1 N2 (some (e.T1.take e.frames)) (some (e.T2.take e.frames))
      none none (iterLen cplx (o.period * o.levelSize)) (iterLen cplx (o.period * o.levelSize)) := by
  have hpos := IterCall.pos h
  have hn : 1 ≤ o.period * o.levelSize := Nat.mul_pos h.period h.frames.level
  subst h1 h2
  refine ⟨h.args.method, h.args.norm, h.args.diff, ⟨rfl, ?_, ?_, by omega⟩, by simp, by simp,
    ?_, ⟨?_, ?_, ?_⟩, ?_⟩
  · have := h.args.times1; simp [this]
  · have := h.args.times2; simp [this]
  · intro hm
    have := h.args.fft hm
    refine ⟨fun l hl => ?_, fun l hl => ?_, by omega⟩
    · rw [← Option.some.inj hl]; exact this.nodup1
    · rw [← Option.some.inj hl]; exact this.nodup2
  · intro hc; subst hc; simp only [iterLen, if_true]; omega
  · intro hm; unfold iterLen; split <;> omega
  · rintro (hm | hm)
    · have := chunk_span h.args (h.frames.level.trans_le h.frames.lo) (IterCall.chunk_le h) hm
        e.frames
      unfold iterLen
      cases cplx
      · simpa using this.2
      · simp only [if_true]; omega
    · simp at hm
  · intro hc; subst hc; simp only [iterLen, if_true]; omega

theorem C31_iccorr_multi_full_eq_ccorr (data : List (Cx ℝ × Cx ℝ)) (t1 t2 : Option (List Int))
    (o : MultiOpts) (env : IterEnv) (e : Eff) (h : IterCall true false t1 t2 env.dataLen o e)
    (hmode : o.mode = "full") (hsp : Spaced e.chunk e.frames (o.period * o.levelSize) e.T1 e.T2)
    (hlen : e.frames ≤ data.length) (y1 y2 : List (Cx ℝ)) (al : Bool)
    (hy1 : y1 = processed o.autoBackground e.chunk e.frames (data.map Prod.fst))
    (hy2 : y2 = processed o.autoBackground e.chunk e.frames (data.map Prod.snd)) :
    ∃ taken slow stats r, iccorrMulti data t1 t2 o env = .ok (taken, ⟨r.arrays, slow, stats⟩) ∧
      ccorr y1 y2 (some (e.T1.take e.frames)) (some (e.T2.take e.frames))
        (some (o.period * o.levelSize)) (some e.norm) (some e.method) al none none {} = .ok r := by
  obtain ⟨slow, h1, -⟩ := cross_full ccorr_CrossOK h hmode hsp hlen hy1 hy2
  obtain ⟨r, e1, e2⟩ := ccorr_CrossOK.new (f1 := y1) (f2 := y2) (al := al)
    (n := o.period * o.levelSize) (L := iterLen false (o.period * o.levelSize)) rfl
    (callOK_whole h (by rw [hy1, processed_length _ _ _ (by simpa using hlen)])
      (by rw [hy2, processed_length _ _ _ (by simpa using hlen)]))
  refine ⟨min data.length (e.frames + 1), slow,
    [some (meanOf y1, varianceOf y1), some (meanOf y2, varianceOf y2)], r, ?_, e1⟩
  rw [e2]
  rw [crossData_eq false (productOf e.method) h.args.norm] at h1
  exact h1

theorem C31_iccorr_multi_full_complex_eq_ccorr (data : List (Cx ℝ × Cx ℝ))
    (t1 t2 : Option (List Int))
    (o : MultiOpts) (env : IterEnv) (e : Eff) (h : IterCall true true t1 t2 env.dataLen o e)
    (hmode : o.mode = "full") (hsp : Spaced e.chunk e.frames (o.period * o.levelSize) e.T1 e.T2)
    (hlen : e.frames ≤ data.length) (y1 y2 : List (Cx ℝ)) (al : Bool)
    (hy1 : y1 = processed o.autoBackground e.chunk e.frames (data.map Prod.fst))
    (hy2 : y2 = processed o.autoBackground e.chunk e.frames (data.map Prod.snd)) :
    ∃ taken slow stats r, iccorrMultiComplex data t1 t2 o env = .ok (taken, ⟨r.arrays, slow, stats⟩) ∧
      ccorrComplex y1 y2 (some (e.T1.take e.frames)) (some (e.T2.take e.frames))
        (some (o.period * o.levelSize)) (some e.norm) (some e.method) al none none {} = .ok r := by
  obtain ⟨slow, h1, -⟩ := cross_full ccorrComplex_CrossOK h hmode hsp hlen hy1 hy2
  obtain ⟨r, e1, e2⟩ := ccorrComplex_CrossOK.new (f1 := y1) (f2 := y2) (al := al)
    (n := o.period * o.levelSize) (L := iterLen true (o.period * o.levelSize)) rfl
    (callOK_whole h (by rw [hy1, processed_length _ _ _ (by simpa using hlen)])
      (by rw [hy2, processed_length _ _ _ (by simpa using hlen)]))
  refine ⟨min data.length (e.frames + 1), slow,
    [some (meanOf y1, varianceOf y1), some (meanOf y2, varianceOf y2)], r, ?_, e1⟩
  rw [e2]
  rw [crossData_eq true cxProd h.args.norm] at h1
  exact h1

theorem C31_iacorr_multi_full_eq_acorr (data : List (Cx ℝ)) (t : Option (List Int))
    (o : MultiOpts) (env : IterEnv) (e : Eff) (h : IterCall false false t none env.dataLen o e)
    (hmode : o.mode = "full") (hsp : Spaced e.chunk e.frames (o.period * o.levelSize) e.T1 e.T1)
    (hlen : e.frames ≤ data.length) (y : List (Cx ℝ)) (al : Bool)
    (hy : y = processed o.autoBackground e.chunk e.frames data) :
    ∃ taken slow stats r, iacorrMulti data t o env = .ok (taken, ⟨r.arrays, slow, stats⟩) ∧
      acorr y (some (e.T1.take e.frames)) (some (o.period * o.levelSize)) (some e.norm)
        (some e.method) al none {} = .ok r := by
  have hpos := IterCall.pos h
  have hT : e.T2 = e.T1 := h.times.second
  obtain ⟨slow, h1, -⟩ := auto_full h hmode hsp hlen hy
  have hyl : y.length = e.frames := by rw [hy, processed_length _ _ _ hlen]
  obtain ⟨r, e1, e2⟩ := acorr_AutoOK.new (f := y) (al := al) (fs := none) (m := e.method)
    (v := e.norm) (t := some (e.T1.take e.frames)) (n := o.period * o.levelSize)
    ⟨h.args.method, h.args.norm, ⟨by have := h.args.times1; simp [this, hyl], by omega⟩, by simp,
      fun l hl => by rw [← Option.some.inj hl]; exact h.args.distinct rfl, fun _ => by omega,
      ⟨by simp, fun hm => (h.args.fft hm).pos, by
        rintro (hm | hm)
        · have := chunk_span h.args (h.frames.level.trans_le h.frames.lo) (IterCall.chunk_le h) hm
            y.length
          rw [hT] at this
          simpa using this.2
        · simp at hm⟩⟩ (by simp)
  refine ⟨min data.length (e.frames + 1), slow, [some (meanOf y, varianceOf y)], r, ?_, e1⟩
  rw [e2]
  rw [autoData_eq (productOf e.method) h.args.norm] at h1
  exact h1

/-! The spacing holds for regular data, and for data with one frame per period. -/

theorem C31_spaced_regular (c N n : Nat) (hc : 0 < c) (hn : n ≤ c + 1) :
    Spaced c N n (upTo N) (upTo N) := spaced_arange hc hn

theorem C31_spaced_period (c N n p : Nat) (T1 T2 : List Int) (hc : 0 < c) (hn : n ≤ p * c)
    (h1 : OnePerPeriod p N T1) (h2 : OnePerPeriod p N T2) : Spaced c N n T1 T2 := by
  intro i j hi hj h
  obtain ⟨a1, a2⟩ := h1 i hi
  obtain ⟨b1, b2⟩ := h2 j hj
  have d1 := Nat.div_add_mod i c
  have d2 := Nat.div_add_mod j c
  have d3 := Nat.mod_lt i hc
  have d4 := Nat.mod_lt j hc
  have hn' : (n : Int) ≤ p * c := by exact_mod_cast hn
  rcases h with h | h
  · have : c * (i / c + 2) ≤ c * (j / c) := Nat.mul_le_mul_left _ h
    rw [mul_add] at this
    have h3 : i + c + 1 ≤ j := by omega
    have h4 : (p : Int) * (i + c + 1 : Nat) ≤ p * j := by
      exact_mod_cast Nat.mul_le_mul_left p h3
    push_cast at h4
    rw [le_abs]
    left
    nlinarith
  · have : c * (j / c + 2) ≤ c * (i / c) := Nat.mul_le_mul_left _ h
    rw [mul_add] at this
    have h3 : j + c + 1 ≤ i := by omega
    have h4 : (p : Int) * (j + c + 1 : Nat) ≤ p * i := by
      exact_mod_cast Nat.mul_le_mul_left p h3
    push_cast at h4
    rw [le_abs]
    right
    nlinarith

/-- The number of linear delays is `period * level_size`, so one frame per period suffices. -/
theorem C31_spaced_call {cross cplx : Bool} {t1 t2 : Option (List Int)} {dl : Option Nat}
    {o : MultiOpts} {e : Eff} (h : IterCall cross cplx t1 t2 dl o e)
    (h1 : OnePerPeriod o.period e.frames e.T1) (h2 : OnePerPeriod o.period e.frames e.T2) :
    Spaced e.chunk e.frames (o.period * o.levelSize) e.T1 e.T2 :=
  C31_spaced_period _ _ _ o.period _ _ (h.frames.level.trans_le h.frames.lo)
    (Nat.mul_le_mul_left _ h.frames.lo) h1 h2

/-! Non-trivial cases of the hypotheses. -/

/-- Regular data: 20 frames in chunks of 4, level size 4: 16 frames are processed, 2 slow levels. -/
theorem C31_case_regular : IterCall true false none none (some 20)
    { levelSize := 4, chunkSize := some 4 }
    ⟨upTo 20, upTo 20, 20, 4, 2, 16, 2, "corr", 1, 7⟩ where
  pair := fun _ => rfl
  mode := .inl rfl
  times := ⟨.inr ⟨rfl, by simp, fun _ => rfl⟩, rfl, rfl, by decide, rfl⟩
  frames := ⟨.inl rfl, by decide, by decide, by decide, by decide, by decide⟩
  levels := ⟨2, by decide, by decide, fun _ => rfl, by simp⟩
  binning := ⟨rfl, rfl, .inl ⟨.inl rfl, .inr (.inl rfl)⟩⟩
  norm := rfl
  args := ⟨.inl rfl, by simp [SupportedNorm], by simp, by decide, by decide, by simp, by simp⟩
  period := by decide
  fft := by simp

example : Spaced 4 16 (1 * 4) (upTo 20) (upTo 20) :=
  spaced_mono (C31_spaced_regular 4 20 4 (by decide) (by decide)) (by decide)

/-- Irregular times, one frame in every two time units, 4 frames in chunks of 2. -/
theorem C31_case_irregular : IterCall true true (some [0, 3, 4, 6]) (some [1, 2, 5, 7]) none
    { levelSize := 2, chunkSize := some 2, period := 2, norm := some 3, mode := "full" }
    ⟨[0, 3, 4, 6], [1, 2, 5, 7], 4, 2, 1, 4, 1, "corr", 1, 3⟩ where
  pair := fun _ => rfl
  mode := .inl rfl
  times := ⟨.inr ⟨rfl, by simp, by simp⟩, rfl, rfl, by decide, rfl⟩
  frames := ⟨.inl rfl, by decide, by decide, by decide, by decide, by decide⟩
  levels := ⟨1, by decide, by decide, fun _ => rfl, by simp⟩
  binning := ⟨rfl, rfl, .inl ⟨.inl rfl, .inr (.inl rfl)⟩⟩
  norm := rfl
  args := ⟨.inl rfl, by simp [SupportedNorm], by simp, by decide, by decide, by simp, by simp⟩
  period := by decide
  fft := by simp

example : OnePerPeriod 2 4 [0, 3, 4, 6] ∧ OnePerPeriod 2 4 [1, 2, 5, 7] := by
  constructor <;>
  · intro i hi
    interval_cases i <;> simp

/-- Auto-correlation with method 'fft', 8 frames in chunks of 4, 'chunk' mode also allowed. -/
theorem C31_case_fft : IterCall false false none none (some 8)
    { levelSize := 3, chunkSize := some 4, method := some "fft", nlevel := some 1 }
    ⟨upTo 8, upTo 8, 8, 4, 1, 8, 1, "fft", 1, 7⟩ where
  pair := by simp
  mode := .inl rfl
  times := ⟨.inr ⟨rfl, by simp, fun _ => rfl⟩, rfl, rfl, by decide, rfl⟩
  frames := ⟨.inl rfl, by decide, by decide, by decide, by decide, by decide⟩
  levels := ⟨1, by decide, by decide, by simp, by simp⟩
  binning := ⟨rfl, rfl, .inl ⟨.inr rfl, .inr (.inl rfl)⟩⟩
  norm := rfl
  args := iterArgs_arange (.inr (.inl rfl)) (by simp [SupportedNorm]) (by simp) (by decide)
    (by decide) (by decide)
  period := by decide
  fft := by decide

/-! ### C39: statistics -/

theorem C39_iccorr_multi_stats (data : List (Cx ℝ × Cx ℝ)) (t1 t2 : Option (List Int))
    (o : MultiOpts) (env : IterEnv) (e : Eff) (h : IterCall true false t1 t2 env.dataLen o e)
    (hlen : e.frames ≤ data.length) (y1 y2 : List (Cx ℝ))
    (hy1 : y1 = processed o.autoBackground e.chunk e.frames (data.map Prod.fst))
    (hy2 : y2 = processed o.autoBackground e.chunk e.frames (data.map Prod.snd)) :
    ∃ taken fast slow, iccorrMulti data t1 t2 o env = .ok (taken, ⟨fast, slow,
      [some (meanOf y1, varianceOf y1), some (meanOf y2, varianceOf y2)]⟩) := by
  obtain ⟨fast, slow, e1, -⟩ := cross_any ccorr_CrossOK h hlen hy1 hy2
  exact ⟨_, fast, slow, e1⟩

theorem C39_iccorr_multi_stats_complex (data : List (Cx ℝ × Cx ℝ)) (t1 t2 : Option (List Int))
    (o : MultiOpts) (env : IterEnv) (e : Eff) (h : IterCall true true t1 t2 env.dataLen o e)
    (hlen : e.frames ≤ data.length) (y1 y2 : List (Cx ℝ))
    (hy1 : y1 = processed o.autoBackground e.chunk e.frames (data.map Prod.fst))
    (hy2 : y2 = processed o.autoBackground e.chunk e.frames (data.map Prod.snd)) :
    ∃ taken fast slow, iccorrMultiComplex data t1 t2 o env = .ok (taken, ⟨fast, slow,
      [some (meanOf y1, varianceOf y1), some (meanOf y2, varianceOf y2)]⟩) := by
  obtain ⟨fast, slow, e1, -⟩ := cross_any ccorrComplex_CrossOK h hlen hy1 hy2
  exact ⟨_, fast, slow, e1⟩

theorem C39_iacorr_multi_stats (data : List (Cx ℝ)) (t : Option (List Int))
    (o : MultiOpts) (env : IterEnv) (e : Eff) (h : IterCall false false t none env.dataLen o e)
    (hlen : e.frames ≤ data.length) (y : List (Cx ℝ))
    (hy : y = processed o.autoBackground e.chunk e.frames data) :
    ∃ taken fast slow, iacorrMulti data t o env = .ok (taken, ⟨fast, slow,
      [some (meanOf y, varianceOf y)]⟩) := by
  obtain ⟨fast, slow, e1, -⟩ := auto_any ccorr_CrossOK acorr_AutoOK
    (fun m c s => funext (selfSum_shift _ _ _)) h hlen hy
  exact ⟨_, fast, slow, e1⟩

theorem C39_iacorr_multi_stats_complex (data : List (Cx ℝ)) (t : Option (List Int))
    (o : MultiOpts) (env : IterEnv) (e : Eff) (h : IterCall false true t none env.dataLen o e)
    (hlen : e.frames ≤ data.length) (y : List (Cx ℝ))
    (hy : y = processed o.autoBackground e.chunk e.frames data) :
    ∃ taken fast slow, iacorrMultiComplex data t o env = .ok (taken, ⟨fast, slow,
      [some (meanOf y, varianceOf y)]⟩) := by
  obtain ⟨fast, slow, e1, -⟩ := auto_any ccorrComplex_CrossOK acorrComplex_AutoOK
    (fun m c s => funext (selfSumFwd_shift _ _ _)) h hlen hy
  exact ⟨_, fast, slow, e1⟩

/-- The variance is never negative (in exact arithmetic). -/
theorem C39_variance_nonneg (y : List (Cx ℝ)) : 0 ≤ varianceOf y := varianceOf_nonneg y

/-- Computed as the mean square less the square of the mean. -/
theorem C39_variance_eq (y : List (Cx ℝ)) (h : y ≠ []) :
    varianceOf y = (y.map Cx.abs2).sum / y.length - (meanOf y).abs2 := varianceOf_eq y h

end Cddm
