import Verif.Props.IterFull
import Verif.Props.Multitau

/-!
# C34, C36: iterative and in-memory multiple tau
-/

namespace Cddm
open Spec

theorem upTo_take {N cnt : Nat} (h : N ≤ cnt) : (upTo cnt).take N = upTo N := by
  unfold upTo
  rw [← List.map_take, List.take_range, min_eq_left h]

theorem stream_upTo {α : Type} {y : List α} {N : Nat} (h : y.length = N) :
    stream y (some (upTo N)) = stream y none := by
  subst h
  apply List.ext_getElem
  · simp [stream, regular, upTo]
  · intro i h1 h2
    simp [stream, regular, upTo]

/-- The first `N` times. -/
theorem stream_times_take {α : Type} {t : Option (List Int)} {T : List Int} {cnt N : Nat} {y : List α}
    (hT : T = t.getD (upTo cnt)) (h : N ≤ cnt) (hy : y.length = N) :
    stream y (some (T.take N)) = stream y (t.map (List.take N)) := by
  cases t with
  | none =>
    rw [hT, Option.getD_none, upTo_take h, stream_upTo hy]
    rfl
  | some t => rw [hT]; rfl

/-- The arguments are also good for the in-memory function. -/
theorem crossArgs_of_iter {t1 t2 : Option (List Int)} {dl : Option Nat} {o : MultiOpts} {e : Eff}
    (h : IterCall true false t1 t2 dl o e)
    (hreg : t1 = none → o.period * o.levelSize ≤ e.frames + 1)
    (hT2 : e.T2 = t2.getD (upTo e.count)) {N1 N2 : Nat}
    (hl1 : N1 = e.frames) (hl2 : N2 = e.frames) :
    CrossArgs e.method e.norm N1 N2 (t1.map (List.take e.frames))
      (t2.map (List.take e.frames)) (o.period * o.levelSize) := by
  have hpos := IterCall.pos h
  have hp := h.pair rfl
  have ht1 := h.args.times1
  have ht2 := h.args.times2
  have hf1 := h.times.first
  refine ⟨h.args.method, h.args.norm, ?_, ?_, ?_⟩
  · rw [hl1, hl2]
    cases t1 <;> cases t2 <;> simp_all [ValidCross]
    omega
  · rintro hh
    rw [hl1]
    by_cases hn : t1 = none
    · have := hreg hn
      subst hn
      simpa [defaultN] using this
    · have hfft : e.method = "fft" := by
        rcases hh with hh | hh
        · exact hh
        · cases t1 <;> simp_all
      have := chunk_span h.args (h.frames.level.trans_le h.frames.lo) (IterCall.chunk_le h) hfft
        e.frames
      cases t1 <;> cases t2 <;> simp_all
  · intro hfft
    have := h.args.fft hfft
    refine ⟨this.pos, ?_, ?_⟩
    · intro l hl
      cases t1 with
      | none => simp at hl
      | some t =>
        rw [Option.map_some] at hl
        rw [← Option.some.inj hl]
        have hn := this.nodup1
        rw [hf1] at hn
        exact hn
    · intro l hl
      cases t2 with
      | none => simp at hl
      | some t =>
        rw [Option.map_some] at hl
        rw [← Option.some.inj hl]
        have hn := this.nodup2
        rw [hT2] at hn
        exact hn

theorem second_times {cplx : Bool} {t1 t2 : Option (List Int)} {dl : Option Nat} {o : MultiOpts}
    {e : Eff} (h : IterCall true cplx t1 t2 dl o e) : e.T2 = t2.getD (upTo e.count) := by
  have h1 := h.times.first
  have h2 := h.times.second
  have hp := h.pair rfl
  cases t1 <;> cases t2 <;> simp_all

theorem autoArgs_of_iter {t : Option (List Int)} {dl : Option Nat} {o : MultiOpts} {e : Eff}
    (h : IterCall false false t none dl o e)
    (hreg : t = none → o.period * o.levelSize ≤ e.frames + 1) {N : Nat} (hl1 : N = e.frames) :
    AutoArgs e.method e.norm N (t.map (List.take e.frames)) (o.period * o.levelSize) := by
  have hpos := IterCall.pos h
  have hT : e.T2 = e.T1 := h.times.second
  have ht1 := h.args.times1
  have hf1 := h.times.first
  refine ⟨h.args.method, h.args.norm, ?_, ?_, ?_, fun hfft => (h.args.fft hfft).pos⟩
  · rw [hl1]
    cases t with
    | none => trivial
    | some t =>
      refine ⟨?_, by omega⟩
      rw [hf1] at ht1
      simpa using ht1
  · intro l hl
    cases t with
    | none => simp at hl
    | some t =>
      rw [Option.map_some] at hl
      rw [← Option.some.inj hl]
      have hn := h.args.distinct rfl
      rw [hf1] at hn
      exact hn
  · rintro hh
    rw [hl1]
    by_cases hn : t = none
    · have := hreg hn
      subst hn
      simpa [defaultN] using this
    · have hfft : e.method = "fft" := by
        rcases hh with hh | hh
        · exact hh
        · cases t <;> simp_all
      have := chunk_span h.args (h.frames.level.trans_le h.frames.lo) (IterCall.chunk_le h) hfft
        e.frames
      rw [hT] at this
      cases t <;> simp_all

/-- Mean binning: the same fast data, slow levels, counts as in memory, for the frames processed.
The in-memory functions refuse level sizes below 5, and their default number of levels is the same;
an explicit number of levels has to be within the number of times the chunks can be doubled. -/
theorem C34_iccorr_multi_partial (data : List (Cx ℝ × Cx ℝ)) (t1 t2 : Option (List Int))
    (o : MultiOpts) (env : IterEnv) (e : Eff) (h : IterCall true false t1 t2 env.dataLen o e)
    (hmode : o.mode = "full") (hb : e.binning = 1)
    (hsp : Spaced e.chunk e.frames (o.period * o.levelSize) e.T1 e.T2)
    (hlen : e.frames ≤ data.length) (h5 : 5 ≤ o.levelSize)
    (hnl : o.nlevel = none ∨ (o.nlevel = some (e.nlevel : Int) ∧ e.nlevel ≤ e.k))
    (hreg : t1 = none → o.period * o.levelSize ≤ e.frames + 1) (y1 y2 : List (Cx ℝ))
    (hy1 : y1 = processed o.autoBackground e.chunk e.frames (data.map Prod.fst))
    (hy2 : y2 = processed o.autoBackground e.chunk e.frames (data.map Prod.snd))
    (al : Nat → Bool) (r : Nat → ℚ) :
    ∃ taken fast slow stats, iccorrMulti data t1 t2 o env = .ok (taken, ⟨fast, slow, stats⟩) ∧
      ccorrMulti y1 y2 (t1.map (List.take e.frames)) (t2.map (List.take e.frames)) o.levelSize
        o.norm o.method o.period o.binning o.nlevel al r = .ok (fast, slow) := by
  have hpos := IterCall.pos h
  have hl1 : y1.length = e.frames := by rw [hy1, processed_length _ _ _ (by simpa using hlen)]
  have hl2 : y2.length = e.frames := by rw [hy2, processed_length _ _ _ (by simpa using hlen)]
  obtain ⟨slow, e1, -, e3⟩ := cross_full ccorr_CrossOK h hmode hsp hlen hy1 hy2
  have hs := e3 hb (hnl.imp id fun x => x.2)
  have hT2 := second_times h
  refine ⟨_, _, _, _, e1, ?_⟩
  have hm : e.method = o.method.getD "corr" := h.binning.method
  have hm' : e.method = "corr" ∨ e.method = "fft" := by
    rcases h.binning.known with h' | ⟨-, h' | h'⟩
    · exact h'.1
    · omega
    · omega
  have hbin : o.binning.getD 1 = 1 := by
    have := h.binning.binning
    rw [hb] at this
    rw [if_neg (by rcases hm' with h | h <;> rw [h] <;> decide)] at this
    exact this.symm
  have hargs := crossArgs_of_iter h hreg hT2 hl1 hl2
  have hle := h.frames.le
  rw [stream_times_take h.times.first hle hl1, stream_times_take hT2 hle hl2,
    stream_times_take h.times.first hle (by simpa using hl1), stream_times_take hT2 hle (by simpa using hl2),
    hs]
  obtain ⟨nl0, a1, a2, a3, a4⟩ := h.levels
  rcases hnl with hnl | ⟨hnl, hk⟩
  · have hN : o.levelSize ≤ y1.length := by
      rw [hl1]
      exact h.frames.lo.trans (IterCall.chunk_le h)
    obtain ⟨nl, b1, b2, -, b3⟩ := C38_cross_mean y1 y2 _ _ o.levelSize o.norm o.method o.period
      o.binning al r e.method e.norm hm hm' hbin h.norm hargs h5 hN
    rw [hl1] at b1 b2
    have : nl = e.nlevel := by
      rw [a3 hnl]
      exact level_unique b1 b2 a1 a2
    rw [hnl, b3, this]
    rfl
  · have hk' : e.nlevel ≤ nl0 := by
      have := a4 _ hnl
      omega
    rw [hnl]
    exact C38_cross_mean_nlevel y1 y2 _ _ o.levelSize o.norm o.method o.period
      o.binning e.nlevel al r e.method e.norm hm hm' hbin h.norm hargs h5
      (by rw [hl1]; exact a1.trans (div_pow_anti hk'))

theorem C34_iacorr_multi_partial (data : List (Cx ℝ)) (t : Option (List Int))
    (o : MultiOpts) (env : IterEnv) (e : Eff) (h : IterCall false false t none env.dataLen o e)
    (hmode : o.mode = "full") (hb : e.binning = 1)
    (hsp : Spaced e.chunk e.frames (o.period * o.levelSize) e.T1 e.T1)
    (hlen : e.frames ≤ data.length) (h5 : 5 ≤ o.levelSize)
    (hnl : o.nlevel = none ∨ (o.nlevel = some (e.nlevel : Int) ∧ e.nlevel ≤ e.k))
    (hreg : t = none → o.period * o.levelSize ≤ e.frames + 1) (y : List (Cx ℝ))
    (hy : y = processed o.autoBackground e.chunk e.frames data)
    (al : Nat → Bool) (r : Nat → ℚ) :
    ∃ taken fast slow stats, iacorrMulti data t o env = .ok (taken, ⟨fast, slow, stats⟩) ∧
      acorrMulti y (t.map (List.take e.frames)) o.levelSize
        o.norm o.method o.period o.binning o.nlevel al r = .ok (fast, slow) := by
  have hpos := IterCall.pos h
  have hl1 : y.length = e.frames := by rw [hy, processed_length _ _ _ hlen]
  obtain ⟨slow, e1, -, e3⟩ := auto_full h hmode hsp hlen hy
  have hs := e3 hb (hnl.imp id fun x => x.2)
  have hT : e.T2 = e.T1 := h.times.second
  refine ⟨_, _, _, _, e1, ?_⟩
  have hm : e.method = o.method.getD "corr" := h.binning.method
  have hm' : e.method = "corr" ∨ e.method = "fft" := by
    rcases h.binning.known with h' | ⟨-, h' | h'⟩
    · exact h'.1
    · omega
    · omega
  have hbin : o.binning.getD 1 = 1 := by
    have := h.binning.binning
    rw [hb] at this
    rw [if_neg (by rcases hm' with h | h <;> rw [h] <;> decide)] at this
    exact this.symm
  have hargs := autoArgs_of_iter h hreg hl1
  have hle := h.frames.le
  rw [stream_times_take h.times.first hle hl1,
    stream_times_take h.times.first hle (by simpa using hl1), hs]
  obtain ⟨nl0, a1, a2, a3, a4⟩ := h.levels
  rcases hnl with hnl | ⟨hnl, hk⟩
  · have hN : o.levelSize ≤ y.length := by
      rw [hl1]
      exact h.frames.lo.trans (IterCall.chunk_le h)
    obtain ⟨nl, b1, b2, -, b3⟩ := C38_auto_mean y _ o.levelSize o.norm o.method o.period
      o.binning al r e.method e.norm hm hm' hbin h.norm hargs h5 hN
    rw [hl1] at b1 b2
    have : nl = e.nlevel := by
      rw [a3 hnl]
      exact level_unique b1 b2 a1 a2
    rw [hnl, b3, this]
  · have hk' : e.nlevel ≤ nl0 := by
      have := a4 _ hnl
      omega
    rw [hnl]
    exact C38_auto_mean_nlevel y _ o.levelSize o.norm o.method o.period
      o.binning e.nlevel al r e.method e.norm hm hm' hbin h.norm hargs h5
      (by rw [hl1]; exact a1.trans (div_pow_anti hk'))

/-- Non-trivial case: 20 frames in chunks of 5: one slow level by default. -/
example : IterCall true false none none (some 20) { levelSize := 5, chunkSize := some 5 }
    ⟨upTo 20, upTo 20, 20, 5, 2, 20, 2, "corr", 1, 7⟩ where
  pair := fun _ => rfl
  mode := .inl rfl
  times := ⟨.inr ⟨rfl, by simp, fun _ => rfl⟩, rfl, rfl, by decide, rfl⟩
  frames := ⟨.inl rfl, by decide, by decide, by decide, by decide, by decide⟩
  levels := ⟨2, by decide, by decide, fun _ => rfl, by simp⟩
  binning := ⟨rfl, rfl, .inl ⟨.inl rfl, .inr (.inl rfl)⟩⟩
  norm := rfl
  args := ⟨.inl rfl, by simp [SupportedNorm], by simp, by decide, by decide, by simp, by simp⟩
  period := by decide
  fft := by simp

/-- A level size below 5 is refused in memory (assertion) but accepted by the iterative function. -/
theorem C34_small_level_false (data : List (Cx ℝ × Cx ℝ)) (hlen : data.length = 16)
    (env : IterEnv) (henv : env.dataLen = some 20) (al : Nat → Bool) (r : Nat → ℚ) :
    (∃ out, iccorrMulti data none none { levelSize := 4, chunkSize := some 4 } env = .ok out) ∧
    ccorrMulti (data.map Prod.fst) (data.map Prod.snd) none none 4 none (some "corr") 1 none none al
      r = .error .assertionError := by
  constructor
  · obtain ⟨fast, slow, e1, -⟩ := cross_any ccorr_CrossOK (env := env)
      (henv ▸ C31_case_regular) (data := data) (by rw [hlen]) rfl rfl
    exact ⟨_, e1⟩
  · exact C38_rejects_levels _ _ none none 4 none (some "corr") 1 none none al r "corr" 1 7 rfl rfl
      ⟨.inl rfl, by simp [SupportedNorm], by simp [ValidCross, hlen], by simp [defaultN, hlen],
        by simp⟩
      (.inl (by decide))

/-! ### Complex data -/

/-- In memory, complex cross-correlation, odd level size `n`: the slow levels have `2n+1` cells, but
`n` counts. -/
theorem ccorrMultiComplex_shape (f1 f2 : List (Cx ℝ)) (t1 t2 : Option (List Int)) (n : Nat)
    (norm : Option Int) (method : Option String) (period : Nat) (binning : Option Int)
    (al : Nat → Bool) (r : Nat → ℚ) (m : String) (v : Int)
    (hm : m = method.getD "corr") (hm' : m = "corr" ∨ m = "fft") (hb : binning.getD 1 = 1)
    (hv : v = effNorm norm m true)
    (hargs : CrossArgs m v f1.length f2.length t1 t2 (period * n)) (hp : 1 ≤ period) (hn : 5 ≤ n)
    (hodd : n % 2 = 1) (hN : n ≤ f1.length) :
    ∃ nl slow, n ≤ f1.length / 2 ^ nl ∧ f1.length / 2 ^ (nl + 1) < n ∧
      ccorrMultiComplex f1 f2 t1 t2 n norm method period binning none al r = .ok
        (crossData true cxProd m v (2 * (period * n) - 1) (stream f1 t1) (stream f2 t2)
          (stream (f1.map Cx.abs2) t1) (stream (f2.map Cx.abs2) t2), slow) ∧
      slow.length = nl ∧ ∀ row ∈ slow, ∃ cor count, row.cor = some cor ∧ row.count = some count ∧
        cor.length = 2 * n + 1 ∧ count.length = n := by
  obtain ⟨nl, h1, h2, h3⟩ := determineLengths_none f1.length n period (by omega) hN
  have e := hargs.lengths
  have hpn : n ≤ period * n := Nat.le_mul_of_pos_left _ hp
  have hmb := defaultMethodBinning_mean hm hm' hb
  have key := ccorrMultiBody_ok ccorrComplex_CrossOK f1 f2 t1 t2 n norm method period binning none
    al r m 1 v nl (2 * (period * n) - 1) hmb hv h1 (fun j => blockMeans (2 ^ j) f1)
    (fun j => blockMeans (2 ^ j) f2)
    (fun j => (squaresOf v m f1).map fun _ => blockMeans (2 ^ j) (f1.map Cx.abs2))
    (fun j => (squaresOf v m f2).map fun _ => blockMeans (2 ^ j) (f2.map Cx.abs2))
    (blockMeans_one _) (blockMeans_one _)
    (by
      by_cases hs : squaresOf v m f1 = none
      · rw [hs]; rfl
      · obtain ⟨g, hg⟩ := Option.ne_none_iff_exists'.1 hs
        rw [hg, Option.map_some, pow_zero, blockMeans_one]
        unfold squaresOf at hg
        split at hg
        · exact hg
        · simp at hg)
    (by
      by_cases hs : squaresOf v m f2 = none
      · rw [hs]; rfl
      · obtain ⟨g, hg⟩ := Option.ne_none_iff_exists'.1 hs
        rw [hg, Option.map_some, pow_zero, blockMeans_one]
        unfold squaresOf at hg
        split at hg
        · exact hg
        · simp at hg)
    (fun i => binMean_seq _ _ _) (fun i => binMean_seq _ _ _)
    (fun i => by
      cases squaresOf v m f1 with
      | none => rfl
      | some g =>
        simp only [Option.map_some]
        rw [binMean_seq (f1.map Cx.abs2) (r (4 * i + 2)) i])
    (fun i => by
      cases squaresOf v m f2 with
      | none => rfl
      | some g =>
        simp only [Option.map_some]
        rw [binMean_seq (f2.map Cx.abs2) (r (4 * i + 3)) i])
    (by simp)
    ⟨hargs.method, hargs.norm, fun _ => by rcases hm' with h | h <;> rw [h] <;> decide, hargs.valid,
      fun g => squaresOf_length f1 g, fun g => squaresOf_length f2 g,
      fun e => ⟨(hargs.fft e).2.1, (hargs.fft e).2.2, by omega⟩,
      ⟨fun _ => by omega, fun _ => by omega, fun e => by
        have := hargs.span e
        simp only [if_true]
        omega⟩, fun _ => by omega⟩
    (by
      intro j hj1 hj2
      have hle := level_enough h2 hj2
      refine ⟨hargs.method, hargs.norm, fun _ => by rcases hm' with h | h <;> rw [h] <;> decide,
        ?_, ?_, ?_, fun _ => ⟨by simp [Distinct], by simp [Distinct], ?_⟩,
        ⟨fun _ => by simp only [if_true]; omega, fun _ => by simp, fun _ => ?_⟩, fun _ => hodd⟩
      · simp only [ValidCross, blockMeans_length]; rw [e]
      · intro g e
        cases e' : squaresOf v m f1 <;> simp [e'] at e
        rw [← e]; simp [blockMeans_length]
      · intro g e
        cases e' : squaresOf v m f2 <;> simp [e'] at e
        rw [← e]; simp [blockMeans_length]
      · rw [blockMeans_length]; omega
      · simp only [if_true, defaultN, blockMeans_length]
        omega)
  have key' : ccorrMultiComplex f1 f2 t1 t2 n norm method period binning none al r = _ := key
  rw [← crossData_eq true cxProd hargs.norm] at key'
  refine ⟨nl, _, h2, h3, key', ?_, ?_⟩
  · simp
  · intro row hrow
    obtain ⟨j, -, rfl⟩ := List.mem_map.1 hrow
    exact ⟨_, _, rfl, rfl, by simp [upto_length]; omega, by simp [upto_length]⟩


/-- C72 is false: the slow levels of complex in-memory data do not have one count per cell. -/
theorem C72_complex_levels_false (f1 f2 : List (Cx ℝ)) (t1 t2 : Option (List Int)) (n : Nat)
    (norm : Option Int) (method : Option String) (period : Nat) (binning : Option Int)
    (al : Nat → Bool) (r : Nat → ℚ) (m : String) (v : Int)
    (hm : m = method.getD "corr") (hm' : m = "corr" ∨ m = "fft") (hb : binning.getD 1 = 1)
    (hv : v = effNorm norm m true)
    (hargs : CrossArgs m v f1.length f2.length t1 t2 (period * n)) (hp : 1 ≤ period) (hn : 5 ≤ n)
    (hodd : n % 2 = 1) (hN : 2 * n ≤ f1.length) :
    ∃ fast slow row, ccorrMultiComplex f1 f2 t1 t2 n norm method period binning none al r
        = .ok (fast, slow) ∧ row ∈ slow ∧ ∃ cor count, row.cor = some cor ∧
          row.count = some count ∧ cor.length = 2 * n + 1 ∧ count.length = n := by
  obtain ⟨nl, slow, -, h2, h3, h4, h5⟩ := ccorrMultiComplex_shape f1 f2 t1 t2 n norm method period
    binning al r m v hm hm' hb hv hargs hp hn hodd (by omega)
  have hnl : nl ≠ 0 := by
    rintro rfl
    have := Nat.le_div_iff_mul_le (k := 2) (x := n) (y := f1.length) (by norm_num)
    simp only [zero_add, pow_one] at h2
    omega
  have hlt : 0 < slow.length := by omega
  exact ⟨_, slow, slow[0], h3, List.getElem_mem hlt, h5 _ (List.getElem_mem hlt)⟩

/-- What can be said: the linear data and their counts have the same length `2·period·n - 1`. -/
theorem C72_complex_fast_partial (f1 f2 : List (Cx ℝ)) (t1 t2 : Option (List Int)) (n : Nat)
    (norm : Option Int) (method : Option String) (period : Nat) (binning : Option Int)
    (al : Nat → Bool) (r : Nat → ℚ) (m : String) (v : Int)
    (hm : m = method.getD "corr") (hm' : m = "corr" ∨ m = "fft") (hb : binning.getD 1 = 1)
    (hv : v = effNorm norm m true)
    (hargs : CrossArgs m v f1.length f2.length t1 t2 (period * n)) (hp : 1 ≤ period) (hn : 5 ≤ n)
    (hodd : n % 2 = 1) (hN : n ≤ f1.length) :
    ∃ fast slow cor count, ccorrMultiComplex f1 f2 t1 t2 n norm method period binning none al r
        = .ok (fast, slow) ∧ fast.cor = some cor ∧ fast.count = some count ∧
          cor.length = 2 * (period * n) - 1 ∧ count.length = 2 * (period * n) - 1 := by
  obtain ⟨nl, slow, -, -, h3, -, -⟩ := ccorrMultiComplex_shape f1 f2 t1 t2 n norm method period
    binning al r m v hm hm' hb hv hargs hp hn hodd hN
  exact ⟨_, slow, _, _, h3, rfl, rfl, by simp [cells], by simp [cells]⟩

/-- C34 is false for complex data: the slow levels have different lengths. -/
theorem C34_complex_false (data : List (Cx ℝ × Cx ℝ))
    (o : MultiOpts) (env : IterEnv) (e : Eff) (h : IterCall true true none none env.dataLen o e)
    (hmode : o.mode = "full") (hb : e.binning = 1)
    (hsp : Spaced e.chunk e.frames (o.period * o.levelSize) e.T1 e.T2)
    (hlen : e.frames ≤ data.length) (h5 : 5 ≤ o.levelSize) (hodd : o.levelSize % 2 = 1)
    (hnl : o.nlevel = none) (hnl' : e.nlevel ≠ 0)
    (hreg : o.period * o.levelSize ≤ e.frames + 1) (y1 y2 : List (Cx ℝ))
    (hy1 : y1 = processed o.autoBackground e.chunk e.frames (data.map Prod.fst))
    (hy2 : y2 = processed o.autoBackground e.chunk e.frames (data.map Prod.snd))
    (al : Nat → Bool) (r : Nat → ℚ) :
    ∃ taken fast slow stats fast' slow',
      iccorrMultiComplex data none none o env = .ok (taken, ⟨fast, slow, stats⟩) ∧
      ccorrMultiComplex y1 y2 none none o.levelSize
        o.norm o.method o.period o.binning o.nlevel al r = .ok (fast', slow') ∧
      (∀ row ∈ slow, ∃ cor, row.cor = some cor ∧ cor.length = 2 * o.levelSize - 1) ∧
      (∀ row ∈ slow', ∃ cor, row.cor = some cor ∧ cor.length = 2 * o.levelSize + 1) ∧
      slow ≠ slow' := by
  have hpos := IterCall.pos h
  have hl1 : y1.length = e.frames := by rw [hy1, processed_length _ _ _ (by simpa using hlen)]
  have hl2 : y2.length = e.frames := by rw [hy2, processed_length _ _ _ (by simpa using hlen)]
  have hm : e.method = o.method.getD "corr" := h.binning.method
  have hm' : e.method = "corr" ∨ e.method = "fft" := by
    rcases h.binning.known with h' | ⟨-, h' | h'⟩
    · exact h'.1
    · omega
    · omega
  have hbin : o.binning.getD 1 = 1 := by
    have := h.binning.binning
    rw [hb] at this
    rw [if_neg (by rcases hm' with h | h <;> rw [h] <;> decide)] at this
    exact this.symm
  have hN : o.levelSize ≤ y1.length := by
    rw [hl1]
    exact h.frames.lo.trans (IterCall.chunk_le h)
  obtain ⟨slow, e1, e2, e3⟩ := cross_full ccorrComplex_CrossOK h hmode hsp hlen hy1 hy2
  obtain ⟨nl, slow', -, -, f1, -, f2⟩ := ccorrMultiComplex_shape y1 y2 none none o.levelSize o.norm
    o.method o.period o.binning al r e.method e.norm hm hm' hbin h.norm
    ⟨h.args.method, h.args.norm, by simp [ValidCross, hl1, hl2], fun _ => by
      simpa [defaultN, hl1] using hreg, fun hf => ⟨(h.args.fft hf).pos, by simp [Distinct],
        by simp [Distinct]⟩⟩ h.period h5 hodd hN
  have hc : ∀ row ∈ slow, ∃ cor, row.cor = some cor ∧ cor.length = 2 * o.levelSize - 1 := by
    rw [e3 hb (.inl hnl)]
    intro row hrow
    obtain ⟨j, -, rfl⟩ := List.mem_map.1 hrow
    exact ⟨_, rfl, by simp [cells, iterLen]⟩
  have hc' : ∀ row ∈ slow', ∃ cor, row.cor = some cor ∧ cor.length = 2 * o.levelSize + 1 := by
    intro row hrow
    obtain ⟨cor, count, g1, -, g3, -⟩ := f2 row hrow
    exact ⟨cor, g1, g3⟩
  rw [← hnl] at f1
  refine ⟨_, _, slow, _, _, slow', e1, f1, hc, hc', ?_⟩
  rintro rfl
  have hlt : 0 < slow.length := by omega
  obtain ⟨cor, g1, g2⟩ := hc _ (List.getElem_mem hlt)
  obtain ⟨cor', g3, g4⟩ := hc' _ (List.getElem_mem hlt)
  rw [g1] at g3
  rw [Option.some.inj g3] at g2
  omega

end Cddm
