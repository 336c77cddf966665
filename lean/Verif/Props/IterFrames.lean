import Verif.Lemmas.IterBg

/-!
# C33, C40: frames taken from the iterator, automatic background
-/

namespace Cddm
open Spec

/-! ### C33 -/

/-- The default chunk size is the number of frames halved (rounding down) while above 128, but at
least the level size, which cannot exceed the number of frames. -/
theorem C33_default_chunk (count levelSize : Nat) :
    if levelSize ≤ count then ∃ c, defaultChunkSize none count levelSize = .ok c ∧
      levelSize ≤ c ∧ c ≤ count ∧ DefaultChunk levelSize count c
    else defaultChunkSize none count levelSize = .error .valueError := by
  split
  · next h =>
    refine ⟨_, defaultChunkSize_none h, ?_, ?_, halveChunk_default _ _⟩
    · exact (defaultChunkSize_ok (defaultChunkSize_none h)).1
    · exact (defaultChunkSize_ok (defaultChunkSize_none h)).2
  · next h =>
    unfold defaultChunkSize
    rw [if_pos (by omega)]

/-- A given chunk size is used if it is between level size and number of frames. -/
theorem C33_given_chunk (c count levelSize : Nat) :
    defaultChunkSize (some c) count levelSize
      = if levelSize ≤ c ∧ c ≤ count then .ok c else .error .valueError :=
  defaultChunkSize_some

/-- Whatever the arguments, if they are accepted then `c * 2^k` frames are to be processed, the
largest such number not above the number of frames, `c` being the chunk size. -/
theorem C33_frames (t1 t2 : Option (List Int)) (dataLen : Option Nat) (period levelSize : Nat)
    (chunkSize : Option Nat) (binning : Option Int) (method : Option String) (count : Option Nat)
    (autoBackground : Bool) (nlevel : Option Int) (mode : String) (T1 T2 : List Int)
    (cfg : IterCfg)
    (h : iterParams t1 t2 dataLen period levelSize chunkSize binning method count autoBackground
      nlevel mode = .ok (T1, T2, cfg)) :
    ∃ cnt k, EffTimes t1 t2 count dataLen T1 T2 cnt ∧
      EffFrames levelSize chunkSize cnt cfg.half k cfg.nframes ∧
      EffLevels levelSize cfg.nframes nlevel cfg.nlevel := by
  obtain ⟨cnt, k, hP⟩ := iterParams_ok h
  obtain ⟨h1, h2⟩ := defaultChunkSize_ok hP.chunk
  refine ⟨cnt, k, inspect_spec hP.times, ⟨?_, hP.level, h1, hP.sizes.frames, hP.sizes.le,
    hP.sizes.lt⟩, ?_⟩
  · have hc := hP.chunk
    cases chunkSize with
    | some c =>
      rw [defaultChunkSize_some] at hc
      split at hc
      · left; exact congrArg some (Except.ok.inj hc)
      · simp at hc
    | none =>
      rw [defaultChunkSize_none (h1.trans h2)] at hc
      right
      rw [← Except.ok.inj hc]
      exact ⟨rfl, halveChunk_default _ _⟩
  · cases nlevel with
    | none =>
      exact ⟨cfg.nlevel, hP.sizes.enough, (hP.sizes.auto rfl).2.2, fun _ => rfl, by simp⟩
    | some l =>
      obtain ⟨-, nl0, a1, a2, a3⟩ := hP.sizes.explicit l rfl
      refine ⟨nl0, a1, a2, by simp, ?_⟩
      intro l' hl
      rw [← Option.some.inj hl]
      exact a3

/-- That number is determined. -/
theorem C33_frames_unique (levelSize : Nat) (chunkSize : Option Nat) (cnt c c' k k' N N' : Nat)
    (h : EffFrames levelSize chunkSize cnt c k N) (h' : EffFrames levelSize chunkSize cnt c' k' N') :
    c = c' ∧ k = k' ∧ N = N' := by
  have hc : c = c' := by
    rcases h.chunk with h1 | ⟨h1, h2⟩ <;> rcases h'.chunk with h3 | ⟨h3, h4⟩
    · rw [h1] at h3; exact Option.some.inj h3
    · rw [h1] at h3; simp at h3
    · rw [h1] at h3; simp at h3
    · exact defaultChunk_unique h2 h4
  subst hc
  have hk : k = k' := pow_unique (n := cnt) (c := c) (by rw [← h.frames]; exact h.le)
    (by rw [← h.frames]; exact h.lt) (by rw [← h'.frames]; exact h'.le)
    (by rw [← h'.frames]; exact h'.lt)
  exact ⟨rfl, hk, by rw [h.frames, h'.frames, hk]⟩

/-- All frames delivered or one more than needed are taken from the iterator, whichever is less; if
there are too few, ValueError.  (An empty iterator of which one frame is wanted: see below.) -/
theorem C33_iccorr_multi_partial (data : List (Cx ℝ × Cx ℝ)) (t1 t2 : Option (List Int))
    (o : MultiOpts) (env : IterEnv) (e : Eff) (h : IterCall true false t1 t2 env.dataLen o e)
    (hx : data ≠ [] ∨ 1 < e.frames) :
    (e.frames ≤ data.length → ∃ out, iccorrMulti data t1 t2 o env
      = .ok (min data.length (e.frames + 1), out)) ∧
    (data.length < e.frames → iccorrMulti data t1 t2 o env = .error .valueError) := by
  refine ⟨fun hlen => ?_, fun hlen => ?_⟩
  · obtain ⟨fast, slow, e1, -⟩ := cross_any ccorr_CrossOK h hlen rfl rfl
    exact ⟨_, e1⟩
  · by_cases hd : data = []
    · subst hd
      exact cross_empty ccorr h (by simpa using hx)
    · exact cross_short ccorr_CrossOK h hlen hd

theorem C33_iccorr_multi_complex_partial (data : List (Cx ℝ × Cx ℝ)) (t1 t2 : Option (List Int))
    (o : MultiOpts) (env : IterEnv) (e : Eff) (h : IterCall true true t1 t2 env.dataLen o e)
    (hx : data ≠ [] ∨ 1 < e.frames) :
    (e.frames ≤ data.length → ∃ out, iccorrMultiComplex data t1 t2 o env
      = .ok (min data.length (e.frames + 1), out)) ∧
    (data.length < e.frames → iccorrMultiComplex data t1 t2 o env = .error .valueError) := by
  refine ⟨fun hlen => ?_, fun hlen => ?_⟩
  · obtain ⟨fast, slow, e1, -⟩ := cross_any ccorrComplex_CrossOK h hlen rfl rfl
    exact ⟨_, e1⟩
  · by_cases hd : data = []
    · subst hd
      exact cross_empty ccorrComplex h (by simpa using hx)
    · exact cross_short ccorrComplex_CrossOK h hlen hd

theorem C33_iacorr_multi_partial (data : List (Cx ℝ)) (t : Option (List Int))
    (o : MultiOpts) (env : IterEnv) (e : Eff) (h : IterCall false false t none env.dataLen o e)
    (hx : data ≠ [] ∨ 1 < e.frames) :
    (e.frames ≤ data.length → ∃ out, iacorrMulti data t o env
      = .ok (min data.length (e.frames + 1), out)) ∧
    (data.length < e.frames → iacorrMulti data t o env = .error .valueError) := by
  refine ⟨fun hlen => ?_, fun hlen => ?_⟩
  · obtain ⟨fast, slow, e1, -⟩ := auto_any ccorr_CrossOK acorr_AutoOK
      (fun m c s => funext (selfSum_shift _ _ _)) h hlen rfl
    exact ⟨_, e1⟩
  · by_cases hd : data = []
    · subst hd
      exact auto_empty acorr ccorr h (by simpa using hx)
    · exact auto_short ccorr_CrossOK acorr_AutoOK
        (fun m c s => funext (selfSum_shift _ _ _)) h hlen hd

theorem C33_iacorr_multi_complex_partial (data : List (Cx ℝ)) (t : Option (List Int))
    (o : MultiOpts) (env : IterEnv) (e : Eff) (h : IterCall false true t none env.dataLen o e)
    (hx : data ≠ [] ∨ 1 < e.frames) :
    (e.frames ≤ data.length → ∃ out, iacorrMultiComplex data t o env
      = .ok (min data.length (e.frames + 1), out)) ∧
    (data.length < e.frames → iacorrMultiComplex data t o env = .error .valueError) := by
  refine ⟨fun hlen => ?_, fun hlen => ?_⟩
  · obtain ⟨fast, slow, e1, -⟩ := auto_any ccorrComplex_CrossOK acorrComplex_AutoOK
      (fun m c s => funext (selfSumFwd_shift _ _ _)) h hlen rfl
    exact ⟨_, e1⟩
  · by_cases hd : data = []
    · subst hd
      exact auto_empty acorrComplex ccorrComplex h (by simpa using hx)
    · exact auto_short ccorrComplex_CrossOK acorrComplex_AutoOK
        (fun m c s => funext (selfSumFwd_shift _ _ _)) h hlen hd

/-- An empty iterator of which one frame is wanted raises not ValueError but UnboundLocalError (a
NameError). -/
theorem C33_empty_one_frame_false (t1 t2 : Option (List Int)) (o : MultiOpts) (env : IterEnv)
    (e : Eff) (h : IterCall true false t1 t2 env.dataLen o e) (h1 : e.frames = 1) :
    iccorrMulti [] t1 t2 o env = .error .nameError := by
  obtain ⟨nd, e1, -⟩ := params_ok (period := o.period) (t1 := t1) (t2 := t2) o.autoBackground
    h.times h.frames h.levels h.binning h.mode
  unfold iccorrMulti iccorrMultiOf
  rw [if_neg (pair_check (h.pair rfl))]
  unfold crossIterOf crossIter
  simp only [e1, bind, Except.bind]
  rw [if_pos (by rfl), if_neg (by simp [cfgOf, h1])]

/-- Non-trivial case: 20 frames in chunks of 4: 16 are processed. -/
example : EffFrames 3 (some 4) 20 4 2 16 := ⟨.inl rfl, by decide, by decide, by decide, by decide,
  by decide⟩

/-- Non-trivial case: the default chunk size for 1000 frames. -/
example : defaultChunkSize none 1000 16 = .ok 125 := by
  rw [defaultChunkSize_none (by decide)]
  rw [halveChunk, dif_pos (by decide), halveChunk, dif_pos (by decide), halveChunk,
    dif_pos (by decide), halveChunk, dif_neg (by decide)]

/-! ### C40 -/

/-- With automatic background the result, or the error, is that for the frames minus the mean of the
first chunk, without automatic background.  All arguments. -/
theorem C40_iccorr_multi (data : List (Cx ℝ × Cx ℝ)) (t1 t2 : Option (List Int)) (o : MultiOpts)
    (env : IterEnv) (c : Nat) (hc : IsChunk t1 t2 env.dataLen o c) (b1 b2 : Cx ℝ)
    (h1 : b1 = (1 / (c : ℝ)) • ((data.map Prod.fst).take c).sum)
    (h2 : b2 = (1 / (c : ℝ)) • ((data.map Prod.snd).take c).sum) :
    iccorrMulti data t1 t2 { o with autoBackground := true } env
      = iccorrMulti (data.map fun x => (x.1 - b1, x.2 - b2)) t1 t2
          { o with autoBackground := false } env := by
  unfold iccorrMulti iccorrMultiOf
  split
  · rfl
  · exact cross_background false ccorr data t1 t2 o env c hc b1 b2 h1 h2

theorem C40_iccorr_multi_complex (data : List (Cx ℝ × Cx ℝ)) (t1 t2 : Option (List Int))
    (o : MultiOpts)
    (env : IterEnv) (c : Nat) (hc : IsChunk t1 t2 env.dataLen o c) (b1 b2 : Cx ℝ)
    (h1 : b1 = (1 / (c : ℝ)) • ((data.map Prod.fst).take c).sum)
    (h2 : b2 = (1 / (c : ℝ)) • ((data.map Prod.snd).take c).sum) :
    iccorrMultiComplex data t1 t2 { o with autoBackground := true } env
      = iccorrMultiComplex (data.map fun x => (x.1 - b1, x.2 - b2)) t1 t2
          { o with autoBackground := false } env := by
  unfold iccorrMultiComplex iccorrMultiOf
  split
  · rfl
  · exact cross_background true ccorrComplex data t1 t2 o env c hc b1 b2 h1 h2

theorem C40_iacorr_multi (data : List (Cx ℝ)) (t : Option (List Int)) (o : MultiOpts)
    (env : IterEnv) (c : Nat) (hc : IsChunk t none env.dataLen o c) (b : Cx ℝ)
    (h : b = (1 / (c : ℝ)) • (data.take c).sum) :
    iacorrMulti data t { o with autoBackground := true } env
      = iacorrMulti (data.map fun x => x - b) t { o with autoBackground := false } env :=
  auto_background acorr ccorr data t o env c hc b h

theorem C40_iacorr_multi_complex (data : List (Cx ℝ)) (t : Option (List Int)) (o : MultiOpts)
    (env : IterEnv) (c : Nat) (hc : IsChunk t none env.dataLen o c) (b : Cx ℝ)
    (h : b = (1 / (c : ℝ)) • (data.take c).sum) :
    iacorrMultiComplex data t { o with autoBackground := true } env
      = iacorrMultiComplex (data.map fun x => x - b) t { o with autoBackground := false } env :=
  auto_background acorrComplex ccorrComplex data t o env c hc b h

/-- Non-trivial case: chunks of 4 of 20 frames. -/
example : IsChunk none none (some 20) { levelSize := 3, chunkSize := some 4 } 4 :=
  fun _ _ _ _ => .inl rfl

end Cddm
