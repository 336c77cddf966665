import Verif.Lemmas.IterBin
import Verif.Props.IterMulti
import Verif.Props.IterChunk

/-!
# C35: binning 'first'

In memory the first frame of each block is kept (`C38_cross_first`, `C38_auto_first`); the buffers
of the iterative algorithm keep the last one.  `blockFirsts m (x.drop o)` are the samples
`o, o + m, o + 2m, ...` of `x`.
-/

namespace Cddm
open Spec

section buffers
variable {V : Type} [AddCommGroup V] [Module ℝ V]

/-- In memory: of each pair the first frame is kept. -/
theorem C35_memory (r : ℚ) (x : List V) (b : Nat) : (binData 0 r x)[b]? = x[2 * b]? := by
  unfold binData
  rw [if_neg (by decide), if_pos rfl, everySecond_get]

/-- While the frames arrive: position `b % c` of level `j` holds the last frame of block `b`, if
that block is complete and one of the last `c`. -/
theorem C35_buffers (r : Nat → ℚ) (x : List V) (D c : Nat) (hc0 : 0 < c) (hD : 0 < D)
    (hc : D = 1 ∨ c % 2 = 0) (out : List (List V)) (hrows : out.length = D)
    (hcols : ∀ row ∈ out, row.length = c) :
    ∃ out', enumLoop x.length (fun i a out => addData i a out 0 (r i)) 0 x out
        = .ok (x.length, out') ∧
      ∀ j b : Nat, j < D → (b + 1) * 2 ^ j ≤ x.length → x.length / 2 ^ j ≤ b + c →
        ∃ row, out'[j]? = some row ∧ row[b % c]? = x[(b + 1) * 2 ^ j - 1]? := by
  obtain ⟨out', h1, -, h3⟩ := addLoop_ok 0 r x D c hc0 hD hc
    ⟨hrows, fun j row h => hcols row (List.mem_of_getElem? h)⟩
  refine ⟨out', h1, fun j b hj hb1 hb2 => ?_⟩
  have h2 := Nat.two_pow_pos j
  obtain ⟨row, e1, e2⟩ := h3 j hj b ((Nat.le_div_iff_mul_le h2).2 hb1) hb2
  refine ⟨row, e1, ?_⟩
  have e : (b + 1) * 2 ^ j = b * 2 ^ j + 2 ^ j := Nat.succ_mul _ _
  have hlt : (b + 1) * 2 ^ j - 1 < x.length := by omega
  rw [e2, streamBin_zero, List.getD_eq_getElem?_getD, List.getElem?_eq_getElem hlt]
  rfl

end buffers

/-! ### The slow levels -/

theorem C35_iccorr_multi_levels (data : List (Cx ℝ × Cx ℝ)) (t1 t2 : Option (List Int))
    (o : MultiOpts) (env : IterEnv) (e : Eff) (h : IterCall true false t1 t2 env.dataLen o e)
    (hmode : o.mode = "full") (hb : e.binning = 0) (hk : o.nlevel = none ∨ e.nlevel ≤ e.k)
    (hlen : e.frames ≤ data.length) (y1 y2 : List (Cx ℝ))
    (hy1 : y1 = processed o.autoBackground e.chunk e.frames (data.map Prod.fst))
    (hy2 : y2 = processed o.autoBackground e.chunk e.frames (data.map Prod.snd)) :
    ∃ taken fast slow stats, iccorrMulti data t1 t2 o env = .ok (taken, ⟨fast, slow, stats⟩) ∧
      slow = (List.range e.nlevel).map fun j =>
        let first := 2 ^ min (j + 1) (lastLevel o e) - 1
        crossData false (productOf e.method) e.method e.norm o.levelSize
          (regular (blockFirsts (2 ^ (j + 1)) (y1.drop first)))
          (regular (blockFirsts (2 ^ (j + 1)) (y2.drop first)))
          (regular (blockFirsts (2 ^ (j + 1)) ((y1.map Cx.abs2).drop first)))
          (regular (blockFirsts (2 ^ (j + 1)) ((y2.map Cx.abs2).drop first))) :=
  cross_first ccorr_CrossOK h hmode hb hk hlen hy1 hy2

theorem C35_iccorr_multi_complex_levels (data : List (Cx ℝ × Cx ℝ)) (t1 t2 : Option (List Int))
    (o : MultiOpts) (env : IterEnv) (e : Eff) (h : IterCall true true t1 t2 env.dataLen o e)
    (hmode : o.mode = "full") (hb : e.binning = 0) (hk : o.nlevel = none ∨ e.nlevel ≤ e.k)
    (hlen : e.frames ≤ data.length) (y1 y2 : List (Cx ℝ))
    (hy1 : y1 = processed o.autoBackground e.chunk e.frames (data.map Prod.fst))
    (hy2 : y2 = processed o.autoBackground e.chunk e.frames (data.map Prod.snd)) :
    ∃ taken fast slow stats, iccorrMultiComplex data t1 t2 o env = .ok (taken, ⟨fast, slow, stats⟩) ∧
      slow = (List.range e.nlevel).map fun j =>
        let first := 2 ^ min (j + 1) (lastLevel o e) - 1
        crossData true cxProd e.method e.norm (2 * o.levelSize - 1)
          (regular (blockFirsts (2 ^ (j + 1)) (y1.drop first)))
          (regular (blockFirsts (2 ^ (j + 1)) (y2.drop first)))
          (regular (blockFirsts (2 ^ (j + 1)) ((y1.map Cx.abs2).drop first)))
          (regular (blockFirsts (2 ^ (j + 1)) ((y2.map Cx.abs2).drop first))) :=
  cross_first ccorrComplex_CrossOK h hmode hb hk hlen hy1 hy2

theorem C35_iacorr_multi_levels (data : List (Cx ℝ)) (t : Option (List Int))
    (o : MultiOpts) (env : IterEnv) (e : Eff) (h : IterCall false false t none env.dataLen o e)
    (hmode : o.mode = "full") (hb : e.binning = 0) (hk : o.nlevel = none ∨ e.nlevel ≤ e.k)
    (hlen : e.frames ≤ data.length) (y : List (Cx ℝ))
    (hy : y = processed o.autoBackground e.chunk e.frames data) :
    ∃ taken fast slow stats, iacorrMulti data t o env = .ok (taken, ⟨fast, slow, stats⟩) ∧
      slow = (List.range e.nlevel).map fun j =>
        let first := 2 ^ min (j + 1) (lastLevel o e) - 1
        autoData (productOf e.method) e.method e.norm o.levelSize
          (regular (blockFirsts (2 ^ (j + 1)) (y.drop first)))
          (regular (blockFirsts (2 ^ (j + 1)) ((y.map Cx.abs2).drop first))) :=
  auto_first h hmode hb hk hlen hy

/-! ### The same frames as in memory: only up to three chunks -/

theorem first_binning {method : Option String} {binning : Option Int} {m : String} {b : Int}
    (h : EffBinning method binning m b) (hb : b = 0) :
    binning = some 0 ∨ m = "diff" ∧ binning = none := by
  have := h.binning
  rw [hb] at this
  cases binning with
  | some x => left; simp at this; rw [← this]
  | none =>
    right
    refine ⟨?_, rfl⟩
    by_contra hm
    rw [if_neg hm] at this
    simp at this

theorem C35_iccorr_multi_partial (data : List (Cx ℝ × Cx ℝ)) (t1 t2 : Option (List Int))
    (o : MultiOpts) (env : IterEnv) (e : Eff) (h : IterCall true false t1 t2 env.dataLen o e)
    (hmode : o.mode = "full") (hb : e.binning = 0) (hnl : o.nlevel = none) (hk : e.k ≤ 1)
    (hsp : Spaced e.chunk e.frames (o.period * o.levelSize) e.T1 e.T2)
    (hlen : e.frames ≤ data.length) (h5 : 5 ≤ o.levelSize)
    (hreg : t1 = none → o.period * o.levelSize ≤ e.frames + 1) (y1 y2 : List (Cx ℝ))
    (hy1 : y1 = processed o.autoBackground e.chunk e.frames (data.map Prod.fst))
    (hy2 : y2 = processed o.autoBackground e.chunk e.frames (data.map Prod.snd))
    (al : Nat → Bool) (r : Nat → ℚ) :
    ∃ taken fast slow stats, iccorrMulti data t1 t2 o env = .ok (taken, ⟨fast, slow, stats⟩) ∧
      ccorrMulti y1 y2 (t1.map (List.take e.frames)) (t2.map (List.take e.frames)) o.levelSize
        o.norm o.method o.period o.binning none al r = .ok (fast, slow) := by
  have hpos := IterCall.pos h
  have hl1 : y1.length = e.frames := by rw [hy1, processed_length _ _ _ (by simpa using hlen)]
  have hl2 : y2.length = e.frames := by rw [hy2, processed_length _ _ _ (by simpa using hlen)]
  obtain ⟨slow, e1, -⟩ := cross_full ccorr_CrossOK h hmode hsp hlen hy1 hy2
  obtain ⟨taken, fast, slow', stats, f1, f2⟩ := C35_iccorr_multi_levels data t1 t2 o env e h hmode hb
    (.inl hnl) hlen y1 y2 hy1 hy2
  have hT2 := second_times h
  have hargs := crossArgs_of_iter h hreg hT2 hl1 hl2
  have hle := h.frames.le
  have hN : o.levelSize ≤ y1.length := by
    rw [hl1]
    exact h.frames.lo.trans (IterCall.chunk_le h)
  obtain ⟨nl, b1, b2, b3⟩ := C38_cross_first y1 y2 _ _ o.levelSize o.norm o.method o.period
    o.binning al r e.method e.norm h.binning.method (first_binning h.binning hb) h.norm hargs h5 hN
  obtain ⟨nl0, a1, a2, a3, a4⟩ := h.levels
  rw [hl1] at b1 b2
  have hnl' : nl = e.nlevel := by
    rw [a3 hnl]
    exact level_unique b1 b2 a1 a2
  refine ⟨taken, fast, slow', stats, f1, ?_⟩
  have heq := e1.symm.trans f1
  simp only [Except.ok.injEq, Prod.mk.injEq, IterOut.mk.injEq] at heq
  rw [b3, ← heq.2.1, f2, hnl', stream_times_take h.times.first hle hl1, stream_times_take hT2 hle hl2,
    stream_times_take h.times.first hle (by simpa using hl1),
    stream_times_take hT2 hle (by simpa using hl2)]
  have hlast : lastLevel o e = 0 := by
    unfold lastLevel
    rw [if_pos hnl]
    omega
  simp only [hlast, Nat.min_zero, pow_zero, Nat.sub_self, List.drop_zero]
  rfl

theorem C35_iacorr_multi_partial (data : List (Cx ℝ)) (t : Option (List Int))
    (o : MultiOpts) (env : IterEnv) (e : Eff) (h : IterCall false false t none env.dataLen o e)
    (hmode : o.mode = "full") (hb : e.binning = 0) (hnl : o.nlevel = none) (hk : e.k ≤ 1)
    (hsp : Spaced e.chunk e.frames (o.period * o.levelSize) e.T1 e.T1)
    (hlen : e.frames ≤ data.length) (h5 : 5 ≤ o.levelSize)
    (hreg : t = none → o.period * o.levelSize ≤ e.frames + 1) (y : List (Cx ℝ))
    (hy : y = processed o.autoBackground e.chunk e.frames data)
    (al : Nat → Bool) (r : Nat → ℚ) :
    ∃ taken fast slow stats, iacorrMulti data t o env = .ok (taken, ⟨fast, slow, stats⟩) ∧
      acorrMulti y (t.map (List.take e.frames)) o.levelSize
        o.norm o.method o.period o.binning none al r = .ok (fast, slow) := by
  have hpos := IterCall.pos h
  have hl1 : y.length = e.frames := by rw [hy, processed_length _ _ _ hlen]
  obtain ⟨slow, e1, -⟩ := auto_full h hmode hsp hlen hy
  obtain ⟨taken, fast, slow', stats, f1, f2⟩ := C35_iacorr_multi_levels data t o env e h hmode hb
    (.inl hnl) hlen y hy
  have hargs := autoArgs_of_iter h hreg hl1
  have hle := h.frames.le
  have hN : o.levelSize ≤ y.length := by
    rw [hl1]
    exact h.frames.lo.trans (IterCall.chunk_le h)
  obtain ⟨nl, b1, b2, b3⟩ := C38_auto_first y _ o.levelSize o.norm o.method o.period
    o.binning al r e.method e.norm h.binning.method (first_binning h.binning hb) h.norm hargs h5 hN
  obtain ⟨nl0, a1, a2, a3, a4⟩ := h.levels
  rw [hl1] at b1 b2
  have hnl' : nl = e.nlevel := by
    rw [a3 hnl]
    exact level_unique b1 b2 a1 a2
  refine ⟨taken, fast, slow', stats, f1, ?_⟩
  have heq := e1.symm.trans f1
  simp only [Except.ok.injEq, Prod.mk.injEq, IterOut.mk.injEq] at heq
  rw [b3, ← heq.2.1, f2, hnl', stream_times_take h.times.first hle hl1,
    stream_times_take h.times.first hle (by simpa using hl1)]
  have hlast : lastLevel o e = 0 := by
    unfold lastLevel
    rw [if_pos hnl]
    omega
  simp only [hlast, Nat.min_zero, pow_zero, Nat.sub_self, List.drop_zero]

/-- Non-trivial case: 10 frames in two chunks of 5, one slow level. -/
example : IterCall true false none none (some 10)
    { levelSize := 5, chunkSize := some 5, binning := some 0 }
    ⟨upTo 10, upTo 10, 10, 5, 1, 10, 1, "corr", 0, 7⟩ where
  pair := fun _ => rfl
  mode := .inl rfl
  times := ⟨.inr ⟨rfl, by simp, fun _ => rfl⟩, rfl, rfl, by decide, rfl⟩
  frames := ⟨.inl rfl, by decide, by decide, by decide, by decide, by decide⟩
  levels := ⟨1, by decide, by decide, fun _ => rfl, by simp⟩
  binning := ⟨rfl, rfl, .inl ⟨.inl rfl, .inl rfl⟩⟩
  norm := rfl
  args := ⟨.inl rfl, by simp [SupportedNorm], by simp, by decide, by decide, by simp, by simp⟩
  period := by decide
  fft := by simp

/-! ### Not the same frames from four chunks on -/

/-- 20 frames in four chunks of 5. -/
theorem C35_case : IterCall true false none none (some 20)
    { levelSize := 5, chunkSize := some 5, binning := some 0 }
    ⟨upTo 20, upTo 20, 20, 5, 2, 20, 2, "corr", 0, 7⟩ where
  pair := fun _ => rfl
  mode := .inl rfl
  times := ⟨.inr ⟨rfl, by simp, fun _ => rfl⟩, rfl, rfl, by decide, rfl⟩
  frames := ⟨.inl rfl, by decide, by decide, by decide, by decide, by decide⟩
  levels := ⟨2, by decide, by decide, fun _ => rfl, by simp⟩
  binning := ⟨rfl, rfl, .inl ⟨.inl rfl, .inl rfl⟩⟩
  norm := rfl
  args := ⟨.inl rfl, by simp [SupportedNorm], by simp, by decide, by decide, by simp, by simp⟩
  period := by decide
  fft := by simp

/-- Frames that alternate between `a` and `b`. -/
def alternating {V : Type} (a b : V) (n : Nat) : List V :=
  (List.range n).map fun i => if i % 2 = 0 then a else b

theorem pairSum_replicate {M : Type} [AddCommMonoid M] {α : Type} (g : α → α → M) (a : α)
    (m n k : Nat) :
    pairSum g (regular (List.replicate m a)) (regular (List.replicate n a)) k
      = pairSum (fun _ _ => (1 : Nat)) (regular (List.replicate m a))
          (regular (List.replicate n a)) k • g a a := by
  unfold pairSum
  have h : ∀ p ∈ (regular (List.replicate m a) ×ˢ regular (List.replicate n a)).filter
      (fun p => |delay p| = (k : Int)), g p.1.2 p.2.2 = g a a := by
    intro p hp
    obtain ⟨h1, h2⟩ := List.mem_product.1 (List.mem_filter.1 hp).1
    have e1 : ∀ (l : Nat) (q : Int × α), q ∈ regular (List.replicate l a) → q.2 = a := by
      intro l q hq
      unfold regular at hq
      rw [List.mem_mapIdx] at hq
      obtain ⟨i, hi, rfl⟩ := hq
      simp
    rw [e1 _ _ h1, e1 _ _ h2]
  rw [List.map_congr_left h, List.map_const', List.map_const', List.sum_replicate,
    List.sum_replicate]
  simp

theorem crossData_head {C : Type} [AddCommMonoid C] (g : Cx ℝ → Cx ℝ → C) (m : String) (v : Int)
    (L : Nat) (s1 s2 : Stream (Cx ℝ)) (q1 q2 : Stream ℝ) :
    ∃ l, (crossData false g m v (L + 1) s1 s2 q1 q2).cor = some (pairSum g s1 s2 0 :: l) :=
  ⟨_, congrArg some (cells_succ L _)⟩

/-- The first slow level for frames that are 0, 1, 0, 1, ...: in memory the zeros are correlated
with each other, in the iterative algorithm the ones. -/
theorem C35_iccorr_multi_false (env : IterEnv) (henv : env.dataLen = some 20) (al : Nat → Bool)
    (r : Nat → ℚ) (x : List (Cx ℝ)) (hx : x = alternating 0 1 20) :
    ∃ taken fast slow stats fast' slow' row row' c l l',
      iccorrMulti (x.zip x) none none { levelSize := 5, chunkSize := some 5, binning := some 0 } env
        = .ok (taken, ⟨fast, slow, stats⟩) ∧
      ccorrMulti x x none none 5 none (some "corr") 1 (some 0) none al r = .ok (fast', slow') ∧
      slow[0]? = some row ∧ slow'[0]? = some row' ∧
      row.cor = some (c :: l) ∧ row'.cor = some (0 :: l') ∧ 0 < c := by
  have hxl : x.length = 20 := by rw [hx]; simp [alternating]
  have hfst : (x.zip x).map Prod.fst = x := by rw [List.map_fst_zip]; omega
  have hsnd : (x.zip x).map Prod.snd = x := by rw [List.map_snd_zip]; omega
  have hcase := C35_case
  rw [← henv] at hcase
  have hp : processed false 5 20 x = x := by
    unfold processed
    rw [if_neg (by decide), List.take_of_length_le (by omega)]
  obtain ⟨taken, fast, slow, stats, e1, e2⟩ := C35_iccorr_multi_levels (x.zip x) none none _ env _
    hcase rfl rfl (.inl rfl) (by simp [hxl]) x x (by rw [hfst]; exact hp.symm)
    (by rw [hsnd]; exact hp.symm)
  have hargs : CrossArgs "corr" 7 x.length x.length none none (1 * 5) := by
    rw [hxl]
    exact ⟨.inl rfl, by simp [SupportedNorm], rfl, fun _ => by simp [defaultN], by simp⟩
  obtain ⟨nl, b1, b2, b3⟩ := C38_cross_first x x none none 5 none (some "corr") 1 (some 0) al r
    "corr" 7 rfl (.inl rfl) rfl hargs le_rfl (by omega)
  have hnl : nl = 2 := by
    rw [hxl] at b1 b2
    exact level_unique b1 b2 (by decide) (by decide)
  subst hnl
  have d1 : blockFirsts 2 (x.drop 1) = List.replicate 10 1 := by rw [hx]; rfl
  have d2 : blockFirsts 2 x = List.replicate 10 0 := by rw [hx]; rfl
  have d3 : 2 ^ min (0 + 1) (lastLevel { levelSize := 5, chunkSize := some 5, binning := some 0 }
    ⟨upTo 20, upTo 20, 20, 5, 2, 20, 2, "corr", 0, 7⟩) - 1 = 1 := by decide
  have g1 : productOf "corr" 1 1 = 1 := by simp [productOf, reProd]
  have g0 : productOf "corr" 0 0 = 0 := by simp [productOf, reProd]
  obtain ⟨l, hl⟩ := crossData_head (productOf "corr") "corr" 7 4 (regular (blockFirsts 2 (x.drop 1)))
    (regular (blockFirsts 2 (x.drop 1))) (regular (blockFirsts 2 ((x.map Cx.abs2).drop 1)))
    (regular (blockFirsts 2 ((x.map Cx.abs2).drop 1)))
  obtain ⟨l', hl'⟩ := crossData_head (productOf "corr") "corr" 7 4 (regular (blockFirsts 2 x))
    (regular (blockFirsts 2 x)) (regular (blockFirsts 2 (x.map Cx.abs2)))
    (regular (blockFirsts 2 (x.map Cx.abs2)))
  refine ⟨taken, fast, slow, stats, _, _, _, _, pairSum (productOf "corr")
    (regular (blockFirsts 2 (x.drop 1))) (regular (blockFirsts 2 (x.drop 1))) 0, l, l', e1, b3,
    by rw [e2]; rfl, rfl, ?_, ?_, ?_⟩
  · simp only [d3]
    exact hl
  · refine hl'.trans ?_
    rw [d2, pairSum_replicate, g0, smul_zero]
  · rw [d1, pairSum_replicate, g1, nsmul_eq_mul, mul_one]
    exact_mod_cast regular_count_pos (by simp) (by simp)

end Cddm
