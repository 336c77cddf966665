import Verif.Props.ChainFirst

/-! # C126, the merged curves of the other functions -/

namespace Cddm
open Spec

/-- `log_merge` of what `normalize_multi` returns, whatever the pairs are, if there are some for every delay. -/
theorem chain_merge_of {α β : Type} {lin multi : Tensor (Option ℝ)} {F : List Nat} (hne : 0 ∉ F) {nl n period : Nat} (hper : 1 ≤ period)
    (hn : 2 ≤ n) (he : n % 2 = 0) (s1 : lin.shape = F ++ [period * n]) (s2 : multi.shape = nl :: F ++ [n])
    (P : List Nat → Nat → List (α × β)) (Q : List Nat → Nat → Nat → List (α × β)) (G : List Nat → List (α × β) → ℝ)
    (hP : ∀ p, InShape p F → ∀ k < period * n, P p k ≠ []) (hQ : ∀ p, InShape p F → ∀ j < nl, ∀ k < n, Q p j k ≠ [])
    (h : ∀ p, InShape p F → IsCurve (period * n) (P p) (G p) (curveAt lin p) ∧
        ∀ j < nl, IsCurve n (Q p j) (G p) (curveAt multi (j :: p))) :
    NoNan lin ∧ NoNan multi ∧ ∃ x y, logMergeAny ℝ (numbers lin) (numbers multi) 1 (fun _ => false) = .ok (x, y) ∧
      y.shape = F ++ [x.length] ∧ ∀ p, InShape p F → IsLogMerge ℝ ((List.range (period * n)).map fun k => G p (P p k))
        ((List.range nl).map fun j => (List.range n).map fun k => G p (Q p j k)) period n x (curveAt y p) := by
  have a1 : ∀ p, InShape p F → _ := fun p hp => isCurve_numbers (h p hp).1 (hP p hp)
  have a2 : ∀ p, InShape p F → ∀ j < nl, _ := fun p hp j hj => isCurve_numbers ((h p hp).2 j hj) (hQ p hp j hj)
  refine ⟨fun p hp => ?_, fun p hp => ?_, ?_⟩
  · rw [s1] at hp
    obtain ⟨q, k, rfl, hq, hk⟩ := inShape_concat hp
    exact (a1 q hq).2 k hk
  · rw [s2] at hp
    cases hp with
    | cons hj hp =>
      obtain ⟨q, k, rfl, hq, hk⟩ := inShape_concat hp
      exact (a2 q hq _ hj).2 k hk
  · obtain ⟨x, y, e, hs, hm⟩ := C120_log_merge ℝ F nl period n (numbers lin) (numbers multi) hper hn he s1 s2 hne
    refine ⟨x, y, e, hs, fun p hp => ?_⟩
    have := hm p hp
    rw [(a1 p hp).1] at this
    have e2 : levelsAt (numbers multi) p = (List.range nl).map fun j => (List.range n).map fun k => G p (Q p j k) := by
      unfold levelsAt
      have : (numbers multi).shape.headD 0 = nl := by show multi.shape.headD 0 = nl; rw [s2]; rfl
      rw [this]
      exact List.map_congr_left fun j hj => (a2 p hp j (List.mem_range.1 hj)).1
    rw [e2] at this
    exact this

/-! ### Every delay has pairs -/

theorem mem_selfPairs_head {α : Type} {a b : α} {s : List α} (h : b ∈ a :: s) : (a, b) ∈ selfPairs (a :: s) := by
  unfold selfPairs
  exact List.mem_append_left _ (List.mem_map.2 ⟨b, h, rfl⟩)

theorem selfPairs_regular_ne {α : Type} {x : List α} {N k : Nat} (hx : x.length = N) (hk : k < N) : selfPairsAt (regular x) k ≠ [] := by
  have h1 := regular_get (x := x) (i := k) (by omega)
  obtain ⟨a, s, rfl⟩ := List.exists_cons_of_length_pos (by omega : 0 < x.length)
  refine List.ne_nil_of_mem (a := (a, (a :: s)[k])) ?_
  unfold selfPairsAt
  rw [List.mem_map]
  have e : regular (a :: s) = ((0 : Int), a) :: (regular (a :: s)).tail := by simp [regular, List.mapIdx_cons]
  refine ⟨((0, a), ((k : Int), (a :: s)[k])), List.mem_filter.2 ⟨?_, by simp [delay]⟩, rfl⟩
  rw [e] at h1 ⊢
  exact mem_selfPairs_head h1

theorem selfFinePairs_ne {α : Type} {x : List α} {N k m : Nat} (hx : x.length = N) (hm : 0 < m) (hk : k < N / m) :
    selfFinePairs m x k ≠ [] := by
  obtain ⟨⟨a, b⟩, hab⟩ := List.exists_mem_of_ne_nil _ (selfPairs_regular_ne (blocks_count.trans (by rw [hx])) hk)
  have hmem := hab
  unfold selfPairsAt at hab
  rw [List.mem_map] at hab
  obtain ⟨⟨⟨s, a'⟩, ⟨u, b'⟩⟩, h1, h2⟩ := hab
  have h3 := selfPairs_mem (List.mem_filter.1 h1).1
  cases h2
  have la := blocks_length (mem_regular h3.1)
  have lb := blocks_length (mem_regular h3.2)
  obtain ⟨u1, hu1⟩ := List.exists_mem_of_length_pos (by rw [la]; exact hm)
  obtain ⟨u2, hu2⟩ := List.exists_mem_of_length_pos (by rw [lb]; exact hm)
  refine List.ne_nil_of_mem (a := (u1, u2)) ?_
  unfold selfFinePairs
  rw [List.mem_flatMap]
  exact ⟨_, hmem, List.mem_product.2 ⟨hu1, hu2⟩⟩

theorem level_div {N n nl j : Nat} (hnl : n ≤ N / 2 ^ nl) (hj : j < nl) : n ≤ N / 2 ^ (j + 1) :=
  hnl.trans (Nat.div_le_div_left (Nat.pow_le_pow_right (by norm_num) (by omega)) (by positivity))

theorem div_le_blockFirsts {α : Type} {x : List α} {N m : Nat} (hx : x.length = N) (hm : 0 < m) : N / m ≤ (blockFirsts m x).length := by
  rw [blockFirsts_length m hm, hx]
  exact Nat.div_le_div_right (by omega)

/-! ### The theorems -/

/-- C126 up to the data that are plotted: `log_merge(*normalize_multi(acorr_multi(f, ...), ...))` of a video without times, `n` even. -/
theorem C126_log_merge_acorr_partial (flags : Nat → Bool × Bool) (f : Tensor (Cx ℝ)) (axis : Int)
    (n : Nat) (norm : Option Int) (method : Option String) (period : Nat) (binning : Option Int)
    (align contiguous : Bool) (divisor : Option Int) (r : Nat → ℚ) (ax : Nat)
    (hax : NamesAxis f.shape.length axis ax) (hd : DivisorFits f.shape ax divisor) (hne : 0 ∉ frameShape f.shape ax)
    (N : Nat) (hN : f.shape.getD ax 0 = N) (m : String) (v : Int)
    (hm : m = method.getD "corr") (hm' : m = "corr" ∨ m = "fft") (hb : binning.getD 1 = 1)
    (hv : v = effNorm norm m false) (hargs : AutoArgs m v N none (period * n)) (hn : 5 ≤ n) (h2 : 2 * n ≤ N)
    (hper : 1 ≤ period) (he : n % 2 = 0) (hfit : period * n ≤ N)
    (bg : FrameArg (Cx ℝ)) (var : FrameArg ℝ) (hbg : ArgFits (frameShape f.shape ax) bg ∨ ArgFits [] bg)
    (hvar : ArgFits (frameShape f.shape ax) var ∨ ArgFits [] var) (z : Int) (hz : PlainNorm z) (hp : Prepared v z)
    (hsame : z = 5 ∨ z = 13 ∨ z = 6 ∨ z = 14 → ∀ p, (backgroundAt bg p).fst = (backgroundAt bg p).snd)
    (mode : String) (hmo : mode = "corr" ∨ mode = "diff") (scale : Bool)
    (hsc : scale = true → ∀ p, InShape p (frameShape f.shape ax) → (varianceAt var p).offset ≠ 0) :
    ∃ d nl lin multi x y, n ≤ N / 2 ^ nl ∧ N / 2 ^ (nl + 1) < n ∧
      acorrMultiAny flags f none axis n norm method period binning none align contiguous divisor r = .ok d ∧
      normalizeLevels normOpsR method d (some bg) (some var) (.num (some z)) mode scale none = .ok (lin, multi) ∧
      NoNan lin ∧ NoNan multi ∧ logMergeAny ℝ (numbers lin) (numbers multi) 1 (fun _ => false) = .ok (x, y) ∧
      y.shape = frameShape f.shape ax ++ [x.length] ∧ ∀ p, InShape p (frameShape f.shape ax) →
        IsLogMerge ℝ ((List.range (period * n)).map fun k =>
            shownAs mode scale (varianceAt var p).offset <| autoFormula (backgroundAt bg p) (varianceAt var p).offset z (selfPairsAt (regular (along f ax p)) k))
          ((List.range nl).map fun j => (List.range n).map fun k =>
            shownAs mode scale (varianceAt var p).offset <| autoFormula (backgroundAt bg p) (varianceAt var p).offset z (selfFinePairs (2 ^ (j + 1)) (along f ax p) k))
          period n x (curveAt y p) := by
  have l1 : ∀ p, (along f ax p).length = N := fun p => by rw [along_length, hN]
  obtain ⟨d, nl, lin, multi, k1, k2, e1, e2, s1, s2, hc⟩ := C126_acorr_multi_partial flags f none axis n norm method period binning
    align contiguous divisor r ax hax hd hne N hN m v hm hm' hb hv hargs hn h2 bg var hbg hvar z hz hp hsame mode hmo scale hsc
  obtain ⟨g1, g2, x, y, g3, g4, g5⟩ := chain_merge_of hne hper (by omega) he s1 s2 (fun p k => selfPairsAt (regular (along f ax p)) k)
    (fun p j k => selfFinePairs (2 ^ (j + 1)) (along f ax p) k) (fun p => shownAs mode scale (varianceAt var p).offset ∘ autoFormula (backgroundAt bg p) (varianceAt var p).offset z)
    (fun p _ k hk => selfPairs_regular_ne (l1 p) (by omega))
    (fun p _ j hj k hk => selfFinePairs_ne (l1 p) (by positivity) (lt_of_lt_of_le hk (level_div k1 hj))) hc
  exact ⟨d, nl, lin, multi, x, y, k1, k2, e1, e2, g1, g2, g3, g4, g5⟩

/-- The same for `iacorr_multi` without times, the samples being the frames taken less their automatic background. -/
theorem C126_log_merge_iacorr_partial (flags : Nat → Bool × Bool) (data : List (Tensor (Cx ℝ)))
    (o : MultiOpts) (divisor : Option Int) (env : IterEnvAny) (F : List Nat) (hd : IterDivisorFits F divisor)
    (hne : 0 ∉ F) (hdata : ∀ x ∈ data, x.shape = F)
    (e : Eff) (h : IterCall false false none none env.dataLen o e)
    (hmode : o.mode = "full") (hb' : e.binning = 1)
    (hsp : Spaced e.chunk e.frames (o.period * o.levelSize) e.T1 e.T1)
    (hlen : e.frames ≤ data.length) (h5 : 5 ≤ o.levelSize) (hnl : o.nlevel = none)
    (m : String) (v : Int) (hm : m = o.method.getD "corr") (hm' : m = "corr" ∨ m = "fft") (hb : o.binning.getD 1 = 1)
    (hv : v = effNorm o.norm m false)
    (hargs : AutoArgs m v e.frames none (o.period * o.levelSize))
    (h2 : 2 * o.levelSize ≤ e.frames) (hper : 1 ≤ o.period) (he : o.levelSize % 2 = 0) (hfit : o.period * o.levelSize ≤ e.frames)
    (bg : FrameArg (Cx ℝ)) (var : FrameArg ℝ) (hbg : ArgFits F bg ∨ ArgFits [] bg) (hvar : ArgFits F var ∨ ArgFits [] var)
    (z : Int) (hz : PlainNorm z) (hp : Prepared v z)
    (hsame : z = 5 ∨ z = 13 ∨ z = 6 ∨ z = 14 → ∀ p, (backgroundAt bg p).fst = (backgroundAt bg p).snd) (y : List Nat → List (Cx ℝ))
    (hy : ∀ p, y p = processed o.autoBackground e.chunk e.frames (data.map fun x => x.get p))
    (mode : String) (hmo : mode = "corr" ∨ mode = "diff") (scale : Bool)
    (hsc : scale = true → ∀ p, InShape p F → (varianceAt var p).offset ≠ 0) :
    ∃ out nl lin multi x w, o.levelSize ≤ e.frames / 2 ^ nl ∧ e.frames / 2 ^ (nl + 1) < o.levelSize ∧
      iacorrMultiAny flags data none o divisor env = .ok out ∧
      normalizeLevels normOpsR o.method (out.2.fast, out.2.slow) (some bg) (some var) (.num (some z)) mode scale none =
        .ok (lin, multi) ∧
      NoNan lin ∧ NoNan multi ∧ logMergeAny ℝ (numbers lin) (numbers multi) 1 (fun _ => false) = .ok (x, w) ∧
      w.shape = F ++ [x.length] ∧ ∀ p, InShape p F →
        IsLogMerge ℝ ((List.range (o.period * o.levelSize)).map fun k =>
            shownAs mode scale (varianceAt var p).offset <| autoFormula (backgroundAt bg p) (varianceAt var p).offset z (selfPairsAt (regular (y p)) k))
          ((List.range nl).map fun j => (List.range o.levelSize).map fun k =>
            shownAs mode scale (varianceAt var p).offset <| autoFormula (backgroundAt bg p) (varianceAt var p).offset z (selfFinePairs (2 ^ (j + 1)) (y p) k))
          o.period o.levelSize x (curveAt w p) := by
  have l1 : ∀ p, (y p).length = e.frames := by
    intro p
    rw [hy]
    unfold processed
    rw [List.length_take]
    split <;> simp [hlen]
  obtain ⟨out, nl, lin, multi, k1, k2, e1, e2, s1, s2, hc⟩ := C126_iacorr_multi_partial flags data none o divisor env F hd hne hdata e h
    hmode hb' hsp hlen h5 hnl m v hm hm' hb hv hargs h2 bg var hbg hvar z hz hp hsame y hy mode hmo scale hsc
  obtain ⟨g1, g2, x, w, g3, g4, g5⟩ := chain_merge_of hne hper (by omega) he s1 s2 (fun p k => selfPairsAt (regular (y p)) k)
    (fun p j k => selfFinePairs (2 ^ (j + 1)) (y p) k) (fun p => shownAs mode scale (varianceAt var p).offset ∘ autoFormula (backgroundAt bg p) (varianceAt var p).offset z)
    (fun p _ k hk => selfPairs_regular_ne (l1 p) (by omega))
    (fun p _ j hj k hk => selfFinePairs_ne (l1 p) (by positivity) (lt_of_lt_of_le hk (level_div k1 hj))) hc
  exact ⟨out, nl, lin, multi, x, w, k1, k2, e1, e2, g1, g2, g3, g4, g5⟩

/-- The same for `ccorr_multi` with the first sample of each block in the levels, in particular for the method 'diff'. -/
theorem C126_log_merge_first_partial (flags : Nat → Bool × Bool) (f1 f2 : Tensor (Cx ℝ)) (axis : Int)
    (n : Nat) (norm : Option Int) (method : Option String) (period : Nat) (binning : Option Int)
    (align contiguous : Bool) (divisor : Option Int) (r : Nat → ℚ) (ax : Nat) (hs : f2.shape = f1.shape)
    (hax : NamesAxis f1.shape.length axis ax) (hd : DivisorFits f1.shape ax divisor) (hne : 0 ∉ frameShape f1.shape ax)
    (N : Nat) (hN : f1.shape.getD ax 0 = N) (m : String) (v : Int) (z : Int)
    (hm : m = method.getD "corr")
    (hk : (m = "corr" ∨ m = "fft") ∧ binning = some 0 ∧ PlainNorm z ∧ Prepared v z ∨
      m = "diff" ∧ (binning = none ∨ binning = some 0) ∧ (z = 2 ∨ z = 6 ∧ WantsSums v))
    (hv : v = effNorm norm m true) (hargs : CrossArgs m v N N none none (period * n)) (hn : 5 ≤ n) (h2 : 2 * n ≤ N)
    (hper : 1 ≤ period) (he : n % 2 = 0) (hfit : period * n ≤ N)
    (bg : FrameArg (Cx ℝ)) (var : FrameArg ℝ) (hbg : ArgFits (frameShape f1.shape ax) bg ∨ ArgFits [] bg)
    (hvar : ArgFits (frameShape f1.shape ax) var ∨ ArgFits [] var)
    (mode : String) (hmo : mode = "corr" ∨ mode = "diff") (scale : Bool)
    (hsc : scale = true → ∀ p, InShape p (frameShape f1.shape ax) → (varianceAt var p).offset ≠ 0) :
    ∃ d nl lin multi x y, n ≤ N / 2 ^ nl ∧ N / 2 ^ (nl + 1) < n ∧
      ccorrMultiAny flags f1 f2 none none axis n norm method period binning none align contiguous divisor r = .ok d ∧
      normalizeLevels normOpsR method d (some bg) (some var) (.num (some z)) mode scale none = .ok (lin, multi) ∧
      NoNan lin ∧ NoNan multi ∧ logMergeAny ℝ (numbers lin) (numbers multi) 1 (fun _ => false) = .ok (x, y) ∧
      y.shape = frameShape f1.shape ax ++ [x.length] ∧ ∀ p, InShape p (frameShape f1.shape ax) →
        IsLogMerge ℝ ((linearCurve (backgroundAt bg p) (varianceAt var p).offset z (along f1 ax p) (along f2 ax p) (period * n)).map
            (shownAs mode scale (varianceAt var p).offset))
          ((List.range nl).map fun j => (linearCurve (backgroundAt bg p) (varianceAt var p).offset z
            (blockFirsts (2 ^ (j + 1)) (along f1 ax p)) (blockFirsts (2 ^ (j + 1)) (along f2 ax p)) n).map (shownAs mode scale (varianceAt var p).offset))
          period n x (curveAt y p) := by
  have l1 : ∀ p, (along f1 ax p).length = N := fun p => by rw [along_length, hN]
  have l2 : ∀ p, (along f2 ax p).length = N := fun p => by rw [along_length, hs, hN]
  obtain ⟨d, nl, lin, multi, k1, k2, e1, e2, s1, s2, hc⟩ := C126_ccorr_multi_first_partial flags f1 f2 none none axis n norm method period
    binning align contiguous divisor r ax hs hax hd hne N hN m v z hm hk hv hargs hn h2 bg var hbg hvar mode hmo scale hsc
  obtain ⟨g1, g2, x, y, g3, g4, g5⟩ := chain_merge_of hne hper (by omega) he s1 s2
    (fun p k => pairsAt false (regular (along f1 ax p)) (regular (along f2 ax p)) (period * n) k)
    (fun p j k => pairsAt false (regular (blockFirsts (2 ^ (j + 1)) (along f1 ax p))) (regular (blockFirsts (2 ^ (j + 1)) (along f2 ax p))) n k)
    (fun p => shownAs mode scale (varianceAt var p).offset ∘ crossFormula (backgroundAt bg p) (varianceAt var p).offset z)
    (fun p _ k hk => pairs_ne (l1 p) (l2 p) (by omega))
    (fun p _ j hj k hk => pairs_ne rfl (by rw [blockFirsts_length _ (by positivity), blockFirsts_length _ (by positivity), l1, l2])
      (lt_of_lt_of_le hk ((level_div k1 hj).trans (div_le_blockFirsts (l1 p) (by positivity))))) hc
  refine ⟨d, nl, lin, multi, x, y, k1, k2, e1, e2, g1, g2, g3, g4, fun p hp => ?_⟩
  have := g5 p hp
  simpa [linearCurve, Function.comp_def] using this

/-- ... and for `acorr_multi`. -/
theorem C126_log_merge_acorr_first_partial (flags : Nat → Bool × Bool) (f : Tensor (Cx ℝ)) (axis : Int)
    (n : Nat) (norm : Option Int) (method : Option String) (period : Nat) (binning : Option Int)
    (align contiguous : Bool) (divisor : Option Int) (r : Nat → ℚ) (ax : Nat)
    (hax : NamesAxis f.shape.length axis ax) (hd : DivisorFits f.shape ax divisor) (hne : 0 ∉ frameShape f.shape ax)
    (N : Nat) (hN : f.shape.getD ax 0 = N) (m : String) (v : Int) (z : Int)
    (hm : m = method.getD "corr")
    (bg : FrameArg (Cx ℝ)) (var : FrameArg ℝ)
    (hk : (m = "corr" ∨ m = "fft") ∧ binning = some 0 ∧ PlainNorm z ∧ Prepared v z ∧
        (z = 5 ∨ z = 13 ∨ z = 6 ∨ z = 14 → ∀ p, (backgroundAt bg p).fst = (backgroundAt bg p).snd) ∨
      m = "diff" ∧ (binning = none ∨ binning = some 0) ∧ z = 2)
    (hv : v = effNorm norm m false) (hargs : AutoArgs m v N none (period * n)) (hn : 5 ≤ n) (h2 : 2 * n ≤ N)
    (hper : 1 ≤ period) (he : n % 2 = 0) (hfit : period * n ≤ N)
    (hbg : ArgFits (frameShape f.shape ax) bg ∨ ArgFits [] bg)
    (hvar : ArgFits (frameShape f.shape ax) var ∨ ArgFits [] var)
    (mode : String) (hmo : mode = "corr" ∨ mode = "diff") (scale : Bool)
    (hsc : scale = true → ∀ p, InShape p (frameShape f.shape ax) → (varianceAt var p).offset ≠ 0) :
    ∃ d nl lin multi x y, n ≤ N / 2 ^ nl ∧ N / 2 ^ (nl + 1) < n ∧
      acorrMultiAny flags f none axis n norm method period binning none align contiguous divisor r = .ok d ∧
      normalizeLevels normOpsR method d (some bg) (some var) (.num (some z)) mode scale none = .ok (lin, multi) ∧
      NoNan lin ∧ NoNan multi ∧ logMergeAny ℝ (numbers lin) (numbers multi) 1 (fun _ => false) = .ok (x, y) ∧
      y.shape = frameShape f.shape ax ++ [x.length] ∧ ∀ p, InShape p (frameShape f.shape ax) →
        IsLogMerge ℝ ((List.range (period * n)).map fun k =>
            shownAs mode scale (varianceAt var p).offset <| autoFormula (backgroundAt bg p) (varianceAt var p).offset z (selfPairsAt (regular (along f ax p)) k))
          ((List.range nl).map fun j => (List.range n).map fun k =>
            shownAs mode scale (varianceAt var p).offset <| autoFormula (backgroundAt bg p) (varianceAt var p).offset z (selfPairsAt (regular (blockFirsts (2 ^ (j + 1)) (along f ax p))) k))
          period n x (curveAt y p) := by
  have l1 : ∀ p, (along f ax p).length = N := fun p => by rw [along_length, hN]
  obtain ⟨d, nl, lin, multi, k1, k2, e1, e2, s1, s2, hc⟩ := C126_acorr_multi_first_partial flags f none axis n norm method period binning
    align contiguous divisor r ax hax hd hne N hN m v z hm bg var hk hv hargs hn h2 hbg hvar mode hmo scale hsc
  obtain ⟨g1, g2, x, y, g3, g4, g5⟩ := chain_merge_of hne hper (by omega) he s1 s2 (fun p k => selfPairsAt (regular (along f ax p)) k)
    (fun p j k => selfPairsAt (regular (blockFirsts (2 ^ (j + 1)) (along f ax p))) k)
    (fun p => shownAs mode scale (varianceAt var p).offset ∘ autoFormula (backgroundAt bg p) (varianceAt var p).offset z)
    (fun p _ k hk => selfPairs_regular_ne (l1 p) (by omega))
    (fun p _ j hj k hk => selfPairs_regular_ne rfl
      (lt_of_lt_of_le hk ((level_div k1 hj).trans (div_le_blockFirsts (l1 p) (by positivity))))) hc
  exact ⟨d, nl, lin, multi, x, y, k1, k2, e1, e2, g1, g2, g3, g4, g5⟩

/-- C126 for the method 'diff' meets its hypotheses: a video of 64 frames of 3 × 2 pixels, sixteen delays per level, default arguments. -/
example (flags : Nat → Bool × Bool) (f : Tensor (Cx ℝ)) (r : Nat → ℚ) (h1 : f.shape = [64, 3, 2]) :
    ∃ d lin multi x y,
      acorrMultiAny flags f none 0 16 none (some "diff") 1 none none false false none r = .ok d ∧
      normalizeLevels normOpsR (some "diff") d (some (.arr ⟨[], fun _ => 0⟩)) (some (.arr ⟨[], fun _ => 0⟩)) (.num (some 2)) "corr" false none =
        .ok (lin, multi) ∧
      logMergeAny ℝ (numbers lin) (numbers multi) 1 (fun _ => false) = .ok (x, y) ∧ y.shape = [3, 2] ++ [x.length] := by
  obtain ⟨d, nl, lin, multi, x, y, -, -, e1, e2, -, -, e3, e4, -⟩ := C126_log_merge_acorr_first_partial flags f 0 16 none (some "diff") 1 none
    false false none r 0
    (by rw [h1]; exact ⟨by simp, Or.inl rfl⟩) (by rw [h1]; exact Or.inl ⟨rfl, by simp [frameShape]⟩) (by rw [h1]; simp [frameShape])
    64 (by rw [h1]; rfl) "diff" _ 2 rfl (.arr ⟨[], fun _ => 0⟩) (.arr ⟨[], fun _ => 0⟩) (Or.inr ⟨rfl, Or.inl rfl, rfl⟩) rfl
    ⟨.inr (.inr rfl), by simp [SupportedNorm, effNorm], trivial, by simp [Distinct], fun _ => by simp [defaultN], by simp⟩
    (by decide) (by decide) (by decide) (by decide) (by decide) (Or.inr ⟨rfl, by simp⟩) (Or.inr ⟨rfl, by simp⟩)
    "corr" (Or.inl rfl) false (by simp)
  rw [h1] at e4
  exact ⟨d, lin, multi, x, y, e1, e2, e3, e4⟩

end Cddm
