import Verif.Lemmas.IterMain

/-!
# The iterative functions in mode 'chunk'
-/

namespace Cddm
open Spec

theorem crossDataSum_eq {C : Type} [AddCommMonoid C] (full : Bool) (g : Cx ℝ → Cx ℝ → C)
    {m : String} {v : Int} (h : SupportedNorm m true v) (L Q : Nat) (s1 s2 : Nat → Stream (Cx ℝ))
    (q1 q2 : Nat → Stream ℝ) :
    crossDataSum full g m v L Q s1 s2 q1 q2 =
      rowOf v.toNat m true L L (∑ p ∈ Finset.range Q,
        crossFns full g L L (s1 p) (s2 p) (q1 p) (q2 p)) := by
  obtain ⟨e1, e2⟩ := supported_cases h
  unfold crossDataSum rowOf
  simp only [e1, e2, cells_eq, and_true, crossFns, Prod.fst_sum, Prod.snd_sum, Finset.sum_fn]

theorem autoDataSum_eq {C : Type} [AddCommMonoid C] (cor : Stream (Cx ℝ) → Nat → C)
    {m : String} {v : Int} (h : SupportedNorm m false v) (L Q : Nat) (s : Nat → Stream (Cx ℝ))
    (q : Nat → Stream ℝ) :
    autoDataSum cor m v L Q s q =
      rowOf v.toNat m false L L (∑ p ∈ Finset.range Q, autoFns cor (s p) (q p)) := by
  obtain ⟨e1, e2⟩ := supported_cases h
  unfold autoDataSum rowOf
  simp only [e1, e2, cells_eq, autoFns, Prod.fst_sum, Prod.snd_sum, Bool.false_eq_true, and_false,
    if_false, Finset.sum_fn]

theorem piece_range {α : Type} (y : Nat → α) {c q N : Nat} (h : (q + 1) * c ≤ N) :
    piece c q ((List.range N).map y) = chunkOf y c q := by
  rw [Nat.succ_mul] at h
  apply List.ext_getElem
  · simp [piece, chunkOf]; omega
  · intro i h1 h2
    simp [piece, chunkOf]

theorem stream_piece {α : Type} (T : List Int) (y : Nat → α) {c q N : Nat} (h : (q + 1) * c ≤ N)
    (hT : N ≤ T.length) :
    stream (piece c q ((List.range N).map y)) (some (piece c q (T.take N))) = part T y c q := by
  rw [piece_range y h]
  have : piece c q (T.take N) = sliceT T (q * c) c := by
    unfold piece sliceT
    rw [List.drop_take, List.take_take, min_eq_left]
    rw [Nat.succ_mul] at h
    omega
  rw [this]
  exact stream_part y (h.trans hT)

theorem pieces_mul {c Q : Nat} (hc : 0 < c) : pieces c (Q * c) = Q := by
  unfold pieces
  rw [show Q * c + c - 1 = (c - 1) + Q * c by omega, Nat.add_mul_div_right _ _ hc,
    Nat.div_eq_of_lt (by omega), Nat.zero_add]

theorem pieces_one {c n : Nat} (h1 : 1 ≤ n) (h2 : n ≤ c) : pieces c n = 1 := by
  unfold pieces
  rw [Nat.div_eq_iff (by omega)]
  omega

theorem piece_zero {α : Type} {c : Nat} {x : List α} (h : x.length ≤ c) : piece c 0 x = x := by
  unfold piece
  simp [List.take_of_length_le h]

section rows
variable {C : Type} [AddCommMonoid C]

theorem fast_chunk (cplx : Bool) (g : Cx ℝ → Cx ℝ → C) {cfg : IterCfg} {T1 T2 : List Int}
    (r : Nat → ℚ) (squares : Bool) (Y1 Y2 : Nat → Cx ℝ) {m : String} {v : Int} {L Q : Nat}
    (hv : SupportedNorm m true v)
    (hfull : cfg.full = false) (hN : Q * cfg.half = cfg.nframes) (h1 : cfg.nframes ≤ T1.length)
    (h2 : cfg.nframes ≤ T2.length) :
    rowOf v.toNat m true L L (∑ q ∈ Finset.range Q,
      (levelParts cfg T1 T2 r squares Y1 Y2 0).term cplx g L cfg.full q)
    = crossDataSum cplx g m v L Q
        (fun q => stream (piece cfg.half q ((List.range cfg.nframes).map Y1))
          (some (piece cfg.half q (T1.take cfg.nframes))))
        (fun q => stream (piece cfg.half q ((List.range cfg.nframes).map Y2))
          (some (piece cfg.half q (T2.take cfg.nframes))))
        (fun q => stream (piece cfg.half q (((List.range cfg.nframes).map Y1).map Cx.abs2))
          (some (piece cfg.half q (T1.take cfg.nframes))))
        (fun q => stream (piece cfg.half q (((List.range cfg.nframes).map Y2).map Cx.abs2))
          (some (piece cfg.half q (T2.take cfg.nframes)))) := by
  rw [crossDataSum_eq cplx g hv, hfull]
  congr 1
  apply Finset.sum_congr rfl
  intro q hq
  have hq' : (q + 1) * cfg.half ≤ cfg.nframes := by
    rw [← hN]
    exact Nat.mul_le_mul_right _ (Finset.mem_range.1 hq)
  unfold Parts.term Parts.pair levelParts
  simp only [Bool.false_eq_true, and_false, if_false, add_zero, levelSq_zero, List.map_map]
  rw [stream_piece T1 Y1 hq' h1, stream_piece T2 Y2 hq' h2,
    stream_piece T1 (Cx.abs2 ∘ Y1) hq' h1, stream_piece T2 (Cx.abs2 ∘ Y2) hq' h2]
  rfl

theorem slow_chunk (cplx : Bool) (g : Cx ℝ → Cx ℝ → C) {cfg : IterCfg} {T1 T2 : List Int}
    (r : Nat → ℚ) (squares : Bool) (Y1 Y2 : Nat → Cx ℝ) {m : String} {v : Int} {L j k : Nat}
    (hv : SupportedNorm m true v)
    (hsq : squares = (needsSquares v.toNat && decide (m ≠ "diff")))
    (hfull : cfg.full = false) (hb : cfg.binning = 1) (hN : cfg.nframes = cfg.half * 2 ^ k)
    (hc : 0 < cfg.half) (hj : 1 ≤ j) (hjk : j < cfg.nDecades → j ≤ k)
    (hjk' : ¬ j < cfg.nDecades → k ≤ j) (hpos : 1 ≤ cfg.nframes / 2 ^ j) :
    rowOf v.toNat m true L L
      (crossLevel cplx g L cfg T1 T2 r squares Y1 Y2 j)
    = crossDataSum cplx g m v L (pieces cfg.half (cfg.nframes / 2 ^ j))
        (fun q => regular (piece cfg.half q (blockMeans (2 ^ j) ((List.range cfg.nframes).map Y1))))
        (fun q => regular (piece cfg.half q (blockMeans (2 ^ j) ((List.range cfg.nframes).map Y2))))
        (fun q => regular (piece cfg.half q
          (blockMeans (2 ^ j) (((List.range cfg.nframes).map Y1).map Cx.abs2))))
        (fun q => regular (piece cfg.half q
          (blockMeans (2 ^ j) (((List.range cfg.nframes).map Y2).map Cx.abs2)))) := by
  have hsq' : needsSquares v.toNat = true → m ≠ "diff" → squares = true := by
    intro h1 h2
    rw [hsq]; simp [h1, h2]
  rw [crossDataSum_eq cplx g hv, List.map_map, List.map_map]
  unfold crossLevel
  by_cases hlt : j < cfg.nDecades
  · have hjk := hjk hlt
    have hQ : cfg.nframes / (cfg.half * 2 ^ j) * cfg.half = cfg.nframes / 2 ^ j := by
      obtain ⟨i, rfl⟩ := Nat.exists_eq_add_of_le hjk
      rw [hN, pow_add, ← mul_assoc, Nat.mul_div_cancel_left _
        (Nat.mul_pos hc (Nat.two_pow_pos j)), mul_right_comm,
        Nat.mul_div_cancel _ (Nat.two_pow_pos j), mul_comm]
    rw [if_pos hlt, hfull, ← hQ, pieces_mul hc]
    have hle : cfg.nframes / 2 ^ j ≤ cfg.nframes := Nat.div_le_self _ _
    have key : ∀ {α : Type} (y : Nat → α) (q : Nat),
        q ∈ Finset.range (cfg.nframes / (cfg.half * 2 ^ j)) →
        part (arange cfg.nframes) y cfg.half q = shiftStream ((q * cfg.half : Nat) : Int)
          (regular (piece cfg.half q ((List.range (cfg.nframes / 2 ^ j)).map y))) := by
      intro α y q hq
      have hq' : (q + 1) * cfg.half ≤ cfg.nframes / 2 ^ j := by
        rw [← hQ]
        exact Nat.mul_le_mul_right _ (Finset.mem_range.1 hq)
      rw [piece_range y hq', regular_part y (hq'.trans hle)]
    unfold Parts.term Parts.pair levelParts levelT
    simp only [show ¬ j = 0 by omega, if_false, hb, Bool.false_eq_true, and_false, add_zero]
    have e : ∀ q ∈ Finset.range (cfg.nframes / (cfg.half * 2 ^ j)),
        crossFns cplx g L L (part (arange cfg.nframes) (streamBin 1 r Y1 j) cfg.half q)
          (part (arange cfg.nframes) (streamBin 1 r Y2 j) cfg.half q)
          (part (arange cfg.nframes) (levelSq 1 r Y1 squares j) cfg.half q)
          (part (arange cfg.nframes) (levelSq 1 r Y2 squares j) cfg.half q)
        = crossFns cplx g L L
          (regular (piece cfg.half q (blockMeans (2 ^ j) ((List.range cfg.nframes).map Y1))))
          (regular (piece cfg.half q (blockMeans (2 ^ j) ((List.range cfg.nframes).map Y2))))
          (regular (piece cfg.half q
            ((List.range (cfg.nframes / 2 ^ j)).map (levelSq 1 r Y1 squares j))))
          (regular (piece cfg.half q
            ((List.range (cfg.nframes / 2 ^ j)).map (levelSq 1 r Y2 squares j)))) := by
      intro q hq
      rw [key _ q hq, key _ q hq, key _ q hq, key _ q hq, crossFns_shift, row_mean, row_mean]
    rw [Finset.sum_congr rfl e]
    by_cases hs : squares = true
    · simp only [hs, levelSq_row]
    · refine rowOf_congr ?_ ?_ ?_ ?_ ?_
      · simp only [Prod.fst_sum, crossFns]
      · simp only [Prod.fst_sum, Prod.snd_sum, crossFns]
      · simp only [Prod.fst_sum, Prod.snd_sum, crossFns]
      · simp only [Prod.snd_sum, crossFns]
      · intro h1 h2
        exact absurd (hsq' h1 h2) hs
  · have hkj := hjk' hlt
    have hle : cfg.nframes / 2 ^ j ≤ cfg.half := by
      have := div_pow_anti (n := cfg.nframes) hkj
      rwa [show cfg.nframes / 2 ^ k = cfg.half by
        rw [hN, Nat.mul_div_cancel _ (Nat.two_pow_pos k)]] at this
    rw [if_neg hlt, hb, pieces_one hpos hle, Finset.sum_range_one,
      piece_zero (by rw [blockMeans_length]; simpa using hle),
      piece_zero (by rw [blockMeans_length]; simpa using hle),
      piece_zero (by rw [blockMeans_length]; simpa using hle),
      piece_zero (by rw [blockMeans_length]; simpa using hle)]
    unfold restTerm
    have e1 : max cfg.nDecades 1 - 1 + (j + 1 - max cfg.nDecades 1) = j := by omega
    rw [restSeq_mean, restSeq_mean, restCount_one, Nat.div_div_eq_div_mul, ← pow_add, e1, row_mean,
      row_mean]
    refine rowOf_congr rfl rfl rfl rfl ?_
    · intro h1 h2
      rw [hsq' h1 h2, restSq_row _ _ _ _ e1, restSq_row _ _ _ _ e1]

theorem fast_chunk_auto (cplx : Bool) (cor : Stream (Cx ℝ) → Nat → C) (g : Cx ℝ → Cx ℝ → C)
    {cfg : IterCfg} {T : List Int}
    (r : Nat → ℚ) (squares : Bool) (Y : Nat → Cx ℝ) {m : String} {v : Int} {n L Q : Nat}
    (hv : SupportedNorm m false v)
    (hfull : cfg.full = false) (hN : Q * cfg.half = cfg.nframes) (h1 : cfg.nframes ≤ T.length) :
    rowOf v.toNat m false n n (∑ q ∈ Finset.range Q,
      (levelParts cfg T T r squares Y Y 0).autoTerm cplx cor g L cfg.full q)
    = autoDataSum cor m v n Q
        (fun q => stream (piece cfg.half q ((List.range cfg.nframes).map Y))
          (some (piece cfg.half q (T.take cfg.nframes))))
        (fun q => stream (piece cfg.half q (((List.range cfg.nframes).map Y).map Cx.abs2))
          (some (piece cfg.half q (T.take cfg.nframes)))) := by
  rw [autoDataSum_eq cor hv, hfull]
  congr 1
  apply Finset.sum_congr rfl
  intro q hq
  have hq' : (q + 1) * cfg.half ≤ cfg.nframes := by
    rw [← hN]
    exact Nat.mul_le_mul_right _ (Finset.mem_range.1 hq)
  unfold Parts.autoTerm levelParts
  simp only [Bool.false_eq_true, and_false, if_false, add_zero, levelSq_zero, List.map_map]
  rw [stream_piece T Y hq' h1, stream_piece T (Cx.abs2 ∘ Y) hq' h1]
  rfl

theorem slow_chunk_auto (cplx : Bool) (cor : Stream (Cx ℝ) → Nat → C)
    (hcor : ∀ c s, cor (shiftStream c s) = cor s) (g : Cx ℝ → Cx ℝ → C) {cfg : IterCfg}
    {T : List Int}
    (r : Nat → ℚ) (squares : Bool) (Y : Nat → Cx ℝ) {m : String} {v : Int} {n j k : Nat}
    (hv : SupportedNorm m false v)
    (hsq : squares = (needsSquares v.toNat && decide (m ≠ "diff")))
    (hfull : cfg.full = false) (hb : cfg.binning = 1) (hN : cfg.nframes = cfg.half * 2 ^ k)
    (hc : 0 < cfg.half) (hj : 1 ≤ j) (hjk : j < cfg.nDecades → j ≤ k)
    (hjk' : ¬ j < cfg.nDecades → k ≤ j) (hpos : 1 ≤ cfg.nframes / 2 ^ j) :
    rowOf v.toNat m false n n (autoLevel cplx cor g cfg T r squares Y j)
    = autoDataSum cor m v n (pieces cfg.half (cfg.nframes / 2 ^ j))
        (fun q => regular (piece cfg.half q (blockMeans (2 ^ j) ((List.range cfg.nframes).map Y))))
        (fun q => regular (piece cfg.half q
          (blockMeans (2 ^ j) (((List.range cfg.nframes).map Y).map Cx.abs2)))) := by
  have hsq' : needsSquares v.toNat = true → m ≠ "diff" → squares = true := by
    intro h1 h2
    rw [hsq]; simp [h1, h2]
  rw [autoDataSum_eq cor hv, List.map_map]
  unfold autoLevel
  by_cases hlt : j < cfg.nDecades
  · have hjk := hjk hlt
    have hQ : cfg.nframes / (cfg.half * 2 ^ j) * cfg.half = cfg.nframes / 2 ^ j := by
      obtain ⟨i, rfl⟩ := Nat.exists_eq_add_of_le hjk
      rw [hN, pow_add, ← mul_assoc, Nat.mul_div_cancel_left _
        (Nat.mul_pos hc (Nat.two_pow_pos j)), mul_right_comm,
        Nat.mul_div_cancel _ (Nat.two_pow_pos j), mul_comm]
    rw [if_pos hlt, hfull, ← hQ, pieces_mul hc]
    have hle : cfg.nframes / 2 ^ j ≤ cfg.nframes := Nat.div_le_self _ _
    have key : ∀ {α : Type} (y : Nat → α) (q : Nat),
        q ∈ Finset.range (cfg.nframes / (cfg.half * 2 ^ j)) →
        part (arange cfg.nframes) y cfg.half q = shiftStream ((q * cfg.half : Nat) : Int)
          (regular (piece cfg.half q ((List.range (cfg.nframes / 2 ^ j)).map y))) := by
      intro α y q hq
      have hq' : (q + 1) * cfg.half ≤ cfg.nframes / 2 ^ j := by
        rw [← hQ]
        exact Nat.mul_le_mul_right _ (Finset.mem_range.1 hq)
      rw [piece_range y hq', regular_part y (hq'.trans hle)]
    unfold Parts.autoTerm levelParts levelT
    simp only [show ¬ j = 0 by omega, if_false, hb, Bool.false_eq_true, and_false, add_zero]
    have e : ∀ q ∈ Finset.range (cfg.nframes / (cfg.half * 2 ^ j)),
        autoFns cor (part (arange cfg.nframes) (streamBin 1 r Y j) cfg.half q)
          (part (arange cfg.nframes) (levelSq 1 r Y squares j) cfg.half q)
        = autoFns cor
          (regular (piece cfg.half q (blockMeans (2 ^ j) ((List.range cfg.nframes).map Y))))
          (regular (piece cfg.half q
            ((List.range (cfg.nframes / 2 ^ j)).map (levelSq 1 r Y squares j)))) := by
      intro q hq
      rw [key _ q hq, key _ q hq, autoFns_shift cor hcor, row_mean]
    rw [Finset.sum_congr rfl e]
    by_cases hs : squares = true
    · simp only [hs, levelSq_row]
    · refine rowOf_congr ?_ ?_ ?_ ?_ ?_
      · simp only [Prod.fst_sum, autoFns]
      · simp only [Prod.fst_sum, Prod.snd_sum, autoFns]
      · simp only [Prod.fst_sum, Prod.snd_sum, autoFns]
      · simp only [Prod.snd_sum, autoFns]
      · intro h1 h2
        exact absurd (hsq' h1 h2) hs
  · have hkj := hjk' hlt
    have hle : cfg.nframes / 2 ^ j ≤ cfg.half := by
      have := div_pow_anti (n := cfg.nframes) hkj
      rwa [show cfg.nframes / 2 ^ k = cfg.half by
        rw [hN, Nat.mul_div_cancel _ (Nat.two_pow_pos k)]] at this
    rw [if_neg hlt, hb, pieces_one hpos hle, Finset.sum_range_one,
      piece_zero (by rw [blockMeans_length]; simpa using hle),
      piece_zero (by rw [blockMeans_length]; simpa using hle)]
    unfold restAutoTerm
    have e1 : max cfg.nDecades 1 - 1 + (j + 1 - max cfg.nDecades 1) = j := by omega
    rw [restSeq_mean, restCount_one, Nat.div_div_eq_div_mul, ← pow_add, e1, row_mean]
    refine rowOf_congr rfl rfl rfl rfl ?_
    · intro h1 h2
      rw [hsq' h1 h2, restSq_row _ _ _ _ e1]

/-! ### Counts -/

omit [AddCommMonoid C] in
theorem countsLe_rowOf {nm : Nat} {m : String} {cross : Bool} {L : Nat} {d e : RowFns C}
    (h : ∀ k, d.2.1 k ≤ e.2.1 k) :
    CountsLe (rowOf nm m cross L L d) (rowOf nm m cross L L e) := by
  refine ⟨_, _, rfl, rfl, ?_⟩
  unfold upto
  rw [List.forall₂_map_left_iff, List.forall₂_map_right_iff]
  exact List.forall₂_same.2 fun k _ => h k

theorem term_count_le (P : Parts) (full : Bool) (g : Cx ℝ → Cx ℝ → C) (L q k : Nat) :
    (P.term full g L false q).2.1 k ≤ (P.term full g L true q).2.1 k := by
  unfold Parts.term
  simp only [Bool.false_eq_true, and_false, if_false, add_zero, and_true]
  split
  · simp only [Prod.snd_add, Prod.fst_add, Pi.add_apply]
    omega
  · rw [add_zero]

theorem autoTerm_count_le (P : Parts) (cplx : Bool) (cor : Stream (Cx ℝ) → Nat → C)
    (g : Cx ℝ → Cx ℝ → C) (L q k : Nat) :
    (P.autoTerm cplx cor g L false q).2.1 k ≤ (P.autoTerm cplx cor g L true q).2.1 k := by
  unfold Parts.autoTerm
  simp only [Bool.false_eq_true, and_false, if_false, add_zero, and_true]
  split
  · simp only [Prod.snd_add, Prod.fst_add, Pi.add_apply]
    omega
  · rw [add_zero]

theorem count_sum_le {Q k : Nat} {d e : Nat → RowFns C} (h : ∀ q, (d q).2.1 k ≤ (e q).2.1 k) :
    (∑ q ∈ Finset.range Q, d q).2.1 k ≤ (∑ q ∈ Finset.range Q, e q).2.1 k := by
  simp only [Prod.snd_sum, Prod.fst_sum, Finset.sum_apply]
  exact Finset.sum_le_sum fun q _ => h q

theorem crossLevel_count_le (cplx : Bool) (g : Cx ℝ → Cx ℝ → C) (L : Nat) (cfg : IterCfg)
    (T1 T2 : List Int) (r : Nat → ℚ) (squares : Bool) (Y1 Y2 : Nat → Cx ℝ) (j k : Nat) :
    (crossLevel cplx g L { cfg with full := false } T1 T2 r squares Y1 Y2 j).2.1 k
      ≤ (crossLevel cplx g L { cfg with full := true } T1 T2 r squares Y1 Y2 j).2.1 k := by
  unfold crossLevel
  by_cases h : j < cfg.nDecades
  · rw [if_pos h, if_pos h]
    exact count_sum_le fun q => term_count_le _ _ _ _ _ _
  · rw [if_neg h, if_neg h]

theorem autoLevel_count_le (cplx : Bool) (cor : Stream (Cx ℝ) → Nat → C) (g : Cx ℝ → Cx ℝ → C)
    (cfg : IterCfg) (T : List Int) (r : Nat → ℚ) (squares : Bool) (Y : Nat → Cx ℝ) (j k : Nat) :
    (autoLevel cplx cor g { cfg with full := false } T r squares Y j).2.1 k
      ≤ (autoLevel cplx cor g { cfg with full := true } T r squares Y j).2.1 k := by
  unfold autoLevel
  by_cases h : j < cfg.nDecades
  · rw [if_pos h, if_pos h]
    exact count_sum_le fun q => autoTerm_count_le _ _ _ _ _ _ _
  · rw [if_neg h, if_neg h]

end rows

section calls

theorem level_size_le {levelSize N nl j : Nat} {nlevel : Option Int}
    (h : EffLevels levelSize N nlevel nl) (hj : j < nl) : levelSize ≤ N / 2 ^ (j + 1) := by
  obtain ⟨nl0, a1, a2, a3, a4⟩ := h
  refine a1.trans (div_pow_anti ?_)
  cases nlevel with
  | none => have := a3 rfl; omega
  | some l => have := a4 l rfl; omega

theorem nDecades_cases {k nd nl : Nat} {nlevel : Option Int}
    (hn1 : nlevel = none → nd = k) (hn2 : nlevel ≠ none → nd = nl + 1) (j : Nat) (hj : j < nl)
    (hk : nlevel = none ∨ nl ≤ k) :
    (j + 1 < nd → j + 1 ≤ k) ∧ (¬ j + 1 < nd → k ≤ j + 1) := by
  by_cases h : nlevel = none
  · have := hn1 h; omega
  · have := hn2 h
    rcases hk with hk | hk
    · exact absurd hk h
    · omega

variable {C : Type} [AddCommMonoid C] {cplx : Bool} {g : String → Cx ℝ → Cx ℝ → C}
  {cc : CrossFn C} {data : List (Cx ℝ × Cx ℝ)} {t1 t2 : Option (List Int)} {o : MultiOpts}
  {env : IterEnv} {e : Eff}

theorem cross_chunk (K : CrossOK cplx g cc) (h : IterCall true cplx t1 t2 env.dataLen o e)
    (hmode : o.mode = "chunk")
    (hlen : e.frames ≤ data.length) {y1 y2 : List (Cx ℝ)}
    (hy1 : y1 = processed o.autoBackground e.chunk e.frames (data.map Prod.fst))
    (hy2 : y2 = processed o.autoBackground e.chunk e.frames (data.map Prod.snd)) :
    ∃ slow, iccorrMultiOf cplx cc data t1 t2 o env = .ok (min data.length (e.frames + 1),
      ⟨crossDataSum cplx (g e.method) e.method e.norm (iterLen cplx (o.period * o.levelSize))
          (e.frames / e.chunk)
          (fun q => stream (piece e.chunk q y1) (some (piece e.chunk q (e.T1.take e.frames))))
          (fun q => stream (piece e.chunk q y2) (some (piece e.chunk q (e.T2.take e.frames))))
          (fun q => stream (piece e.chunk q (y1.map Cx.abs2))
            (some (piece e.chunk q (e.T1.take e.frames))))
          (fun q => stream (piece e.chunk q (y2.map Cx.abs2))
            (some (piece e.chunk q (e.T2.take e.frames)))),
        slow, [some (meanOf y1, varianceOf y1), some (meanOf y2, varianceOf y2)]⟩) ∧
      slow.length = e.nlevel ∧
      (e.binning = 1 → o.nlevel = none ∨ e.nlevel ≤ e.k →
        slow = (List.range e.nlevel).map fun j =>
          crossDataSum cplx (g e.method) e.method e.norm (iterLen cplx o.levelSize)
            (pieces e.chunk (e.frames / 2 ^ (j + 1)))
            (fun q => regular (piece e.chunk q (blockMeans (2 ^ (j + 1)) y1)))
            (fun q => regular (piece e.chunk q (blockMeans (2 ^ (j + 1)) y2)))
            (fun q => regular (piece e.chunk q (blockMeans (2 ^ (j + 1)) (y1.map Cx.abs2))))
            (fun q => regular (piece e.chunk q (blockMeans (2 ^ (j + 1)) (y2.map Cx.abs2))))) := by
  have hpos := IterCall.pos h
  obtain ⟨nd, cfg, hcfg, hn1, hn2, heq⟩ := crossIter_closed K (data := data) (period := o.period)
    (junk := env.junk) (junkSq := env.junkSq) (al := env.aligned) (al' := env.aligned')
    (r := env.rand) (ab := o.autoBackground) h.times h.frames h.levels h.binning h.mode h.norm
    h.args (fun _ => h.period) (by intro e; rw [e] at hlen; simp at hlen; omega)
  rw [if_neg (by omega), statOf_eq _ hpos, statOf_eq _ hpos, ← processed_pair h _ hlen,
    ← processed_pair h _ hlen, ← hy1, ← hy2] at heq
  have hfull : cfg.full = false := by rw [hcfg]; simp [cfgOf, hmode]
  have hN : cfg.nframes = e.frames := by rw [hcfg]; rfl
  have hH : cfg.half = e.chunk := by rw [hcfg]; rfl
  have hff := fast_chunk cplx (g e.method) (cfg := cfg) (T1 := e.T1) (T2 := e.T2) env.rand
    (needsSquares e.norm.toNat && decide (e.method ≠ "diff"))
    (shown o.autoBackground (frameAt (data.map Prod.fst)) e.chunk)
    (shown o.autoBackground (frameAt (data.map Prod.snd)) e.chunk) (m := e.method) (v := e.norm)
    (L := iterLen cplx (o.period * o.levelSize)) (Q := e.frames / e.chunk) h.args.norm hfull
    (by rw [hN, hH]; exact IterCall.chunks h) (by rw [hN]; exact h.args.times1)
    (by rw [hN]; exact h.args.times2)
  rw [hN, hH, ← processed_pair h _ hlen, ← processed_pair h _ hlen, ← hy1, ← hy2] at hff
  rw [hff] at heq
  have hcall : iccorrMultiOf cplx cc data t1 t2 o env = crossIterOf cplx cc data t1 t2 o env := by
    unfold iccorrMultiOf
    rw [if_neg (pair_check (h.pair rfl))]
  refine ⟨_, hcall.trans heq, ?_, ?_⟩
  · simp
  · intro hb hk
    apply List.map_congr_left
    intro j hj
    have hj' := List.mem_range.1 hj
    have hnd : cfg.nDecades = nd := by rw [hcfg]; rfl
    obtain ⟨c1, c2⟩ := nDecades_cases hn1 hn2 j hj' hk
    have := slow_chunk cplx (g e.method) (cfg := cfg) (T1 := e.T1) (T2 := e.T2) env.rand _
      (shown o.autoBackground (frameAt (data.map Prod.fst)) e.chunk)
      (shown o.autoBackground (frameAt (data.map Prod.snd)) e.chunk) (m := e.method) (v := e.norm)
      (L := iterLen cplx o.levelSize) (j := j + 1) (k := e.k) h.args.norm rfl hfull
      (by rw [hcfg]; exact hb) (by rw [hN, hH]; exact h.frames.frames)
      (by rw [hH]; exact h.frames.level.trans_le h.frames.lo)
      (by omega) (by rw [hnd]; exact c1) (by rw [hnd]; exact c2)
      (by
        rw [hN]
        exact h.frames.level.trans_le (level_size_le h.levels hj'))
    rw [hN, hH, ← processed_pair h _ hlen, ← processed_pair h _ hlen, ← hy1, ← hy2] at this
    exact this

theorem IterCall.withMode {cross : Bool} {dl : Option Nat} (h : IterCall cross cplx t1 t2 dl o e)
    (s : String) (hs : s = "full" ∨ s = "chunk") :
    IterCall cross cplx t1 t2 dl { o with mode := s } e :=
  ⟨h.pair, hs, h.times, h.frames, h.levels, h.binning, h.norm, h.args, h.period, h.fft⟩

theorem cross_counts (K : CrossOK cplx g cc) (h : IterCall true cplx t1 t2 env.dataLen o e)
    (hlen : e.frames ≤ data.length) :
    ∃ taken fast slow stats fast' slow',
      iccorrMultiOf cplx cc data t1 t2 { o with mode := "chunk" } env
        = .ok (taken, ⟨fast, slow, stats⟩) ∧
      iccorrMultiOf cplx cc data t1 t2 { o with mode := "full" } env
        = .ok (taken, ⟨fast', slow', stats⟩) ∧
      CountsLe fast fast' ∧ List.Forall₂ CountsLe slow slow' := by
  have hpos := IterCall.pos h
  have hc := IterCall.withMode h "chunk" (.inr rfl)
  have hf := IterCall.withMode h "full" (.inl rfl)
  obtain ⟨nd, cfg, hcfg, hn1, hn2, heq⟩ := crossIter_closed K (data := data) (period := o.period)
    (junk := env.junk) (junkSq := env.junkSq) (al := env.aligned) (al' := env.aligned')
    (r := env.rand) (ab := o.autoBackground) hc.times hc.frames hc.levels hc.binning hc.mode hc.norm
    hc.args (fun _ => h.period) (by intro e; rw [e] at hlen; simp at hlen; omega)
  obtain ⟨nd', cfg', hcfg', hn1', hn2', heq'⟩ := crossIter_closed K (data := data)
    (period := o.period)
    (junk := env.junk) (junkSq := env.junkSq) (al := env.aligned) (al' := env.aligned')
    (r := env.rand) (ab := o.autoBackground) hf.times hf.frames hf.levels hf.binning hf.mode hf.norm
    hf.args (fun _ => h.period) (by intro e; rw [e] at hlen; simp at hlen; omega)
  have hnd : nd = nd' := by
    by_cases hnl : o.nlevel = none
    · rw [hn1 hnl, hn1' hnl]
    · rw [hn2 hnl, hn2' hnl]
  subst hnd
  rw [if_neg (by omega)] at heq heq'
  have hcall : ∀ s, iccorrMultiOf cplx cc data t1 t2 { o with mode := s } env
      = crossIterOf cplx cc data t1 t2 { o with mode := s } env := by
    intro s
    unfold iccorrMultiOf
    rw [if_neg (pair_check (h.pair rfl))]
  refine ⟨_, _, _, _, _, _, (hcall _).trans heq, (hcall _).trans heq', ?_, ?_⟩
  · apply countsLe_rowOf
    intro k
    apply count_sum_le
    intro q
    rw [hcfg, hcfg']
    exact term_count_le _ _ _ _ _ _
  · rw [List.forall₂_map_left_iff, List.forall₂_map_right_iff]
    refine List.forall₂_same.2 fun l _ => countsLe_rowOf fun k => ?_
    rw [hcfg, hcfg']
    exact crossLevel_count_le cplx _ _ (cfgOf e.chunk nd e.frames e.nlevel o.period o.levelSize
      e.method e.binning true o.autoBackground) _ _ _ _ _ _ _ _

end calls

section autoCalls
variable {C : Type} [AddCommMonoid C] {cplx : Bool}
    {g : String → Cx ℝ → Cx ℝ → C} {cor : String → Stream (Cx ℝ) → Nat → C} {ac : AutoFn C}
    {cc : CrossFn C} {data : List (Cx ℝ)} {t : Option (List Int)} {o : MultiOpts}
  {env : IterEnv} {e : Eff}

theorem auto_chunk (K : CrossOK cplx g cc) (KA : AutoOK cplx cor ac)
    (hcor : ∀ m c s, cor m (shiftStream c s) = cor m s)
    (h : IterCall false cplx t none env.dataLen o e) (hmode : o.mode = "chunk")
    (hlen : e.frames ≤ data.length) {y : List (Cx ℝ)}
    (hy : y = processed o.autoBackground e.chunk e.frames data) :
    ∃ slow, autoIterOf ac cc data t o env = .ok (min data.length (e.frames + 1),
      ⟨autoDataSum (cor e.method) e.method e.norm (o.period * o.levelSize)
          (e.frames / e.chunk)
          (fun q => stream (piece e.chunk q y) (some (piece e.chunk q (e.T1.take e.frames))))
          (fun q => stream (piece e.chunk q (y.map Cx.abs2))
            (some (piece e.chunk q (e.T1.take e.frames)))),
        slow, [some (meanOf y, varianceOf y)]⟩) ∧
      slow.length = e.nlevel ∧
      (e.binning = 1 → o.nlevel = none ∨ e.nlevel ≤ e.k →
        slow = (List.range e.nlevel).map fun j =>
          autoDataSum (cor e.method) e.method e.norm o.levelSize
            (pieces e.chunk (e.frames / 2 ^ (j + 1)))
            (fun q => regular (piece e.chunk q (blockMeans (2 ^ (j + 1)) y)))
            (fun q => regular (piece e.chunk q (blockMeans (2 ^ (j + 1)) (y.map Cx.abs2))))) := by
  have hpos := IterCall.pos h
  have hpr := processed_pair h (x := data) id hlen
  rw [List.map_id] at hpr
  have hT : e.T2 = e.T1 := h.times.second
  obtain ⟨nd, cfg, hcfg, hn1, hn2, heq⟩ := autoIter_closed K KA hcor
    (data := data) (period := o.period) (T := e.T1)
    (junk := fun j k => (env.junk j k).1) (junkSq := fun j k => (env.junkSq j k).1)
    (al := env.aligned) (al' := env.aligned')
    (r := env.rand) (ab := o.autoBackground) (by have := h.times; rw [hT] at this; exact this)
    h.frames h.levels h.binning h.mode h.norm
    (by have := h.args; rw [hT] at this; exact this) h.period (h.fft rfl)
    (by intro e; rw [e] at hlen; simp at hlen; omega)
  rw [if_neg (by omega), statOf_eq _ hpos, ← hpr, ← hy] at heq
  have hfull : cfg.full = false := by rw [hcfg]; simp [cfgOf, hmode]
  have hN : cfg.nframes = e.frames := by rw [hcfg]; rfl
  have hH : cfg.half = e.chunk := by rw [hcfg]; rfl
  have hff := fast_chunk_auto cplx (cor e.method) (g e.method) (cfg := cfg) (T := e.T1) env.rand
    (needsSquares e.norm.toNat && decide (e.method ≠ "diff"))
    (shown o.autoBackground (frameAt data) e.chunk) (m := e.method) (v := e.norm)
    (n := o.period * o.levelSize) (Q := e.frames / e.chunk)
    (L := iterLen cplx (o.period * o.levelSize)) h.args.norm hfull
    (by rw [hN, hH]; exact IterCall.chunks h) (by rw [hN]; exact h.args.times1)
  rw [hN, hH, ← hpr, ← hy] at hff
  rw [hff] at heq
  refine ⟨_, heq, ?_, ?_⟩
  · simp
  · intro hb hk
    apply List.map_congr_left
    intro j hj
    have hj' := List.mem_range.1 hj
    have hnd : cfg.nDecades = nd := by rw [hcfg]; rfl
    obtain ⟨c1, c2⟩ := nDecades_cases hn1 hn2 j hj' hk
    have := slow_chunk_auto cplx (cor e.method) (hcor e.method) (g e.method) (cfg := cfg)
      (T := e.T1) env.rand _
      (shown o.autoBackground (frameAt data) e.chunk) (m := e.method) (v := e.norm)
      (n := o.levelSize) (j := j + 1) (k := e.k) h.args.norm rfl hfull
      (by rw [hcfg]; exact hb) (by rw [hN, hH]; exact h.frames.frames)
      (by rw [hH]; exact h.frames.level.trans_le h.frames.lo)
      (by omega) (by rw [hnd]; exact c1) (by rw [hnd]; exact c2)
      (by
        rw [hN]
        exact h.frames.level.trans_le (level_size_le h.levels hj'))
    rw [hN, hH, ← hpr, ← hy] at this
    exact this

theorem auto_counts (K : CrossOK cplx g cc) (KA : AutoOK cplx cor ac)
    (hcor : ∀ m c s, cor m (shiftStream c s) = cor m s)
    (h : IterCall false cplx t none env.dataLen o e)
    (hlen : e.frames ≤ data.length) :
    ∃ taken fast slow stats fast' slow',
      autoIterOf ac cc data t { o with mode := "chunk" } env
        = .ok (taken, ⟨fast, slow, stats⟩) ∧
      autoIterOf ac cc data t { o with mode := "full" } env
        = .ok (taken, ⟨fast', slow', stats⟩) ∧
      CountsLe fast fast' ∧ List.Forall₂ CountsLe slow slow' := by
  have hpos := IterCall.pos h
  have hT : e.T2 = e.T1 := h.times.second
  have hc := IterCall.withMode h "chunk" (.inr rfl)
  have hf := IterCall.withMode h "full" (.inl rfl)
  obtain ⟨nd, cfg, hcfg, hn1, hn2, heq⟩ := autoIter_closed K KA hcor
    (data := data) (period := o.period) (T := e.T1)
    (junk := fun j k => (env.junk j k).1) (junkSq := fun j k => (env.junkSq j k).1)
    (al := env.aligned) (al' := env.aligned')
    (r := env.rand) (ab := o.autoBackground) (by have := hc.times; rw [hT] at this; exact this)
    hc.frames hc.levels hc.binning hc.mode hc.norm
    (by have := h.args; rw [hT] at this; exact this) h.period (h.fft rfl)
    (by intro e; rw [e] at hlen; simp at hlen; omega)
  obtain ⟨nd', cfg', hcfg', hn1', hn2', heq'⟩ := autoIter_closed K KA hcor
    (data := data) (period := o.period) (T := e.T1)
    (junk := fun j k => (env.junk j k).1) (junkSq := fun j k => (env.junkSq j k).1)
    (al := env.aligned) (al' := env.aligned')
    (r := env.rand) (ab := o.autoBackground) (by have := hf.times; rw [hT] at this; exact this)
    hf.frames hf.levels hf.binning hf.mode hf.norm
    (by have := h.args; rw [hT] at this; exact this) h.period (h.fft rfl)
    (by intro e; rw [e] at hlen; simp at hlen; omega)
  have hnd : nd = nd' := by
    by_cases hnl : o.nlevel = none
    · rw [hn1 hnl, hn1' hnl]
    · rw [hn2 hnl, hn2' hnl]
  subst hnd
  rw [if_neg (by omega)] at heq heq'
  refine ⟨_, _, _, _, _, _, heq, heq', ?_, ?_⟩
  · apply countsLe_rowOf
    intro k
    apply count_sum_le
    intro q
    rw [hcfg, hcfg']
    exact autoTerm_count_le _ _ _ _ _ _ _
  · rw [List.forall₂_map_left_iff, List.forall₂_map_right_iff]
    refine List.forall₂_same.2 fun l _ => countsLe_rowOf fun k => ?_
    rw [hcfg, hcfg']
    exact autoLevel_count_le cplx _ _ (cfgOf e.chunk nd e.frames e.nlevel o.period o.levelSize
      e.method e.binning true o.autoBackground) _ _ _ _ _ _

end autoCalls

end Cddm
