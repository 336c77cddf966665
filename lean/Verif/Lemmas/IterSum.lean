import Verif.Spec.MultitauIter
import Verif.Lemmas.IterIdeal
import Verif.Lemmas.ChunkSum
import Verif.Lemmas.MultiApi

/-!
# What the calls of `ccorr` and `acorr` add up to
-/

namespace Cddm
open Spec

section streams
variable {α : Type}

theorem part_eq (T : List Int) (y : Nat → α) (c q : Nat) :
    part T y c q = chunkOf (fun i => (T.getD i 0, y i)) c q := rfl

theorem parts_flatten (T : List Int) (y : Nat → α) (c Q : Nat) :
    ((List.range Q).map (part T y c)).flatten = firsts T y (Q * c) := by
  rw [show part T y c = chunkOf (fun i => (T.getD i 0, y i)) c from funext fun q => part_eq T y c q,
    chunk_flatten]
  rfl

theorem sliceT_length {T : List Int} {c q : Nat} (h : (q + 1) * c ≤ T.length) :
    (sliceT T (q * c) c).length = c := by
  rw [Nat.succ_mul] at h
  simp [sliceT]; omega

theorem sliceT_get {T : List Int} {c q k : Nat} (h : (q + 1) * c ≤ T.length) (hk : k < c) :
    (sliceT T (q * c) c)[k]? = some (T.getD (q * c + k) 0) := by
  rw [Nat.succ_mul] at h
  unfold sliceT
  rw [List.getElem?_take_of_lt hk, List.getElem?_drop, List.getD_eq_getElem?_getD,
    List.getElem?_eq_getElem (by omega)]
  rfl

theorem stream_part {T : List Int} (y : Nat → α) {c q : Nat} (h : (q + 1) * c ≤ T.length) :
    stream (chunkOf y c q) (some (sliceT T (q * c) c)) = part T y c q := by
  apply List.ext_getElem?
  intro k
  unfold stream part chunkOf
  by_cases hk : k < c
  · rw [List.getElem?_zip_eq_some (z := (T.getD (q * c + k) 0, y (q * c + k))).2
      ⟨sliceT_get h hk, by rw [List.getElem?_map, List.getElem?_range hk]; rfl⟩,
      List.getElem?_map, List.getElem?_range hk]
    rfl
  · rw [List.getElem?_eq_none (by simp [sliceT]; omega), List.getElem?_eq_none (by simp; omega)]

theorem arange_getD {N i : Nat} (h : i < N) : (arange N).getD i 0 = i := by
  unfold arange
  rw [List.getD_eq_getElem?_getD, List.getElem?_map, List.getElem?_range h]
  rfl

theorem regular_part (y : Nat → α) {c q N : Nat} (h : (q + 1) * c ≤ N) :
    shiftStream ((q * c : Nat) : Int) (regular (chunkOf y c q)) = part (arange N) y c q := by
  apply List.ext_getElem
  · simp [shiftStream, regular, part]
  · intro k h1 h2
    have hk : k < c := by simpa [part] using h2
    rw [Nat.succ_mul] at h
    simp only [shiftStream, regular, part, List.getElem_map, List.getElem_mapIdx,
      List.getElem_range, arange_getD (show q * c + k < N by omega), chunkOf]
    rw [Prod.mk.injEq]
    refine ⟨?_, rfl⟩
    push_cast
    ring

theorem part_mem {T : List Int} {y : Nat → α} {c q : Nat} {a : Int × α} (ha : a ∈ part T y c q) :
    ∃ i, i / c = q ∧ q * c ≤ i ∧ i < (q + 1) * c ∧ a = (T.getD i 0, y i) := by
  unfold part at ha
  obtain ⟨k, hk, rfl⟩ := List.mem_map.1 ha
  have hk := List.mem_range.1 hk
  refine ⟨q * c + k, ?_, by omega, by rw [Nat.succ_mul]; omega, rfl⟩
  rw [mul_comm, Nat.mul_add_div (by omega), Nat.div_eq_of_lt hk, Nat.add_zero]

theorem firsts_arange (y : Nat → α) {n N : Nat} (h : n ≤ N) :
    firsts (arange N) y n = regular ((List.range n).map y) := by
  apply List.ext_getElem
  · simp [firsts, regular]
  · intro k h1 h2
    have hk : k < n := by simpa [firsts] using h1
    simp [firsts, regular, ← arange_getD (show k < N by omega)]

end streams

theorem crossFns_shift {C : Type} [AddCommMonoid C] (full : Bool) (g : Cx ℝ → Cx ℝ → C)
    (L Lc : Nat) (s1 s2 : Stream (Cx ℝ)) (q1 q2 : Stream ℝ) (c : Int) :
    crossFns full g L Lc (shiftStream c s1) (shiftStream c s2) (shiftStream c q1) (shiftStream c q2)
      = crossFns full g L Lc s1 s2 q1 q2 := by
  unfold crossFns
  refine Prod.ext ?_ (Prod.ext ?_ (Prod.ext ?_ (Prod.ext ?_ ?_))) <;>
  · funext k
    exact cellSum_shift _ _ _ _ _ _ _

theorem autoFns_shift {C : Type} (cor : Stream (Cx ℝ) → Nat → C)
    (hcor : ∀ c s, cor (shiftStream c s) = cor s) (s : Stream (Cx ℝ)) (q : Stream ℝ) (c : Int) :
    autoFns cor (shiftStream c s) (shiftStream c q) = autoFns cor s q := by
  unfold autoFns
  refine Prod.ext ?_ (Prod.ext ?_ (Prod.ext ?_ (Prod.ext ?_ ?_)))
  · exact hcor c s
  · funext k; exact selfSum_shift (fun _ _ => (1 : Nat)) _ _ _
  · funext k; exact selfSum_shift (fun a b : ℝ => a + b) _ _ _
  · funext k; exact selfSum_shift (fun a b : Cx ℝ => (1 / 2 : ℝ) • (a + b)) _ _ _
  · rfl

/-- Equality of rows needs equal cells only. -/
theorem rowOf_congr_lt {C : Type} {nm : Nat} {m : String} {cross : Bool} {L Lc : Nat}
    {d e : RowFns C} (h1 : ∀ k, k < L → d.1 k = e.1 k) (h2 : ∀ k, k < Lc → d.2.1 k = e.2.1 k)
    (h3 : needsSquares nm = true → m ≠ "diff" → ∀ k, k < L → d.2.2.1 k = e.2.2.1 k)
    (h4 : ∀ k, k < L → d.2.2.2.1 k = e.2.2.2.1 k)
    (h5 : cross = true → ∀ k, k < L → d.2.2.2.2 k = e.2.2.2.2 k) :
    rowOf nm m cross L Lc d = rowOf nm m cross L Lc e := by
  have key : ∀ {M : Type} {N : Nat} {δ ε : Nat → M}, (∀ k, k < N → δ k = ε k) →
      upto N δ = upto N ε := fun h => by
    unfold upto
    apply List.map_congr_left
    intro k hk
    exact h k (List.mem_range.1 hk)
  unfold rowOf
  rw [key h1, key h2, key h4]
  congr 1
  · split
    · next h => rw [key (h3 h.1 h.2)]
    · rfl
  · split
    · next h => rw [key (h5 h.2)]
    · rfl

/-- The times used at level `j`. -/
def levelT (N : Nat) (T : List Int) (j : Nat) : List Int := if j = 0 then T else arange N

/-- The squares used at level `j`: binned squares, or, where they are not used, any values. -/
noncomputable def levelSq (binning : Int) (r : Nat → ℚ) (Y : Nat → Cx ℝ) (squares : Bool) (j : Nat)
    (b : Nat) : ℝ :=
  if squares then streamBin binning r (fun i => (Y i).abs2) j b else (streamBin binning r Y j b).abs2

theorem idealHalf_sq (binning : Int) (r : Nat → ℚ) (Y : Nat → Cx ℝ) (squares : Bool)
    (half j q : Nat) :
    (idealHalf binning r Y squares half j q).sq.getD
      ((idealHalf binning r Y squares half j q).f.map Cx.abs2)
      = chunkOf (levelSq binning r Y squares j) half q := by
  unfold idealHalf levelSq
  cases squares
  · simp [chunkOf]
  · simp

theorem idealHalf_sqlen (binning : Int) (r : Nat → ℚ) (Y : Nat → Cx ℝ) (squares : Bool)
    (half j q : Nat) (g : List ℝ) (h : (idealHalf binning r Y squares half j q).sq = some g) :
    g.length = half := by
  unfold idealHalf at h
  cases squares
  · simp at h
  · simp at h
    rw [← h, chunkOf_length]

@[simp] theorem idealHalf_flen (binning : Int) (r : Nat → ℚ) (Y : Nat → Cx ℝ) (squares : Bool)
    (half j q : Nat) : (idealHalf binning r Y squares half j q).f.length = half := by
  simp [idealHalf]

/-- Two signals, one after the other half-chunk by half-chunk. -/
structure Parts where
  s1 : Nat → Stream (Cx ℝ)
  s2 : Nat → Stream (Cx ℝ)
  q1 : Nat → Stream ℝ
  q2 : Nat → Stream ℝ

/-- Contribution of the pair `(p of signal 1, p' of signal 2)`. -/
noncomputable def Parts.pair {C : Type} [AddCommMonoid C] (P : Parts) (full : Bool)
    (g : Cx ℝ → Cx ℝ → C) (L : Nat) (p p' : Nat) : RowFns C :=
  crossFns full g L L (P.s1 p) (P.s2 p') (P.q1 p) (P.q2 p')

/-- What is added for half-chunk `q`. -/
noncomputable def Parts.term {C : Type} [AddCommMonoid C] (P : Parts) (full : Bool)
    (g : Cx ℝ → Cx ℝ → C) (L : Nat) (both : Bool) (q : Nat) : RowFns C :=
  P.pair full g L q q + if q ≥ 1 ∧ both = true then
    P.pair full g L q (q - 1) + P.pair full g L (q - 1) q else 0

/-- The half-chunks of level `j`. -/
noncomputable def levelParts (cfg : IterCfg) (T1 T2 : List Int) (r : Nat → ℚ) (squares : Bool)
    (Y1 Y2 : Nat → Cx ℝ) (j : Nat) : Parts where
  s1 := part (levelT cfg.nframes T1 j) (streamBin cfg.binning r Y1 j) cfg.half
  s2 := part (levelT cfg.nframes T2 j) (streamBin cfg.binning r Y2 j) cfg.half
  q1 := part (levelT cfg.nframes T1 j) (levelSq cfg.binning r Y1 squares j) cfg.half
  q2 := part (levelT cfg.nframes T2 j) (levelSq cfg.binning r Y2 squares j) cfg.half

/-- A call on two half-chunks with time slices. -/
theorem callOK_span {full : Bool} {m : String} {v : Int} {c N n L : Nat} {T1 T2 : List Int}
    {p q : Nat} {f1s f2s : Option (List ℝ)}
    (hm : m = "corr" ∨ m = "fft" ∨ m = "diff") (hv : SupportedNorm m true v)
    (hd : full = true → m ≠ "diff") (ht1 : N ≤ T1.length) (ht2 : N ≤ T2.length)
    (hfft : m = "fft" → 1 ≤ n ∧ (T1.take N).Nodup ∧ (T2.take N).Nodup ∧
      ∃ i j : Nat, i / c = p ∧ j / c = q ∧ (n : Int) ≤ |T2.getD j 0 - T1.getD i 0| + 2)
    (hc : 0 < c)
    (hL : L = if full then 2 * n - 1 else n) (hn : full = true → 1 ≤ n)
    (hp : (p + 1) * c ≤ N) (hq : (q + 1) * c ≤ N)
    (hs1 : ∀ g, f1s = some g → g.length = c) (hs2 : ∀ g, f2s = some g → g.length = c) :
    CallOK full m v c c (some (sliceT T1 (p * c) c)) (some (sliceT T2 (q * c) c)) f1s f2s L L where
  method := hm
  norm := hv
  diff := hd
  valid := ⟨rfl, sliceT_length (hp.trans ht1), sliceT_length (hq.trans ht2), by omega⟩
  sq1 := hs1
  sq2 := hs2
  fft := by
    intro hm
    obtain ⟨-, hnd1, hnd2, -⟩ := hfft hm
    have key : ∀ (T : List Int) (q : Nat), (T.take N).Nodup → (q + 1) * c ≤ N →
        (sliceT T (q * c) c).Nodup := by
      intro T q hT hq
      have e : sliceT T (q * c) c = ((T.take N).drop (q * c)).take c := by
        unfold sliceT
        rw [List.drop_take, List.take_take, min_eq_left]
        rw [Nat.succ_mul] at hq
        omega
      rw [e]
      exact (hT.sublist (List.drop_sublist _ _)).sublist (List.take_sublist _ _)
    refine ⟨?_, ?_, by omega⟩
    · intro l hl
      rw [← Option.some.inj hl]
      exact key T1 p hnd1 hp
    · intro l hl
      rw [← Option.some.inj hl]
      exact key T2 q hnd2 hq
  len := by
    refine ⟨?_, ?_, ?_⟩
    · intro hfull
      rw [if_pos hfull] at hL
      have := hn hfull
      omega
    · intro hm
      have := (hfft hm).1
      rw [hL]
      split <;> omega
    · rintro (hm | hm)
      · obtain ⟨hpos, -, -, i, j, e1, e2, e3⟩ := hfft hm
        have hi : T1.getD i 0 ∈ sliceT T1 (p * c) c := by
          have := Nat.div_add_mod i c
          have hlt := Nat.mod_lt i hc
          rw [e1, mul_comm c p] at this
          have := sliceT_get (k := i % c) (hp.trans ht1) hlt
          rw [show p * c + i % c = i by omega] at this
          exact List.mem_of_getElem? this
        have hj : T2.getD j 0 ∈ sliceT T2 (q * c) c := by
          have := Nat.div_add_mod j c
          have hlt := Nat.mod_lt j hc
          rw [e2, mul_comm c q] at this
          have := sliceT_get (k := j % c) (hq.trans ht2) hlt
          rw [show q * c + j % c = j by omega] at this
          exact List.mem_of_getElem? this
        have := lt_defaultN c _ _ hi hj
        have e4 : (if full = true then (L + 1) / 2 else L) = n ∨ n = 0 := by
          rw [hL]
          split
          · have := hn (by assumption); omega
          · omega
        rw [Int.abs_eq_natAbs] at e3
        rcases e4 with e4 | e4
        · rw [e4]; omega
        · omega
      · simp at hm
  clen := by
    intro hfull
    rw [if_pos hfull] at hL
    have := hn hfull
    omega

theorem callOK_slices {full : Bool} {m : String} {v : Int} {c N n L : Nat} {T1 T2 : List Int}
    {p q : Nat} {f1s f2s : Option (List ℝ)} {cross : Bool}
    (h : IterArgs cross full m v c N n T1 T2) (hv : SupportedNorm m true v) (hc : 0 < c)
    (hL : L = if full then 2 * n - 1 else n) (hn : full = true → 1 ≤ n)
    (hp : (p + 1) * c ≤ N) (hq : (q + 1) * c ≤ N) (h1 : p ≤ q + 1) (h2 : q ≤ p + 1)
    (hs1 : ∀ g, f1s = some g → g.length = c) (hs2 : ∀ g, f2s = some g → g.length = c) :
    CallOK full m v c c (some (sliceT T1 (p * c) c)) (some (sliceT T2 (q * c) c)) f1s f2s L L :=
  callOK_span h.method hv h.diff h.times1 h.times2
    (fun hm => ⟨(h.fft hm).pos, (h.fft hm).nodup1, (h.fft hm).nodup2,
      (h.fft hm).span p q hp hq h1 h2⟩) hc hL hn hp hq hs1 hs2

/-- A call on two half-chunks of a slow level, without times. -/
theorem callOK_regular {full : Bool} {m : String} {v : Int} {c n L : Nat}
    {f1s f2s : Option (List ℝ)}
    (hm : m = "corr" ∨ m = "fft" ∨ m = "diff") (hv : SupportedNorm m true v)
    (hd : full = true → m ≠ "diff") (hn : 1 ≤ n) (hc : n ≤ c)
    (hL : L = if full then 2 * n - 1 else n)
    (hs1 : ∀ g, f1s = some g → g.length = c) (hs2 : ∀ g, f2s = some g → g.length = c) :
    CallOK full m v c c none none f1s f2s L L where
  method := hm
  norm := hv
  diff := hd
  valid := rfl
  sq1 := hs1
  sq2 := hs2
  fft := fun _ => ⟨fun l h => (nomatch h), fun l h => (nomatch h), by omega⟩
  len := by
    refine ⟨?_, ?_, ?_⟩
    · intro hfull
      rw [if_pos hfull] at hL
      omega
    · intro _
      rw [hL]
      split <;> omega
    · intro _
      simp only [defaultN]
      rw [hL]
      split <;> omega
  clen := by
    intro hfull
    rw [if_pos hfull] at hL
    omega

theorem arange_take_nodup (N : Nat) : ((arange N).take N).Nodup := by
  apply List.Nodup.sublist (List.take_sublist _ _)
  unfold arange
  exact List.nodup_range.map (fun a b h => by simpa using h)

/-- The times of the slow levels are good for any method. -/
theorem iterArgs_arange {cross cplx : Bool} {m : String} {v : Int} {c N n : Nat}
    (hm : m = "corr" ∨ m = "fft" ∨ m = "diff") (hv : SupportedNorm m cross v)
    (hd : cplx = true → m ≠ "diff") (hn : 1 ≤ n) (hc : n ≤ c + 1) (hcpos : 0 < c) :
    IterArgs cross cplx m v c N n (arange N) (arange N) where
  method := hm
  norm := hv
  diff := hd
  times1 := by simp [arange]
  times2 := by simp [arange]
  distinct := fun _ => arange_take_nodup N
  fft := by
    intro _
    refine ⟨hn, arange_take_nodup N, arange_take_nodup N, ?_⟩
    intro p q hp hq h1 h2
    have hp' : (p + 1) * c = p * c + c := by ring
    have hq' : (q + 1) * c = q * c + c := by ring
    have key : ∀ (q k : Nat), k < c → (q * c + k) / c = q := fun q k hk => by
      rw [mul_comm, Nat.mul_add_div (by omega), Nat.div_eq_of_lt hk, Nat.add_zero]
    rcases Nat.lt_or_ge q p with h | h
    · have : q * c ≤ p * c := Nat.mul_le_mul_right _ h.le
      refine ⟨p * c + (c - 1), q * c + 0, key _ _ (by omega), key _ _ hcpos, ?_⟩
      rw [arange_getD (by omega), arange_getD (by omega), Int.abs_eq_natAbs]
      omega
    · have : p * c ≤ q * c := Nat.mul_le_mul_right _ h
      refine ⟨p * c + 0, q * c + (c - 1), key _ _ hcpos, key _ _ (by omega), ?_⟩
      rw [arange_getD (by omega), arange_getD (by omega), Int.abs_eq_natAbs]
      omega

/-- Same data as with the times of the whole. -/
theorem pair_regular {C : Type} [AddCommMonoid C] (full : Bool) (g : Cx ℝ → Cx ℝ → C) (L : Nat)
    (y1 y2 : Nat → Cx ℝ) (z1 z2 : Nat → ℝ) {c q N : Nat} (h : (q + 1) * c ≤ N) :
    crossFns full g L L (regular (chunkOf y1 c q)) (regular (chunkOf y2 c q))
      (regular (chunkOf z1 c q)) (regular (chunkOf z2 c q))
    = crossFns full g L L (part (arange N) y1 c q) (part (arange N) y2 c q)
        (part (arange N) z1 c q) (part (arange N) z2 c q) := by
  rw [← regular_part y1 h, ← regular_part y2 h, ← regular_part z1 h, ← regular_part z2 h,
    crossFns_shift]

/-- The calls for one half-chunk add its term. -/
theorem crossIdeal_ok {C : Type} [AddCommMonoid C] {cplx : Bool} {g : String → Cx ℝ → Cx ℝ → C}
    {cc : CrossFn C} (K : CrossOK cplx g cc) (cfg : IterCfg) (T1 T2 : List Int) (al : Bool)
    (r : Nat → ℚ) (squares : Bool) (Y1 Y2 : Nat → Cx ℝ) (j q n : Nat) (d : RowFns C)
    (hc : 0 < cfg.half)
    (hargs : IterArgs true cplx cfg.method cfg.norm cfg.half cfg.nframes n
      (levelT cfg.nframes T1 j) (levelT cfg.nframes T2 j))
    (_hn : n = if j = 0 then cfg.nFast else cfg.nSlow)
    (hn1 : cplx = true → 1 ≤ n) (hslow : j ≠ 0 → 1 ≤ n ∧ n ≤ cfg.half)
    (hq : (q + 1) * (cfg.half * 2 ^ j) ≤ cfg.nframes) :
    crossIdeal cc cfg T1 T2 al r squares Y1 Y2 j q
      (rowOf cfg.norm cfg.method true (iterLen cplx n) (iterLen cplx n) d)
    = .ok (rowOf cfg.norm cfg.method true (iterLen cplx n) (iterLen cplx n)
        (d + (levelParts cfg T1 T2 r squares Y1 Y2 j).term cplx (g cfg.method) (iterLen cplx n)
          cfg.full q)) := by
  have hq1 : (q + 1) * cfg.half ≤ cfg.nframes := by
    refine le_trans ?_ hq
    exact Nat.mul_le_mul_left _ (Nat.le_mul_of_pos_right _ (Nat.two_pow_pos j))
  have hl1 := hargs.times1
  have hl2 := hargs.times2
  unfold crossIdeal crossCalls Parts.term Parts.pair levelParts
  have hself : CallOK cplx cfg.method cfg.norm
      (idealHalf cfg.binning r Y1 squares cfg.half j q).f.length
      (idealHalf cfg.binning r Y2 squares cfg.half j q).f.length
      (if j = 0 then some (sliceT T1 (q * cfg.half) cfg.half) else none)
      (if j = 0 then some (sliceT T2 (q * cfg.half) cfg.half) else none)
      (idealHalf cfg.binning r Y1 squares cfg.half j q).sq
      (idealHalf cfg.binning r Y2 squares cfg.half j q).sq (iterLen cplx n) (iterLen cplx n) := by
    simp only [idealHalf_flen]
    by_cases hj : j = 0
    · simp only [hj, if_true]
      simp only [hj, levelT, if_true] at hargs
      exact callOK_slices hargs hargs.norm hc rfl hn1 hq1 hq1 (by omega) (by omega)
        (fun g hg => idealHalf_sqlen _ _ _ _ _ _ _ g hg)
        (fun g hg => idealHalf_sqlen _ _ _ _ _ _ _ g hg)
    · simp only [hj, if_false]
      exact callOK_regular hargs.method hargs.norm hargs.diff (hslow hj).1 (hslow hj).2 rfl
        (fun g hg => idealHalf_sqlen _ _ _ _ _ _ _ g hg)
        (fun g hg => idealHalf_sqlen _ _ _ _ _ _ _ g hg)
  obtain ⟨r1, e1, e2⟩ := K.into (al := al) (n := if j = 0 then cfg.nFast else cfg.nSlow) d hself
  have eself : crossFns cplx (g cfg.method) (iterLen cplx n) (iterLen cplx n)
      (stream (idealHalf cfg.binning r Y1 squares cfg.half j q).f
        (if j = 0 then some (sliceT T1 (q * cfg.half) cfg.half) else none))
      (stream (idealHalf cfg.binning r Y2 squares cfg.half j q).f
        (if j = 0 then some (sliceT T2 (q * cfg.half) cfg.half) else none))
      (stream (chunkOf (levelSq cfg.binning r Y1 squares j) cfg.half q)
        (if j = 0 then some (sliceT T1 (q * cfg.half) cfg.half) else none))
      (stream (chunkOf (levelSq cfg.binning r Y2 squares j) cfg.half q)
        (if j = 0 then some (sliceT T2 (q * cfg.half) cfg.half) else none))
      = crossFns cplx (g cfg.method) (iterLen cplx n) (iterLen cplx n)
        (part (levelT cfg.nframes T1 j) (streamBin cfg.binning r Y1 j) cfg.half q)
        (part (levelT cfg.nframes T2 j) (streamBin cfg.binning r Y2 j) cfg.half q)
        (part (levelT cfg.nframes T1 j) (levelSq cfg.binning r Y1 squares j) cfg.half q)
        (part (levelT cfg.nframes T2 j) (levelSq cfg.binning r Y2 squares j) cfg.half q) := by
    by_cases hj : j = 0
    · simp only [hj, if_true, levelT] at hl1 hl2 ⊢
      unfold idealHalf
      rw [stream_part _ (hq1.trans hl1), stream_part _ (hq1.trans hl2),
        stream_part _ (hq1.trans hl1), stream_part _ (hq1.trans hl2)]
    · simp only [hj, if_false, levelT]
      exact pair_regular _ _ _ _ _ _ _ hq1
  rw [idealHalf_sq, idealHalf_sq, eself] at e2
  simp only [Int.toNat_natCast] at e1 e2
  simp only [e1, bind, Except.bind, e2]
  by_cases hfull : q ≥ 1 ∧ cfg.full = true
  · simp only [if_pos hfull]
    obtain ⟨p, rfl⟩ : ∃ p, q = p + 1 := ⟨q - 1, by omega⟩
    have hp1 : (p + 1) * cfg.half ≤ cfg.nframes :=
      le_trans (Nat.mul_le_mul_right _ (by omega)) hq1
    have hpe : (p + 1) * cfg.half - cfg.half = p * cfg.half := by
      rw [Nat.succ_mul, Nat.add_sub_cancel]
    have hT1 : (if j = 0 then T1 else arange cfg.nframes) = levelT cfg.nframes T1 j := rfl
    have hT2 : (if j = 0 then T2 else arange cfg.nframes) = levelT cfg.nframes T2 j := rfl
    simp only [Nat.add_sub_cancel, hpe, hT1, hT2]
    obtain ⟨r2, e3, e4⟩ := K.into (al := al) (n := cfg.nFast) (L := iterLen cplx n)
      (Lc := iterLen cplx n)
      (f1 := (idealHalf cfg.binning r Y1 squares cfg.half j (p + 1)).f)
      (f2 := (idealHalf cfg.binning r Y2 squares cfg.half j p).f)
      (t1 := some (sliceT (levelT cfg.nframes T1 j) ((p + 1) * cfg.half) cfg.half))
      (t2 := some (sliceT (levelT cfg.nframes T2 j) (p * cfg.half) cfg.half))
      (f1s := (idealHalf cfg.binning r Y1 squares cfg.half j (p + 1)).sq)
      (f2s := (idealHalf cfg.binning r Y2 squares cfg.half j p).sq)
      (d + crossFns cplx (g cfg.method) (iterLen cplx n) (iterLen cplx n)
        (part (levelT cfg.nframes T1 j) (streamBin cfg.binning r Y1 j) cfg.half (p + 1))
        (part (levelT cfg.nframes T2 j) (streamBin cfg.binning r Y2 j) cfg.half (p + 1))
        (part (levelT cfg.nframes T1 j) (levelSq cfg.binning r Y1 squares j) cfg.half (p + 1))
        (part (levelT cfg.nframes T2 j) (levelSq cfg.binning r Y2 squares j) cfg.half (p + 1)))
      (by
        simp only [idealHalf_flen]
        exact callOK_slices hargs hargs.norm hc rfl hn1 hq1 hp1 (by omega) (by omega)
          (fun g hg => idealHalf_sqlen _ _ _ _ _ _ _ g hg)
          (fun g hg => idealHalf_sqlen _ _ _ _ _ _ _ g hg))
    rw [idealHalf_sq, idealHalf_sq] at e4
    simp only [Int.toNat_natCast] at e3 e4
    rw [e3]
    simp only
    rw [e4]
    obtain ⟨r3, e5, e6⟩ := K.into (al := al) (n := cfg.nFast) (L := iterLen cplx n)
      (Lc := iterLen cplx n)
      (f1 := (idealHalf cfg.binning r Y1 squares cfg.half j p).f)
      (f2 := (idealHalf cfg.binning r Y2 squares cfg.half j (p + 1)).f)
      (t1 := some (sliceT (levelT cfg.nframes T1 j) (p * cfg.half) cfg.half))
      (t2 := some (sliceT (levelT cfg.nframes T2 j) ((p + 1) * cfg.half) cfg.half))
      (f1s := (idealHalf cfg.binning r Y1 squares cfg.half j p).sq)
      (f2s := (idealHalf cfg.binning r Y2 squares cfg.half j (p + 1)).sq) _
      (by
        simp only [idealHalf_flen]
        exact callOK_slices hargs hargs.norm hc rfl hn1 hp1 hq1 (by omega) (by omega)
          (fun g hg => idealHalf_sqlen _ _ _ _ _ _ _ g hg)
          (fun g hg => idealHalf_sqlen _ _ _ _ _ _ _ g hg))
    rw [idealHalf_sq, idealHalf_sq] at e6
    simp only [Int.toNat_natCast] at e5 e6
    rw [e5]
    simp only
    rw [e6]
    unfold idealHalf
    rw [stream_part _ (hq1.trans hl1), stream_part _ (hp1.trans hl2),
      stream_part _ (hq1.trans hl1), stream_part _ (hp1.trans hl2),
      stream_part _ (hp1.trans hl1), stream_part _ (hq1.trans hl2),
      stream_part _ (hp1.trans hl1), stream_part _ (hq1.trans hl2)]
    rw [add_assoc, add_assoc, ← add_assoc d]
  · simp only [if_neg hfull, add_zero]

end Cddm
