import Verif.Lemmas.IterTotal

/-!
# Closed form of the iterative auto-correlation
-/

namespace Cddm
open Spec

/-- The sums of a cross-correlation as they are added to those of an auto-correlation. -/
noncomputable def asAuto {C : Type} (e : RowFns C) : RowFns C :=
  (e.1, e.2.1, e.2.2.1, fun k => (1 / 2 : ℝ) • e.2.2.2.1 k + (1 / 2 : ℝ) • e.2.2.2.2 k, 0)

theorem npAdd_upto {M : Type} [Add M] (n : Nat) (a b : Nat → M) :
    npAdd (upto n a) (upto n b) = .ok (upto n (fun k => a k + b k)) := by
  unfold npAdd
  rw [if_pos (by simp [upto_length])]
  congr 1
  apply List.ext_getElem
  · simp [upto_length]
  · intro i h1 h2
    simp [upto]

theorem take_upto {M : Type} {n L : Nat} (h : n ≤ L) (a : Nat → M) :
    (upto L a).take n = upto n a := by
  unfold upto
  rw [← List.map_take, List.take_range, min_eq_left h]

theorem addCrossToAuto_ok {C : Type} [AddCommMonoid C] {nm : Nat} {m : String} {n L : Nat}
    (h : n ≤ L) (d e : RowFns C) (r : CorrTuple C) (hr : r.arrays = rowOf nm m true L L e) :
    addCrossToAuto n (rowOf nm m false n n d) r = .ok (rowOf nm m false n n (d + asAuto e)) := by
  obtain ⟨cor, count, sq, ds1, ds2⟩ := r
  unfold CorrTuple.arrays rowOf at hr
  simp only [CorrAout.mk.injEq, Option.some.injEq] at hr
  obtain ⟨rfl, rfl, rfl, rfl, rfl⟩ := hr
  unfold addCrossToAuto rowOf
  by_cases hs : needsSums nm = true <;>
  by_cases hq : needsSquares nm = true ∧ m ≠ "diff"
  all_goals
    simp only [hs, hq, if_true, if_false, npAddOpt, bind, Except.bind, take_upto h, npAdd_upto,
      Option.map_some, Option.map_none, and_true, and_false, Bool.false_eq_true, not_false_eq_true,
      ne_eq]
    try rw [show ∀ a : Nat → Cx ℝ, (upto n a).map ((1 / 2 : ℝ) • ·)
      = upto n (fun k => (1 / 2 : ℝ) • a k) from fun a => by simp [upto]]
    try rw [show ∀ a : Nat → Cx ℝ, (upto n a).map ((1 / 2 : ℝ) • ·)
      = upto n (fun k => (1 / 2 : ℝ) • a k) from fun a => by simp [upto]]
    try simp only [npAdd_upto]
    try simp only [add_assoc]
    try rfl

theorem supported_cross {m : String} {v : Int} (h : SupportedNorm m false v) :
    SupportedNorm m true v := by
  unfold SupportedNorm at *
  split at h
  · next hm =>
    rw [if_pos hm]
    rcases h with h | ⟨h, -⟩
    · exact .inl h
    · simp at h
  · next hm => rw [if_neg hm]; exact h

/-- A call of `acorr` on a half-chunk with a time slice. -/
theorem autoCallOK_slices {cplx : Bool} {m : String} {v : Int} {c N n : Nat} {T : List Int}
    {q : Nat} {fs : Option (List ℝ)} (h : IterArgs false cplx m v c N n T T) (hc : 0 < c)
    (hq : (q + 1) * c ≤ N) (hs : ∀ g, fs = some g → g.length = c) :
    AutoCallOK m v c (some (sliceT T (q * c) c)) fs n where
  method := h.method
  norm := h.norm
  valid := ⟨sliceT_length (hq.trans h.times1), by omega⟩
  sq := hs
  times := by
    intro l hl
    rw [← Option.some.inj hl]
    have hT := h.distinct rfl
    have e : sliceT T (q * c) c = ((T.take N).drop (q * c)).take c := by
      unfold sliceT
      rw [List.drop_take, List.take_take, min_eq_left]
      rw [Nat.succ_mul] at hq
      omega
    rw [e]
    exact (hT.sublist (List.drop_sublist _ _)).sublist (List.take_sublist _ _)
  fft := fun _ => by omega
  len := by
    have := callOK_span (full := false) (L := n) (n := n) (f1s := fs) (f2s := fs) h.method
      (supported_cross h.norm) (by simp) h.times1 h.times2
      (fun hm => ⟨(h.fft hm).pos, (h.fft hm).nodup1, (h.fft hm).nodup2,
        (h.fft hm).span q q hq hq (by omega) (by omega)⟩) hc rfl (by simp) hq hq hs hs
    exact this.len

/-- A call of `acorr` without times. -/
theorem autoCallOK_regular {m : String} {v : Int} {c n : Nat} {fs : Option (List ℝ)}
    (hm : m = "corr" ∨ m = "fft" ∨ m = "diff") (hv : SupportedNorm m false v) (hn : 1 ≤ n)
    (hc : n ≤ c) (hs : ∀ g, fs = some g → g.length = c) : AutoCallOK m v c none fs n where
  method := hm
  norm := hv
  valid := trivial
  sq := hs
  times := fun l h => (nomatch h)
  fft := fun _ => by omega
  len := (callOK_regular (full := false) hm (supported_cross hv) (by simp) hn hc rfl hs hs).len

/-- What is added for half-chunk `q` of an auto-correlation; `L` is the length of the
cross-correlation with the previous half-chunk. -/
noncomputable def Parts.autoTerm {C : Type} [AddCommMonoid C] (P : Parts) (cplx : Bool)
    (cor : Stream (Cx ℝ) → Nat → C) (g : Cx ℝ → Cx ℝ → C) (L : Nat) (both : Bool) (q : Nat) :
    RowFns C :=
  autoFns cor (P.s1 q) (P.q1 q) +
    if q ≥ 1 ∧ both = true then asAuto (P.pair cplx g L q (q - 1)) else 0

theorem autoIdeal_ok {C : Type} [AddCommMonoid C] {cplx : Bool} {g : String → Cx ℝ → Cx ℝ → C}
    {cor : String → Stream (Cx ℝ) → Nat → C} {ac : AutoFn C} {cc : CrossFn C}
    (K : CrossOK cplx g cc) (KA : AutoOK cplx cor ac)
    (hcor : ∀ m c s, cor m (shiftStream c s) = cor m s) (cfg : IterCfg) (T : List Int) (al : Bool)
    (r : Nat → ℚ) (squares : Bool) (Y : Nat → Cx ℝ) (j q n : Nat) (d : RowFns C)
    (hc : 0 < cfg.half)
    (hargs : IterArgs false cplx cfg.method cfg.norm cfg.half cfg.nframes n
      (levelT cfg.nframes T j) (levelT cfg.nframes T j))
    (hspan : cfg.method = "fft" → ∀ p, (p + 2) * cfg.half ≤ cfg.nframes →
      ∃ i i' : Nat, i / cfg.half = p + 1 ∧ i' / cfg.half = p ∧ (cfg.nFast : Int) ≤
        |(levelT cfg.nframes T j).getD i' 0 - (levelT cfg.nframes T j).getD i 0| + 2)
    (hn : n = if j = 0 then cfg.nFast else cfg.nSlow)
    (hn1 : 1 ≤ n) (hslow : j ≠ 0 → n ≤ cfg.half) (hfast : n ≤ cfg.nFast)
    (hq : (q + 1) * (cfg.half * 2 ^ j) ≤ cfg.nframes) :
    autoIdeal ac cc cfg T al r squares Y j q (rowOf cfg.norm cfg.method false n n d)
    = .ok (rowOf cfg.norm cfg.method false n n
        (d + (levelParts cfg T T r squares Y Y j).autoTerm cplx (cor cfg.method) (g cfg.method)
          (iterLen cplx cfg.nFast) cfg.full q)) := by
  have hq1 : (q + 1) * cfg.half ≤ cfg.nframes := by
    refine le_trans ?_ hq
    exact Nat.mul_le_mul_left _ (Nat.le_mul_of_pos_right _ (Nat.two_pow_pos j))
  have hl1 := hargs.times1
  unfold autoIdeal autoCalls Parts.autoTerm Parts.pair levelParts
  have hself : AutoCallOK cfg.method cfg.norm
      (idealHalf cfg.binning r Y squares cfg.half j q).f.length
      (if j = 0 then some (sliceT T (q * cfg.half) cfg.half) else none)
      (idealHalf cfg.binning r Y squares cfg.half j q).sq n := by
    simp only [idealHalf_flen]
    by_cases hj : j = 0
    · simp only [hj, if_true]
      simp only [hj, levelT, if_true] at hargs
      exact autoCallOK_slices hargs hc hq1 (fun g hg => idealHalf_sqlen _ _ _ _ _ _ _ g hg)
    · simp only [hj, if_false]
      exact autoCallOK_regular hargs.method hargs.norm hn1 (hslow hj)
        (fun g hg => idealHalf_sqlen _ _ _ _ _ _ _ g hg)
  obtain ⟨r1, e1, e2⟩ := KA.into (al := al) (n := if j = 0 then cfg.nFast else cfg.nSlow) (Lc := n)
    d hself hargs.diff
  have eself : autoFns (cor cfg.method)
      (stream (idealHalf cfg.binning r Y squares cfg.half j q).f
        (if j = 0 then some (sliceT T (q * cfg.half) cfg.half) else none))
      (stream (chunkOf (levelSq cfg.binning r Y squares j) cfg.half q)
        (if j = 0 then some (sliceT T (q * cfg.half) cfg.half) else none))
      = autoFns (cor cfg.method)
        (part (levelT cfg.nframes T j) (streamBin cfg.binning r Y j) cfg.half q)
        (part (levelT cfg.nframes T j) (levelSq cfg.binning r Y squares j) cfg.half q) := by
    by_cases hj : j = 0
    · simp only [hj, if_true, levelT] at hl1 ⊢
      unfold idealHalf
      rw [stream_part _ (hq1.trans hl1), stream_part _ (hq1.trans hl1)]
    · simp only [hj, if_false, levelT]
      rw [← regular_part _ hq1, ← regular_part _ hq1, autoFns_shift _ (hcor _)]
      rfl
  rw [idealHalf_sq, eself] at e2
  simp only [Int.toNat_natCast] at e1 e2
  simp only [e1, bind, Except.bind, e2]
  by_cases hfull : q ≥ 1 ∧ cfg.full = true
  · simp only [if_pos hfull]
    obtain ⟨p, rfl⟩ : ∃ p, q = p + 1 := ⟨q - 1, by omega⟩
    have hp1 : (p + 1) * cfg.half ≤ cfg.nframes :=
      le_trans (Nat.mul_le_mul_right _ (by omega)) hq1
    have hpe : (p + 1) * cfg.half - cfg.half = p * cfg.half := by
      rw [Nat.succ_mul, Nat.add_sub_cancel]
    have hT1 : (if j = 0 then T else arange cfg.nframes) = levelT cfg.nframes T j := rfl
    simp only [Nat.add_sub_cancel, hpe, hT1, ← hn]
    obtain ⟨r2, e3, e4⟩ := K.new (al := al) (n := cfg.nFast) (L := iterLen cplx cfg.nFast)
      (v := cfg.norm) (m := cfg.method)
      (f1 := (idealHalf cfg.binning r Y squares cfg.half j (p + 1)).f)
      (f2 := (idealHalf cfg.binning r Y squares cfg.half j p).f)
      (t1 := some (sliceT (levelT cfg.nframes T j) ((p + 1) * cfg.half) cfg.half))
      (t2 := some (sliceT (levelT cfg.nframes T j) (p * cfg.half) cfg.half))
      (f1s := (idealHalf cfg.binning r Y squares cfg.half j (p + 1)).sq)
      (f2s := (idealHalf cfg.binning r Y squares cfg.half j p).sq) rfl
      (by
        simp only [idealHalf_flen]
        exact callOK_span hargs.method (supported_cross hargs.norm) hargs.diff hl1 hl1
          (fun hm => ⟨by omega, (hargs.fft hm).nodup1, (hargs.fft hm).nodup1,
            hspan hm p hq1⟩) hc rfl (fun _ => by omega) hq1 hp1
          (fun g hg => idealHalf_sqlen _ _ _ _ _ _ _ g hg)
          (fun g hg => idealHalf_sqlen _ _ _ _ _ _ _ g hg))
    rw [idealHalf_sq, idealHalf_sq] at e4
    simp only [Int.toNat_natCast] at e3 e4
    rw [e3]
    simp only
    rw [addCrossToAuto_ok _ _ _ r2 e4]
    · unfold idealHalf
      rw [stream_part _ (hq1.trans hl1), stream_part _ (hp1.trans hl1),
        stream_part _ (hq1.trans hl1), stream_part _ (hp1.trans hl1), add_assoc]
    · unfold iterLen; split <;> omega
  · simp only [if_neg hfull, add_zero]

/-- What the loop after the main loop adds. -/
noncomputable def restAutoTerm {C : Type} (cor : Stream (Cx ℝ) → Nat → C) (binning : Int)
    (r : Nat → ℚ) (d : Nat) (squares : Bool) (y : Nat → Cx ℝ) (z : Nat → ℝ) (n i : Nat) :
    RowFns C :=
  autoFns cor (regular ((List.range (restCount binning n i)).map (restSeq binning r d y i)))
    (regular ((List.range (restCount binning n i)).map (restSq binning r d squares y z i)))

theorem restAuto_ok {C : Type} [AddCommMonoid C] {cplx : Bool}
    {cor : String → Stream (Cx ℝ) → Nat → C} {ac : AutoFn C} (K : AutoOK cplx cor ac)
    (cfg : IterCfg) (al : Bool) (r : Nat → ℚ)
    (squares : Bool) (hm : cfg.method = "corr" ∨ cfg.method = "fft" ∨ cfg.method = "diff")
    (hv : SupportedNorm cfg.method false cfg.norm) (hd : cplx = true → cfg.method ≠ "diff")
    (hn : 1 ≤ cfg.nSlow) :
    ∀ (k j d n : Nat) (y : Nat → Cx ℝ) (z : Nat → ℝ) (F : Nat → RowFns C), 1 ≤ j →
      (k ≠ 0 → j + k ≤ cfg.nlevel + 1 ∧ cfg.nSlow ≤ n / 2 ^ k) →
      restAuto ac cfg al r k j d ((List.range n).map y)
        (if squares then some ((List.range n).map z) else none)
        ((List.range cfg.nlevel).map fun l => rowOf cfg.norm cfg.method false
          cfg.nSlow cfg.nSlow (F (l + 1)))
      = .ok ((List.range cfg.nlevel).map fun l => rowOf cfg.norm cfg.method false
          cfg.nSlow cfg.nSlow (F (l + 1) +
            if j ≤ l + 1 ∧ l + 1 < j + k then
              restAutoTerm (cor cfg.method) cfg.binning r d squares y z n (l + 2 - j)
            else 0)) := by
  intro k
  induction k with
  | zero =>
    intro j d n y z F hj _
    unfold restAuto
    congr 1
    apply List.map_congr_left
    intro l _
    rw [if_neg (by omega), add_zero]
  | succ k ih =>
    intro j d n y z F hj hk
    obtain ⟨hk1, hk2⟩ := hk (by omega)
    have hn2 : cfg.nSlow ≤ binCount cfg.binning n / 2 ^ k := by
      refine le_trans ?_ (Nat.div_le_div_right (binCount_le _ _))
      rw [Nat.div_div_eq_div_mul]
      rw [pow_succ, mul_comm] at hk2
      exact hk2
    have hn3 : cfg.nSlow ≤ binCount cfg.binning n := hn2.trans (Nat.div_le_self _ _)
    unfold restAuto
    have hmap : ∀ z : Nat → ℝ, (if squares then some ((List.range n).map z) else none : Option (List ℝ)).map
        (binData cfg.binning (r d))
        = if squares then some ((List.range (binCount cfg.binning n)).map (memStep cfg.binning (r d) z)) else none := by
      intro z
      cases squares
      · rfl
      · simp [binData_seq]
    simp only [binData_seq, hmap, bind, Except.bind]
    have hget : ((List.range cfg.nlevel).map fun l => rowOf cfg.norm cfg.method false
          cfg.nSlow cfg.nSlow (F (l + 1)))[j - 1]?
        = some (rowOf cfg.norm cfg.method false cfg.nSlow cfg.nSlow (F j)) := by
      rw [List.getElem?_map, List.getElem?_range (by omega), Option.map_some,
        show j - 1 + 1 = j by omega]
    rw [hget]
    simp only
    obtain ⟨r1, e1, e2⟩ := K.into (al := al) (n := cfg.nSlow) (L := cfg.nSlow)
      (Lc := cfg.nSlow) (v := cfg.norm) (m := cfg.method)
      (f := (List.range (binCount cfg.binning n)).map (memStep cfg.binning (r d) y)) (t := none)
      (fs := if squares then some ((List.range (binCount cfg.binning n)).map (memStep cfg.binning (r d) z)) else none)
      (F j) (by
        simp only [List.length_map, List.length_range]
        refine autoCallOK_regular hm hv hn hn3 ?_
        intro g hg
        cases squares <;> simp at hg
        rw [← hg]; simp) hd
    simp only [Int.toNat_natCast] at e1 e2
    rw [e1]
    simp only
    rw [e2, map_range_set]
    set G : Nat → RowFns C := fun l => F l + if l = j then
      restAutoTerm (cor cfg.method) cfg.binning r d squares y z n 1
      else 0 with hG
    have hG1 : ((List.range cfg.nlevel).map fun l => if l = j - 1 then
          rowOf cfg.norm cfg.method false cfg.nSlow cfg.nSlow (G j)
        else rowOf cfg.norm cfg.method false cfg.nSlow cfg.nSlow (F (l + 1)))
        = (List.range cfg.nlevel).map fun l => rowOf cfg.norm cfg.method false
          cfg.nSlow cfg.nSlow (G (l + 1)) := by
      apply List.map_congr_left
      intro l _
      by_cases hl : l = j - 1
      · rw [if_pos hl, show l + 1 = j by omega]
      · rw [if_neg hl, hG]
        simp only [show ¬ l + 1 = j by omega, if_false, add_zero]
    have hG2 : G j = F j + restAutoTerm (cor cfg.method) cfg.binning r d squares y z n 1 := by
      rw [hG]; simp
    have hG3 : F j + autoFns (cor cfg.method)
        (stream ((List.range (binCount cfg.binning n)).map (memStep cfg.binning (r d) y)) none)
        (stream ((if squares then some ((List.range (binCount cfg.binning n)).map
          (memStep cfg.binning (r d) z)) else none : Option (List ℝ)).getD
          (((List.range (binCount cfg.binning n)).map (memStep cfg.binning (r d) y)).map Cx.abs2))
          none) = G j := by
      rw [hG2]
      unfold restAutoTerm restSq
      cases squares
      · simp only [Bool.false_eq_true, if_false, Option.getD_none, List.map_map]
        rfl
      · simp only [if_true, Option.getD_some]
        rfl
    rw [hG3, hG1]
    rw [ih (j + 1) (d + 1) (binCount cfg.binning n) _ _ G (by omega)
      (fun _ => ⟨by omega, hn2⟩)]
    congr 1
    apply List.map_congr_left
    intro l _
    congr 1
    rw [hG]
    simp only
    by_cases h1 : l + 1 = j
    · rw [if_pos h1, if_neg (by omega), if_pos (by omega), add_zero,
        show l + 2 - j = 1 by omega]
    · rw [if_neg h1, add_zero]
      by_cases h2 : j ≤ l + 1 ∧ l + 1 < j + (k + 1)
      · rw [if_pos (by omega), if_pos h2, show l + 2 - j = (l + 2 - (j + 1)) + 1 by omega]
        rfl
      · rw [if_neg (by omega), if_neg h2]

/-- The sums at level `j`. -/
noncomputable def autoLevel {C : Type} [AddCommMonoid C] (cplx : Bool)
    (cor : Stream (Cx ℝ) → Nat → C) (g : Cx ℝ → Cx ℝ → C) (cfg : IterCfg) (T : List Int)
    (r : Nat → ℚ) (squares : Bool) (Y : Nat → Cx ℝ) (j : Nat) : RowFns C :=
  if j < cfg.nDecades then
    ∑ q ∈ Finset.range (cfg.nframes / (cfg.half * 2 ^ j)),
      (levelParts cfg T T r squares Y Y j).autoTerm cplx cor g (iterLen cplx cfg.nFast) cfg.full q
  else
    restAutoTerm cor cfg.binning r cfg.nframes squares
      (streamBin cfg.binning r Y (max cfg.nDecades 1 - 1))
      (streamBin cfg.binning r (fun i => (Y i).abs2) (max cfg.nDecades 1 - 1))
      (cfg.nframes / 2 ^ (max cfg.nDecades 1 - 1)) (j + 1 - max cfg.nDecades 1)

theorem autoRun_ok {C : Type} [AddCommMonoid C] {cplx : Bool} {g : String → Cx ℝ → Cx ℝ → C}
    {cor : String → Stream (Cx ℝ) → Nat → C} {ac : AutoFn C} {cc : CrossFn C}
    (K : CrossOK cplx g cc) (KA : AutoOK cplx cor ac)
    (hcor : ∀ m c s, cor m (shiftStream c s) = cor m s) (cfg : IterCfg) (T : List Int)
    (al al' : Bool) (r : Nat → ℚ) (len : Nat) (Y : Nat → Cx ℝ) (hs : SizedCfg cfg)
    (hargs : IterArgs false cplx cfg.method cfg.norm cfg.half cfg.nframes cfg.nFast T T)
    (hfast : cfg.nSlow ≤ cfg.nFast)
    (hfft : cfg.method = "fft" → cfg.nFast ≤ 2 * cfg.half + 1) (hlen : 1 ≤ len) (squares : Bool)
    (hsq : squares = (needsSquares cfg.norm && decide (cfg.method ≠ "diff"))) :
    autoRun ac cc cfg T al al' r len Y
    = if len < cfg.nframes then .error .valueError else
      .ok (min len (cfg.nframes + 1),
        ⟨rowOf cfg.norm cfg.method false cfg.nFast cfg.nFast
          (∑ q ∈ Finset.range (cfg.nframes / cfg.half),
            (levelParts cfg T T r squares Y Y 0).autoTerm cplx (cor cfg.method) (g cfg.method)
              (iterLen cplx cfg.nFast) cfg.full q),
        (List.range cfg.nlevel).map fun l => rowOf cfg.norm cfg.method false
          cfg.nSlow cfg.nSlow
          (autoLevel cplx (cor cfg.method) (g cfg.method) cfg T r squares Y (l + 1)),
        [some (statOf Y cfg.nframes)]⟩) := by
  have hcorr : (decide (cfg.method ≠ "diff")) = true ↔ cfg.method ≠ "diff" := by simp
  have hslow := hs.slow
  set rowF : RowFns C → CorrAout C := rowOf cfg.norm cfg.method false cfg.nFast cfg.nFast with hrowF
  set rowS : RowFns C → CorrAout C := rowOf cfg.norm cfg.method false cfg.nSlow cfg.nSlow with hrowS
  set KK : Nat → Nat → RowFns C := fun j q =>
    (levelParts cfg T T r squares Y Y j).autoTerm cplx (cor cfg.method) (g cfg.method)
      (iterLen cplx cfg.nFast) cfg.full q with hKK
  have hsum := enumLoop_sum cfg (autoIdeal ac cc cfg T al r squares Y) rowF rowS KK hs.half
    hs.level
    (by
      intro q d hq
      exact autoIdeal_ok K KA hcor cfg T al r squares Y 0 q cfg.nFast d hs.half hargs
        (fun hm p hp => by
          obtain ⟨i, i', e1, e2, e3⟩ := (hargs.fft hm).span (p + 1) p hp
            (le_trans (Nat.mul_le_mul_right _ (by omega)) hp) (by omega) (by omega)
          exact ⟨i, i', e1, e2, e3⟩) rfl (by omega)
        (by simp) le_rfl (by simpa using hq))
    (by
      intro j q d hj1 hj hq
      have hj0 : j ≠ 0 := by omega
      have hargs' : IterArgs false cplx cfg.method cfg.norm cfg.half cfg.nframes cfg.nSlow
          (levelT cfg.nframes T j) (levelT cfg.nframes T j) := by
        unfold levelT
        rw [if_neg hj0]
        exact iterArgs_arange hargs.method hargs.norm hargs.diff hs.slow
          (hs.slowLe.trans (Nat.le_succ _)) hs.half
      exact autoIdeal_ok K KA hcor cfg T al r squares Y j q cfg.nSlow d hs.half hargs'
        (fun hm p hp => by
          have hh := hs.half
          have hf := hfft hm
          have e1 : (p + 2) * cfg.half = p * cfg.half + 2 * cfg.half := by ring
          have e2 : (p + 1) * cfg.half = p * cfg.half + cfg.half := by ring
          refine ⟨(p + 1) * cfg.half + (cfg.half - 1), p * cfg.half + 0, ?_, ?_, ?_⟩
          · rw [mul_comm, Nat.mul_add_div (by omega), Nat.div_eq_of_lt (by omega), Nat.add_zero]
          · rw [mul_comm, Nat.mul_add_div (by omega), Nat.zero_div, Nat.add_zero]
          · unfold levelT
            rw [if_neg hj0, arange_getD (by omega), arange_getD (by omega), Int.abs_eq_natAbs]
            omega)
        (by rw [if_neg hj0]) hs.slow (fun _ => hs.slowLe) hfast hq)
    (List.replicate len ()) 0 (Nat.zero_le _)
  simp only [Nat.zero_div, Finset.range_zero, Finset.sum_empty, levelSum_zero, Nat.zero_add,
    List.length_replicate] at hsum
  unfold autoRun
  simp only [bind, Except.bind]
  rw [← hsq, zeroArrays_eq _ _ _ _ _ _ hcorr, zeroArrays_eq _ _ _ _ _ _ hcorr]
  have hrep : List.replicate cfg.nlevel (rowS 0) = (List.range cfg.nlevel).map fun _ => rowS 0 := by
    rw [List.map_const', List.length_range]
  rw [hrep, hsum]
  simp only
  by_cases hl : len < cfg.nframes
  · rw [if_pos (by omega), if_pos hl]
  · rw [if_neg (by omega), if_neg hl, min_eq_right (by omega : cfg.nframes ≤ len)]
    have hrest := restAuto_ok KA cfg al' r squares hargs.method hargs.norm hargs.diff hs.slow
      (cfg.nlevel + 1 - max cfg.nDecades 1) (max cfg.nDecades 1) cfg.nframes
      (cfg.nframes / 2 ^ (max cfg.nDecades 1 - 1))
      (streamBin cfg.binning r Y (max cfg.nDecades 1 - 1))
      (streamBin cfg.binning r (fun i => (Y i).abs2) (max cfg.nDecades 1 - 1))
      (fun j => levelSum cfg.nDecades cfg.half KK cfg.nframes j) (by omega)
      (fun h => ⟨by omega, hs.rest h⟩)
    unfold idealRow idealRowSq
    rw [hrest]
    simp only
    congr 3
    apply List.map_congr_left
    intro l hl
    have hl := List.mem_range.1 hl
    rw [hrowS]
    congr 1
    unfold levelSum autoLevel
    by_cases hj : l + 1 < cfg.nDecades
    · rw [if_pos hj, if_pos hj, if_neg (by omega), add_zero]
    · rw [if_neg hj, if_neg hj, if_pos (by omega), zero_add]

end Cddm
