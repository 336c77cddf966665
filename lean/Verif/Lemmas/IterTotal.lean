import Verif.Lemmas.IterSum

/-!
# Closed forms of the runs of the iterative algorithms
-/

namespace Cddm
open Spec

section rest
variable {V : Type} [AddCommGroup V] [Module ℝ V]

/-- The sample a pair of samples is reduced to by the functions used in memory. -/
noncomputable def memPair (binning : Int) (r : ℚ) (early late : V) : V :=
  if binning = 1 then (1 / 2 : ℝ) • (early + late)
  else if binning = 0 then early
  else if r < 1 / 2 then late else early

/-- One binning step on a sequence. -/
noncomputable def memStep (binning : Int) (r : ℚ) (y : Nat → V) (b : Nat) : V :=
  memPair binning r (y (2 * b)) (y (2 * b + 1))

/-- The number of samples after one binning step: taking the first of each block keeps the first
sample of an incomplete block. -/
def binCount (binning : Int) (n : Nat) : Nat := if binning = 0 then (n + 1) / 2 else n / 2

theorem binData_seq (binning : Int) (r : ℚ) (y : Nat → V) (n : Nat) :
    binData binning r ((List.range n).map y)
      = (List.range (binCount binning n)).map (memStep binning r y) := by
  have hget : ∀ i, i < n → ((List.range n).map y)[i]? = some (y i) := fun i hi => by
    rw [List.getElem?_map, List.getElem?_range hi]; rfl
  unfold binData binCount
  by_cases h1 : binning = 1
  · rw [if_pos h1, if_neg (by omega)]
    apply List.ext_getElem?
    intro b
    by_cases hb : b < n / 2
    · rw [List.getElem?_map, List.getElem?_range hb, Option.map_some,
        meanData_get _ _ (by simpa using hb)]
      simp [memStep, memPair, h1]
    · rw [List.getElem?_eq_none (by rw [meanData_length]; simp; omega),
        List.getElem?_eq_none (by simp; omega)]
  · rw [if_neg h1]
    by_cases h0 : binning = 0
    · rw [if_pos h0, if_pos h0]
      apply List.ext_getElem?
      intro b
      rw [everySecond_get]
      by_cases hb : b < (n + 1) / 2
      · rw [List.getElem?_map, List.getElem?_map, List.getElem?_range hb,
          List.getElem?_range (by omega)]
        simp [memStep, memPair, h0]
      · rw [List.getElem?_eq_none (by simp; omega), List.getElem?_eq_none (by simp; omega)]
    · rw [if_neg h0, if_neg h0]
      apply List.ext_getElem?
      intro b
      by_cases hb : b < n / 2
      · rw [List.getElem?_map, List.getElem?_range hb, Option.map_some,
          chooseData_get _ _ _ (by simpa using hb)]
        by_cases hr : r < 1 / 2
        · rw [hget _ (by split <;> omega), if_pos (by simpa using hr)]
          simp only [memStep, memPair, h1, h0, hr, if_true, if_false]
        · rw [hget _ (by split <;> omega), if_neg (by simpa using hr)]
          simp only [memStep, memPair, h1, h0, hr, if_false, Nat.add_zero]
      · rw [List.getElem?_eq_none (by rw [chooseData_length]; simp; omega),
          List.getElem?_eq_none (by simp; omega)]

theorem binCount_le (binning : Int) (n : Nat) : n / 2 ≤ binCount binning n := by
  unfold binCount; split <;> omega

/-- The number of samples after `i` steps. -/
def restCount (binning : Int) (n : Nat) : Nat → Nat
  | 0 => n
  | i + 1 => restCount binning (binCount binning n) i

theorem restCount_one (n i : Nat) : restCount 1 n i = n / 2 ^ i := by
  induction i generalizing n with
  | zero => simp [restCount]
  | succ i ih =>
    rw [restCount, ih, show binCount 1 n = n / 2 from rfl, Nat.div_div_eq_div_mul, pow_succ,
      mul_comm]

/-- The sequences of the levels after the main loop; the numbers used are `r d, r (d+1), ...`. -/
noncomputable def restSeq (binning : Int) (r : Nat → ℚ) (d : Nat) (y : Nat → V) : Nat → Nat → V
  | 0 => y
  | i + 1 => restSeq binning r (d + 1) (memStep binning (r d) y) i

end rest

/-- The squares that are used at a level after the main loop. -/
noncomputable def restSq (binning : Int) (r : Nat → ℚ) (d : Nat) (squares : Bool)
    (y : Nat → Cx ℝ) (z : Nat → ℝ) (i b : Nat) : ℝ :=
  if squares then restSeq binning r d z i b else (restSeq binning r d y i b).abs2

/-- What the loop after the main loop adds at its round `i` (from 1). -/
noncomputable def restTerm {C : Type} [AddCommMonoid C] (full : Bool) (g : Cx ℝ → Cx ℝ → C)
    (L : Nat) (binning : Int) (r : Nat → ℚ) (d : Nat) (squares : Bool) (y1 y2 : Nat → Cx ℝ)
    (z1 z2 : Nat → ℝ) (n i : Nat) : RowFns C :=
  crossFns full g L L (regular ((List.range (restCount binning n i)).map (restSeq binning r d y1 i)))
    (regular ((List.range (restCount binning n i)).map (restSeq binning r d y2 i)))
    (regular ((List.range (restCount binning n i)).map (restSq binning r d squares y1 z1 i)))
    (regular ((List.range (restCount binning n i)).map (restSq binning r d squares y2 z2 i)))

theorem restTerm_succ {C : Type} [AddCommMonoid C] (full : Bool) (g : Cx ℝ → Cx ℝ → C)
    (L : Nat) (binning : Int) (r : Nat → ℚ) (d : Nat) (squares : Bool) (y1 y2 : Nat → Cx ℝ)
    (z1 z2 : Nat → ℝ) (n i : Nat) :
    restTerm full g L binning r d squares y1 y2 z1 z2 n (i + 1)
      = restTerm full g L binning r (d + 1) squares (memStep binning (r d) y1)
          (memStep binning (r d) y2) (memStep binning (r d) z1) (memStep binning (r d) z2)
          (binCount binning n) i := rfl

theorem restCross_ok {C : Type} [AddCommMonoid C] {cplx : Bool} {g : String → Cx ℝ → Cx ℝ → C}
    {cc : CrossFn C} (K : CrossOK cplx g cc) (cfg : IterCfg) (al : Bool) (r : Nat → ℚ)
    (squares : Bool) (hm : cfg.method = "corr" ∨ cfg.method = "fft" ∨ cfg.method = "diff")
    (hv : SupportedNorm cfg.method true cfg.norm) (hd : cplx = true → cfg.method ≠ "diff")
    (hn : 1 ≤ cfg.nSlow) :
    ∀ (k j d n : Nat) (y1 y2 : Nat → Cx ℝ) (z1 z2 : Nat → ℝ) (F : Nat → RowFns C), 1 ≤ j →
      (k ≠ 0 → j + k ≤ cfg.nlevel + 1 ∧ cfg.nSlow ≤ n / 2 ^ k) →
      restCross cc cfg al r k j d ((List.range n).map y1) ((List.range n).map y2)
        (if squares then some ((List.range n).map z1) else none)
        (if squares then some ((List.range n).map z2) else none)
        ((List.range cfg.nlevel).map fun l => rowOf cfg.norm cfg.method true
          (iterLen cplx cfg.nSlow) (iterLen cplx cfg.nSlow) (F (l + 1)))
      = .ok ((List.range cfg.nlevel).map fun l => rowOf cfg.norm cfg.method true
          (iterLen cplx cfg.nSlow) (iterLen cplx cfg.nSlow) (F (l + 1) +
            if j ≤ l + 1 ∧ l + 1 < j + k then
              restTerm cplx (g cfg.method) (iterLen cplx cfg.nSlow) cfg.binning r d squares
                y1 y2 z1 z2 n (l + 2 - j)
            else 0)) := by
  intro k
  induction k with
  | zero =>
    intro j d n y1 y2 z1 z2 F hj _
    unfold restCross
    congr 1
    apply List.map_congr_left
    intro l _
    rw [if_neg (by omega), add_zero]
  | succ k ih =>
    intro j d n y1 y2 z1 z2 F hj hk
    obtain ⟨hk1, hk2⟩ := hk (by omega)
    have hn2 : cfg.nSlow ≤ binCount cfg.binning n / 2 ^ k := by
      refine le_trans ?_ (Nat.div_le_div_right (binCount_le _ _))
      rw [Nat.div_div_eq_div_mul]
      rw [pow_succ, mul_comm] at hk2
      exact hk2
    have hn3 : cfg.nSlow ≤ binCount cfg.binning n := hn2.trans (Nat.div_le_self _ _)
    unfold restCross
    have hmap : ∀ z : Nat → ℝ, (if squares then some ((List.range n).map z) else none : Option (List ℝ)).map
        (binData cfg.binning (r d))
        = if squares then some ((List.range (binCount cfg.binning n)).map (memStep cfg.binning (r d) z)) else none := by
      intro z
      cases squares
      · rfl
      · simp [binData_seq]
    simp only [binData_seq, hmap, bind, Except.bind]
    have hget : ((List.range cfg.nlevel).map fun l => rowOf cfg.norm cfg.method true
          (iterLen cplx cfg.nSlow) (iterLen cplx cfg.nSlow) (F (l + 1)))[j - 1]?
        = some (rowOf cfg.norm cfg.method true
          (iterLen cplx cfg.nSlow) (iterLen cplx cfg.nSlow) (F j)) := by
      rw [List.getElem?_map, List.getElem?_range (by omega), Option.map_some,
        show j - 1 + 1 = j by omega]
    rw [hget]
    simp only
    obtain ⟨r1, e1, e2⟩ := K.into (al := al) (n := cfg.nSlow) (L := iterLen cplx cfg.nSlow)
      (Lc := iterLen cplx cfg.nSlow) (v := cfg.norm) (m := cfg.method)
      (f1 := (List.range (binCount cfg.binning n)).map (memStep cfg.binning (r d) y1))
      (f2 := (List.range (binCount cfg.binning n)).map (memStep cfg.binning (r d) y2)) (t1 := none) (t2 := none)
      (f1s := if squares then some ((List.range (binCount cfg.binning n)).map (memStep cfg.binning (r d) z1)) else none)
      (f2s := if squares then some ((List.range (binCount cfg.binning n)).map (memStep cfg.binning (r d) z2)) else none)
      (F j) (by
        simp only [List.length_map, List.length_range]
        refine callOK_regular hm hv hd hn hn3 rfl ?_ ?_
        · intro g hg
          cases squares <;> simp at hg
          rw [← hg]; simp
        · intro g hg
          cases squares <;> simp at hg
          rw [← hg]; simp)
    simp only [Int.toNat_natCast] at e1 e2
    rw [e1]
    simp only
    rw [e2, map_range_set]
    set G : Nat → RowFns C := fun l => F l + if l = j then
      restTerm cplx (g cfg.method) (iterLen cplx cfg.nSlow) cfg.binning r d squares y1 y2 z1 z2 n 1
      else 0 with hG
    have hG1 : ((List.range cfg.nlevel).map fun l => if l = j - 1 then
          rowOf cfg.norm cfg.method true (iterLen cplx cfg.nSlow) (iterLen cplx cfg.nSlow) (G j)
        else rowOf cfg.norm cfg.method true (iterLen cplx cfg.nSlow) (iterLen cplx cfg.nSlow)
          (F (l + 1)))
        = (List.range cfg.nlevel).map fun l => rowOf cfg.norm cfg.method true
          (iterLen cplx cfg.nSlow) (iterLen cplx cfg.nSlow) (G (l + 1)) := by
      apply List.map_congr_left
      intro l _
      by_cases hl : l = j - 1
      · rw [if_pos hl, show l + 1 = j by omega]
      · rw [if_neg hl, hG]
        simp only [show ¬ l + 1 = j by omega, if_false, add_zero]
    have hG2 : G j = F j + restTerm cplx (g cfg.method) (iterLen cplx cfg.nSlow) cfg.binning r d
        squares y1 y2 z1 z2 n 1 := by rw [hG]; simp
    have hG3 : F j + crossFns cplx (g cfg.method) (iterLen cplx cfg.nSlow) (iterLen cplx cfg.nSlow)
        (stream ((List.range (binCount cfg.binning n)).map (memStep cfg.binning (r d) y1)) none)
        (stream ((List.range (binCount cfg.binning n)).map (memStep cfg.binning (r d) y2)) none)
        (stream ((if squares then some ((List.range (binCount cfg.binning n)).map
          (memStep cfg.binning (r d) z1)) else none : Option (List ℝ)).getD
          (((List.range (binCount cfg.binning n)).map (memStep cfg.binning (r d) y1)).map Cx.abs2))
          none)
        (stream ((if squares then some ((List.range (binCount cfg.binning n)).map
          (memStep cfg.binning (r d) z2)) else none : Option (List ℝ)).getD
          (((List.range (binCount cfg.binning n)).map (memStep cfg.binning (r d) y2)).map Cx.abs2))
          none) = G j := by
      rw [hG2]
      unfold restTerm restSq
      cases squares
      · simp only [Bool.false_eq_true, if_false, Option.getD_none, List.map_map]
        rfl
      · simp only [if_true, Option.getD_some]
        rfl
    rw [hG3, hG1]
    rw [ih (j + 1) (d + 1) (binCount cfg.binning n) _ _ _ _ G (by omega)
      (fun _ => ⟨by omega, hn2⟩)]
    congr 1
    apply List.map_congr_left
    intro l _
    congr 1
    rw [hG]
    simp only
    by_cases h1 : l + 1 = j
    · rw [if_pos h1, if_neg (by omega), if_pos (by omega), add_zero,
        show l + 2 - j = 1 by omega]
    · rw [if_neg h1, add_zero]
      by_cases h2 : j ≤ l + 1 ∧ l + 1 < j + (k + 1)
      · rw [if_pos (by omega), if_pos h2, show l + 2 - j = (l + 2 - (j + 1)) + 1 by omega,
          restTerm_succ]
      · rw [if_neg (by omega), if_neg h2]

/-- What the closed forms need to know about the sizes. -/
structure SizedCfg (cfg : IterCfg) : Prop where
  half : 0 < cfg.half
  slow : 1 ≤ cfg.nSlow
  slowLe : cfg.nSlow ≤ cfg.half
  level : cfg.nDecades ≤ cfg.nlevel + 1
  rest : cfg.nlevel + 1 - max cfg.nDecades 1 ≠ 0 →
    cfg.nSlow ≤ cfg.nframes / 2 ^ (max cfg.nDecades 1 - 1) / 2 ^ (cfg.nlevel + 1 - max cfg.nDecades 1)

/-- The sums at level `j`. -/
noncomputable def crossLevel {C : Type} [AddCommMonoid C] (cplx : Bool) (g : Cx ℝ → Cx ℝ → C)
    (L : Nat) (cfg : IterCfg) (T1 T2 : List Int) (r : Nat → ℚ) (squares : Bool)
    (Y1 Y2 : Nat → Cx ℝ) (j : Nat) : RowFns C :=
  if j < cfg.nDecades then
    ∑ q ∈ Finset.range (cfg.nframes / (cfg.half * 2 ^ j)),
      (levelParts cfg T1 T2 r squares Y1 Y2 j).term cplx g L cfg.full q
  else
    restTerm cplx g L cfg.binning r cfg.nframes squares
      (streamBin cfg.binning r Y1 (max cfg.nDecades 1 - 1))
      (streamBin cfg.binning r Y2 (max cfg.nDecades 1 - 1))
      (streamBin cfg.binning r (fun i => (Y1 i).abs2) (max cfg.nDecades 1 - 1))
      (streamBin cfg.binning r (fun i => (Y2 i).abs2) (max cfg.nDecades 1 - 1))
      (cfg.nframes / 2 ^ (max cfg.nDecades 1 - 1)) (j + 1 - max cfg.nDecades 1)

theorem levelSum_zero {M : Type} [AddCommMonoid M] (nd half : Nat) (K : Nat → Nat → M) (j : Nat) :
    levelSum nd half K 0 j = 0 := by
  unfold levelSum
  split
  · simp
  · rfl

theorem crossRun_ok {C : Type} [AddCommMonoid C] {cplx : Bool} {g : String → Cx ℝ → Cx ℝ → C}
    {cc : CrossFn C} (K : CrossOK cplx g cc) (cfg : IterCfg) (T1 T2 : List Int) (al al' : Bool)
    (r : Nat → ℚ) (len : Nat) (Y1 Y2 : Nat → Cx ℝ) (hs : SizedCfg cfg)
    (hargs : IterArgs true cplx cfg.method cfg.norm cfg.half cfg.nframes cfg.nFast T1 T2)
    (hf : cplx = true → 1 ≤ cfg.nFast) (hlen : 1 ≤ len) (squares : Bool)
    (hsq : squares = (needsSquares cfg.norm && decide (cfg.method ≠ "diff"))) :
    crossRun cplx cc cfg T1 T2 al al' r len Y1 Y2
    = if len < cfg.nframes then .error .valueError else
      .ok (min len (cfg.nframes + 1),
        ⟨rowOf cfg.norm cfg.method true (iterLen cplx cfg.nFast) (iterLen cplx cfg.nFast)
          (∑ q ∈ Finset.range (cfg.nframes / cfg.half),
            (levelParts cfg T1 T2 r squares Y1 Y2 0).term cplx (g cfg.method)
              (iterLen cplx cfg.nFast) cfg.full q),
        (List.range cfg.nlevel).map fun l => rowOf cfg.norm cfg.method true
          (iterLen cplx cfg.nSlow) (iterLen cplx cfg.nSlow)
          (crossLevel cplx (g cfg.method) (iterLen cplx cfg.nSlow) cfg T1 T2 r squares Y1 Y2
            (l + 1)),
        [some (statOf Y1 cfg.nframes), some (statOf Y2 cfg.nframes)]⟩) := by
  have hcor : (decide (cfg.method ≠ "diff")) = true ↔ cfg.method ≠ "diff" := by simp
  set rowF : RowFns C → CorrAout C := rowOf cfg.norm cfg.method true (iterLen cplx cfg.nFast)
    (iterLen cplx cfg.nFast) with hrowF
  set rowS : RowFns C → CorrAout C := rowOf cfg.norm cfg.method true (iterLen cplx cfg.nSlow)
    (iterLen cplx cfg.nSlow) with hrowS
  set KK : Nat → Nat → RowFns C := fun j q =>
    (levelParts cfg T1 T2 r squares Y1 Y2 j).term cplx (g cfg.method)
      (iterLen cplx (if j = 0 then cfg.nFast else cfg.nSlow)) cfg.full q with hKK
  have hsum := enumLoop_sum cfg (crossIdeal cc cfg T1 T2 al r squares Y1 Y2) rowF rowS KK hs.half
    hs.level
    (by
      intro q d hq
      have := crossIdeal_ok K cfg T1 T2 al r squares Y1 Y2 0 q cfg.nFast d hs.half hargs rfl hf
        (by simp) (by simpa using hq)
      exact this)
    (by
      intro j q d hj1 hj hq
      have hj0 : j ≠ 0 := by omega
      have hargs' : IterArgs true cplx cfg.method cfg.norm cfg.half cfg.nframes cfg.nSlow
          (levelT cfg.nframes T1 j) (levelT cfg.nframes T2 j) := by
        unfold levelT
        rw [if_neg hj0, if_neg hj0]
        exact iterArgs_arange hargs.method hargs.norm hargs.diff hs.slow
          (hs.slowLe.trans (Nat.le_succ _)) hs.half
      have := crossIdeal_ok K cfg T1 T2 al r squares Y1 Y2 j q cfg.nSlow d hs.half hargs'
        (by rw [if_neg hj0]) (fun _ => hs.slow) (fun _ => ⟨hs.slow, hs.slowLe⟩) hq
      rw [hrowS, this, hKK]
      simp only [hj0, if_false])
    (List.replicate len ()) 0 (Nat.zero_le _)
  simp only [Nat.zero_div, Finset.range_zero, Finset.sum_empty, levelSum_zero, Nat.zero_add,
    List.length_replicate] at hsum
  unfold crossRun
  simp only [bind, Except.bind]
  rw [← hsq, zeroArrays_eq _ _ _ _ _ _ hcor, zeroArrays_eq _ _ _ _ _ _ hcor]
  have hrep : List.replicate cfg.nlevel (rowS 0) = (List.range cfg.nlevel).map fun _ => rowS 0 := by
    rw [List.map_const', List.length_range]
  rw [hrep, hsum]
  simp only
  by_cases hl : len < cfg.nframes
  · rw [if_pos (by omega), if_pos hl]
  · rw [if_neg (by omega), if_neg hl, min_eq_right (by omega : cfg.nframes ≤ len)]
    have hrest := restCross_ok K cfg al' r squares hargs.method hargs.norm hargs.diff hs.slow
      (cfg.nlevel + 1 - max cfg.nDecades 1) (max cfg.nDecades 1) cfg.nframes
      (cfg.nframes / 2 ^ (max cfg.nDecades 1 - 1))
      (streamBin cfg.binning r Y1 (max cfg.nDecades 1 - 1))
      (streamBin cfg.binning r Y2 (max cfg.nDecades 1 - 1))
      (streamBin cfg.binning r (fun i => (Y1 i).abs2) (max cfg.nDecades 1 - 1))
      (streamBin cfg.binning r (fun i => (Y2 i).abs2) (max cfg.nDecades 1 - 1))
      (fun j => levelSum cfg.nDecades cfg.half KK cfg.nframes j) (by omega)
      (fun h => ⟨by omega, hs.rest h⟩)
    unfold idealRow idealRowSq
    rw [hrest]
    simp only
    congr 3
    apply List.map_congr_left
    intro l hl
    have hl := List.mem_range.1 hl
    rw [hrowS]
    congr 1
    unfold levelSum crossLevel
    by_cases hj : l + 1 < cfg.nDecades
    · rw [if_pos hj, if_pos hj, if_neg (by omega), add_zero]
      apply Finset.sum_congr rfl
      intro q _
      rw [hKK]
      simp
    · rw [if_neg hj, if_neg hj, if_pos (by omega), zero_add]

end Cddm
