import Verif.Lemmas.IterYield
import Verif.Spec.IterYield

/-!
# The arrays in the yields of the iterative functions
-/

namespace Cddm
open Spec

section cross
variable {C : Type} [AddCommMonoid C]

theorem fastAt_full (cplx : Bool) (g : Cx ℝ → Cx ℝ → C) {cfg : IterCfg} {T1 T2 : List Int}
    (r : Nat → ℚ) (squares : Bool) (Y1 Y2 : Nat → Cx ℝ) {m : String} {v : Int} {n p : Nat}
    (hv : SupportedNorm m true v) (hnf : cfg.nFast = n)
    (hfull : cfg.full = true) (h1 : (p + 1) * cfg.half ≤ T1.length)
    (h2 : (p + 1) * cfg.half ≤ T2.length) (hsp : Spaced cfg.half ((p + 1) * cfg.half) n T1 T2) :
    rowOf v.toNat m true (iterLen cplx n) (iterLen cplx n) (∑ q ∈ Finset.range (p + 1),
      crossK cplx g cfg T1 T2 r squares Y1 Y2 0 q)
    = crossData cplx g m v (iterLen cplx n)
        (stream ((List.range ((p + 1) * cfg.half)).map Y1) (some (T1.take ((p + 1) * cfg.half))))
        (stream ((List.range ((p + 1) * cfg.half)).map Y2) (some (T2.take ((p + 1) * cfg.half))))
        (stream (((List.range ((p + 1) * cfg.half)).map Y1).map Cx.abs2)
          (some (T1.take ((p + 1) * cfg.half))))
        (stream (((List.range ((p + 1) * cfg.half)).map Y2).map Cx.abs2)
          (some (T2.take ((p + 1) * cfg.half)))) := by
  have := fast_full cplx g (cfg := { cfg with nframes := (p + 1) * cfg.half }) (T1 := T1) (T2 := T2)
    r squares Y1 Y2 (m := m) (v := v) (n := n) (Q := p + 1) hv hfull rfl h1 h2 hsp
  rw [← this]
  unfold crossK
  rw [if_pos rfl, hnf]
  rfl

theorem fastAt_chunk (cplx : Bool) (g : Cx ℝ → Cx ℝ → C) {cfg : IterCfg} {T1 T2 : List Int}
    (r : Nat → ℚ) (squares : Bool) (Y1 Y2 : Nat → Cx ℝ) {m : String} {v : Int} {n p : Nat}
    (hv : SupportedNorm m true v) (hnf : cfg.nFast = n)
    (hfull : cfg.full = false) (h1 : (p + 1) * cfg.half ≤ T1.length)
    (h2 : (p + 1) * cfg.half ≤ T2.length) :
    rowOf v.toNat m true (iterLen cplx n) (iterLen cplx n) (∑ q ∈ Finset.range (p + 1),
      crossK cplx g cfg T1 T2 r squares Y1 Y2 0 q)
    = crossDataSum cplx g m v (iterLen cplx n) (p + 1)
        (fun q => stream (piece cfg.half q ((List.range ((p + 1) * cfg.half)).map Y1))
          (some (piece cfg.half q (T1.take ((p + 1) * cfg.half)))))
        (fun q => stream (piece cfg.half q ((List.range ((p + 1) * cfg.half)).map Y2))
          (some (piece cfg.half q (T2.take ((p + 1) * cfg.half)))))
        (fun q => stream (piece cfg.half q (((List.range ((p + 1) * cfg.half)).map Y1).map Cx.abs2))
          (some (piece cfg.half q (T1.take ((p + 1) * cfg.half)))))
        (fun q => stream (piece cfg.half q (((List.range ((p + 1) * cfg.half)).map Y2).map Cx.abs2))
          (some (piece cfg.half q (T2.take ((p + 1) * cfg.half))))) := by
  have := fast_chunk cplx g (cfg := { cfg with nframes := (p + 1) * cfg.half }) (T1 := T1)
    (T2 := T2) r squares Y1 Y2 (m := m) (v := v) (L := iterLen cplx n) (Q := p + 1) hv hfull rfl
    h1 h2
  rw [← this]
  unfold crossK
  rw [if_pos rfl, hnf]
  rfl

theorem div_chunks {c : Nat} (hc : 0 < c) (p j : Nat) :
    p * c / (c * 2 ^ j) = p / 2 ^ j := by
  rw [← Nat.div_div_eq_div_mul, Nat.mul_div_cancel _ hc]

theorem slowAt_full (cplx : Bool) (g : Cx ℝ → Cx ℝ → C) {cfg : IterCfg} {T1 T2 : List Int}
    (r : Nat → ℚ) (squares : Bool) (Y1 Y2 : Nat → Cx ℝ) {m : String} {v : Int} {n j p M : Nat}
    (hv : SupportedNorm m true v) (hns : cfg.nSlow = n)
    (hsq : squares = (needsSquares v.toNat && decide (m ≠ "diff")))
    (hfull : cfg.full = true) (hb : cfg.binning = 1) (hN : (p + 1) * cfg.half ≤ cfg.nframes)
    (hc : 0 < cfg.half) (hn : n ≤ cfg.half) (hj : 1 ≤ j)
    (hM : M = if j < cfg.nDecades then (p + 1) * cfg.half / (cfg.half * 2 ^ j) * (cfg.half * 2 ^ j)
      else 0) :
    rowOf v.toNat m true (iterLen cplx n) (iterLen cplx n)
      (levelSum cfg.nDecades cfg.half (crossK cplx g cfg T1 T2 r squares Y1 Y2)
        ((p + 1) * cfg.half) j)
    = crossData cplx g m v (iterLen cplx n)
        (regular (blockMeans (2 ^ j) ((List.range M).map Y1)))
        (regular (blockMeans (2 ^ j) ((List.range M).map Y2)))
        (regular (blockMeans (2 ^ j) (((List.range M).map Y1).map Cx.abs2)))
        (regular (blockMeans (2 ^ j) (((List.range M).map Y2).map Cx.abs2))) := by
  have hsq' : needsSquares v.toNat = true → m ≠ "diff" → squares = true := by
    intro h1 h2
    rw [hsq]; simp [h1, h2]
  rw [crossData_eq cplx g hv, List.map_map, List.map_map]
  unfold levelSum
  by_cases hlt : j < cfg.nDecades
  · rw [if_pos hlt] at hM ⊢
    set Q := (p + 1) * cfg.half / (cfg.half * 2 ^ j) with hQ
    have hQc : Q * cfg.half = M / 2 ^ j := by
      rw [hM, ← mul_assoc, Nat.mul_div_cancel _ (Nat.two_pow_pos j)]
    have hle : Q * cfg.half ≤ cfg.nframes := by
      refine le_trans ?_ hN
      refine Nat.mul_le_mul_right _ ?_
      rw [hQ, div_chunks hc]
      exact Nat.div_le_self _ _
    have := full_total cplx g (T1 := arange cfg.nframes) (T2 := arange cfg.nframes)
      (streamBin 1 r Y1 j) (streamBin 1 r Y2 j) (levelSq 1 r Y1 squares j)
      (levelSq 1 r Y2 squares j) (c := cfg.half) (Q := Q) (n := n)
      (L := iterLen cplx n) rfl (spaced_mono (spaced_arange hc (hn.trans (Nat.le_succ _))) hle)
      v.toNat m
    rw [firsts_arange _ hle, firsts_arange _ hle, firsts_arange _ hle, firsts_arange _ hle, hQc,
      row_mean, row_mean] at this
    unfold crossK levelParts levelT
    simp only [show ¬ j = 0 by omega, if_false, hb, hfull, hns]
    refine this.trans ?_
    refine rowOf_congr rfl rfl rfl rfl ?_
    · intro h1 h2
      rw [hsq' h1 h2, levelSq_row, levelSq_row]
  · rw [if_neg hlt] at hM ⊢
    have := full_total cplx g (T1 := arange 0) (T2 := arange 0)
      Y1 Y2 (fun i => (Y1 i).abs2) (fun i => (Y2 i).abs2) (c := cfg.half) (Q := 0) (n := n)
      (L := iterLen cplx n) rfl (by intro i j hi; omega) v.toNat m
    subst hM
    simp only [Finset.range_zero, Finset.sum_empty] at this
    rw [this]
    simp [firsts, blockMeans, regular]

end cross

theorem fastAt_full_auto {cfg : IterCfg} {T : List Int} (r : Nat → ℚ) (squares : Bool)
    (Y : Nat → Cx ℝ) {m : String} {v : Int} {n p : Nat} (hv : SupportedNorm m false v)
    (hfull : cfg.full = true) (h1 : (p + 1) * cfg.half ≤ T.length)
    (hsp : Spaced cfg.half ((p + 1) * cfg.half) n T T) :
    rowOf v.toNat m false n n (∑ q ∈ Finset.range (p + 1),
      autoK false (selfSum (productOf m)) (productOf m) cfg T r squares Y 0 q)
    = autoData (productOf m) m v n
        (stream ((List.range ((p + 1) * cfg.half)).map Y) (some (T.take ((p + 1) * cfg.half))))
        (stream (((List.range ((p + 1) * cfg.half)).map Y).map Cx.abs2)
          (some (T.take ((p + 1) * cfg.half)))) := by
  have := fast_full_auto (cfg := { cfg with nframes := (p + 1) * cfg.half }) (T := T) r squares Y
    (m := m) (v := v) (n := n) (Q := p + 1) (L := iterLen false cfg.nFast) hv hfull rfl h1 hsp
  rw [← this]
  rfl

theorem fastAt_chunk_auto {C : Type} [AddCommMonoid C] (cplx : Bool)
    (cor : Stream (Cx ℝ) → Nat → C) (g : Cx ℝ → Cx ℝ → C) {cfg : IterCfg} {T : List Int}
    (r : Nat → ℚ) (squares : Bool) (Y : Nat → Cx ℝ) {m : String} {v : Int} {n p : Nat}
    (hv : SupportedNorm m false v)
    (hfull : cfg.full = false) (h1 : (p + 1) * cfg.half ≤ T.length) :
    rowOf v.toNat m false n n (∑ q ∈ Finset.range (p + 1), autoK cplx cor g cfg T r squares Y 0 q)
    = autoDataSum cor m v n (p + 1)
        (fun q => stream (piece cfg.half q ((List.range ((p + 1) * cfg.half)).map Y))
          (some (piece cfg.half q (T.take ((p + 1) * cfg.half)))))
        (fun q => stream (piece cfg.half q (((List.range ((p + 1) * cfg.half)).map Y).map Cx.abs2))
          (some (piece cfg.half q (T.take ((p + 1) * cfg.half))))) := by
  have := fast_chunk_auto cplx cor g (cfg := { cfg with nframes := (p + 1) * cfg.half }) (T := T)
    r squares Y (m := m) (v := v) (n := n) (L := iterLen cplx cfg.nFast) (Q := p + 1) hv hfull rfl
    h1
  rw [← this]
  rfl

theorem slowAt_full_auto {cfg : IterCfg} {T : List Int}
    (r : Nat → ℚ) (squares : Bool) (Y : Nat → Cx ℝ) {m : String} {v : Int} {n j p M : Nat}
    (hv : SupportedNorm m false v)
    (hsq : squares = (needsSquares v.toNat && decide (m ≠ "diff")))
    (hfull : cfg.full = true) (hb : cfg.binning = 1) (hN : (p + 1) * cfg.half ≤ cfg.nframes)
    (hc : 0 < cfg.half) (hn : n ≤ cfg.half) (hj : 1 ≤ j)
    (hM : M = if j < cfg.nDecades then (p + 1) * cfg.half / (cfg.half * 2 ^ j) * (cfg.half * 2 ^ j)
      else 0) :
    rowOf v.toNat m false n n
      (levelSum cfg.nDecades cfg.half
        (autoK false (selfSum (productOf m)) (productOf m) cfg T r squares Y)
        ((p + 1) * cfg.half) j)
    = autoData (productOf m) m v n
        (regular (blockMeans (2 ^ j) ((List.range M).map Y)))
        (regular (blockMeans (2 ^ j) (((List.range M).map Y).map Cx.abs2))) := by
  have hsq' : needsSquares v.toNat = true → m ≠ "diff" → squares = true := by
    intro h1 h2
    rw [hsq]; simp [h1, h2]
  rw [autoData_eq (productOf m) hv, List.map_map]
  unfold levelSum
  by_cases hlt : j < cfg.nDecades
  · rw [if_pos hlt] at hM ⊢
    set Q := (p + 1) * cfg.half / (cfg.half * 2 ^ j) with hQ
    have hQc : Q * cfg.half = M / 2 ^ j := by
      rw [hM, ← mul_assoc, Nat.mul_div_cancel _ (Nat.two_pow_pos j)]
    have hle : Q * cfg.half ≤ cfg.nframes := by
      refine le_trans ?_ hN
      refine Nat.mul_le_mul_right _ ?_
      rw [hQ, div_chunks hc]
      exact Nat.div_le_self _ _
    have := full_total_auto (productOf m) (productOf_comm m) (T := arange cfg.nframes)
      (streamBin 1 r Y j) (levelSq 1 r Y squares j) (c := cfg.half)
      (Q := Q) (n := n) (L := iterLen false cfg.nFast)
      (spaced_mono (spaced_arange hc (hn.trans (Nat.le_succ _))) hle) v.toNat m
    rw [firsts_arange _ hle, firsts_arange _ hle, hQc, row_mean] at this
    unfold autoK levelParts levelT
    simp only [show ¬ j = 0 by omega, if_false, hb, hfull]
    refine this.trans ?_
    refine rowOf_congr rfl rfl rfl rfl ?_
    · intro h1 h2
      rw [hsq' h1 h2, levelSq_row]
  · rw [if_neg hlt] at hM ⊢
    have := full_total_auto (productOf m) (productOf_comm m) (T := arange 0)
      Y (fun i => (Y i).abs2) (c := cfg.half) (Q := 0) (n := n)
      (L := iterLen false cfg.nFast) (by intro i j hi; omega) v.toNat m
    subst hM
    simp only [Finset.range_zero, Finset.sum_empty] at this
    rw [this]
    simp [firsts, blockMeans, regular]

end Cddm
