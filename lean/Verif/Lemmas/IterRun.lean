import Verif.Lemmas.IterLoop

/-!
# The iterative algorithms without the buffers
-/

namespace Cddm
open Spec

/-- Half-chunk `q` of level `j` of a signal, and of its squares. -/
noncomputable def idealHalf (binning : Int) (r : Nat → ℚ) (Y : Nat → Cx ℝ) (squares : Bool)
    (half j q : Nat) : Half :=
  ⟨chunkOf (streamBin binning r Y j) half q,
    if squares then some (chunkOf (streamBin binning r (fun i => (Y i).abs2) j) half q) else none⟩

theorem readHalf_cur {binning : Int} {r : Nat → ℚ} {Y : Nat → Cx ℝ} {D c half nframes : Nat}
    {squares : Bool} {m : Nat} {ch : Chan} (hd : Dims D c half nframes)
    (hb : BufsOK binning r Y D c squares m ch) {j q : Nat} (hj : j < D)
    (hm : m = (q + 1) * (half * 2 ^ j)) (hn : m ≤ nframes) :
    readHalf ch j (chunkStart half q) half = .ok (idealHalf binning r Y squares half j q) := by
  have e : m / 2 ^ j = (q + 1) * half := by
    rw [hm, ← mul_assoc, Nat.mul_div_cancel _ (Nat.two_pow_pos j)]
  have e2 : (q + 1) * half ≤ m := by
    rw [← e]; exact Nat.div_le_self _ _
  have e3 : (q + 1) * half = q * half + half := by ring
  exact readHalf_ok hd hb hj (by omega) (by omega) (by have := hd.pos; omega)

theorem readHalf_prev {binning : Int} {r : Nat → ℚ} {Y : Nat → Cx ℝ} {D c half nframes : Nat}
    {squares : Bool} {m : Nat} {ch : Chan} (hd : Dims D c half nframes)
    (hb : BufsOK binning r Y D c squares m ch) {j q : Nat} (hj : j < D)
    (hm : m = (q + 1) * (half * 2 ^ j)) (hn : m ≤ nframes) (hq : 1 ≤ q) :
    readHalf ch j (chunkStartPrev half q) half
      = .ok (idealHalf binning r Y squares half j (q - 1)) := by
  obtain ⟨p, rfl⟩ : ∃ p, q = p + 1 := ⟨q - 1, by omega⟩
  have e : m / 2 ^ j = (p + 1 + 1) * half := by
    rw [hm, ← mul_assoc, Nat.mul_div_cancel _ (Nat.two_pow_pos j)]
  have e2 : (p + 1 + 1) * half ≤ m := by
    rw [← e]; exact Nat.div_le_self _ _
  have e3 : (p + 1 + 1) * half = p * half + half + half := by ring
  have e4 : (p + 1) * half = p * half + half := by ring
  have hc : c = 2 * half := by
    rcases hd.cols with h | ⟨-, -, h⟩
    · exact h
    · have := hd.hpos
      omega
  have hs : chunkStartPrev half (p + 1) = half * (p % 2) := by
    unfold chunkStartPrev
    congr 1
    omega
  rw [hs]
  exact readHalf_ok hd hb hj (by omega) (by omega) (by omega)

/-- `crossOp` on the half-chunks of the signals. -/
noncomputable def crossIdeal {C : Type} (cc : CrossFn C) (cfg : IterCfg) (t1 t2 : List Int)
    (al : Bool) (r : Nat → ℚ) (squares : Bool) (Y1 Y2 : Nat → Cx ℝ) (j q : Nat)
    (row : CorrAout C) : Py (CorrAout C) :=
  let H := fun Y p => idealHalf cfg.binning r Y squares cfg.half j p
  crossCalls cc cfg t1 t2 al j q (H Y1 q, H Y2 q)
    (if q ≥ 1 ∧ cfg.full = true then some (H Y1 (q - 1), H Y2 (q - 1)) else none) row

theorem crossOp_eq {C : Type} (cc : CrossFn C) (cfg : IterCfg) (t1 t2 : List Int) (al : Bool)
    {r : Nat → ℚ} {Y1 Y2 : Nat → Cx ℝ} {D c : Nat} {squares : Bool} {m : Nat}
    {ch : Chan × Chan} (hd : Dims D c cfg.half cfg.nframes)
    (hb1 : BufsOK cfg.binning r Y1 D c squares m ch.1)
    (hb2 : BufsOK cfg.binning r Y2 D c squares m ch.2) {j q : Nat} (hj : j < D)
    (hm : m = (q + 1) * (cfg.half * 2 ^ j)) (hn : m ≤ cfg.nframes) (row : CorrAout C) :
    crossOp cc cfg t1 t2 al ch j q row = crossIdeal cc cfg t1 t2 al r squares Y1 Y2 j q row := by
  unfold crossOp crossIdeal
  simp only [readHalf_cur hd hb1 hj hm hn, readHalf_cur hd hb2 hj hm hn, bind, Except.bind]
  by_cases h : q ≥ 1 ∧ cfg.full = true
  · rw [if_pos h, if_pos h, readHalf_prev hd hb1 hj hm hn h.1, readHalf_prev hd hb2 hj hm hn h.1]
  · rw [if_neg h, if_neg h]

/-- `autoOp` on the half-chunks of the signal. -/
noncomputable def autoIdeal {C : Type} [Add C] (ac : AutoFn C) (cc : CrossFn C) (cfg : IterCfg)
    (t : List Int) (al : Bool) (r : Nat → ℚ) (squares : Bool) (Y : Nat → Cx ℝ) (j q : Nat)
    (row : CorrAout C) : Py (CorrAout C) :=
  let H := fun p => idealHalf cfg.binning r Y squares cfg.half j p
  autoCalls ac cc cfg t al j q (H q)
    (if q ≥ 1 ∧ cfg.full = true then some (H (q - 1)) else none) row

theorem autoOp_eq {C : Type} [Add C] (ac : AutoFn C) (cc : CrossFn C) (cfg : IterCfg)
    (t : List Int) (al : Bool)
    {r : Nat → ℚ} {Y : Nat → Cx ℝ} {D c : Nat} {squares : Bool} {m : Nat}
    {ch : Chan} (hd : Dims D c cfg.half cfg.nframes)
    (hb : BufsOK cfg.binning r Y D c squares m ch) {j q : Nat} (hj : j < D)
    (hm : m = (q + 1) * (cfg.half * 2 ^ j)) (hn : m ≤ cfg.nframes) (row : CorrAout C) :
    autoOp ac cc cfg t al ch j q row = autoIdeal ac cc cfg t al r squares Y j q row := by
  unfold autoOp autoIdeal
  simp only [readHalf_cur hd hb hj hm hn, bind, Except.bind]
  by_cases h : q ≥ 1 ∧ cfg.full = true
  · rw [if_pos h, if_pos h, readHalf_prev hd hb hj hm hn h.1]
  · rw [if_neg h, if_neg h]

/-- The last level is complete after all frames: the row holds its samples in order. -/
theorem lastRow_ok {V : Type} [AddCommGroup V] [Module ℝ V] {binning : Int} {r : Nat → ℚ}
    {X : Nat → V} {D c m : Nat} {out : List (List V)} (hD : 0 < D) (hs : Shape D c out)
    (h : LevelOK binning r X c m out (D - 1)) (hm : m / 2 ^ (D - 1) = c) :
    out.getLastD [] = (List.range c).map (streamBin binning r X (D - 1)) := by
  have hl := hs.rows
  have e : out.getLastD [] = (out[D - 1]?).getD [] := by
    rw [List.getLastD_eq_getLast?, List.getLast?_eq_getElem?, hl]
  rw [e]
  have hrow := List.getElem?_eq_getElem (l := out) (i := D - 1) (by omega)
  have hlen := hs.cols _ _ hrow
  rw [hrow, Option.getD_some]
  apply List.ext_getElem?
  intro b
  by_cases hb : b < c
  · obtain ⟨row, e1, e2⟩ := h b (by omega) (by omega)
    rw [hrow] at e1
    obtain rfl := Option.some.inj e1
    rw [Nat.mod_eq_of_lt hb] at e2
    rw [e2, List.getElem?_map, List.getElem?_range hb]
    rfl
  · rw [List.getElem?_eq_none (by omega), List.getElem?_eq_none (by simp; omega)]

end Cddm
