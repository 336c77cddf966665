import Verif.Lemmas.Sector

/-!
# Sector index maps (C51)
-/

namespace Cddm
open Spec

theorem rad_half_turn : Real.pi = rad (360 / 2) := by unfold rad; ring

theorem rad_quarter_turn : Real.pi / 2 = rad (180 / 2) := by unfold rad; ring

theorem sectorIndex_of {period angle sector kstep k a kmax : ℝ} {f : Prop} (hs : 0 < kstep)
    (hk : k ≤ kmax) (hf : f ↔ InSector period angle sector a) :
    SectorIndex period angle sector kstep k a (ringLoop kstep k f
      ((List.range ⌈(kmax + kstep) / kstep⌉₊).map fun (q : Nat) => (q : ℝ) * kstep) 0 (-1)) := by
  obtain ⟨h1, h2⟩ := ringLoop_all hs hk f
  rw [hf] at h1 h2
  unfold SectorIndex
  by_cases h : ∃ r : Nat, InRing kstep r k ∧ InSector period angle sector a
  · obtain ⟨r, hr, hin⟩ := h
    rw [hf, h1 r hr hin]
    constructor
    · intro i
      constructor
      · intro e; obtain rfl : r = i := by omega
        exact ⟨hin, hr⟩
      · rintro ⟨_, hi⟩; rw [InRing.unique hs hr hi]
    · constructor
      · intro e; omega
      · intro hn; exact absurd ⟨hin, r, hr⟩ hn
  · rw [hf, h2 h]
    constructor
    · intro i
      constructor
      · intro e; omega
      · rintro ⟨hin, hi⟩; exact absurd ⟨i, hi, hin⟩ h
    · constructor
      · rintro _ ⟨hin, i, hi⟩; exact h ⟨i, hi, hin⟩
      · intro _; rfl

/-- C51: every wave vector in the sector gets the number of its ring, all others -1 (directions
modulo 360 degrees); the zero wave vector is always in bin 0. -/
theorem C51_fft2_sector_indexmap (kmap anglemap : Arr2 ℝ) (angle sector kstep : ℝ)
    (hh : 0 < kmap.h) (hw : 0 < kmap.w) (h1 : -180 ≤ angle) (h2 : angle ≤ 180) (h3 : 0 < sector)
    (h4 : sector ≤ 180) (hs : 0 < kstep)
    (ha : ∀ i j : Nat, i < kmap.h → j < kmap.w →
      -Real.pi ≤ anglemap.get i j ∧ anglemap.get i j < Real.pi) :
    ∃ out, fft2SectorIndexmap kmap anglemap angle sector kstep = .ok out ∧
      out.h = kmap.h ∧ out.w = kmap.w ∧ out.get 0 0 = 0 ∧
      ∀ i j : Nat, i < kmap.h → j < kmap.w → ¬ (i = 0 ∧ j = 0) →
        SectorIndex 360 angle sector kstep (kmap.get i j) (anglemap.get i j) (out.get i j) := by
  obtain ⟨M, hM, hle⟩ := arrMax_ok kmap hh hw
  unfold fft2SectorIndexmap
  rw [if_neg (by push Not; exact ⟨h1, h2⟩), if_neg (by push Not; exact ⟨h3, h4⟩)]
  simp only [hM, arange0, if_neg hs.ne', bind, Except.bind]
  refine ⟨_, rfl, rfl, rfl, by simp, ?_⟩
  intro i j hi hj hne
  dsimp only
  rw [if_neg hne]
  exact sectorIndex_of hs (hle i j hi hj)
    (sectorMask_iff rad_half_turn (by norm_num) (by linarith) (by linarith) h3 h4 (ha i j hi hj).1
      (ha i j hi hj).2)

/-- C51: the deprecated half-space version (directions modulo 180 degrees).  The lower half of
column 0, which repeats the upper one, is always -1. -/
theorem C51_sector_indexmap (kmap anglemap : Arr2 ℝ) (angle sector kstep : ℝ)
    (hh : 0 < kmap.h) (hw : 0 < kmap.w) (h1 : -90 ≤ angle) (h2 : angle ≤ 90) (h3 : 0 < sector)
    (h4 : sector ≤ 180) (hs : 0 < kstep) :
    ∃ out, sectorIndexmap kmap anglemap angle sector kstep = .ok out ∧
      out.h = kmap.h ∧ out.w = kmap.w ∧ out.get 0 0 = 0 ∧
      (∀ i : Nat, 2 * i > kmap.h → out.get i 0 = -1) ∧
      ∀ i j : Nat, i < kmap.h → j < kmap.w → ¬ (i = 0 ∧ j = 0) → ¬ (2 * i > kmap.h ∧ j = 0) →
        (-(Real.pi / 2) ≤ anglemap.get i j → anglemap.get i j < Real.pi / 2 →
          SectorIndex 180 angle sector kstep (kmap.get i j) (anglemap.get i j) (out.get i j)) ∧
        (anglemap.get i j = Real.pi / 2 →
          ((∃ r : Nat, out.get i j = r) ↔ Inside 180 angle sector (anglemap.get i j) ∧
            ∃ r : Nat, InRing kstep r (kmap.get i j)) ∧
          ∀ r : Nat, out.get i j = r → InRing kstep r (kmap.get i j)) := by
  obtain ⟨M, hM, hle⟩ := arrMax_ok kmap hh hw
  unfold sectorIndexmap
  rw [if_neg (by push Not; exact ⟨h1, h2⟩), if_neg (by push Not; exact ⟨h3, h4⟩)]
  simp only [hM, arange0, if_neg hs.ne', bind, Except.bind]
  refine ⟨_, rfl, rfl, rfl, by simp, ?_, ?_⟩
  · intro i hi
    dsimp only
    rw [if_neg (by omega), if_pos ⟨by omega, rfl⟩]
  intro i j hi hj hne hne'
  dsimp only
  rw [if_neg hne, if_neg (by omega)]
  constructor
  · intro ha ha'
    exact sectorIndex_of hs (hle i j hi hj)
      (sectorMask_iff rad_quarter_turn (by norm_num) (by linarith) (by linarith) h3 h4 ha ha')
  · intro ha
    rw [ha]
    have hm := sectorMask_end (m := Real.pi / 2) rad_quarter_turn (by norm_num) (by linarith)
      (by linarith) h3 h4 (angle := angle) (sector := sector)
    obtain ⟨e1, e2⟩ := ringLoop_all hs (hle i j hi hj)
      (sectorMask (Real.pi / 2) angle sector (Real.pi / 2))
    by_cases h : ∃ r : Nat, InRing kstep r (kmap.get i j) ∧
        sectorMask (Real.pi / 2) angle sector (Real.pi / 2)
    · obtain ⟨r, hr, hf⟩ := h
      rw [e1 r hr hf]
      refine ⟨⟨fun _ => ⟨hm.mp hf, r, hr⟩, fun _ => ⟨r, rfl⟩⟩, ?_⟩
      intro q hq
      obtain rfl : r = q := by omega
      exact hr
    · rw [e2 h]
      refine ⟨⟨?_, ?_⟩, ?_⟩
      · rintro ⟨r, hr⟩; omega
      · rintro ⟨hin, r, hr⟩; exact absurd ⟨r, hr, hm.mpr hin⟩ h
      · intro r hr; omega

/-- C51: the bins are disjoint. -/
theorem C51_bins_disjoint {kstep k : ℝ} {i j : Nat} (hs : 0 < kstep) (hi : InRing kstep i k)
    (hj : InRing kstep j k) : i = j := InRing.unique hs hi hj

/-- C51: no wave number is without a bin. -/
theorem C51_bins_cover {kstep k : ℝ} (hs : 0 < kstep) (hk : 0 ≤ k) : ∃ i : Nat, InRing kstep i k :=
  exists_ring hs hk

/-- C51: angles and openings outside the documented range are refused. -/
theorem C51_refused (kmap anglemap : Arr2 ℝ) (angle sector kstep : ℝ)
    (h : 180 < |angle| ∨ sector ≤ 0 ∨ 180 < sector) :
    fft2SectorIndexmap kmap anglemap angle sector kstep = .error .valueError := by
  unfold fft2SectorIndexmap
  split
  · rfl
  · rename_i h1
    push Not at h1
    rw [if_pos]
    rcases h with h | h
    · exact absurd h (not_lt.mpr (abs_le.mpr h1))
    · exact h

/-- C51: as above, half-space version. -/
theorem C51_half_refused (kmap anglemap : Arr2 ℝ) (angle sector kstep : ℝ)
    (h : 90 < |angle| ∨ sector ≤ 0 ∨ 180 < sector) :
    sectorIndexmap kmap anglemap angle sector kstep = .error .valueError := by
  unfold sectorIndexmap
  split
  · rfl
  · rename_i h1
    push Not at h1
    rw [if_pos]
    rcases h with h | h
    · exact absurd h (not_lt.mpr (abs_le.mpr h1))
    · exact h

theorem gridSteps_eq {shape : Option (Nat × Nat)} (hpos : ∀ s, shape = some s → 0 < s.1 ∧ 0 < s.2) :
    gridSteps shape = .ok (freqStep shape) := by
  match shape with
  | none => rfl
  | some (H, W) =>
    obtain ⟨h1, h2⟩ := hpos _ rfl
    dsimp only at h1 h2
    have e1 : (H : ℝ) ≠ 0 := by exact_mod_cast h1.ne'
    have e2 : (W : ℝ) ≠ 0 := by exact_mod_cast h2.ne'
    unfold gridSteps freqStep
    dsimp only
    split
    · rename_i h
      have : (W : ℝ) ≤ H := by exact_mod_cast h.le
      rw [if_neg h2.ne', max_eq_left this, div_self e1]
    · rename_i h
      have : (H : ℝ) ≤ W := by exact_mod_cast not_lt.mp h
      rw [if_neg h1.ne', max_eq_right this, div_self e2]

theorem freqStep_pos {shape : Option (Nat × Nat)} (hpos : ∀ s, shape = some s → 0 < s.1 ∧ 0 < s.2) :
    0 < (freqStep shape).1 ∧ 0 < (freqStep shape).2 := by
  match shape with
  | none => exact ⟨one_pos, one_pos⟩
  | some (H, W) =>
    obtain ⟨h1, h2⟩ := hpos _ rfl
    have e1 : (0 : ℝ) < H := by exact_mod_cast h1
    have e2 : (0 : ℝ) < W := by exact_mod_cast h2
    unfold freqStep
    exact ⟨div_pos (lt_max_of_lt_left e1) e1, div_pos (lt_max_of_lt_left e1) e2⟩

theorem isFreq_ne_zero {n i : Nat} {d : Int} (hi : i < n) (h : IsFreq n i d) (h0 : i ≠ 0) : d ≠ 0 := by
  rintro rfl
  obtain ⟨_, _, h⟩ := h
  rw [Int.sub_zero, Int.natCast_dvd_natCast] at h
  exact absurd (Nat.le_of_dvd (by omega) h) (by omega)

theorem fft2Kangle_eq (kisize kjsize : Nat) (shape : Option (Nat × Nat))
    (hpos : ∀ s, shape = some s → 0 < s.1 ∧ 0 < s.2) (hh : 0 < kisize) (hw : 0 < kjsize) :
    fft2Kangle kisize (kjsize : Int) shape = .ok
      (⟨kisize, kjsize, fun i j => (kangle (fftfreqN kisize i * (freqStep shape).1)
        (fftfreqN kjsize j * (freqStep shape).2)).1⟩,
      ⟨kisize, kjsize, fun i j => (kangle (fftfreqN kisize i * (freqStep shape).1)
        (fftfreqN kjsize j * (freqStep shape).2)).2⟩) := by
  unfold fft2Kangle
  simp only [gridSteps_eq hpos, bind, Except.bind]
  rw [if_neg hh.ne', if_neg (by omega), if_neg (by omega)]
  simp

/-- C51, with the wave vectors of the data: the cell `(i, j)` belongs to the wave vector of
frequencies `di`, `dj`, of length `k` and direction `a`. -/
theorem C51_fft2_k_indexmap (kisize kjsize : Nat) (angle sector kstep : ℝ)
    (shape : Option (Nat × Nat)) (hpos : ∀ s, shape = some s → 0 < s.1 ∧ 0 < s.2)
    (hh : 0 < kisize) (hw : 0 < kjsize) (h1 : -180 ≤ angle) (h2 : angle ≤ 180) (h3 : 0 < sector)
    (h4 : sector ≤ 180) (hs : 0 < kstep) :
    ∃ out, fft2KIndexmap kisize kjsize angle sector kstep shape false = .ok out ∧
      out.h = kisize ∧ out.w = kjsize ∧ out.get 0 0 = 0 ∧
      ∀ (i j : Nat) (di dj : Int) (k a : ℝ), i < kisize → j < kjsize → ¬ (i = 0 ∧ j = 0) →
        IsFreq kisize i di → IsFreq kjsize j dj →
        Polar (di * (freqStep shape).1) (dj * (freqStep shape).2) k a →
        SectorIndex 360 angle sector kstep k a (out.get i j) := by
  obtain ⟨p1, p2⟩ := freqStep_pos hpos
  have hk := fft2Kangle_eq kisize kjsize shape hpos hh hw
  unfold fft2KIndexmap
  simp only [hk, Bool.false_eq_true, if_false, bind, Except.bind]
  obtain ⟨out, ho, hoh, how, ho0, hall⟩ := C51_fft2_sector_indexmap
    (⟨kisize, kjsize, fun i j => (kangle (fftfreqN kisize i * (freqStep shape).1)
        (fftfreqN kjsize j * (freqStep shape).2)).1⟩)
    (⟨kisize, kjsize, fun i j => (kangle (fftfreqN kisize i * (freqStep shape).1)
        (fftfreqN kjsize j * (freqStep shape).2)).2⟩)
    angle sector kstep hh hw h1 h2 h3 h4 hs
    (fun i j _ _ => by
      obtain ⟨_, _, _, a, b⟩ := kangle_polar (fftfreqN kisize i * (freqStep shape).1)
        (fftfreqN kjsize j * (freqStep shape).2)
      exact ⟨a, b⟩)
  refine ⟨out, ho, hoh, how, ho0, ?_⟩
  intro i j di dj k a hi hj hne hdi hdj hp
  have := hall i j hi hj hne
  dsimp only at this
  rw [← IsFreq.eq hi hdi, ← IsFreq.eq hj hdj] at this
  have hnz : (di * (freqStep shape).1 : ℝ) ≠ 0 ∨ (dj * (freqStep shape).2 : ℝ) ≠ 0 := by
    by_cases hi0 : i = 0
    · right
      exact mul_ne_zero (by exact_mod_cast isFreq_ne_zero hj hdj (fun h => hne ⟨hi0, h⟩)) p2.ne'
    · left
      exact mul_ne_zero (by exact_mod_cast isFreq_ne_zero hi hdi hi0) p1.ne'
  obtain ⟨e1, e2⟩ := Polar.unique (kangle_polar _ _) hp hnz
  rw [e1, e2] at this
  exact this

/-- C51: for half-space data the map is that of the full space. -/
theorem C51_fft2_k_indexmap_rfft2 (kisize kjsize : Nat) (angle sector kstep : ℝ) (hw : 0 < kjsize) :
    (fft2KIndexmap kisize kjsize angle sector kstep none true =
      fft2KIndexmap kisize (2 * kjsize - 1) angle sector kstep none false) ∧
    (∀ H W : Nat, kisize ≤ H → 2 * kjsize - 1 ≤ W →
      fft2KIndexmap kisize kjsize angle sector kstep (some (H, W)) true =
        fft2KIndexmap kisize (2 * kjsize - 1) angle sector kstep (some (H, W)) false) ∧
    ∀ H W : Nat, kisize ≤ H → kjsize = W / 2 + 1 →
      fft2KIndexmap kisize kjsize angle sector kstep (some (H, W)) true =
        fft2KIndexmap kisize W angle sector kstep (some (H, W)) false := by
  have e : ((2 * kjsize - 1 : Nat) : Int) = (kjsize : Int) * 2 - 1 := by omega
  refine ⟨?_, ?_, ?_⟩
  · unfold fft2KIndexmap asFft2Shape
    rw [e]; rfl
  · intro H W hH hW
    unfold fft2KIndexmap asFft2Shape
    rw [e]
    simp only [bind, Except.bind, if_true, Bool.false_eq_true, if_false]
    rw [if_neg (by omega), if_neg (by omega), if_neg (by omega)]
  · intro H W hH hW
    unfold fft2KIndexmap asFft2Shape
    simp only [bind, Except.bind, if_true, Bool.false_eq_true, if_false]
    by_cases h : (kjsize : Int) * 2 - 1 = W + 1
    · rw [if_pos h, if_neg (by omega)]
    · rw [if_neg h, if_neg (by omega), if_neg (by omega), show (kjsize : Int) * 2 - 1 = W by omega]

/-- C51, half-space version with the wave vectors of the data.  For the first wave vector of the lower
half of column 0, in even heights the cell `2 * i = kisize`, which has direction pi/2, see the end of
`C51_sector_indexmap`. -/
theorem C51_k_indexmap (kisize kjsize : Nat) (angle sector kstep : ℝ)
    (shape : Option (Nat × Nat)) (hpos : ∀ s, shape = some s → 0 < s.1 ∧ 0 < s.2)
    (hh : 0 < kisize) (hw : 0 < kjsize) (h1 : -90 ≤ angle) (h2 : angle ≤ 90) (h3 : 0 < sector)
    (h4 : sector ≤ 180) (hs : 0 < kstep) :
    ∃ out, kIndexmap kisize kjsize angle sector kstep shape = .ok out ∧
      out.h = kisize ∧ out.w = kjsize ∧ out.get 0 0 = 0 ∧
      (∀ i : Nat, 2 * i > kisize → out.get i 0 = -1) ∧
      ∀ (i j : Nat) (di : Int) (k a : ℝ), i < kisize → j < kjsize → ¬ (i = 0 ∧ j = 0) →
        ¬ (2 * i ≥ kisize ∧ j = 0) → IsFreq kisize i di →
        Polar (di * (freqStep shape).1) (j * (freqStep shape).2) k a →
        SectorIndex 180 angle sector kstep k a (out.get i j) := by
  have hsteps := gridSteps_eq hpos
  obtain ⟨p1, p2⟩ := freqStep_pos hpos
  have hk : rfft2Kangle kisize kjsize shape = .ok
      (⟨kisize, kjsize, fun i j => (kangle (fftfreqN kisize i * (freqStep shape).1)
        (j * (freqStep shape).2)).1⟩,
      ⟨kisize, kjsize, fun i j => (kangle (fftfreqN kisize i * (freqStep shape).1)
        (j * (freqStep shape).2)).2⟩) := by
    unfold rfft2Kangle
    simp only [hsteps, bind, Except.bind]
    rw [if_neg hh.ne']
  unfold kIndexmap
  simp only [hk, bind, Except.bind]
  obtain ⟨out, ho, hoh, how, ho0, hcol, hall⟩ := C51_sector_indexmap
    (⟨kisize, kjsize, fun i j => (kangle (fftfreqN kisize i * (freqStep shape).1)
        (j * (freqStep shape).2)).1⟩)
    (⟨kisize, kjsize, fun i j => (kangle (fftfreqN kisize i * (freqStep shape).1)
        (j * (freqStep shape).2)).2⟩)
    angle sector kstep hh hw h1 h2 h3 h4 hs
  refine ⟨out, ho, hoh, how, ho0, hcol, ?_⟩
  intro i j di k a hi hj hne hne' hdi hp
  have := (hall i j hi hj hne (fun h => hne' ⟨by have := h.1; simp only at this; omega, h.2⟩)).1
  dsimp only at this
  rw [← IsFreq.eq hi hdi] at this
  have hnz : (di * (freqStep shape).1 : ℝ) ≠ 0 ∨ ((j : ℝ) * (freqStep shape).2 : ℝ) ≠ 0 := by
    by_cases hi0 : i = 0
    · right
      exact mul_ne_zero (by exact_mod_cast (fun h => hne ⟨hi0, h⟩)) p2.ne'
    · left
      exact mul_ne_zero (by exact_mod_cast isFreq_ne_zero hi hdi hi0) p1.ne'
  obtain ⟨e1, e2⟩ := Polar.unique (kangle_polar _ _) hp hnz
  rw [e1, e2] at this
  have hj0 : (0 : ℝ) ≤ (j : ℝ) * (freqStep shape).2 := mul_nonneg (Nat.cast_nonneg _) p2.le
  obtain ⟨b1, b2⟩ := Polar.right hp hnz hj0
  refine this b1 (lt_of_le_of_ne b2 ?_)
  rintro rfl
  obtain ⟨q0, q1, q2, _, _⟩ := hp
  rw [Real.cos_pi_div_two, mul_zero] at q1
  rw [Real.sin_pi_div_two, mul_one] at q2
  have hjz : j = 0 := by
    rcases mul_eq_zero.mp q1 with h | h
    · exact_mod_cast h
    · exact absurd h p2.ne'
  have hdn : di ≤ 0 := by
    by_contra hc
    have : (0 : ℝ) < di := by exact_mod_cast not_le.mp hc
    nlinarith
  apply hne'
  refine ⟨?_, hjz⟩
  have := IsFreq.eq hi hdi
  unfold fftfreqN at this
  split at this
  · have : i = 0 := by omega
    exact absurd ⟨this, hjz⟩ hne
  · omega

/-- C51, on the edges: of the neighbouring sectors 160 ± 10 and 180 ± 10 degrees neither holds the
common edge at 170 degrees, while both 180 ± 10 and -160 ± 10 hold the edge at 190 = -170 degrees. -/
theorem C51_edges (kmap anglemap : Arr2 ℝ) (hh : 0 < kmap.h) (hw : 0 < kmap.w) (kstep : ℝ)
    (hs : 0 < kstep) (i j : Nat) (hi : i < kmap.h) (hj : j < kmap.w) (hne : ¬ (i = 0 ∧ j = 0))
    (ha : ∀ i j : Nat, i < kmap.h → j < kmap.w →
      -Real.pi ≤ anglemap.get i j ∧ anglemap.get i j < Real.pi) (hk : 0 ≤ kmap.get i j) :
    (anglemap.get i j = rad 170 → ∀ a b,
      fft2SectorIndexmap kmap anglemap 160 20 kstep = .ok a →
      fft2SectorIndexmap kmap anglemap 180 20 kstep = .ok b → a.get i j = -1 ∧ b.get i j = -1) ∧
    (anglemap.get i j = rad (-170) → ∀ a b,
      fft2SectorIndexmap kmap anglemap 180 20 kstep = .ok a →
      fft2SectorIndexmap kmap anglemap (-160) 20 kstep = .ok b →
      0 ≤ a.get i j ∧ b.get i j = a.get i j) := by
  have key (c : ℝ) (h1 : -180 ≤ c) (h2 : c ≤ 180) (a : Arr2 Int)
      (h : fft2SectorIndexmap kmap anglemap c 20 kstep = .ok a) :
      SectorIndex 360 c 20 kstep (kmap.get i j) (anglemap.get i j) (a.get i j) := by
    obtain ⟨out, ho, _, _, _, hall⟩ := C51_fft2_sector_indexmap kmap anglemap c 20 kstep hh hw h1 h2
      (by norm_num) (by norm_num) hs ha
    rw [h] at ho
    cases ho
    exact hall i j hi hj hne
  have hpi := Real.pi_pos
  have hm (c : ℝ) (h1 : -180 ≤ c) (h2 : c ≤ 180) :
      InSector 360 c 20 (anglemap.get i j) ↔ sectorMask Real.pi c 20 (anglemap.get i j) :=
    (sectorMask_iff rad_half_turn (by norm_num) (by linarith) (by linarith) (by norm_num) (by norm_num)
      (ha i j hi hj).1 (ha i j hi hj).2).symm
  have low180 : pyModR (Real.pi / 180 * (180 + 20 / 2)) (-Real.pi) = Real.pi / 180 * (180 + 20 / 2) - 2 * Real.pi :=
    pyModR_up hpi (by linarith) (by linarith)
  constructor
  · intro e a b h h'
    constructor
    · apply ((key 160 (by norm_num) (by norm_num) a h).2).mpr
      rintro ⟨hin, _⟩
      rw [hm 160 (by norm_num) (by norm_num)] at hin
      unfold sectorMask at hin
      simp only at hin
      rw [if_neg (by linarith), if_neg (by linarith), e] at hin
      unfold rad at hin
      linarith [hin.1]
    · apply ((key 180 (by norm_num) (by norm_num) b h').2).mpr
      rintro ⟨hin, _⟩
      rw [hm 180 (by norm_num) (by norm_num)] at hin
      unfold sectorMask at hin
      simp only at hin
      rw [if_pos (by linarith), low180, e] at hin
      apply hin
      unfold rad
      constructor <;> linarith
  · intro e a b h h'
    obtain ⟨r, hr⟩ := exists_ring hs hk
    have i1 : InSector 360 180 20 (anglemap.get i j) := by
      rw [hm 180 (by norm_num) (by norm_num)]
      unfold sectorMask
      simp only
      rw [if_pos (by linarith), low180, e]
      unfold rad
      rintro ⟨_, hc⟩
      linarith
    have i2 : InSector 360 (-160) 20 (anglemap.get i j) := by
      rw [hm (-160) (by norm_num) (by norm_num)]
      unfold sectorMask
      simp only
      rw [if_neg (by linarith), if_neg (by linarith), e]
      unfold rad
      constructor <;> linarith
    rw [((key 180 (by norm_num) (by norm_num) a h).1 r).mpr ⟨i1, hr⟩,
      ((key (-160) (by norm_num) (by norm_num) b h').1 r).mpr ⟨i2, hr⟩]
    exact ⟨by omega, rfl⟩

/-- The hypotheses can be met; on a 3 x 4 grid the cell (0, 1), wave vector (0, 1), is in the sector
of 30 degrees around 0 and in ring 1. -/
example : ∃ out, fft2KIndexmap 3 4 0 30 1 none false = .ok out ∧ out.get 0 1 = 1 := by
  obtain ⟨out, ho, _, _, _, h⟩ := C51_fft2_k_indexmap 3 4 0 30 1 none (by simp) (by omega) (by omega)
    (by norm_num) (by norm_num) (by norm_num) (by norm_num) one_pos
  refine ⟨out, ho, ?_⟩
  have hpi := Real.pi_pos
  have := h 0 1 0 1 1 0 (by omega) (by omega) (by omega) (by unfold IsFreq; omega)
    (by unfold IsFreq; omega)
    (by unfold Polar freqStep; simp only [Int.cast_zero, Int.cast_one, Real.cos_zero, Real.sin_zero]
        refine ⟨by norm_num, by norm_num, by norm_num, by linarith, hpi⟩)
  refine (this.1 1).mpr ⟨Or.inl ⟨0, ?_, ?_⟩, ?_⟩
  · unfold rad; norm_num; linarith
  · unfold rad; norm_num; linarith
  · unfold InRing; norm_num

/-- Half-space version: on a 4 x 3 grid the cell (0, 1) is in the sector of 60 degrees around 20, in
ring 1. -/
example : ∃ out, kIndexmap 4 3 20 60 1 (some (4, 4)) = .ok out ∧ out.get 0 1 = 1 := by
  obtain ⟨out, ho, _, _, _, _, h⟩ := C51_k_indexmap 4 3 20 60 1 (some (4, 4)) (by simp) (by omega)
    (by omega) (by norm_num) (by norm_num) (by norm_num) (by norm_num) one_pos
  refine ⟨out, ho, ?_⟩
  have hpi := Real.pi_pos
  have := h 0 1 0 1 0 (by omega) (by omega) (by omega) (by omega) (by unfold IsFreq; omega)
    (by unfold Polar freqStep; simp only [Int.cast_zero, Nat.cast_one, Real.cos_zero, Real.sin_zero]
        refine ⟨by norm_num, by norm_num, by norm_num, by linarith, hpi⟩)
  refine (this.1 1).mpr ⟨Or.inl ⟨0, ?_, ?_⟩, ?_⟩
  · unfold rad; norm_num; linarith
  · unfold rad; norm_num
    linarith
  · unfold InRing; norm_num

end Cddm
