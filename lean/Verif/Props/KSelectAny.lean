import Verif.Lemmas.KSelectAny
import Verif.Props.KSelect

/-!
# C122: k-selection of arrays with leading axes and delays
-/

namespace Cddm
open Spec
variable {V : Type} [AddCommGroup V] [Module ℝ V]

/-- Data of whole frames, with or without a mask, both modes: the selection acts on every frame by itself.  (What it does with one
frame is C52.) -/
theorem C122_frames (conj : V → V) (data : Tensor (Option V)) (lead : List Nat) (h w n : Nat)
    (hd : data.shape = lead ++ [h, w, n]) (angle sector kstep : ℝ) (k : KArg) (shape : Option (Nat × Nat))
    (mask : Option (Arr2 Bool)) (hmask : ∀ m, mask = some m → m.h = h ∧ m.w = w) (rfft2 : Bool) :
    FrameWise (lead ++ [n]) (kSelectAny conj data angle sector kstep k shape mask rfft2)
      fun p => kSelect conj (.grid (gridAt data h w p)) angle sector kstep k shape mask rfft2 := by
  have e2 : frameSizes data.shape = [h, w] := by
    unfold frameSizes
    rw [hd]
    simp
  refine kSelectAny_ok conj angle sector kstep k shape mask rfft2 ((h, w), false) ?_ ?_ ?_
  · unfold kSelectSizeAny
    cases mask with
    | none => simp only [e2]
    | some m =>
      obtain ⟨rfl, rfl⟩ := hmask m rfl
      simp [e2]
  · intro p _
    unfold kSelectSize
    cases mask with
    | none => rfl
    | some m =>
      obtain ⟨rfl, rfl⟩ := hmask m rfl
      simp [gridAt]
  · intro x m hm
    simp only [reduceMask] at hm
    cases hm
    exact selectDataAny_grid hd x

/-- Data of the pixels inside a mask, both modes: the selection acts on the pixels of every frame by itself.

Partial: false if the last two axes before the delays happen to have the shape of the mask (`C122_pixels_taken_for_frames`). -/
theorem C122_pixels_partial (conj : V → V) (data : Tensor (Option V)) (lead : List Nat) (count n : Nat)
    (hd : data.shape = lead ++ [count, n]) (angle sector kstep : ℝ) (k : KArg) (shape : Option (Nat × Nat))
    (mask : Arr2 Bool) (hne : lead.getLast? ≠ some mask.h ∨ count ≠ mask.w) (rfft2 : Bool) :
    FrameWise (lead ++ [n]) (kSelectAny conj data angle sector kstep k shape (some mask) rfft2)
      fun p => kSelect conj (.flat (pixelsAt data count p)) angle sector kstep k shape (some mask) rfft2 := by
  have e2 : frameSizes data.shape ≠ [mask.h, mask.w] := by
    unfold frameSizes
    rw [hd]
    rcases List.eq_nil_or_concat lead with rfl | ⟨l, a, rfl⟩
    · simp
    · simp only [List.concat_eq_append, List.append_assoc, List.cons_append, List.nil_append] at hne ⊢
      have : (l ++ [a, count, n]).drop ((l ++ [a, count, n]).length - 3) = [a, count, n] := by simp
      rw [this]
      simp only [List.getLast?_append, List.getLast?_singleton, Option.some_or] at hne
      simp only [List.dropLast, ne_eq, List.cons.injEq, and_true, not_and]
      rintro rfl
      rcases hne with hne | hne
      · exact absurd rfl hne
      · exact hne
  refine kSelectAny_ok conj angle sector kstep k shape (some mask) rfft2 ((mask.h, mask.w), true) ?_ ?_ ?_
  · simp [kSelectSizeAny, e2]
  · intro p _
    rfl
  · intro x m hm
    simp only [reduceMask] at hm
    cases hb : boolIndex x mask with
    | error e => rw [hb] at hm; cases hm
    | ok l =>
      rw [hb] at hm
      cases hm
      exact selectDataAny_flat hd l

/-- If the last two axes before the delays have the shape of the mask, pixels inside the mask (at `mask.h` levels) are taken for
frames: all results lack the axis of the levels. -/
theorem C122_pixels_taken_for_frames (conj : V → V) (data : Tensor (Option V)) (lead : List Nat) (mask : Arr2 Bool) (n : Nat)
    (hd : data.shape = (lead ++ [mask.h]) ++ [mask.w, n]) (angle sector kstep : ℝ) (k : KArg) (shape : Option (Nat × Nat))
    (rfft2 : Bool) (r : List (ℝ × Tensor (Option V)))
    (hr : kSelectAny conj data angle sector kstep k shape (some mask) rfft2 = .ok r) :
    ∀ x ∈ r, x.2.shape = lead ++ [n] := by
  have := C122_frames conj data lead mask.h mask.w n (by rw [hd]; simp) angle sector kstep k shape (some mask)
    (by rintro _ ⟨⟩; exact ⟨rfl, rfl⟩) rfft2
  rw [hr] at this
  exact this.1

theorem filterMap_range_stable {β : Type} (f : Nat → Option β) (n m : Nat) (h : ∀ q, n ≤ q → f q = none) (hnm : n ≤ m) :
    (List.range m).filterMap f = (List.range n).filterMap f := by
  obtain ⟨d, rfl⟩ := Nat.exists_eq_add_of_le hnm
  rw [List.range_add, List.filterMap_append]
  have : ((List.range d).map fun x => n + x).filterMap f = [] := by
    rw [List.filterMap_eq_nil_iff]
    intro a ha
    obtain ⟨i, -, rfl⟩ := List.mem_map.mp ha
    exact h _ (by omega)
  rw [this, List.append_nil]

/-- Full-space data (`mode = "fft2"`) of whole frames or of the pixels inside a mask, at any levels and delays: for a list of `k`,
and for missing `k`, there is one result for every bin that is not empty, with the mean wave number, and at every position the mean
over the wave vectors of the bin inside the mask of the values at that position.

Partial as C52 (a single `k`, half-space data) and as `C122_pixels_partial`. -/
theorem C122_average_partial (conj : V → V) (full data : Tensor (Option V)) (lead : List Nat) (h w n : Nat)
    (mask : Option (Arr2 Bool)) (angle sector kstep : ℝ) (shape : Option (Nat × Nat))
    (hpos : ∀ s, shape = some s → 0 < s.1 ∧ 0 < s.2) (hh : 0 < h) (hw : 0 < w) (hne : 0 ∉ lead ++ [n])
    (h1 : -180 ≤ angle) (h2 : angle ≤ 180) (h3 : 0 < sector) (h4 : sector ≤ 180) (hs : 0 < kstep)
    (hmask : ∀ m, mask = some m → m.h = h ∧ m.w = w)
    (hdata : data = full ∧ data.shape = lead ++ [h, w, n] ∨
      ∃ m count, mask = some m ∧ data.shape = lead ++ [count, n] ∧ (lead.getLast? ≠ some h ∨ count ≠ w) ∧
        ∀ p, InShape p (lead ++ [n]) → pixelsAt data count p = maskedCells (gridAt full h w p) m)
    (kval : Nat → Nat → ℝ)
    (hk : ∀ (i j : Nat) (di dj : Int), i < h → j < w → IsFreq h i di → IsFreq w j dj →
      kval i j = Real.sqrt ((dj * (freqStep shape).2) ^ 2 + (di * (freqStep shape).1) ^ 2)) :
    ∃ imap : Arr2 Int, fft2KIndexmap h w angle sector kstep shape false = .ok imap ∧
      (∀ (ks : List ℝ) (qs : List Int), List.Forall₂ Nearest ks qs →
        ∃ r, kSelectAny conj data angle sector kstep (.many ks) shape mask false = .ok r ∧
          (∀ x ∈ r, x.2.shape = lead ++ [n]) ∧ ∀ p, InShape p (lead ++ [n]) →
            r.map (fun x => (x.1, x.2.get p)) =
              qs.filterMap fun q => averages kval (gridAt full h w p).get (binCells imap mask q)) ∧
      ∃ N : Nat, (∀ i j : Nat, i < h → j < w → imap.get i j < N) ∧
        ∃ r, kSelectAny conj data angle sector kstep .all shape mask false = .ok r ∧
          (∀ x ∈ r, x.2.shape = lead ++ [n]) ∧ ∀ p, InShape p (lead ++ [n]) →
            r.map (fun x => (x.1, x.2.get p)) =
              (List.range N).filterMap fun (q : Nat) => averages kval (gridAt full h w p).get (binCells imap mask (q : Int)) := by
  obtain ⟨imap, hi, hih, hiw, -, -⟩ := C51_fft2_k_indexmap h w angle sector kstep shape hpos hh hw h1 h2 h3 h4 hs
  -- the data of one frame
  obtain ⟨frame, hfw, hframe⟩ : ∃ frame : List Nat → KData V,
      (∀ k, FrameWise (lead ++ [n]) (kSelectAny conj data angle sector kstep k shape mask false)
        fun p => kSelect conj (frame p) angle sector kstep k shape mask false) ∧
      ∀ p, InShape p (lead ++ [n]) → (frame p = .grid (gridAt full h w p) ∨
        ∃ m, mask = some m ∧ frame p = .flat (maskedCells (gridAt full h w p) m)) := by
    rcases hdata with ⟨rfl, hd⟩ | ⟨m, count, rfl, hd, hc, hp⟩
    · exact ⟨fun p => .grid (gridAt data h w p), fun k => C122_frames conj data lead h w n hd angle sector kstep k shape mask
        hmask false, fun p _ => Or.inl rfl⟩
    · obtain ⟨rfl, rfl⟩ := hmask m rfl
      exact ⟨fun p => .flat (pixelsAt data count p), fun k => C122_pixels_partial conj data lead count n hd angle sector kstep k
        shape m hc false, fun p h => Or.inr ⟨m, rfl, by simp only [hp p h]⟩⟩
  have one : ∀ p, InShape p (lead ++ [n]) →
      (∀ (ks : List ℝ) (qs : List Int), List.Forall₂ Nearest ks qs →
        kSelect conj (frame p) angle sector kstep (.many ks) shape mask false =
          .ok (.pairs (qs.filterMap fun q => averages kval (gridAt full h w p).get (binCells imap mask q)))) ∧
      ∃ N : Nat, (∀ i j : Nat, i < h → j < w → imap.get i j < N) ∧
        kSelect conj (frame p) angle sector kstep .all shape mask false =
          .ok (.pairs ((List.range N).filterMap fun (q : Nat) =>
            averages kval (gridAt full h w p).get (binCells imap mask (q : Int)))) := by
    intro p hp
    obtain ⟨imap', kval', hi', hk', a1, N, a2, a3⟩ := C52_fft2_many_partial conj (gridAt full h w p) (frame p) mask angle sector
      kstep shape hpos hh hw h1 h2 h3 h4 hs hmask (hframe p hp)
    have : imap' = imap := by
      have hi'' : fft2KIndexmap h w angle sector kstep shape false = .ok imap' := hi'
      rw [hi] at hi''
      exact (Except.ok.inj hi'').symm
    subst this
    have hav : ∀ q, averages kval' (gridAt full h w p).get (binCells imap' mask q) =
        averages kval (gridAt full h w p).get (binCells imap' mask q) := by
      intro q
      apply averages_congr
      intro c hc
      simp only [binCells, Finset.mem_filter, Finset.mem_product, Finset.mem_range] at hc
      have b1 : c.1 < h := by omega
      have b2 : c.2 < w := by omega
      rw [hk' c.1 c.2 _ _ b1 b2 (fftfreqN_isFreq b1) (fftfreqN_isFreq b2),
        hk c.1 c.2 _ _ b1 b2 (fftfreqN_isFreq b1) (fftfreqN_isFreq b2)]
      rfl
    refine ⟨fun ks qs hq => ?_, N, a2, ?_⟩
    · rw [a1 ks qs hq]
      simp only [hav]
    · rw [a3]
      simp only [hav]
  have hz := inShape_zeros _ hne
  have pack : ∀ (k : KArg) (l : List Nat → List (ℝ × Option V)), (∀ p, InShape p (lead ++ [n]) →
      kSelect conj (frame p) angle sector kstep k shape mask false = .ok (.pairs (l p))) →
      ∃ r, kSelectAny conj data angle sector kstep k shape mask false = .ok r ∧
        (∀ x ∈ r, x.2.shape = lead ++ [n]) ∧ ∀ p, InShape p (lead ++ [n]) → r.map (fun x => (x.1, x.2.get p)) = l p := by
    intro k l hl
    have hf := hfw k
    unfold FrameWise at hf
    cases hr : kSelectAny conj data angle sector kstep k shape mask false with
    | error e =>
      rw [hr] at hf
      have := hf _ hz
      simp only [hl _ hz] at this
      cases this
    | ok r =>
      rw [hr] at hf
      refine ⟨r, rfl, hf.1, fun p hp => ?_⟩
      have := hf.2 p hp
      simp only [hl p hp, Except.ok.injEq, KResult.pairs.injEq] at this
      exact this.symm
  refine ⟨imap, hi, fun ks qs hq => pack _ _ fun p hp => (one p hp).1 ks qs hq, ?_⟩
  obtain ⟨N, hN, -⟩ := (one _ hz).2
  refine ⟨N, hN, pack _ _ fun p hp => ?_⟩
  obtain ⟨N', hN', e⟩ := (one p hp).2
  rw [e]
  have hempty : ∀ M : Nat, (∀ i j : Nat, i < h → j < w → imap.get i j < M) → ∀ q : Nat, M ≤ q →
      averages kval (gridAt full h w p).get (binCells imap mask (q : Int)) = none := by
    intro M hM q hq
    have : binCells imap mask (q : Int) = ∅ := by
      unfold binCells
      rw [Finset.filter_eq_empty_iff]
      rintro c hc ⟨hc2, -⟩
      simp only [Finset.mem_product, Finset.mem_range] at hc
      have := hM c.1 c.2 (by omega) (by omega)
      omega
    unfold averages
    rw [this]
    simp
  rcases Nat.le_total N N' with hle | hle
  · rw [filterMap_range_stable _ N N' (hempty N hN) hle]
  · rw [filterMap_range_stable _ N' N (hempty N' hN') hle]

/-! ## Examples -/

-- Three levels and two delays of frames of 4 x 5: the hypotheses are met, and the result has an array of shape (3, 2) for every bin.
example (conj : ℝ → ℝ) : ∃ r, kSelectAny conj ⟨[3, 4, 5, 2], fun p => some (p.sum : ℝ)⟩ 0 30 1 .all none none false = .ok r ∧
    ∀ x ∈ r, x.2.shape = [3, 2] := by
  obtain ⟨imap, -, -, N, -, r, hr, hx, -⟩ := C122_average_partial conj ⟨[3, 4, 5, 2], fun p => some (p.sum : ℝ)⟩
    ⟨[3, 4, 5, 2], fun p => some (p.sum : ℝ)⟩ [3] 4 5 2 none 0 30 1 none (by simp) (by norm_num) (by norm_num) (by decide)
    (by norm_num) (by norm_num) (by norm_num) (by norm_num) one_pos (by simp) (Or.inl ⟨rfl, rfl⟩)
    (fun i j => Real.sqrt (((fftfreqN 5 j : Int) * (freqStep none).2) ^ 2 + ((fftfreqN 4 i : Int) * (freqStep none).1) ^ 2))
    (fun i j di dj hi hj hdi hdj => by rw [IsFreq.eq hi hdi, IsFreq.eq hj hdj])
  exact ⟨r, hr, hx⟩

-- Two levels of the two pixels inside a mask of 2 x 2: the average of the bin k = 0 has no axis of levels.
example (conj : ℝ → ℝ) : ∃ r, kSelectAny conj ⟨[2, 2, 3], fun p => some (p.sum : ℝ)⟩ 0 30 1 (.many [0]) none
    (some ⟨2, 2, fun i _ => decide (i = 0)⟩) false = .ok r ∧ r ≠ [] ∧ ∀ x ∈ r, x.2.shape ≠ [2, 3] := by
  obtain ⟨imap, hi, hq, -⟩ := C122_average_partial conj ⟨[2, 2, 3], fun p => some (p.sum : ℝ)⟩
    ⟨[2, 2, 3], fun p => some (p.sum : ℝ)⟩ [] 2 2 3 (some ⟨2, 2, fun i _ => decide (i = 0)⟩) 0 30 1 none (by simp) (by norm_num)
    (by norm_num) (by decide) (by norm_num) (by norm_num) (by norm_num) (by norm_num) one_pos (by simp) (Or.inl ⟨rfl, rfl⟩)
    (fun i j => Real.sqrt (((fftfreqN 2 j : Int) * (freqStep none).2) ^ 2 + ((fftfreqN 2 i : Int) * (freqStep none).1) ^ 2))
    (fun i j di dj hi hj hdi hdj => by rw [IsFreq.eq hi hdi, IsFreq.eq hj hdj])
  obtain ⟨imap', hi', hih, hiw, h0, -⟩ := C51_fft2_k_indexmap 2 2 0 30 1 none (by simp) (by norm_num) (by norm_num) (by norm_num)
    (by norm_num) (by norm_num) (by norm_num) one_pos
  rw [hi] at hi'
  cases hi'
  obtain ⟨r, hr, hx, hp⟩ := hq [0] [0] (List.Forall₂.cons (Or.inl (by norm_num)) .nil)
  refine ⟨r, hr, ?_, fun x hm => by rw [hx x hm]; decide⟩
  rintro rfl
  have := hp [0] (List.Forall₂.cons (by norm_num) .nil)
  have hc : (binCells imap (some ⟨2, 2, fun i _ => decide (i = 0)⟩) 0).card ≠ 0 := by
    rw [Finset.card_ne_zero]
    exact ⟨(0, 0), by simp [binCells, hih, hiw, h0]⟩
  simp [averages] at this
  exact hc (by rw [this]; rfl)

end Cddm
