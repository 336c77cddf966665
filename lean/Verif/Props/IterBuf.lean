import Verif.Lemmas.IterBin

/-!
# C30: what the buffers of the iterative multiple tau algorithm hold

`enumLoop x.length step 0 x s` is the loop `for i, d in enumerate(x)` from the state `s`;
`blockMean m x b` is the mean of the samples `b m, ..., (b + 1) m - 1` of `x`.
-/

namespace Cddm
open Spec

section buffers
variable {V : Type} [AddCommGroup V] [Module ℝ V]

/-- After any number of frames, position `b % c` of level `j` holds the mean of block `b`, if that
block is complete and one of the last `c`; whatever the buffer held before. -/
theorem C30_buffers (r : Nat → ℚ) (x : List V) (D c : Nat) (hc0 : 0 < c) (hD : 0 < D)
    (hc : D = 1 ∨ c % 2 = 0) (out : List (List V)) (hrows : out.length = D)
    (hcols : ∀ row ∈ out, row.length = c) :
    ∃ out', enumLoop x.length (fun i a out => addData i a out 1 (r i)) 0 x out
        = .ok (x.length, out') ∧
      ∀ j b : Nat, j < D → (b + 1) * 2 ^ j ≤ x.length → x.length / 2 ^ j ≤ b + c →
        ∃ row, out'[j]? = some row ∧ row[b % c]? = some (blockMean (2 ^ j) x b) := by
  obtain ⟨out', h1, -, h3⟩ := addLoop_ok 1 r x D c hc0 hD hc
    ⟨hrows, fun j row h => hcols row (List.mem_of_getElem? h)⟩
  refine ⟨out', h1, fun j b hj hb1 hb2 => ?_⟩
  obtain ⟨row, e1, e2⟩ := h3 j hj b ((Nat.le_div_iff_mul_le (Nat.two_pow_pos j)).2 hb1) hb2
  refine ⟨row, e1, ?_⟩
  rw [e2, streamBin_mean r _ _ j b hb1, map_range_getD]

end buffers

theorem chunkOf_mean {V : Type} [AddCommGroup V] [Module ℝ V] (r : Nat → ℚ) (Y : Nat → V)
    (half q j N : Nat) (h : (q + 1) * (half * 2 ^ j) ≤ N) :
    chunkOf (streamBin 1 r Y j) half q
      = piece half q (blockMeans (2 ^ j) ((List.range N).map Y)) := by
  have h2 := Nat.two_pow_pos j
  have hq : q * half + half ≤ N / 2 ^ j := by
    rw [Nat.le_div_iff_mul_le h2, ← Nat.succ_mul, mul_assoc]
    exact h
  rw [← row_mean r]
  unfold chunkOf piece
  apply List.ext_getElem?
  intro k
  by_cases hk : k < half
  · rw [List.getElem?_take_of_lt hk, List.getElem?_drop, List.getElem?_map, List.getElem?_map,
      List.getElem?_range hk, List.getElem?_range (by omega)]
    rfl
  · rw [List.getElem?_take_eq_none (by omega), List.getElem?_eq_none (by simp; omega)]

/-- The same for the buffers of one channel in the loop of the program, with and without automatic
background, and for the squares.  (With automatic background the first chunk is only collected.) -/
theorem C30_channel (ab : Bool) (r : Nat → ℚ) (x : List (Cx ℝ)) (D half : Nat) (squares : Bool)
    (hD : 0 < D) (hh : 0 < half) (junk : Nat → Nat → Cx ℝ) (junkSq : Nat → Nat → ℝ)
    (hx : ab = true → half ≤ x.length) (y : List (Cx ℝ))
    (hy : y = processed ab half x.length x) :
    ∃ ch, enumLoop x.length (feedChan ab half 1 r) 0 x (initChan junk junkSq D half squares)
        = .ok (x.length, ch) ∧
      ∀ j b : Nat, j < D → (b + 1) * 2 ^ j ≤ x.length → x.length / 2 ^ j ≤ b + 2 * half →
        (∃ row, ch.f[j]? = some row ∧ row[b % (2 * half)]? = some (blockMean (2 ^ j) y b)) ∧
        (squares = true → ∃ sq row, ch.sq = some sq ∧ sq[j]? = some row ∧
          row[b % (2 * half)]? = some (blockMean (2 ^ j) (y.map Cx.abs2) b)) := by
  obtain ⟨ch, h1, h2⟩ := feedLoop_ok ab 1 r x D half squares hD hh junk junkSq
  have hy' : y = (List.range x.length).map (shown ab (frameAt x) half) := by
    rw [hy]
    by_cases h : half ≤ x.length
    · exact processed_eq ab h le_rfl
    · cases ab with
      | false =>
        rw [processed, if_neg (by decide), take_range le_rfl]
        apply List.map_congr_left
        intro i _
        simp [shown]
      | true => exact absurd (hx rfl) h
  unfold FeedInv at h2
  rw [if_neg (by rintro ⟨h3, h4⟩; have := hx h3; omega)] at h2
  refine ⟨ch, h1, fun j b hj hb1 hb2 => ?_⟩
  have hb0 := (Nat.le_div_iff_mul_le (Nat.two_pow_pos j)).2 hb1
  constructor
  · obtain ⟨row, e1, e2⟩ := h2.bufs.levels j hj b hb0 hb2
    exact ⟨row, e1, by rw [e2, streamBin_mean r _ _ j b hb1, hy']⟩
  · rintro rfl
    have := h2.bufs.sq
    rw [if_pos rfl] at this
    obtain ⟨sq, e1, -, e3⟩ := this
    obtain ⟨row, e4, e5⟩ := e3 j hj b hb0 hb2
    refine ⟨sq, row, e1, e4, ?_⟩
    rw [e5, streamBin_mean r _ _ j b hb1, hy', List.map_map]
    rfl

/-- When half-chunk `q` of level `j` is complete, the program finds it, and the one before it, in
the buffers (and their squares): nothing that is still needed has been overwritten. -/
theorem C30_read (ab : Bool) (r : Nat → ℚ) (x : List (Cx ℝ)) (D half q j : Nat) (squares : Bool)
    (hj : j < D) (hh : 0 < half) (junk : Nat → Nat → Cx ℝ) (junkSq : Nat → Nat → ℝ)
    (hx : x.length = (q + 1) * (half * 2 ^ j)) (y : List (Cx ℝ))
    (hy : y = processed ab half x.length x) :
    ∃ ch, enumLoop x.length (feedChan ab half 1 r) 0 x (initChan junk junkSq D half squares)
        = .ok (x.length, ch) ∧
      readHalf ch j (chunkStart half q) half = .ok ⟨piece half q (blockMeans (2 ^ j) y),
        if squares then some (piece half q (blockMeans (2 ^ j) (y.map Cx.abs2))) else none⟩ ∧
      (1 ≤ q → readHalf ch j (chunkStartPrev half q) half
        = .ok ⟨piece half (q - 1) (blockMeans (2 ^ j) y),
          if squares then some (piece half (q - 1) (blockMeans (2 ^ j) (y.map Cx.abs2)))
          else none⟩) := by
  obtain ⟨ch, h1, h2⟩ := feedLoop_ok ab 1 r x D half squares (by omega) hh junk junkSq
  have h2p := Nat.two_pow_pos j
  have hle : half ≤ x.length := by
    rw [hx]
    calc half = 1 * (half * 1) := by omega
      _ ≤ (q + 1) * (half * 2 ^ j) := Nat.mul_le_mul (by omega) (Nat.mul_le_mul_left _ h2p)
  have hy' : y = (List.range x.length).map (shown ab (frameAt x) half) := by
    rw [hy]; exact processed_eq ab hle le_rfl
  have hsq' : y.map Cx.abs2 = (List.range x.length).map fun i => (shown ab (frameAt x) half i).abs2 := by
    rw [hy', List.map_map]; rfl
  unfold FeedInv at h2
  rw [if_neg (by rintro ⟨h3, h4⟩; omega)] at h2
  have hdiv : x.length / 2 ^ j = q * half + half := by
    rw [hx, ← mul_assoc, Nat.mul_div_cancel _ h2p, Nat.succ_mul]
  have hd : Dims D (2 * half) half ((q + 1) * half) := ⟨hh, by omega, .inl rfl⟩
  refine ⟨ch, h1, ?_, fun hq => ?_⟩
  · have := readHalf_ok hd h2.bufs hj (p := q) le_rfl (by omega) (by omega)
    unfold chunkStart
    rw [this, chunkOf_mean r _ half q j x.length hx.ge, chunkOf_mean r _ half q j x.length hx.ge,
      ← hsq', ← hy']
  · obtain ⟨p, rfl⟩ := Nat.exists_eq_add_of_le' hq
    have e : chunkStartPrev half (p + 1) = half * (p % 2) := by
      unfold chunkStartPrev
      congr 1
      omega
    have hmul : (p + 1) * half = p * half + half := Nat.succ_mul _ _
    have hle2 : (p + 1) * (half * 2 ^ j) ≤ x.length := by
      rw [hx]; exact Nat.mul_le_mul_right _ (by omega)
    rw [e, readHalf_ok hd h2.bufs hj (p := p) (Nat.mul_le_mul_right _ (by omega)) (by omega)
      (by omega), chunkOf_mean r _ half p j x.length hle2, chunkOf_mean r _ half p j x.length hle2,
      ← hsq', ← hy', Nat.add_sub_cancel]

/-- Two levels of four samples, six frames: position 2 of level 1 holds the mean of the frames 4
and 5. -/
example (out : List (List ℝ)) (h : out.length = 2) (h' : ∀ row ∈ out, row.length = 4) :
    ∃ out', enumLoop 6 (fun i a out => addData i a out 1 0) 0 [1, 2, 3, 4, 5, 7] out
        = .ok (6, out') ∧ ∃ row, out'[1]? = some row ∧ row[2]? = some (6 : ℝ) := by
  obtain ⟨out', h1, h2⟩ := C30_buffers (fun _ => 0) [1, 2, 3, 4, 5, 7] 2 4 (by omega) (by omega)
    (by omega) out h h'
  obtain ⟨row, e1, e2⟩ := h2 1 2 (by omega) (by decide) (by decide)
  refine ⟨out', h1, row, e1, ?_⟩
  rw [show 2 % 4 = 2 from rfl] at e2
  rw [e2]
  norm_num [blockMean]

/-- The same with automatic background: the mean of the first two frames is 2. -/
example (junk : Nat → Nat → Cx ℝ) (junkSq : Nat → Nat → ℝ) :
    ∃ ch, enumLoop 6 (feedChan true 2 1 fun _ => 0) 0 [⟨1, 0⟩, ⟨3, 0⟩, ⟨3, 0⟩, ⟨4, 0⟩, ⟨5, 1⟩, ⟨7, 1⟩]
        (initChan junk junkSq 2 2 false) = .ok (6, ch) ∧
      ∃ row, ch.f[1]? = some row ∧ row[2]? = some ⟨4, 1⟩ := by
  obtain ⟨ch, h1, h2⟩ := C30_channel true (fun _ => 0) [⟨1, 0⟩, ⟨3, 0⟩, ⟨3, 0⟩, ⟨4, 0⟩, ⟨5, 1⟩, ⟨7, 1⟩] 2 2 false (by omega)
    (by omega) junk junkSq (by simp) _ rfl
  obtain ⟨⟨row, e1, e2⟩, -⟩ := h2 1 2 (by omega) (by decide) (by decide)
  refine ⟨ch, h1, row, e1, ?_⟩
  rw [show 2 % (2 * 2) = 2 from rfl] at e2
  rw [e2]
  simp [blockMean, processed]
  ext <;> norm_num

end Cddm
