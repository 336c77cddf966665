import Verif.Model.MultitauIter
import Verif.Lemmas.Filters
import Mathlib.Algebra.Order.Group.Nat
import Mathlib.Tactic.Ring

/-!
# The buffers of the iterative multiple tau algorithm

After `m` frames the position `b % c` of level `j` holds the sample of block `b`, for the last `c`
complete blocks.
-/

namespace Cddm

section buffer
variable {V : Type} [AddCommGroup V] [Module ℝ V]

/-- The sample a pair of samples is reduced to. -/
noncomputable def pairBin (binning : Int) (r : ℚ) (early late : V) : V :=
  if binning = 1 then (1 / 2 : ℝ) • (late + early)
  else if binning = 2 then (if r > 1 / 2 then late else early)
  else late

/-- Sample number `b` of level `j` of a sequence of frames. -/
noncomputable def streamBin (binning : Int) (r : Nat → ℚ) (X : Nat → V) : Nat → Nat → V
  | 0, b => X b
  | j + 1, b => pairBin binning (r ((b + 1) * 2 ^ (j + 1) - 1))
      (streamBin binning r X j (2 * b)) (streamBin binning r X j (2 * b + 1))

/-- An array of shape `(D, c)`. -/
structure Shape (D c : Nat) (out : List (List V)) : Prop where
  rows : out.length = D
  cols : ∀ (j : Nat) row, out[j]? = some row → row.length = c

/-- Level `j` holds the last `c` complete blocks after `m` frames. -/
def LevelOK (binning : Int) (r : Nat → ℚ) (X : Nat → V) (c m : Nat) (out : List (List V))
    (j : Nat) : Prop :=
  ∀ b, b < m / 2 ^ j → m / 2 ^ j ≤ b + c →
    ∃ row, out[j]? = some row ∧ row[b % c]? = some (streamBin binning r X j b)

omit [AddCommGroup V] [Module ℝ V] in
theorem Shape.set {D c : Nat} {out : List (List V)} (h : Shape D c out) (j : Nat) (row : List V)
    (hr : row.length = c) : Shape D c (out.set j row) := by
  refine ⟨by rw [List.length_set, h.rows], fun k row' e => ?_⟩
  rw [List.getElem?_set] at e
  split at e
  · split at e
    · rw [← Option.some.inj e, hr]
    · simp at e
  · exact h.cols k row' e

omit [AddCommGroup V] [Module ℝ V] in
theorem setBuf_ok {D c : Nat} {out : List (List V)} (h : Shape D c out) {j k : Nat} (hj : j < D)
    (hk : k < c) (x : V) :
    ∃ row, out[j]? = some row ∧ row.length = c ∧ setBuf out j k x = .ok (out.set j (row.set k x)) := by
  have hj' : j < out.length := by rw [h.rows]; exact hj
  refine ⟨out[j], List.getElem?_eq_getElem hj', h.cols j _ (List.getElem?_eq_getElem hj'), ?_⟩
  unfold setBuf
  have := h.cols j _ (List.getElem?_eq_getElem hj')
  rw [List.getElem?_eq_getElem hj']
  simp only
  rw [if_pos (by omega)]

omit [AddCommGroup V] [Module ℝ V] in
theorem getBuf_ok {out : List (List V)} {j k : Nat} {row : List V} {v : V} (h : out[j]? = some row)
    (hv : row[k]? = some v) (z : Int) (hz : z = k) : getBuf out j z = .ok v := by
  subst hz
  obtain ⟨hk, -⟩ := List.getElem?_eq_some_iff.1 hv
  unfold getBuf
  rw [h]
  simp only [pyGet_nat, hv]

theorem combineBin_ok (binning : Int) (r : ℚ) {out : List (List V)} {j top : Nat} {x y : V}
    {row : List V} (h : out[j - 1]? = some row) (ht : 1 ≤ top) (hv : row[top - 1]? = some y) :
    combineBin binning r out j top x = .ok (pairBin binning r y x) := by
  have := getBuf_ok h hv (top - 1 : Int) (by omega)
  unfold combineBin pairBin
  rw [this]
  split
  · rfl
  · split
    · split <;> rfl
    · rfl

theorem succ_div_of_not {i j : Nat} (h : (i + 1) % 2 ^ j ≠ 0) {k : Nat} (hk : j ≤ k) :
    (i + 1) / 2 ^ k = i / 2 ^ k := by
  rw [Nat.succ_div, if_neg]
  · rfl
  · intro hd
    exact h (Nat.mod_eq_zero_of_dvd ((Nat.pow_dvd_pow 2 hk).trans hd))

theorem mod_ne_of_lt {B b c : Nat} (h1 : b < B) (h2 : B < b + c) : b % c ≠ B % c := by
  intro h
  have hd : c ∣ B - b := (Nat.modEq_iff_dvd' h1.le).1 h
  have := Nat.le_of_dvd (by omega) hd
  omega

/-- Writing block `i / 2^j` at its position. -/
theorem LevelOK.write {binning : Int} {r : Nat → ℚ} {X : Nat → V} {D c i : Nat}
    {out : List (List V)} {j : Nat} {row : List V} (hs : Shape D c out) (h : LevelOK binning r X c i out j)
    (hrow : out[j]? = some row) (hd : (i + 1) % 2 ^ j = 0) (hc : 0 < c) :
    LevelOK binning r X c (i + 1)
      (out.set j (row.set ((i / 2 ^ j) % c) (streamBin binning r X j (i / 2 ^ j)))) j := by
  obtain ⟨hj, hrj⟩ := List.getElem?_eq_some_iff.1 hrow
  have e : (i + 1) / 2 ^ j = i / 2 ^ j + 1 := by
    rw [Nat.succ_div, if_pos (Nat.dvd_of_mod_eq_zero hd)]
  have hl := hs.cols j _ hrow
  intro b hb1 hb2
  rw [e] at hb1 hb2
  refine ⟨_, by rw [List.getElem?_set_self hj], ?_⟩
  by_cases hb : b = i / 2 ^ j
  · subst hb
    rw [List.getElem?_set_self (by rw [hl]; exact Nat.mod_lt _ hc)]
  · rw [List.getElem?_set_ne (mod_ne_of_lt (by omega) (by omega)).symm]
    obtain ⟨row', e1, e2⟩ := h b (by omega) (by omega)
    rw [hrow] at e1
    rw [Option.some.inj e1, e2]

theorem LevelOK.set_ne {binning : Int} {r : Nat → ℚ} {X : Nat → V} {c m : Nat}
    {out : List (List V)} {j k : Nat} (row : List V) (h : LevelOK binning r X c m out j)
    (hk : k ≠ j) : LevelOK binning r X c m (out.set k row) j := by
  intro b h1 h2
  rw [List.getElem?_set_ne hk]
  exact h b h1 h2

theorem addLevels_ok (binning : Int) (r : Nat → ℚ) (X : Nat → V) (D c i : Nat) (hc0 : 0 < c) :
    ∀ (k j : Nat) (out : List (List V)), j + 1 + k = D → (k = 0 ∨ c % 2 = 0) → Shape D c out →
      (i + 1) % 2 ^ j = 0 →
      (∀ l, l < j + 1 → LevelOK binning r X c (i + 1) out l) →
      (∀ l, j + 1 ≤ l → l < D → LevelOK binning r X c i out l) →
      ∃ out', addLevels binning (r i) i c k (j + 1) ((i / 2 ^ j) % c)
          (streamBin binning r X j (i / 2 ^ j)) out = .ok out' ∧ Shape D c out' ∧
        ∀ l, l < D → LevelOK binning r X c (i + 1) out' l
  | 0, j, out, hD, _, hs, hd, h1, h2 =>
    ⟨out, rfl, hs, fun l hl => h1 l (by omega)⟩
  | k + 1, j, out, hD, hc, hs, hd, h1, h2 => by
    have hc : c % 2 = 0 := by omega
    unfold addLevels
    by_cases hdj : (i + 1) % 2 ^ (j + 1) = 0
    · rw [if_pos hdj]
      set B := i / 2 ^ (j + 1) with hB
      have eB : (i + 1) / 2 ^ (j + 1) = B + 1 := by
        rw [Nat.succ_div, if_pos (Nat.dvd_of_mod_eq_zero hdj)]
      have ej : (i + 1) / 2 ^ j = i / 2 ^ j + 1 := by
        rw [Nat.succ_div, if_pos (Nat.dvd_of_mod_eq_zero hd)]
      have e1 : i + 1 = (B + 1) * 2 ^ (j + 1) := by
        have := Nat.div_add_mod (i + 1) (2 ^ (j + 1))
        rw [eB, hdj] at this
        rw [← this]; ring
      have e2 : (i + 1) / 2 ^ j = (B + 1) * 2 := by
        rw [e1, pow_succ, mul_comm (2 ^ j) 2, ← mul_assoc]
        exact Nat.mul_div_cancel _ (Nat.two_pow_pos j)
      have e3 : i / 2 ^ j = 2 * B + 1 := by omega
      have htop : (2 * B + 1) % c = (2 * B) % c + 1 := by
        obtain ⟨d, rfl⟩ : ∃ d, c = 2 * d := ⟨c / 2, by omega⟩
        rw [Nat.mul_mod_mul_left]
        have : B % d < d := Nat.mod_lt _ (by omega)
        conv_lhs => rw [← Nat.div_add_mod B d]
        rw [show 2 * (d * (B / d) + B % d) + 1 = (2 * (B % d) + 1) + 2 * d * (B / d) by ring,
          Nat.add_mul_mod_self_left, Nat.mod_eq_of_lt (by omega)]
      obtain ⟨row, g1, g2⟩ := h1 j (by omega) (2 * B) (by omega) (by omega)
      rw [e3, htop] 
      have comb := combineBin_ok binning (r i) (out := out) (j := j + 1) (top := (2 * B) % c + 1)
        (x := streamBin binning r X j (2 * B + 1)) (y := streamBin binning r X j (2 * B))
        (by simpa using g1) (by omega) (by simpa using g2)
      have ey : pairBin binning (r i) (streamBin binning r X j (2 * B))
          (streamBin binning r X j (2 * B + 1)) = streamBin binning r X (j + 1) B := by
        rw [streamBin, ← e1]; rfl
      obtain ⟨row', k1, k2, k3⟩ := setBuf_ok hs (j := j + 1) (k := B % c) (by omega)
        (Nat.mod_lt _ hc0) (streamBin binning r X (j + 1) B)
      simp only [comb, ey, bind, Except.bind, k3]
      refine addLevels_ok binning r X D c i hc0 k (j + 1) _ (by omega) (.inr hc)
        (hs.set _ _ (by rw [List.length_set, k2])) hdj ?_ ?_
      · intro l hl
        by_cases hlj : l = j + 1
        · subst hlj
          exact (h2 _ le_rfl (by omega)).write hs k1 hdj hc0
        · exact (h1 l (by omega)).set_ne _ (Ne.symm hlj)
      · intro l hl hlD
        exact (h2 l (by omega) hlD).set_ne _ (by omega)
    · rw [if_neg hdj]
      refine ⟨out, rfl, hs, fun l hl => ?_⟩
      by_cases hlj : l < j + 1
      · exact h1 l hlj
      · have := h2 l (by omega) hl
        unfold LevelOK at this ⊢
        rwa [succ_div_of_not hdj (by omega)]

/-- One frame keeps the invariant. -/
theorem addData_ok (binning : Int) (r : Nat → ℚ) (X : Nat → V) (D c i : Nat) (hc0 : 0 < c)
    (hD : 0 < D) (hc : D = 1 ∨ c % 2 = 0) (out : List (List V)) (hs : Shape D c out)
    (h : ∀ l, l < D → LevelOK binning r X c i out l) :
    ∃ out', addData i (X i) out binning (r i) = .ok out' ∧ Shape D c out' ∧
      ∀ l, l < D → LevelOK binning r X c (i + 1) out' l := by
  have hh : (out.headD []).length = c := by
    cases out with
    | nil => have := hs.rows; simp at this; omega
    | cons a l => exact hs.cols 0 a rfl
  obtain ⟨row, k1, k2, k3⟩ := setBuf_ok hs (j := 0) (k := i % c) hD (Nat.mod_lt _ hc0) (X i)
  unfold addData
  simp only [hh, k3, bind, Except.bind]
  rw [if_neg (by omega)]
  simp only [List.length_set, hs.rows]
  have key := addLevels_ok binning r X D c i hc0 (D - 1) 0 (out.set 0 (row.set (i % c) (X i)))
    (by omega) (by omega) (hs.set _ _ (by rw [List.length_set, k2])) (by simp [Nat.mod_one]) ?_ ?_
  · simpa [streamBin] using key
  · intro l hl
    obtain rfl : l = 0 := by omega
    have := (h 0 hD).write hs k1 (by simp [Nat.mod_one]) hc0
    simpa [streamBin] using this
  · intro l hl hlD
    exact (h l hlD).set_ne _ (by omega)

omit [AddCommGroup V] [Module ℝ V] in
theorem setBuf_row {out out' : List (List V)} {j k : Nat} {x : V} (h : setBuf out j k x = .ok out')
    {l : Nat} (hl : l ≠ j) : out'[l]? = out[l]? := by
  unfold setBuf at h
  split at h
  · simp at h
  · split at h
    · rw [← Except.ok.inj h, List.getElem?_set_ne hl.symm]
    · simp at h

theorem addLevels_row (binning : Int) (r : ℚ) (i c : Nat) :
    ∀ (k j top : Nat) (x : V) (out out' : List (List V)),
      addLevels binning r i c k j top x out = .ok out' → ∀ l, l < j → out'[l]? = out[l]?
  | 0, j, top, x, out, out', h, l, hl => by
    rw [← Except.ok.inj h]
  | k + 1, j, top, x, out, out', h, l, hl => by
    unfold addLevels at h
    split at h
    · cases h1 : combineBin binning r out j top x with
      | error e => simp [h1, bind, Except.bind] at h
      | ok y =>
        cases h2 : setBuf out j (i / 2 ^ j % c) y with
        | error e => simp [h1, h2, bind, Except.bind] at h
        | ok o =>
          simp only [h1, h2, bind, Except.bind] at h
          rw [addLevels_row binning r i c k (j + 1) _ _ _ _ h l (by omega),
            setBuf_row h2 (by omega)]
    · rw [← Except.ok.inj h]

/-- Frame `i` only changes position `i % c` of level 0. -/
theorem addData_row0 {binning : Int} {r : ℚ} {i D c : Nat} {x : V} {out out' : List (List V)}
    (hs : Shape D c out) (hD : 0 < D) (hc : 0 < c) (h : addData i x out binning r = .ok out') :
    ∃ row, out[0]? = some row ∧ out'[0]? = some (row.set (i % c) x) := by
  have hh : (out.headD []).length = c := by
    cases out with
    | nil => have := hs.rows; simp at this; omega
    | cons a l => exact hs.cols 0 a rfl
  obtain ⟨row, k1, k2, k3⟩ := setBuf_ok hs (j := 0) (k := i % c) hD (Nat.mod_lt _ hc) x
  refine ⟨row, k1, ?_⟩
  unfold addData at h
  simp only [hh, k3, bind, Except.bind] at h
  rw [if_neg (by omega)] at h
  rw [addLevels_row _ _ _ _ _ _ _ _ _ _ h 0 (by omega), List.getElem?_set_self]
  rw [hs.rows]; exact hD

/-- Half-chunk number `q` of a sequence of samples. -/
def chunkOf {α : Type} (Y : Nat → α) (half q : Nat) : List α :=
  (List.range half).map fun k => Y (q * half + k)

omit [AddCommGroup V] [Module ℝ V] in
@[simp] theorem chunkOf_length {α : Type} (Y : Nat → α) (half q : Nat) :
    (chunkOf Y half q).length = half := by simp [chunkOf]

/-- A half-chunk read from the buffer. -/
theorem bufSlice_ok {binning : Int} {r : Nat → ℚ} {X : Nat → V} {D c m : Nat} {out : List (List V)}
    (hs : Shape D c out) {j : Nat} (hj : j < D) (h : LevelOK binning r X c m out j)
    {start half p : Nat} (hpos : ∀ k, k < half → (p * half + k) % c = start + k)
    (hm1 : p * half + half ≤ m / 2 ^ j) (hm2 : m / 2 ^ j ≤ p * half + c) :
    bufSlice out j start half = .ok (chunkOf (streamBin binning r X j) half p) := by
  have hj' : j < out.length := by rw [hs.rows]; exact hj
  have hrow := List.getElem?_eq_getElem hj'
  have hlen := hs.cols j _ hrow
  unfold bufSlice
  rw [hrow]
  simp only
  congr 1
  apply List.ext_getElem?
  intro k
  unfold chunkOf
  by_cases hk : k < half
  · rw [List.getElem?_take_of_lt hk, List.getElem?_drop, List.getElem?_map, List.getElem?_range hk]
    obtain ⟨row, e1, e2⟩ := h (p * half + k) (by omega) (by omega)
    rw [hrow] at e1
    rw [Option.some.inj e1, ← hpos k hk, e2]
    rfl
  · rw [List.getElem?_take_eq_none (by omega), List.getElem?_eq_none]
    simp; omega

end buffer

/-! ### One channel -/

/-- The sizes of the buffers. -/
structure Dims (D c half nframes : Nat) : Prop where
  hpos : 0 < half
  rows : 0 < D
  cols : c = 2 * half ∨ (D = 1 ∧ c = half ∧ nframes = half)

theorem Dims.pos {D c half nframes : Nat} (h : Dims D c half nframes) : 0 < c ∧ half ≤ c := by
  obtain ⟨h1, h2, h3⟩ := h
  omega

theorem Dims.even {D c half nframes : Nat} (h : Dims D c half nframes) : D = 1 ∨ c % 2 = 0 := by
  obtain ⟨h1, h2, h3⟩ := h
  omega

/-- Position of half-chunk `p`. -/
theorem Dims.slot {D c half nframes : Nat} (h : Dims D c half nframes) {p : Nat}
    (hp : (p + 1) * half ≤ nframes) :
    (∀ k, k < half → (p * half + k) % c = half * (p % 2) + k) ∧ half * (p % 2) + half ≤ c := by
  obtain ⟨h1, h2, h3⟩ := h
  rcases h3 with rfl | ⟨-, rfl, rfl⟩
  · constructor
    · intro k hk
      have e := Nat.div_add_mod p 2
      have hlt : p % 2 < 2 := Nat.mod_lt _ (by omega)
      have h4 : half * (p % 2) ≤ half * 1 := Nat.mul_le_mul_left _ (by omega)
      conv_lhs => rw [← e]
      rw [show (2 * (p / 2) + p % 2) * half + k = (half * (p % 2) + k) + 2 * half * (p / 2) by ring,
        Nat.add_mul_mod_self_left, Nat.mod_eq_of_lt (by omega)]
    · have h4 : half * (p % 2) ≤ half * 1 := Nat.mul_le_mul_left _ (by omega)
      omega
  · have hp0 : p = 0 := by
      have := Nat.le_of_mul_le_mul_right (show (p + 1) * nframes ≤ 1 * nframes by omega) (by omega)
      omega
    subst hp0
    simp
    intro k hk
    exact Nat.mod_eq_of_lt hk

/-- The buffers of a channel hold the signal `Y` after `m` frames. -/
structure BufsOK (binning : Int) (r : Nat → ℚ) (Y : Nat → Cx ℝ) (D c : Nat) (squares : Bool)
    (m : Nat) (ch : Chan) : Prop where
  shape : Shape D c ch.f
  levels : ∀ l, l < D → LevelOK binning r Y c m ch.f l
  sq : if squares then ∃ sq, ch.sq = some sq ∧ Shape D c sq ∧
      ∀ l, l < D → LevelOK binning r (fun i => (Y i).abs2) c m sq l else ch.sq = none

theorem addBoth_ok {binning : Int} {r : Nat → ℚ} {Y : Nat → Cx ℝ} {D c : Nat} {squares : Bool}
    {i : Nat} {ch : Chan} (hc0 : 0 < c) (hD : 0 < D) (hc : D = 1 ∨ c % 2 = 0)
    (h : BufsOK binning r Y D c squares i ch) :
    ∃ f sq, addBoth i (Y i) binning (r i) ch = .ok { ch with f := f, sq := sq } ∧
      BufsOK binning r Y D c squares (i + 1) { ch with f := f, sq := sq } ∧
      addData i (Y i) ch.f binning (r i) = .ok f := by
  obtain ⟨f, e1, e2, e3⟩ := addData_ok binning r Y D c i hc0 hD hc ch.f h.shape h.levels
  have hsq := h.sq
  cases squares with
  | false =>
    simp only [Bool.false_eq_true, if_false] at hsq
    refine ⟨f, none, ?_, ⟨e2, e3, ?_⟩, e1⟩
    · unfold addBoth
      simp only [e1, bind, Except.bind, hsq]
    · simp
  | true =>
    simp only [if_true] at hsq
    obtain ⟨sq, g1, g2, g3⟩ := hsq
    obtain ⟨sq', k1, k2, k3⟩ := addData_ok binning r (fun i => (Y i).abs2) D c i hc0 hD hc sq g2 g3
    refine ⟨f, some sq', ?_, ⟨e2, e3, ?_⟩, e1⟩
    · unfold addBoth
      simp only [e1, bind, Except.bind, g1, k1]
    · simp only [if_true]
      exact ⟨sq', rfl, k2, k3⟩

/-- Mean and variance of the first `n` samples. -/
noncomputable def statOf (Y : Nat → Cx ℝ) (n : Nat) : Cx ℝ × ℝ :=
  let mean : Cx ℝ := (1 / (n : ℝ)) • ∑ i ∈ Finset.range n, Y i
  (mean, (∑ i ∈ Finset.range n, (Y i).abs2) / n - mean.abs2)

/-- A channel with the background known. -/
structure ChanOK (binning : Int) (r : Nat → ℚ) (Y : Nat → Cx ℝ) (D c half : Nat) (squares : Bool)
    (bg : Option (Cx ℝ)) (m : Nat) (ch : Chan) : Prop where
  bufs : BufsOK binning r Y D c squares m ch
  bg : ch.bg = bg
  sum : ch.sum = ∑ i ∈ Finset.range (m / half * half), Y i
  sqsum : ch.sqsum = ∑ i ∈ Finset.range (m / half * half), (Y i).abs2
  stat : ch.stat = if m / half = 0 then none else some (statOf Y (m / half * half))

/-- A channel while the first half-chunk is collected for the background. -/
structure RawOK (X : Nat → Cx ℝ) (D c : Nat) (squares : Bool) (m : Nat) (ch : Chan) : Prop where
  shape : Shape D c ch.f
  row : ∀ l, l < m → ∃ row, ch.f[0]? = some row ∧ row[l]? = some (X l)
  sq : if squares then ∃ sq, ch.sq = some sq ∧ Shape D c sq else ch.sq = none
  bg : ch.bg = none
  sum : ch.sum = 0
  sqsum : ch.sqsum = 0
  stat : ch.stat = none

theorem chunk_sum {M : Type} [AddCommMonoid M] (Y : Nat → M) (half q : Nat) :
    ∑ i ∈ Finset.range (q * half), Y i + (chunkOf Y half q).sum
      = ∑ i ∈ Finset.range ((q + 1) * half), Y i := by
  rw [Nat.succ_mul, Finset.sum_range_add]
  rfl

theorem div_of_end {i half : Nat} (h0 : 0 < half) (h : i % half = half - 1) :
    i + 1 = (i / half + 1) * half ∧ (i + 1) / half = i / half + 1 := by
  have e := Nat.div_add_mod i half
  have e1 : i + 1 = (i / half + 1) * half := by
    rw [add_mul, mul_comm (i / half)]; omega
  refine ⟨e1, ?_⟩
  conv_lhs => rw [e1]
  exact Nat.mul_div_cancel _ h0

theorem div_of_not_end {i half : Nat} (h0 : 0 < half) (h : i % half ≠ half - 1) :
    (i + 1) / half = i / half := by
  rw [Nat.succ_div, if_neg]
  · rfl
  · intro hd
    have := Nat.mod_eq_zero_of_dvd hd
    rw [Nat.add_mod] at this
    have h1 := Nat.mod_lt i h0
    by_cases hh : half = 1
    · subst hh; omega
    · rw [Nat.mod_eq_of_lt (a := 1) (by omega), Nat.mod_eq_of_lt (by omega)] at this
      omega

/-- The statistics at the end of a half-chunk. -/
theorem chunkStats_ok {binning : Int} {r : Nat → ℚ} {Y : Nat → Cx ℝ} {D c half nframes : Nat}
    {squares : Bool} {bg : Option (Cx ℝ)} {i : Nat} {ch : Chan} (hd : Dims D c half nframes)
    (hi : i < nframes) (hend : i % half = half - 1)
    (hb : BufsOK binning r Y D c squares (i + 1) ch) (hbg : ch.bg = bg)
    (hs1 : ch.sum = ∑ i ∈ Finset.range (i / half * half), Y i)
    (hs2 : ch.sqsum = ∑ i ∈ Finset.range (i / half * half), (Y i).abs2) :
    ∃ ch', chunkStats half (i / half) ch = .ok ch' ∧
      ChanOK binning r Y D c half squares bg (i + 1) ch' := by
  obtain ⟨e1, e2⟩ := div_of_end hd.hpos hend
  obtain ⟨p1, p2⟩ := hd.slot (p := i / half) (by omega)
  have hpos := hd.pos
  have es : i + 1 = i / half * half + half := by rw [e1]; simp [add_mul]
  have hsl := bufSlice_ok hb.shape hd.rows (hb.levels 0 hd.rows) p1
    (by rw [pow_zero, Nat.div_one]; omega) (by rw [pow_zero, Nat.div_one]; omega)
  have hst : streamBin binning r Y 0 = Y := by funext b; rfl
  rw [hst] at hsl
  unfold chunkStats
  simp only [hsl, bind, Except.bind]
  have c1 := chunk_sum Y half (i / half)
  have c2 := chunk_sum (fun i => (Y i).abs2) half (i / half)
  have c3 : ((chunkOf Y half (i / half)).map Cx.abs2).sum
      = (chunkOf (fun i => (Y i).abs2) half (i / half)).sum := by
    unfold chunkOf
    rw [List.map_map]
    rfl
  refine ⟨_, rfl, ⟨hb.shape, hb.levels, hb.sq⟩, hbg, ?_, ?_, ?_⟩
  · simp only [hs1, c1, e2]
  · simp only [hs2, c3, c2, e2]
  · simp only [hs1, hs2, c3, c1, c2, e2]
    rw [if_neg (Nat.succ_ne_zero _)]
    rfl

/-- Removing the background: the frames collected so far are stored again. -/
theorem removeBackground_ok {binning : Int} {r : Nat → ℚ} {X : Nat → Cx ℝ} (bg : Cx ℝ)
    {D c half nframes : Nat} {squares : Bool} (hd : Dims D c half nframes) :
    ∀ (k i : Nat) (ch : Chan), k + i = half →
      BufsOK binning r (fun l => X l - bg) D c squares i ch →
      (∀ l, i ≤ l → l < half → ∃ row, ch.f[0]? = some row ∧ row[l]? = some (X l)) →
      ∃ f sq, removeBackground bg binning r k i ch = .ok { ch with f := f, sq := sq } ∧
        BufsOK binning r (fun l => X l - bg) D c squares half { ch with f := f, sq := sq }
  | 0, i, ch, hk, hb, _ => by
    obtain rfl : i = half := by omega
    exact ⟨ch.f, ch.sq, rfl, hb⟩
  | k + 1, i, ch, hk, hb, hrow => by
    have hpos := hd.pos
    obtain ⟨row, e1, e2⟩ := hrow i le_rfl (by omega)
    obtain ⟨f, sq, k1, k2, k3⟩ := addBoth_ok hpos.1 hd.rows hd.even hb
    unfold removeBackground
    simp only [getBuf_ok e1 e2 (i : Int) rfl, bind, Except.bind, k1]
    obtain ⟨row', g1, g2⟩ := addData_row0 hb.shape hd.rows hpos.1 k3
    obtain ⟨f', sq', l1, l2⟩ := removeBackground_ok bg hd k (i + 1) { ch with f := f, sq := sq }
      (by omega) k2 (fun l h1 h2 => by
        obtain ⟨row'', m1, m2⟩ := hrow l (by omega) h2
        rw [g1] at m1
        refine ⟨_, g2, ?_⟩
        rw [List.getElem?_set_ne (by rw [Nat.mod_eq_of_lt (by omega)]; omega),
          Option.some.inj m1, m2])
    exact ⟨f', sq', l1, l2⟩

/-- The background: the mean of the first half-chunk. -/
noncomputable def bgOf (X : Nat → Cx ℝ) (half : Nat) : Cx ℝ :=
  (1 / (half : ℝ)) • ∑ i ∈ Finset.range half, X i

/-- The signal that is correlated. -/
noncomputable def shown (autoBackground : Bool) (X : Nat → Cx ℝ) (half : Nat) (i : Nat) : Cx ℝ :=
  if autoBackground then X i - bgOf X half else X i

/-- State of a channel after `m` frames. -/
def FeedInv (autoBackground : Bool) (binning : Int) (r : Nat → ℚ) (X : Nat → Cx ℝ)
    (D c half : Nat) (squares : Bool) (m : Nat) (ch : Chan) : Prop :=
  if autoBackground = true ∧ m < half then RawOK X D c squares m ch
  else ChanOK binning r (shown autoBackground X half) D c half squares
    (if autoBackground then some (bgOf X half) else none) m ch

theorem junkBuf_shape {V : Type} (junk : Nat → Nat → V) (D c : Nat) : Shape D c (junkBuf junk D c) := by
  refine ⟨by simp [junkBuf], fun j row h => ?_⟩
  unfold junkBuf at h
  rw [List.getElem?_map] at h
  cases e : (List.range D)[j]? with
  | none => simp [e] at h
  | some a => simp [e] at h; rw [← h]; simp

theorem feedInv_init (autoBackground : Bool) (binning : Int) (r : Nat → ℚ) (X : Nat → Cx ℝ)
    (half : Nat) (squares : Bool) (hh : 0 < half) (junk : Nat → Nat → Cx ℝ)
    (junkSq : Nat → Nat → ℝ) (nd : Nat) :
    FeedInv autoBackground binning r X (max nd 1) (if nd > 0 then half * 2 else half) half squares 0
      (initChan junk junkSq nd half squares) := by
  have hrows : (if nd > 0 then nd else 1) = max nd 1 := by split <;> omega
  unfold FeedInv initChan
  rw [hrows]
  split
  · refine ⟨junkBuf_shape _ _ _, by simp, ?_, rfl, rfl, rfl, rfl⟩
    cases squares
    · simp
    · simp only [if_true]
      exact ⟨_, rfl, junkBuf_shape _ _ _⟩
  · next h =>
    have hb : autoBackground = false := by
      cases autoBackground
      · rfl
      · exact absurd ⟨rfl, hh⟩ h
    have hv : ∀ {V : Type} [AddCommGroup V] [Module ℝ V] (Y : Nat → V) c out l,
        LevelOK binning r Y c 0 out l := by
      intro V _ _ Y c out l b h1
      simp at h1
    refine ⟨⟨junkBuf_shape _ _ _, fun l _ => hv _ _ _ _, ?_⟩, by simp [hb], ?_, ?_, ?_⟩
    · cases squares
      · simp
      · simp only [if_true]
        exact ⟨_, rfl, junkBuf_shape _ _ _, fun l _ => hv _ _ _ _⟩
    · simp
    · simp
    · simp

theorem feedChan_ok {autoBackground : Bool} {binning : Int} {r : Nat → ℚ} {X : Nat → Cx ℝ}
    {D c half nframes : Nat} {squares : Bool} {i : Nat} {ch : Chan} (hd : Dims D c half nframes)
    (hi : i < nframes) (h : FeedInv autoBackground binning r X D c half squares i ch) :
    ∃ ch', feedChan autoBackground half binning r i (X i) ch = .ok ch' ∧
      FeedInv autoBackground binning r X D c half squares (i + 1) ch' := by
  have hpos := hd.pos
  have hh := hd.hpos
  unfold feedChan storeFrame
  by_cases hraw : i < half ∧ autoBackground = true
  · obtain ⟨hih, rfl⟩ := hraw
    rw [if_pos ⟨hih, rfl⟩]
    unfold FeedInv at h
    rw [if_pos ⟨rfl, hih⟩] at h
    obtain ⟨row, k1, k2, k3⟩ := setBuf_ok h.shape (j := 0) (k := i) hd.rows (by omega) (X i)
    have hrow : ∀ l, l < i + 1 → ∃ row', (ch.f.set 0 (row.set i (X i)))[0]? = some row' ∧
        row'[l]? = some (X l) := by
      intro l hl
      refine ⟨_, List.getElem?_set_self (by rw [h.shape.rows]; exact hd.rows), ?_⟩
      by_cases hli : l = i
      · subst hli
        rw [List.getElem?_set_self (by omega)]
      · rw [List.getElem?_set_ne (by omega)]
        obtain ⟨row', e1, e2⟩ := h.row l (by omega)
        rw [k1] at e1
        rw [Option.some.inj e1, e2]
    have hshape := h.shape.set 0 (row.set i (X i)) (by rw [List.length_set, k2])
    simp only [k3, bind, Except.bind]
    by_cases hlast : i = half - 1
    · rw [if_pos hlast]
      have hend : i % half = half - 1 := by rw [Nat.mod_eq_of_lt hih, hlast]
      have hsl : bufSlice (ch.f.set 0 (row.set i (X i))) 0 0 half = .ok (chunkOf X half 0) := by
        have := bufSlice_ok (binning := 0) (r := r) (X := X) (m := half) hshape (j := 0) hd.rows
          (start := 0) (half := half) (p := 0) (by
            intro b hb1 hb2
            rw [pow_zero, Nat.div_one] at hb1
            rw [Nat.mod_eq_of_lt (by omega)]
            exact hrow b (by omega)) (by
            intro k hk
            rw [Nat.mod_eq_of_lt (by omega)]; omega) (by simp) (by simp; omega)
        have hst : streamBin 0 r X 0 = X := by funext b; rfl
        rwa [hst] at this
      simp only [hsl]
      have hsum : (chunkOf X half 0).sum = ∑ i ∈ Finset.range half, X i := by
        have := chunk_sum X half 0
        simpa using this
      rw [hsum]
      simp only [show (1 / (half : ℝ)) • ∑ i ∈ Finset.range half, X i = bgOf X half from rfl]
      have hb0 : BufsOK binning r (fun l => X l - bgOf X half) D c squares 0
          { ch with f := ch.f.set 0 (row.set i (X i)), bg := some (bgOf X half) } := by
        have hv : ∀ {V : Type} [AddCommGroup V] [Module ℝ V] (Y : Nat → V) c out l,
            LevelOK binning r Y c 0 out l := by
          intro V _ _ Y c out l b h1
          simp at h1
        refine ⟨hshape, fun l _ => hv _ _ _ _, ?_⟩
        have := h.sq
        cases squares
        · simpa using this
        · simp only [if_true] at this ⊢
          obtain ⟨sq, e1, e2⟩ := this
          exact ⟨sq, e1, e2, fun l _ => hv _ _ _ _⟩
      obtain ⟨f, sq, e1, e2⟩ := removeBackground_ok (bgOf X half) hd half 0 _ (by omega) hb0
        (fun l _ h2 => hrow l (by omega))
      rw [e1]
      simp only
      rw [if_pos hend]
      have hi1 : i + 1 = half := by omega
      have hdiv : i / half = 0 := Nat.div_eq_of_lt hih
      have e2' : BufsOK binning r (shown true X half) D c squares (i + 1)
          { ch with f := f, sq := sq, bg := some (bgOf X half) } := by
        have : shown true X half = fun l => X l - bgOf X half := by
          funext l; simp [shown]
        rw [this, hi1]
        exact e2
      obtain ⟨ch', g1, g2⟩ := chunkStats_ok (bg := some (bgOf X half)) hd hi hend e2' rfl
        (by simp [hdiv, h.sum]) (by simp [hdiv, h.sqsum])
      refine ⟨ch', g1, ?_⟩
      unfold FeedInv
      rw [if_neg (by omega)]
      simpa using g2
    · rw [if_neg hlast]
      simp only
      rw [if_neg (by rw [Nat.mod_eq_of_lt hih]; exact hlast)]
      refine ⟨_, rfl, ?_⟩
      unfold FeedInv
      rw [if_pos ⟨rfl, by omega⟩]
      exact ⟨hshape, hrow, h.sq, h.bg, h.sum, h.sqsum, h.stat⟩
  · rw [if_neg hraw]
    unfold FeedInv at h ⊢
    rw [if_neg (by tauto)] at h
    simp only [show ¬ (autoBackground = true ∧ i + 1 < half) from
      fun h2 => hraw ⟨by omega, h2.1⟩, if_false]
    have hy : subtractBg ch.bg (X i) = shown autoBackground X half i := by
      rw [h.bg]
      cases autoBackground <;> simp [shown, subtractBg]
    rw [hy]
    obtain ⟨f, sq, e1, e2, -⟩ := addBoth_ok hpos.1 hd.rows hd.even h.bufs
    simp only [e1, bind, Except.bind]
    by_cases hend : i % half = half - 1
    · rw [if_pos hend]
      exact chunkStats_ok hd hi hend e2 h.bg h.sum h.sqsum
    · rw [if_neg hend]
      refine ⟨_, rfl, e2, h.bg, ?_, ?_, ?_⟩
      · rw [div_of_not_end hh hend]; exact h.sum
      · rw [div_of_not_end hh hend]; exact h.sqsum
      · rw [div_of_not_end hh hend]; exact h.stat

/-- Reading half-chunk `p` of level `j` after `m` frames. -/
theorem readHalf_ok {binning : Int} {r : Nat → ℚ} {Y : Nat → Cx ℝ} {D c half nframes : Nat}
    {squares : Bool} {m : Nat} {ch : Chan} (hd : Dims D c half nframes)
    (hb : BufsOK binning r Y D c squares m ch) {j p : Nat} (hj : j < D)
    (hp : (p + 1) * half ≤ nframes)
    (hm1 : p * half + half ≤ m / 2 ^ j) (hm2 : m / 2 ^ j ≤ p * half + c) :
    readHalf ch j (half * (p % 2)) half = .ok ⟨chunkOf (streamBin binning r Y j) half p,
      if squares then some (chunkOf (streamBin binning r (fun i => (Y i).abs2) j) half p)
      else none⟩ := by
  obtain ⟨p1, p2⟩ := hd.slot hp
  unfold readHalf
  rw [bufSlice_ok hb.shape hj (hb.levels j hj) p1 hm1 hm2]
  simp only [bind, Except.bind]
  have := hb.sq
  cases squares
  · simp only [Bool.false_eq_true, if_false] at this ⊢
    rw [this]
  · simp only [if_true] at this ⊢
    obtain ⟨sq, e1, e2, e3⟩ := this
    rw [e1]
    simp only [bufSlice_ok e2 hj (e3 j hj) p1 hm1 hm2]

end Cddm
