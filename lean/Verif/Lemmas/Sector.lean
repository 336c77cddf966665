import Verif.Model.Sector
import Verif.Spec.Sector
import Mathlib.Tactic.Linarith
import Mathlib.Tactic.FieldSimp
import Mathlib.Tactic.Positivity
import Mathlib.Algebra.Order.Floor.Ring
import Mathlib.Analysis.SpecialFunctions.Trigonometric.Angle

/-!
# Lemmas about sector index maps
-/

namespace Cddm
open Spec

theorem pyModR_up {x m : ℝ} (hm : 0 < m) (h1 : m < x) (h2 : x ≤ 2 * m) :
    pyModR x (-m) = x - 2 * m := by
  have : ⌊x / -m⌋ = -2 := by
    rw [Int.floor_eq_iff]
    rw [div_neg]
    have e1 : x / m ≤ 2 := by rw [div_le_iff₀ hm]; linarith
    have e2 : 1 < x / m := by rw [lt_div_iff₀ hm]; linarith
    constructor <;> push_cast <;> linarith
  simp only [pyModR, this]
  push_cast; ring

theorem pyModR_down {x m : ℝ} (hm : 0 < m) (h1 : x < -m) (h2 : -(2 * m) ≤ x) :
    pyModR x m = x + 2 * m := by
  have : ⌊x / m⌋ = -2 := by
    rw [Int.floor_eq_iff]
    have e1 : -2 ≤ x / m := by rw [le_div_iff₀ hm]; linarith
    have e2 : x / m < -1 := by rw [div_lt_iff₀ hm]; linarith
    constructor <;> push_cast <;> linarith
  simp only [pyModR, this]
  push_cast; ring

/-- Only the nearest copies of a direction can be in the range of the edges. -/
theorem exists_turn_iff {m a : ℝ} (hm : 0 < m) (ha : -m ≤ a) (ha' : a < m) (p : ℝ → Prop)
    (hp : ∀ x, p x → -(2 * m) ≤ x ∧ x ≤ 2 * m) :
    (∃ n : ℤ, p (a + n * (2 * m))) ↔ p (a - 2 * m) ∨ p a ∨ p (a + 2 * m) := by
  constructor
  · rintro ⟨n, hn⟩
    obtain ⟨h1, h2⟩ := hp _ hn
    have l : -2 < n := by
      by_contra hc
      have : (n : ℝ) ≤ -2 := by exact_mod_cast not_lt.mp hc
      nlinarith
    have u : n < 2 := by
      by_contra hc
      have : (2 : ℝ) ≤ n := by exact_mod_cast not_lt.mp hc
      nlinarith
    have : n = -1 ∨ n = 0 ∨ n = 1 := by omega
    rcases this with rfl | rfl | rfl
    · left; convert hn using 1; push_cast; ring
    · right; left; convert hn using 1; push_cast; ring
    · right; right; convert hn using 1; push_cast; ring
  · rintro (h | h | h)
    · exact ⟨-1, by convert h using 1; push_cast; ring⟩
    · exact ⟨0, by convert h using 1; push_cast; ring⟩
    · exact ⟨1, by convert h using 1; push_cast; ring⟩

theorem rad_lt {x y : ℝ} : rad x < rad y ↔ x < y := by
  unfold rad
  constructor
  · intro h; by_contra hc; have := Real.pi_pos; nlinarith
  · intro h; have := Real.pi_pos; nlinarith

theorem rad_le {x y : ℝ} : rad x ≤ rad y ↔ x ≤ y := by
  rw [← not_lt, ← not_lt, rad_lt]

theorem rad_neg (x : ℝ) : rad (-x) = -rad x := by unfold rad; ring

/-- The mask of directions is the sector, for directions in a half-open range of one period. -/
theorem sectorMask_iff {m period angle sector a : ℝ} (hm : m = rad (period / 2)) (hP : 180 ≤ period)
    (h1 : -(period / 2) ≤ angle) (h2 : angle ≤ period / 2) (h3 : 0 < sector) (h4 : sector ≤ 180)
    (ha : -m ≤ a) (ha' : a < m) :
    sectorMask m angle sector a ↔ InSector period angle sector a := by
  have hper : rad period = 2 * m := by rw [hm]; unfold rad; ring
  have hmpos : 0 < m := by rw [hm]; unfold rad; have := Real.pi_pos; positivity
  have hhi : rad (angle + sector / 2) ≤ 2 * m := by rw [← hper, rad_le]; linarith
  have hlo : -(2 * m) ≤ rad (angle - sector / 2) := by rw [← hper, ← rad_neg, rad_le]; linarith
  have hlt : rad (angle - sector / 2) < rad (angle + sector / 2) := by rw [rad_lt]; linarith
  have hw : rad (angle + sector / 2) - rad (angle - sector / 2) ≤ 2 * m := by
    have : rad (angle + sector / 2) - rad (angle - sector / 2) = rad sector := by unfold rad; ring
    rw [this, ← hper, rad_le]; linarith
  have hlm : rad (angle - sector / 2) < m := by rw [hm, rad_lt]; linarith
  have hhm : -m < rad (angle + sector / 2) := by rw [hm, ← rad_neg, rad_lt]; linarith
  have hcr : Crosses period angle sector ↔
      m < rad (angle + sector / 2) ∨ rad (angle - sector / 2) < -m := by
    unfold Crosses; rw [hm, ← rad_neg, rad_lt, rad_lt]
  unfold InSector Inside UpperEdge LowerEdge
  rw [hcr, hper]
  unfold sectorMask
  change (if rad (angle + sector / 2) > m then
      ¬ (a ≤ rad (angle - sector / 2) ∧ a > pyModR (rad (angle + sector / 2)) (-m))
    else if rad (angle - sector / 2) < -m then
      ¬ (a ≤ pyModR (rad (angle - sector / 2)) m ∧ a > rad (angle + sector / 2))
    else a < rad (angle + sector / 2) ∧ a ≥ rad (angle - sector / 2)) ↔ _
  generalize rad (angle + sector / 2) = hi at *
  generalize rad (angle - sector / 2) = lo at *
  rw [exists_turn_iff hmpos ha ha' (fun x => lo < x ∧ x < hi) (fun x h => ⟨by linarith [h.1], by linarith [h.2]⟩),
    exists_turn_iff hmpos ha ha' (fun x => x = hi) (fun x h => ⟨by linarith, by linarith⟩),
    exists_turn_iff hmpos ha ha' (fun x => x = lo) (fun x h => ⟨by linarith, by linarith⟩)]
  by_cases c1 : m < hi
  · rw [if_pos c1, pyModR_up hmpos c1 hhi]
    have c2 : -m ≤ lo := by linarith
    simp only [c1, true_or, not_true, false_and, or_false, true_and]
    rw [not_and_or, not_le, gt_iff_lt, not_lt]
    constructor
    · rintro (h | h)
      · left; right; left; constructor <;> linarith
      · rcases h.lt_or_eq with h | h
        · left; right; right; constructor <;> linarith
        · right; right; right; linarith
    · rintro ((h | h | h) | (h | h | h))
      · exact absurd h.1 (by linarith)
      · left; exact h.1
      · right; linarith [h.2]
      · exact absurd h (by linarith)
      · exact absurd h (by linarith)
      · right; linarith
  · rw [if_neg c1]
    by_cases c2 : lo < -m
    · rw [if_pos c2, pyModR_down hmpos c2 hlo]
      simp only [c2, or_true, not_true, false_and, or_false, true_and]
      rw [not_and_or, not_le, gt_iff_lt, not_lt]
      constructor
      · rintro (h | h)
        · left; left; constructor <;> linarith
        · rcases h.lt_or_eq with h | h
          · left; right; left; constructor <;> linarith
          · right; right; left; linarith
      · rintro ((h | h | h) | (h | h | h))
        · left; linarith [h.1]
        · right; linarith [h.2]
        · exact absurd h.2 (by linarith)
        · left; linarith
        · right; linarith
        · exact absurd h (by linarith)
    · rw [if_neg c2]
      simp only [c1, c2, or_self, false_and, not_false_eq_true, false_or, true_and]
      constructor
      · rintro ⟨h, h'⟩
        rcases (show lo ≤ a from h').lt_or_eq with h' | h'
        · left; right; left; exact ⟨h', h⟩
        · right; right; left; exact h'.symm
      · rintro ((h | h | h) | (h | h | h))
        · exact absurd h.1 (by linarith)
        · exact ⟨h.2, h.1.le⟩
        · exact absurd h.2 (by linarith)
        · exact absurd h (by linarith)
        · exact ⟨by linarith, by linarith⟩
        · exact absurd h (by linarith)

/-- At the upper end of the range the mask is the open sector. -/
theorem sectorMask_end {m period angle sector : ℝ} (hm : m = rad (period / 2)) (hP : 180 ≤ period)
    (h1 : -(period / 2) ≤ angle) (h2 : angle ≤ period / 2) (h3 : 0 < sector) (h4 : sector ≤ 180) :
    sectorMask m angle sector m ↔ Inside period angle sector m := by
  have hper : rad period = 2 * m := by rw [hm]; unfold rad; ring
  have hmpos : 0 < m := by rw [hm]; unfold rad; have := Real.pi_pos; positivity
  have hhi : rad (angle + sector / 2) ≤ 2 * m := by rw [← hper, rad_le]; linarith
  have hlo : -(2 * m) ≤ rad (angle - sector / 2) := by rw [← hper, ← rad_neg, rad_le]; linarith
  have hlm : rad (angle - sector / 2) < m := by rw [hm, rad_lt]; linarith
  have hhm : -m < rad (angle + sector / 2) := by rw [hm, ← rad_neg, rad_lt]; linarith
  unfold Inside
  rw [hper]
  unfold sectorMask
  change (if rad (angle + sector / 2) > m then
      ¬ (m ≤ rad (angle - sector / 2) ∧ m > pyModR (rad (angle + sector / 2)) (-m))
    else if rad (angle - sector / 2) < -m then
      ¬ (m ≤ pyModR (rad (angle - sector / 2)) m ∧ m > rad (angle + sector / 2))
    else m < rad (angle + sector / 2) ∧ m ≥ rad (angle - sector / 2)) ↔ _
  generalize rad (angle + sector / 2) = hi at *
  generalize rad (angle - sector / 2) = lo at *
  by_cases c1 : m < hi
  · rw [if_pos c1]
    exact ⟨fun _ => ⟨0, by push_cast; linarith, by push_cast; linarith⟩, fun _ h => absurd h.1 (by linarith)⟩
  · rw [if_neg c1]
    by_cases c2 : lo < -m
    · rw [if_pos c2, pyModR_down hmpos c2 hlo]
      exact ⟨fun _ => ⟨-1, by push_cast; linarith, by push_cast; linarith⟩,
        fun _ h => absurd h.1 (by linarith)⟩
    · rw [if_neg c2]
      constructor
      · intro h; exact absurd h.1 c1
      · rintro ⟨n, h, h'⟩
        exfalso
        have l : -1 < n := by
          by_contra hc
          have : (n : ℝ) ≤ -1 := by exact_mod_cast not_lt.mp hc
          nlinarith
        have u : n < 0 := by
          by_contra hc
          have : (0 : ℝ) ≤ n := by exact_mod_cast not_lt.mp hc
          nlinarith
        omega

theorem InRing.unique {kstep k : ℝ} {i j : Nat} (hs : 0 < kstep) (hi : InRing kstep i k)
    (hj : InRing kstep j k) : i = j := by
  obtain ⟨a, b⟩ := hi
  obtain ⟨c, d⟩ := hj
  have h1 : (i : ℝ) - 1 / 2 < j + 1 / 2 := by
    by_contra hc; nlinarith
  have h2 : (j : ℝ) - 1 / 2 < i + 1 / 2 := by
    by_contra hc; nlinarith
  have h1 : (i : ℝ) < j + 1 := by linarith
  have h2 : (j : ℝ) < i + 1 := by linarith
  norm_cast at h1 h2
  omega

theorem exists_ring {kstep k : ℝ} (hs : 0 < kstep) (hk : 0 ≤ k) : ∃ i, InRing kstep i k := by
  have hq : 0 ≤ k / kstep := by positivity
  have e : k = k / kstep * kstep := by field_simp
  refine ⟨⌈k / kstep - 1 / 2⌉₊, ?_, ?_⟩
  · have : (⌈k / kstep - 1 / 2⌉₊ : ℝ) - 1 / 2 < k / kstep := by
      by_cases h : 0 ≤ k / kstep - 1 / 2
      · have := Nat.ceil_lt_add_one h; linarith
      · rw [Nat.ceil_eq_zero.mpr (by linarith)]; push_cast; linarith
    calc _ < k / kstep * kstep := by nlinarith
      _ = k := e.symm
  · have := Nat.le_ceil (k / kstep - 1 / 2)
    calc k = k / kstep * kstep := e
      _ ≤ _ := by nlinarith

/-- A ring that holds a wave number up to the maximum is among those visited. -/
theorem InRing.lt_len {kstep k kmax : ℝ} {i : Nat} (hs : 0 < kstep) (hi : InRing kstep i k)
    (hk : k ≤ kmax) : i < ⌈(kmax + kstep) / kstep⌉₊ := by
  have e : (kmax + kstep) / kstep = kmax / kstep + 1 := by field_simp
  have h1 : (i : ℝ) - 1 / 2 < kmax / kstep := by
    rw [lt_div_iff₀ hs]; linarith [hi.1]
  rw [Nat.lt_ceil, e]
  linarith

theorem mem_entries {α : Type} (a : Arr2 α) {i j : Nat} (hi : i < a.h) (hj : j < a.w) :
    a.get i j ∈ a.entries := by
  simp only [Arr2.entries, List.mem_flatMap, List.mem_range, List.mem_map]
  exact ⟨i, hi, j, hj, rfl⟩

theorem le_foldl_max (l : List ℝ) (x : ℝ) : x ≤ l.foldl max x ∧ ∀ y ∈ l, y ≤ l.foldl max x := by
  induction l generalizing x with
  | nil => simp
  | cons z l ih =>
    obtain ⟨h1, h2⟩ := ih (max x z)
    refine ⟨le_trans (le_max_left _ _) h1, ?_⟩
    intro y hy
    rcases List.mem_cons.mp hy with rfl | hy
    · exact le_trans (le_max_right _ _) h1
    · exact h2 y hy

theorem arrMax_ok (a : Arr2 ℝ) (hh : 0 < a.h) (hw : 0 < a.w) :
    ∃ M, arrMax a = .ok M ∧ ∀ i j : Nat, i < a.h → j < a.w → a.get i j ≤ M := by
  have h0 := mem_entries a hh hw
  unfold arrMax
  cases he : a.entries with
  | nil => rw [he] at h0; simp at h0
  | cons x l =>
    refine ⟨_, rfl, ?_⟩
    intro i j hi hj
    have := mem_entries a hi hj
    rw [he] at this
    rcases List.mem_cons.mp this with h | h
    · rw [h]; exact (le_foldl_max l x).1
    · exact (le_foldl_max l x).2 _ h

/-- What the loop over rings leaves at one cell. -/
theorem ringLoop_spec {kstep k : ℝ} (hs : 0 < kstep) (f : Prop) (n i : Nat) (out : Int) :
    (∀ r : Nat, i ≤ r → r < i + n → InRing kstep r k → f →
      ringLoop kstep k f ((List.range' i n).map fun (q : Nat) => (q : ℝ) * kstep) i out = r) ∧
    ((¬ ∃ r : Nat, i ≤ r ∧ r < i + n ∧ InRing kstep r k ∧ f) →
      ringLoop kstep k f ((List.range' i n).map fun (q : Nat) => (q : ℝ) * kstep) i out = out) := by
  have hring (q : Nat) : (k ≤ q * kstep + kstep / 2 ∧ k > q * kstep - kstep / 2) ↔ InRing kstep q k := by
    unfold InRing
    constructor
    · rintro ⟨a, b⟩; constructor <;> linarith
    · rintro ⟨a, b⟩; constructor <;> linarith
  induction n generalizing i out with
  | zero =>
    constructor
    · intro r h1 h2; omega
    · intro _; rfl
  | succ n ih =>
    simp only [List.range'_succ, List.map_cons, ringLoop]
    constructor
    · intro r h1 h2 hr hf
      rcases Nat.lt_or_ge i r with h | h
      · exact (ih (i + 1) _).1 r h (by omega) hr hf
      · obtain rfl : r = i := by omega
        rw [(ih (r + 1) _).2, if_pos ⟨(hring r).mpr hr, hf⟩]
        rintro ⟨q, h3, _, hq, _⟩
        have := InRing.unique hs hq hr
        omega
    · intro hno
      rw [(ih (i + 1) _).2, if_neg]
      · exact fun h => hno ⟨i, le_refl _, by omega, (hring i).mp h.1, h.2⟩
      · rintro ⟨q, h3, h4, hq, hf⟩
        exact hno ⟨q, by omega, by omega, hq, hf⟩

theorem ringLoop_all {kstep k kmax : ℝ} (hs : 0 < kstep) (hk : k ≤ kmax) (f : Prop) :
    (∀ r : Nat, InRing kstep r k → f →
      ringLoop kstep k f ((List.range ⌈(kmax + kstep) / kstep⌉₊).map fun (q : Nat) => (q : ℝ) * kstep)
        0 (-1) = r) ∧
    ((¬ ∃ r : Nat, InRing kstep r k ∧ f) →
      ringLoop kstep k f ((List.range ⌈(kmax + kstep) / kstep⌉₊).map fun (q : Nat) => (q : ℝ) * kstep)
        0 (-1) = -1) := by
  rw [List.range_eq_range']
  have := ringLoop_spec (k := k) hs f ⌈(kmax + kstep) / kstep⌉₊ 0 (-1)
  constructor
  · intro r hr hf
    exact this.1 r (Nat.zero_le _) (by have := InRing.lt_len hs hr hk; omega) hr hf
  · intro h
    exact this.2 fun ⟨r, _, _, hr, hf⟩ => h ⟨r, hr, hf⟩

theorem fftfreqN_isFreq {n i : Nat} (hi : i < n) : IsFreq n i (fftfreqN n i) := by
  unfold IsFreq fftfreqN
  split
  · exact ⟨by omega, by omega, by simp⟩
  · exact ⟨by omega, by omega, ⟨1, by ring⟩⟩

theorem IsFreq.eq {n i : Nat} {d : Int} (hi : i < n) (h : IsFreq n i d) : d = fftfreqN n i := by
  obtain ⟨a, b, q, hq⟩ := h
  have h1 : q < 2 := by
    by_contra hc
    have : (n : Int) * 2 ≤ n * q := Int.mul_le_mul_of_nonneg_left (by omega) (by omega)
    omega
  have h2 : -1 < q := by
    by_contra hc
    have : (n : Int) * q ≤ n * (-1) := Int.mul_le_mul_of_nonneg_left (by omega) (by omega)
    omega
  have : q = 0 ∨ q = 1 := by omega
  unfold fftfreqN
  rcases this with rfl | rfl
  · split <;> omega
  · split <;> omega

theorem kangle_polar (ki kj : ℝ) : Polar ki kj (kangle ki kj).1 (kangle ki kj).2 := by
  have hn : ‖(⟨kj, -ki⟩ : ℂ)‖ = Real.sqrt (kj ^ 2 + ki ^ 2) := by
    rw [Complex.norm_def, Complex.normSq_mk]; congr 1; ring
  unfold kangle arctan2Neg
  refine ⟨Real.sqrt_nonneg _, ?_⟩
  dsimp only
  split
  · rename_i h
    obtain ⟨rfl, h⟩ := h
    have e : Real.sqrt (kj ^ 2 + 0 ^ 2) = -kj := by
      rw [show kj ^ 2 + (0 : ℝ) ^ 2 = (-kj) ^ 2 by ring, Real.sqrt_sq (by linarith)]
    rw [e]
    have := Real.pi_pos
    exact ⟨by simp, by simp, le_refl _, by linarith⟩
  · rename_i h
    rw [← hn]
    refine ⟨?_, ?_, (Complex.neg_pi_lt_arg _).le, ?_⟩
    · have := Complex.norm_mul_cos_arg (⟨kj, -ki⟩ : ℂ); exact this.symm
    · have := Complex.norm_mul_sin_arg (⟨kj, -ki⟩ : ℂ); exact this.symm
    · apply lt_of_le_of_ne (Complex.arg_le_pi _)
      intro hc
      rw [Complex.arg_eq_pi_iff] at hc
      exact h ⟨by simpa using hc.2, hc.1⟩

theorem Polar.norm {ki kj k a : ℝ} (h : Polar ki kj k a) : k = Real.sqrt (kj ^ 2 + ki ^ 2) := by
  obtain ⟨h0, h1, h2, _, _⟩ := h
  have : kj ^ 2 + ki ^ 2 = k ^ 2 := by
    have e : ki ^ 2 = (-ki) ^ 2 := by ring
    rw [e, h1, h2]
    have := Real.sin_sq_add_cos_sq a
    linear_combination k ^ 2 * this
  rw [this, Real.sqrt_sq h0]

theorem Polar.unique {ki kj k a k' a' : ℝ} (h : Polar ki kj k a) (h' : Polar ki kj k' a')
    (hne : ki ≠ 0 ∨ kj ≠ 0) : k = k' ∧ a = a' := by
  have e : k = k' := (Polar.norm h).trans (Polar.norm h').symm
  refine ⟨e, ?_⟩
  subst e
  obtain ⟨h0, h1, h2, h3, h4⟩ := h
  obtain ⟨_, h1', h2', h3', h4'⟩ := h'
  have hk : k ≠ 0 := by
    rintro rfl
    rcases hne with h | h
    · apply h; linarith
    · apply h; linarith
  have hc : Real.cos a = Real.cos a' := mul_left_cancel₀ hk (by rw [← h1, ← h1'])
  have hsn : Real.sin a = Real.sin a' := mul_left_cancel₀ hk (by rw [← h2, ← h2'])
  have : (a : Real.Angle) = a' := Real.Angle.cos_sin_inj hc hsn
  rw [Real.Angle.angle_eq_iff_two_pi_dvd_sub] at this
  obtain ⟨n, hn⟩ := this
  have hp := Real.pi_pos
  have l : -1 < n := by
    by_contra hc
    have : (n : ℝ) ≤ -1 := by exact_mod_cast not_lt.mp hc
    nlinarith
  have u : n < 1 := by
    by_contra hc
    have : (1 : ℝ) ≤ n := by exact_mod_cast not_lt.mp hc
    nlinarith
  have : n = 0 := by omega
  subst this
  push_cast at hn
  linarith

/-- A wave vector pointing to the right has a direction between -pi/2 and pi/2. -/
theorem Polar.right {ki kj k a : ℝ} (h : Polar ki kj k a) (hne : ki ≠ 0 ∨ kj ≠ 0) (hr : 0 ≤ kj) :
    -(Real.pi / 2) ≤ a ∧ a ≤ Real.pi / 2 := by
  obtain ⟨h0, h1, h2, h3, h4⟩ := h
  have hk : 0 < k := by
    rcases h0.lt_or_eq with h | h
    · exact h
    · subst h
      rcases hne with h | h
      · exact absurd (by linarith) h
      · exact absurd (by linarith) h
  have hc : 0 ≤ Real.cos a := by
    by_contra hc
    push Not at hc
    nlinarith
  constructor
  · by_contra hh
    push Not at hh
    have := Real.cos_neg_of_pi_div_two_lt_of_lt (x := -a) (by linarith) (by linarith)
    rw [Real.cos_neg] at this
    linarith
  · by_contra hh
    push Not at hh
    have := Real.cos_neg_of_pi_div_two_lt_of_lt (x := a) (by linarith) (by linarith)
    linarith

end Cddm
