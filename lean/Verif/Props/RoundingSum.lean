import Verif.Lemmas.RoundingSum
import Verif.Props.Rounding

/-!
# C109: rounding errors of `cross_sum`

The samples are real or complex machine numbers; `p` reads a real sample or one component of a complex one (`C109_parts`).
-/

namespace Cddm
open Spec

section
variable {rnd : ℝ → ℝ}

/-- **C109.** What `p` stands for in the theorems below. -/
theorem C109_parts : Part rnd (fun a : Fl rnd => a.val) ∧ Part rnd (fun z : Cx (Fl rnd) => z.re.val)
    ∧ Part rnd (fun z : Cx (Fl rnd) => z.im.val) :=
  ⟨⟨rfl, fun _ _ => rfl, fun _ _ => rfl⟩, ⟨rfl, fun _ _ => rfl, fun _ _ => rfl⟩, ⟨rfl, fun _ _ => rfl, fun _ _ => rfl⟩⟩

end

section
variable {M : Type} [Zero M] [Add M] [Sub M] {rnd : ℝ → ℝ} {p : M → ℝ} {u B : ℝ}

theorem sum_steps (hr : Rounds rnd u) (hp : Part rnd p) (b : M) :
    Steps (fun (a : M) (s : ℝ × ℝ × ℕ) => Near u s.2.2 (p a) s.1 s.2.1) b (p b, |p b|, 1) := by
  intro a s h
  show Near u (s.2.2 + 1) (p (a + b)) (s.1 + p b) (s.2.1 + |p b|)
  rw [hp.add]
  exact Near.round hr (h.add ((Near.refl (p b)).mono hr.1 (Nat.zero_le _)))

theorem sum_int_steps (hk : KeepsIntegers rnd B) (hp : Part rnd p) (b : M) (hb : ∃ m : ℤ, p b = m) :
    Steps (fun (a : M) (s : ℝ × ℝ) => IntPart p B a s.1 s.2) b (p b, |p b|) := by
  intro a s h
  exact (intPart_calc hk hp).add (m := 0) h ⟨abs_nonneg _, fun _ => ⟨rfl, le_rfl, hb⟩⟩

theorem otherStream_map (N : Nat) (t : Option (List Int)) : otherStream N t = mapStream (fun u : Unit => u) (otherStream N t) := by
  simp [mapStream]

/-- **C109.** `cross_sum` with time stamps: the error of delay `k` is at most `(1+u)^terms - 1` times the moduli of its terms. -/
theorem C109_stamped (hr : Rounds rnd u) (hp : Part rnd p) (f : List M) (t1 t2 : List Int) (n : Option Nat) (inv : Bool)
    (aout : Option (List M)) (hv : ValidSum f.length (some t1) (some t2)) :
    ∃ out, crossSumApi f (some t1) (some t2) n false inv aout = .ok out
      ∧ out.length = outLen n aout (defaultN f.length (some t1) (some t2))
      ∧ ∀ k (hk : k < out.length),
        |p out[k] - (p (start aout k) + pairSum (fun a _ => a) (stream (f.map p) (some t1)) (otherStream f.length (some t2)) k)|
          ≤ ((1 + u) ^ pairSum oneFst (stream (f.map p) (some t1)) (otherStream f.length (some t2)) k - 1)
            * (|p (start aout k)| + pairSum absFst (stream (f.map p) (some t1)) (otherStream f.length (some t2)) k) := by
  obtain ⟨out, h1, h2, h3⟩ := crossSumApi_tracks (Q := fun (a : M) (s : ℝ × ℝ × ℕ) => Near u s.2.2 (p a) s.1 s.2.1)
    f t1 t2 n inv aout hv (fun a => (p a, |p a|, 1)) (fun a _ => sum_steps hr hp a)
    (fun k => (p (start aout k), |p (start aout k)|, 0)) (fun k => Near.refl _)
  refine ⟨out, h1, h2, fun k hk => ?_⟩
  have h := (h3 k hk).2
  rw [pairSum_prod, pairSum_prod] at h
  rw [otherStream_map]
  simp only [stream_map_fl, pairSum_mapStream]
  simpa [oneFst, absFst] using h

/-- **C109.** ... for signed delays (`complex = True`), with or without inversion of time. -/
theorem C109_stamped_signed (hr : Rounds rnd u) (hp : Part rnd p) (f : List M) (t1 t2 : List Int) (n : Nat) (hn : 1 ≤ n) (inv : Bool)
    (aout : Option (List M)) (haout : ∀ o, aout = some o → o.length = 2 * n - 1)
    (hv : ValidSum f.length (some t1) (some t2)) :
    ∃ out, crossSumApi f (some t1) (some t2) (some n) true inv aout = .ok out ∧ out.length = 2 * n - 1
      ∧ ∀ d : Int, |d| < n → ∃ k z, pyIdx out.length d = some k ∧ pyGet out d = some z
        ∧ |p z - (p (start aout k) + pairSumAt (fun a _ => a) (stream (f.map p) (some t1)) (otherStream f.length (some t2))
            (if inv then -d else d))|
          ≤ ((1 + u) ^ pairSumAt oneFst (stream (f.map p) (some t1)) (otherStream f.length (some t2)) (if inv then -d else d) - 1)
            * (|p (start aout k)|
              + pairSumAt absFst (stream (f.map p) (some t1)) (otherStream f.length (some t2)) (if inv then -d else d)) := by
  have hL : ∀ D, outLenFull (some n) aout D = 2 * n - 1 := by
    intro D
    rcases aout with _ | o
    · rfl
    · exact haout o rfl
  obtain ⟨out, h1, h2, h3⟩ := crossSumApi_tracks_full (Q := fun (a : M) (s : ℝ × ℝ × ℕ) => Near u s.2.2 (p a) s.1 s.2.1)
    f t1 t2 (some n) inv aout hv (fun a => (p a, |p a|, 1)) (fun a _ => sum_steps hr hp a)
    (fun k => (p (start aout k), |p (start aout k)|, 0)) (fun k => Near.refl _) (by rw [hL]; omega)
  rw [hL] at h2
  refine ⟨out, h1, h2, fun d hd => ?_⟩
  obtain ⟨k, z, g1, g2, g3⟩ := cells_delays (out := out) (fun z k d => Near u ((p (start aout k), |p (start aout k)|, 0) + pairSumAt (fun a (_ : Unit) => (p a, |p a|, 1)) (stream f (some t1))
      (otherStream f.length (some t2)) (if inv then -d else d)).2.2 (p z) ((p (start aout k), |p (start aout k)|, 0)
      + pairSumAt (fun a (_ : Unit) => (p a, |p a|, 1)) (stream f (some t1)) (otherStream f.length (some t2)) (if inv then -d else d)).1
      ((p (start aout k), |p (start aout k)|, 0) + pairSumAt (fun a (_ : Unit) => (p a, |p a|, 1)) (stream f (some t1))
      (otherStream f.length (some t2)) (if inv then -d else d)).2.1) (by omega) h3 d
    (by rw [h2, show (2 * n - 1 + 1) / 2 = n by omega]; exact hd)
  refine ⟨k, z, g1, g2, ?_⟩
  have h := g3.2
  rw [pairSumAt_prod, pairSumAt_prod] at h
  rw [otherStream_map]
  simp only [stream_map_fl, pairSumAt_mapStream]
  simpa [oneFst, absFst] using h

/-- **C109**, part that holds for regular data.  Delay `k` is computed from delay `k - 1`; its error is bounded by the moduli of the
whole signal, not by those of its own terms.  Missing, because it is false (`C109_refuted`): the bound of `C109_stamped`. -/
theorem C109_regular_partial (hr : Rounds rnd u) (hp : Part rnd p) (f : List M) (n : Option Nat) (inv : Bool)
    (aout : Option (List M)) (hfast : outLen n aout f.length ≤ f.length + 1) :
    ∃ out, crossSumApi f none none n false inv aout = .ok out ∧ out.length = outLen n aout f.length
      ∧ ∀ k (hk : k < out.length),
        |p out[k] - (p (start aout k) + pairSum (fun a _ => a) (stream (f.map p) none) (otherStream f.length none) k)|
          ≤ ((1 + u) ^ (f.length + 2 * k + 2) - 1) * (|p (start aout k)| + 4 * (f.map fun a => |p a|).sum) := by
  obtain ⟨out, h1, h2, h3⟩ := crossSumApi_calc (near_calc hr hp) f n inv aout p (fun a => |p a|) hfast (fun a _ => Near.refl _)
    (fun a _ => abs_nonneg _) (fun k => p (start aout k)) (fun k => |p (start aout k)|) (fun k => Near.refl _)
  refine ⟨out, h1, h2, fun k hk => ?_⟩
  have h := (h3 k hk).2
  simpa using h

/-- **C109**, part that holds for regular data and signed delays. -/
theorem C109_regular_signed_partial (hr : Rounds rnd u) (hp : Part rnd p) (f : List M) (n : Nat) (hn : 1 ≤ n) (inv : Bool)
    (aout : Option (List M)) (haout : ∀ o, aout = some o → o.length = 2 * n - 1) (hfast : n ≤ f.length + 1) :
    ∃ out, crossSumApi f none none (some n) true inv aout = .ok out ∧ out.length = 2 * n - 1
      ∧ ∀ d : Int, |d| < n → ∃ k z, pyIdx out.length d = some k ∧ pyGet out d = some z
        ∧ |p z - (p (start aout k) + pairSumAt (fun a _ => a) (stream (f.map p) none) (otherStream f.length none)
            (if inv then -d else d))|
          ≤ ((1 + u) ^ (f.length + d.natAbs + 1) - 1) * (|p (start aout k)| + 2 * (f.map fun a => |p a|).sum) := by
  have hL : ∀ D, outLenFull (some n) aout D = 2 * n - 1 := by
    intro D
    rcases aout with _ | o
    · rfl
    · exact haout o rfl
  obtain ⟨out, h1, h2, h3⟩ := crossSumApi_calc_full (near_calc hr hp) f (some n) inv aout p (fun a => |p a|) (by rw [hL]; omega)
    (by rw [hL]; omega) (fun a _ => Near.refl _)
    (fun a _ => abs_nonneg _) (fun k => p (start aout k)) (fun k => |p (start aout k)|) (fun k => Near.refl _)
  rw [hL] at h2
  refine ⟨out, h1, h2, fun d hd => ?_⟩
  obtain ⟨k, z, g1, g2, g3⟩ := cells_delays (out := out) (fun z k d => Near u (f.length + d.natAbs + 1) (p z) (p (start aout k)
      + pairSumAt (fun a _ => a) (stream (f.map p) none) (otherStream f.length none) (if inv then -d else d))
      (|p (start aout k)| + 2 • (f.map fun a => |p a|).sum)) (by omega) h3 d
    (by rw [h2, show (2 * n - 1 + 1) / 2 = n by omega]; exact hd)
  refine ⟨k, z, g1, g2, ?_⟩
  have h := g3.2
  simpa using h

/-- **C109.** Whole numbers with time stamps: exact while the moduli of the terms sum to at most `B`. -/
theorem C109_whole_stamped (hk : KeepsIntegers rnd B) (hp : Part rnd p) (f : List M) (t1 t2 : List Int) (n : Option Nat) (inv : Bool)
    (aout : Option (List M)) (hv : ValidSum f.length (some t1) (some t2)) (w1 : ∀ a ∈ f, ∃ m : ℤ, p a = m)
    (w2 : ∀ k, ∃ m : ℤ, p (start aout k) = m) :
    ∃ out, crossSumApi f (some t1) (some t2) n false inv aout = .ok out
      ∧ out.length = outLen n aout (defaultN f.length (some t1) (some t2))
      ∧ ∀ k (hk : k < out.length),
        |p (start aout k)| + pairSum absFst (stream (f.map p) (some t1)) (otherStream f.length (some t2)) k ≤ B →
        p out[k] = p (start aout k) + pairSum (fun a _ => a) (stream (f.map p) (some t1)) (otherStream f.length (some t2)) k := by
  obtain ⟨out, h1, h2, h3⟩ := crossSumApi_tracks (Q := fun (a : M) (s : ℝ × ℝ) => IntPart p B a s.1 s.2)
    f t1 t2 n inv aout hv (fun a => (p a, |p a|)) (fun a ha => sum_int_steps hk hp a (w1 a ha))
    (fun k => (p (start aout k), |p (start aout k)|)) (fun k => ⟨abs_nonneg _, fun _ => ⟨rfl, le_rfl, w2 k⟩⟩)
  refine ⟨out, h1, h2, fun k hk => ?_⟩
  have h := (h3 k hk).2
  rw [pairSum_prod] at h
  rw [otherStream_map]
  simp only [stream_map_fl, pairSum_mapStream]
  exact fun hB => (h hB).1

/-- **C109.** ... for signed delays. -/
theorem C109_whole_stamped_signed (hk : KeepsIntegers rnd B) (hp : Part rnd p) (f : List M) (t1 t2 : List Int) (n : Nat) (hn : 1 ≤ n)
    (inv : Bool) (aout : Option (List M)) (haout : ∀ o, aout = some o → o.length = 2 * n - 1)
    (hv : ValidSum f.length (some t1) (some t2)) (w1 : ∀ a ∈ f, ∃ m : ℤ, p a = m)
    (w2 : ∀ k, ∃ m : ℤ, p (start aout k) = m) :
    ∃ out, crossSumApi f (some t1) (some t2) (some n) true inv aout = .ok out ∧ out.length = 2 * n - 1
      ∧ ∀ d : Int, |d| < n → ∃ k z, pyIdx out.length d = some k ∧ pyGet out d = some z
        ∧ (|p (start aout k)|
            + pairSumAt absFst (stream (f.map p) (some t1)) (otherStream f.length (some t2)) (if inv then -d else d) ≤ B →
          p z = p (start aout k) + pairSumAt (fun a _ => a) (stream (f.map p) (some t1)) (otherStream f.length (some t2))
            (if inv then -d else d)) := by
  have hL : ∀ D, outLenFull (some n) aout D = 2 * n - 1 := by
    intro D
    rcases aout with _ | o
    · rfl
    · exact haout o rfl
  obtain ⟨out, h1, h2, h3⟩ := crossSumApi_tracks_full (Q := fun (a : M) (s : ℝ × ℝ) => IntPart p B a s.1 s.2)
    f t1 t2 (some n) inv aout hv (fun a => (p a, |p a|)) (fun a ha => sum_int_steps hk hp a (w1 a ha))
    (fun k => (p (start aout k), |p (start aout k)|)) (fun k => ⟨abs_nonneg _, fun _ => ⟨rfl, le_rfl, w2 k⟩⟩) (by rw [hL]; omega)
  rw [hL] at h2
  refine ⟨out, h1, h2, fun d hd => ?_⟩
  obtain ⟨k, z, g1, g2, g3⟩ := cells_delays (out := out) (fun z k d => IntPart p B z ((p (start aout k), |p (start aout k)|)
      + pairSumAt (fun a (_ : Unit) => (p a, |p a|)) (stream f (some t1)) (otherStream f.length (some t2)) (if inv then -d else d)).1
      ((p (start aout k), |p (start aout k)|) + pairSumAt (fun a (_ : Unit) => (p a, |p a|)) (stream f (some t1))
      (otherStream f.length (some t2)) (if inv then -d else d)).2) (by omega) h3 d
    (by rw [h2, show (2 * n - 1 + 1) / 2 = n by omega]; exact hd)
  refine ⟨k, z, g1, g2, ?_⟩
  have h := g3.2
  rw [pairSumAt_prod] at h
  rw [otherStream_map]
  simp only [stream_map_fl, pairSumAt_mapStream]
  exact fun hB => (h hB).1

/-- **C109.** Whole numbers, regular data: all delays are exact if four times the moduli of the signal sum to at most `B`. -/
theorem C109_whole_regular (hk : KeepsIntegers rnd B) (hp : Part rnd p) (f : List M) (n : Option Nat) (inv : Bool)
    (aout : Option (List M)) (hfast : outLen n aout f.length ≤ f.length + 1) (w1 : ∀ a ∈ f, ∃ m : ℤ, p a = m)
    (w2 : ∀ k, ∃ m : ℤ, p (start aout k) = m) :
    ∃ out, crossSumApi f none none n false inv aout = .ok out ∧ out.length = outLen n aout f.length
      ∧ ∀ k (hk : k < out.length), |p (start aout k)| + 4 * (f.map fun a => |p a|).sum ≤ B →
        p out[k] = p (start aout k) + pairSum (fun a _ => a) (stream (f.map p) none) (otherStream f.length none) k := by
  obtain ⟨out, h1, h2, h3⟩ := crossSumApi_calc (intPart_calc hk hp) f n inv aout p (fun a => |p a|) hfast
    (fun a ha => ⟨abs_nonneg _, fun _ => ⟨rfl, le_rfl, w1 a ha⟩⟩)
    (fun a _ => abs_nonneg _) (fun k => p (start aout k)) (fun k => |p (start aout k)|)
    (fun k => ⟨abs_nonneg _, fun _ => ⟨rfl, le_rfl, w2 k⟩⟩)
  refine ⟨out, h1, h2, fun k hk hB => ?_⟩
  exact ((h3 k hk).2 (by simpa using hB)).1

/-- **C109.** ... for signed delays, with twice the moduli. -/
theorem C109_whole_regular_signed (hk : KeepsIntegers rnd B) (hp : Part rnd p) (f : List M) (n : Nat) (hn : 1 ≤ n) (inv : Bool)
    (aout : Option (List M)) (haout : ∀ o, aout = some o → o.length = 2 * n - 1) (hfast : n ≤ f.length + 1)
    (w1 : ∀ a ∈ f, ∃ m : ℤ, p a = m) (w2 : ∀ k, ∃ m : ℤ, p (start aout k) = m) :
    ∃ out, crossSumApi f none none (some n) true inv aout = .ok out ∧ out.length = 2 * n - 1
      ∧ ∀ d : Int, |d| < n → ∃ k z, pyIdx out.length d = some k ∧ pyGet out d = some z
        ∧ (|p (start aout k)| + 2 * (f.map fun a => |p a|).sum ≤ B →
          p z = p (start aout k) + pairSumAt (fun a _ => a) (stream (f.map p) none) (otherStream f.length none)
            (if inv then -d else d)) := by
  have hL : ∀ D, outLenFull (some n) aout D = 2 * n - 1 := by
    intro D
    rcases aout with _ | o
    · rfl
    · exact haout o rfl
  obtain ⟨out, h1, h2, h3⟩ := crossSumApi_calc_full (intPart_calc hk hp) f (some n) inv aout p (fun a => |p a|) (by rw [hL]; omega)
    (by rw [hL]; omega) (fun a ha => ⟨abs_nonneg _, fun _ => ⟨rfl, le_rfl, w1 a ha⟩⟩)
    (fun a _ => abs_nonneg _) (fun k => p (start aout k)) (fun k => |p (start aout k)|)
    (fun k => ⟨abs_nonneg _, fun _ => ⟨rfl, le_rfl, w2 k⟩⟩)
  rw [hL] at h2
  refine ⟨out, h1, h2, fun d hd => ?_⟩
  obtain ⟨k, z, g1, g2, g3⟩ := cells_delays (out := out) (fun z k d => IntPart p B z (p (start aout k)
      + pairSumAt (fun a _ => a) (stream (f.map p) none) (otherStream f.length none) (if inv then -d else d))
      (|p (start aout k)| + 2 • (f.map fun a => |p a|).sum)) (by omega) h3 d
    (by rw [h2, show (2 * n - 1 + 1) / 2 = n by omega]; exact hd)
  exact ⟨k, z, g1, g2, fun hB => (g3.2 (by simpa using hB)).1⟩

end

/-! ### Regular data lose small sums -/

theorem round53_below : flRound 53 (2 - (2 : ℝ) ^ (-60 : ℤ)) = 2 := by
  have h : |(2 - (2 : ℝ) ^ (-60 : ℤ))| = 2 - (2 : ℝ) ^ (-60 : ℤ) := abs_of_pos (by norm_num)
  have hl : Int.log 2 (2 - (2 : ℝ) ^ (-60 : ℤ)) = 0 := by
    apply le_antisymm
    · rw [← Int.lt_add_one_iff, zero_add, ← Int.lt_zpow_iff_log_lt (by norm_num) (by norm_num)]
      norm_num
    · rw [← Int.zpow_le_iff_le_log (by norm_num) (by norm_num)]
      norm_num
  unfold flRound
  rw [h, hl]
  have e : (2 - (2 : ℝ) ^ (-60 : ℤ)) / (2 : ℝ) ^ ((0 : ℤ) + 1 - ((53 : ℕ) : ℤ)) = (2 : ℝ) ^ 53 - 1 / 256 := by norm_num
  have hround : round ((2 : ℝ) ^ 53 - 1 / 256) = 2 ^ 53 := by
    rw [round_eq]
    rw [Int.floor_eq_iff]
    constructor <;> norm_num
  rw [e, hround]
  norm_num

/-- A bright sample between two dark ones. -/
noncomputable def brightMiddle : List (Fl (flRound 53)) := [⟨(2 : ℝ) ^ (-60 : ℤ)⟩, ⟨1⟩, ⟨(2 : ℝ) ^ (-60 : ℤ)⟩]

theorem double_small : flRound 53 0 = 0 ∧ flRound 53 1 = 1 ∧ flRound 53 2 = 2 ∧ flRound 53 ((2 : ℝ) ^ (-60 : ℤ)) = (2 : ℝ) ^ (-60 : ℤ)
    ∧ flRound 53 ((2 : ℝ) ^ (-60 : ℤ) + (2 : ℝ) ^ (-60 : ℤ)) = (2 : ℝ) ^ (-60 : ℤ) + (2 : ℝ) ^ (-60 : ℤ) := by
  refine ⟨?_, ?_, ?_, ?_, ?_⟩
  · simpa using flRound_exact (p := 53) (by norm_num) 0 0 (by norm_num)
  · simpa using flRound_exact (p := 53) (by norm_num) 1 0 (by norm_num)
  · simpa using flRound_exact (p := 53) (by norm_num) 2 0 (by norm_num)
  · have := flRound_exact (p := 53) (by norm_num) 1 (-60) (by norm_num)
    rwa [Int.cast_one, one_mul] at this
  · have := flRound_exact (p := 53) (by norm_num) 2 (-60) (by norm_num)
    rwa [Int.cast_two, two_mul] at this

/-- **C109** is false of regular data: in double precision the sum `2^-59` at delay 2 of three samples is computed as zero ... -/
theorem C109_refuted : ∃ a b c, crossSumApi brightMiddle none none (some 3) false false none = .ok [a, b, c] ∧ c.val = 0
    ∧ pairSum (fun a _ => a) (stream (brightMiddle.map Fl.val) none) (otherStream 3 none) 2 = (2 : ℝ) ^ (-59 : ℤ)
    ∧ ¬ |c.val - pairSum (fun a _ => a) (stream (brightMiddle.map Fl.val) none) (otherStream 3 none) 2|
      ≤ ((1 + (2 : ℝ) ^ (-53 : ℤ)) ^ pairSum oneFst (stream (brightMiddle.map Fl.val) none) (otherStream 3 none) 2 - 1)
        * pairSum absFst (stream (brightMiddle.map Fl.val) none) (otherStream 3 none) 2 := by
  obtain ⟨r0, r1, r2, r3, r4⟩ := double_small
  have hc : flRound 53 (0 + flRound 53 (flRound 53 (flRound 53 (flRound 53
      (flRound 53 (flRound 53 (flRound 53 (flRound 53 (0 + (2 : ℝ) ^ (-60 : ℤ)) + 1) + (2 : ℝ) ^ (-60 : ℤ))
        + flRound 53 (flRound 53 (flRound 53 (0 + (2 : ℝ) ^ (-60 : ℤ)) + 1) + (2 : ℝ) ^ (-60 : ℤ)))
      - (2 : ℝ) ^ (-60 : ℤ)) - (2 : ℝ) ^ (-60 : ℤ)) - 1) - 1)) = 0 := by
    rw [zero_add, zero_add, r3, add_comm ((2 : ℝ) ^ (-60 : ℤ)) 1, round53_tiny, round53_tiny, show (1 : ℝ) + 1 = 2 by norm_num, r2,
      round53_below, round53_below, show (2 : ℝ) - 1 = 1 by norm_num, r1, sub_self, r0, r0]
  have hs : pairSum (fun a _ => a) (stream (brightMiddle.map Fl.val) none) (otherStream 3 none) 2 = (2 : ℝ) ^ (-59 : ℤ) := by
    simp [pairSum_eq, stream, otherStream, regular, brightMiddle, List.replicate, List.zipIdx]
    norm_num
  have ha : pairSum absFst (stream (brightMiddle.map Fl.val) none) (otherStream 3 none) 2 = (2 : ℝ) ^ (-59 : ℤ) := by
    simp [pairSum_eq, stream, otherStream, regular, brightMiddle, List.replicate, List.zipIdx, absFst]
    norm_num
  have ho : pairSum oneFst (stream (brightMiddle.map Fl.val) none) (otherStream 3 none) 2 = 2 := by
    simp [pairSum_eq, stream, otherStream, regular, brightMiddle, List.replicate, List.zipIdx, oneFst]
  have key : ∃ a b c, crossSumApi brightMiddle none none (some 3) false false none = .ok [a, b, c] ∧ c.val = 0 :=
    ⟨_, _, _, rfl, hc⟩
  obtain ⟨a, b, c, h1, h2⟩ := key
  refine ⟨a, b, c, h1, h2, hs, ?_⟩
  rw [h2, hs, ha, ho]
  norm_num

/-- **C109.** ... with their time stamps 0, 1, 2 it is computed correctly. -/
theorem C109_refuted_stamped : ∃ a b c,
    crossSumApi brightMiddle (some [0, 1, 2]) (some [0, 1, 2]) (some 3) false false none = .ok [a, b, c]
      ∧ c.val = (2 : ℝ) ^ (-59 : ℤ) := by
  obtain ⟨r0, r1, r2, r3, r4⟩ := double_small
  refine ⟨_, _, _, rfl, ?_⟩
  show flRound 53 (flRound 53 (0 + (2 : ℝ) ^ (-60 : ℤ)) + (2 : ℝ) ^ (-60 : ℤ)) = _
  rw [zero_add, r3, r4]
  norm_num

-- The hypotheses of C109 for time arrays of different lengths, and for whole numbers in double precision.
example : Rounds (flRound 53) ((2 : ℝ) ^ (-53 : ℤ)) ∧ KeepsIntegers (flRound 53) (2 ^ 53)
    ∧ ValidSum 2 (some [0, 7]) (some [5, -3, 4]) ∧ outLen (some 4) (none : Option (List (Fl (flRound 53)))) 3 ≤ 3 + 1 := by
  refine ⟨flRound_rounds 53, C108_nearest 53 (by norm_num), ?_, ?_⟩ <;> simp [ValidSum, outLen]
-- Ten thousand samples of a 12-bit camera satisfy the bound of `C109_whole_regular`.
example (f : List ℝ) (hf : ∀ a ∈ f, |a| ≤ 4095) (hl : f.length = 10000) : |(0 : ℝ)| + 4 * (f.map fun a => |a|).sum ≤ 2 ^ 53 := by
  have : (f.map fun a => |a|).sum ≤ (f.map fun a => |a|).length • (4095 : ℝ) :=
    List.sum_le_card_nsmul _ _ (by simpa using hf)
  simp [hl] at this ⊢
  linarith

end Cddm
