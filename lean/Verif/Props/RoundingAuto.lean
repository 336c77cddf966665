import Verif.Lemmas.RoundingAuto
import Verif.Props.RoundingSum

/-!
# C109: rounding errors of `auto_sum`

`half` is the machine's `x / 2.`; `hh` says that it rounds.
-/

namespace Cddm
open Spec

section
variable {M : Type} [Zero M] [Add M] [Sub M] {rnd : ℝ → ℝ} {p : M → ℝ} {u B : ℝ}

/-- Half the moduli over ordered pairs are the mean moduli over unordered pairs. -/
theorem auto_halves_abs (p : M → ℝ) (f : List M) (t : Option (List Int)) (hv : ValidAuto f.length t) (hd : ∀ u, t = some u → u.Nodup)
    (k : Nat) (hk : t = none → k ≤ f.length) :
    (if k = 0 then pairSum (fun a _ => |p a|) (stream f t) (otherStream f.length t) k
      else (1 / 2 : ℝ) • pairSum (fun a _ => |p a|) (stream f t) (otherStream f.length t) k)
      = selfSum meanAbs (stream (f.map p) t) k := by
  have h := auto_halves (f.map fun a => |p a|) t (by simpa using hv) hd k (by simpa using hk)
  rw [List.length_map, otherStream_map] at h
  simp only [stream_map_fl, pairSum_mapStream, selfSum_mapStream] at h
  rw [stream_map_fl, selfSum_mapStream]
  exact h

theorem auto_halves_part (p : M → ℝ) (f : List M) (t : Option (List Int)) (hv : ValidAuto f.length t) (hd : ∀ u, t = some u → u.Nodup)
    (k : Nat) (hk : t = none → k ≤ f.length) :
    (if k = 0 then pairSum (fun a _ => p a) (stream f t) (otherStream f.length t) k
      else (1 / 2 : ℝ) • pairSum (fun a _ => p a) (stream f t) (otherStream f.length t) k)
      = selfSum mean2 (stream (f.map p) t) k := by
  have h := auto_halves (f.map p) t (by simpa using hv) hd k (by simpa using hk)
  rw [List.length_map, otherStream_map] at h
  simp only [stream_map_fl, pairSum_mapStream, selfSum_mapStream] at h
  rw [stream_map_fl, selfSum_mapStream]
  exact h

theorem near_halved (hr : Rounds rnd u) {m k : Nat} {a s S : ℝ} (h : Near u m a s S) :
    Near u (m + 1) (if k = 0 then a else rnd (a / 2)) (if k = 0 then s else (1 / 2 : ℝ) • s) (if k = 0 then S else (1 / 2 : ℝ) • S) := by
  split_ifs
  · exact h.mono hr.1 (Nat.le_succ m)
  · apply Near.round hr
    obtain ⟨h1, h2⟩ := h
    simp only [smul_eq_mul]
    refine ⟨?_, ?_⟩
    · rw [abs_mul, abs_of_pos (by norm_num : (0 : ℝ) < 1 / 2)]
      linarith
    · rw [show a / 2 - 1 / 2 * s = 1 / 2 * (a - s) by ring, abs_mul, abs_of_pos (by norm_num : (0 : ℝ) < 1 / 2)]
      calc 1 / 2 * |a - s| ≤ 1 / 2 * (((1 + u) ^ m - 1) * S) := by linarith
        _ = _ := by ring

/-- **C109.** `auto_sum` with distinct time stamps: two more roundings, of the halving and of the addition to what was there. -/
theorem C109_auto_stamped (hr : Rounds rnd u) (hp : Part rnd p) (half : M → M) (hh : ∀ a, p (half a) = rnd (p a / 2)) (f : List M)
    (t : List Int) (n : Option Nat) (aout : Option (List M)) (hv : ValidAuto f.length (some t)) (hd : t.Nodup) :
    ∃ out, autoSumWith half f (some t) n aout = .ok out
      ∧ out.length = outLen n aout (defaultN f.length (some t) (some t))
      ∧ ∀ k (hk : k < out.length),
        |p out[k] - (p (start aout k) + selfSum mean2 (stream (f.map p) (some t)) k)|
          ≤ ((1 + u) ^ (pairSum oneFst (stream (f.map p) (some t)) (otherStream f.length (some t)) k + 2) - 1)
            * (|p (start aout k)| + selfSum meanAbs (stream (f.map p) (some t)) k) := by
  obtain ⟨out0, h1, h2, h3⟩ := autoSumWith_tracks (Q := fun (a : M) (s : ℝ × ℝ × ℕ) => Near u s.2.2 (p a) s.1 s.2.1)
    half f t n aout hv (fun a => (p a, |p a|, 1)) (fun a _ => sum_steps hr hp a) (by simpa [hp.zero] using Near.refl (u := u) 0)
  refine ⟨_, h1, by simp [h2, startOut_length], fun k hk => ?_⟩
  have hk0 : k < out0.length := by simp at hk; omega
  have h := h3 k hk0
  rw [pairSum_prod, pairSum_prod] at h
  simp only at h
  have h' := near_halved (k := k) hr h
  rw [auto_halves_part p f (some t) hv (by rintro u ⟨⟩; exact hd) k (by simp),
    auto_halves_abs p f (some t) hv (by rintro u ⟨⟩; exact hd) k (by simp)] at h'
  rw [List.getElem_zipWith, startOut_get, hp.add, List.getElem_mapIdx, apply_ite p, hh]
  have h4 := (Near.round hr (((Near.refl (u := u) (p (start aout k))).mono hr.1 (Nat.zero_le _)).add h')).2
  rw [otherStream_map]
  simp only [stream_map_fl, pairSum_mapStream] at h4 ⊢
  exact h4

/-- **C109**, part that holds of `auto_sum` for regular data; missing, because it is false (`C109_auto_refuted`), is the bound
of `C109_auto_stamped`. -/
theorem C109_auto_regular_partial (hr : Rounds rnd u) (hp : Part rnd p) (half : M → M) (hh : ∀ a, p (half a) = rnd (p a / 2))
    (f : List M) (n : Option Nat) (aout : Option (List M)) (hfast : outLen n aout f.length ≤ f.length + 1) :
    ∃ out, autoSumWith half f none n aout = .ok out ∧ out.length = outLen n aout f.length
      ∧ ∀ k (hk : k < out.length),
        |p out[k] - (p (start aout k) + selfSum mean2 (stream (f.map p) none) k)|
          ≤ ((1 + u) ^ (f.length + 2 * k + 4) - 1) * (|p (start aout k)| + 4 * (f.map fun a => |p a|).sum) := by
  obtain ⟨out0, h1, h2, h3⟩ := autoSumWith_calc (near_calc hr hp) half f n aout p (fun a => |p a|) hfast (fun a _ => Near.refl _)
    (fun a _ => abs_nonneg _)
  refine ⟨_, h1, by simp [h2, startOut_length], fun k hk => ?_⟩
  have hk0 : k < out0.length := by simp at hk; omega
  have h' := near_halved (k := k) hr (h3 k hk0)
  have e := auto_halves (f.map p) none (by simp [ValidAuto]) (by simp) k (by intro _; simp; omega)
  rw [List.length_map] at e
  rw [e] at h'
  have hs : 0 ≤ (f.map fun a => |p a|).sum := List.sum_nonneg (by simp)
  have h'' := h'.widen hr.1 (Y := 4 * (f.map fun a => |p a|).sum) (by
    split_ifs
    · simp
    · simp only [smul_eq_mul, nsmul_eq_mul]
      push_cast
      linarith)
  rw [List.getElem_zipWith, startOut_get, hp.add, List.getElem_mapIdx, apply_ite p, hh]
  exact (Near.round hr (((Near.refl (u := u) (p (start aout k))).mono hr.1 (Nat.zero_le _)).add h'')).2

theorem keepsHalves_integers (h : KeepsHalves rnd B) : KeepsIntegers rnd B := by
  intro z hz
  have := h (2 * z) (by push_cast; rw [mul_div_cancel_left₀ _ (by norm_num)]; exact hz)
  push_cast at this
  rwa [mul_div_cancel_left₀ _ (by norm_num)] at this

/-- The last steps for whole numbers. -/
theorem halves_exact (hkh : KeepsHalves rnd B) {k : Nat} {a s S b X : ℝ} (h : s = a ∧ |s| ≤ S ∧ ∃ m : ℤ, s = m)
    (hb : ∃ m : ℤ, b = m / 2) (hX : (if k = 0 then S else (1 / 2 : ℝ) • S) ≤ X) (hB : |b| + 2 * X ≤ B) :
    rnd (b + (if k = 0 then a else rnd (a / 2))) = b + (if k = 0 then s else (1 / 2 : ℝ) • s) := by
  obtain ⟨rfl, h2, m, rfl⟩ := h
  obtain ⟨i, rfl⟩ := hb
  have hS : 0 ≤ S := (abs_nonneg _).trans h2
  split_ifs at hX ⊢ with hk
  · have e : (i : ℝ) / 2 + m = ((i + 2 * m : ℤ) : ℝ) / 2 := by push_cast; ring
    rw [e]
    apply hkh
    rw [← e]
    have := abs_add_le ((i : ℝ) / 2) m
    linarith
  · simp only [smul_eq_mul] at hX ⊢
    have hm : |(m : ℝ) / 2| ≤ X := by
      rw [abs_div, abs_of_pos (by norm_num : (0 : ℝ) < 2)]
      linarith
    have i0 := abs_nonneg ((i : ℝ) / 2)
    rw [hkh m (by linarith [abs_nonneg ((m : ℝ) / 2)])]
    have e : (i : ℝ) / 2 + m / 2 = ((i + m : ℤ) : ℝ) / 2 := by push_cast; ring
    rw [show (i : ℝ) / 2 + 1 / 2 * m = (i : ℝ) / 2 + m / 2 by ring, e]
    apply hkh
    rw [← e]
    have := abs_add_le ((i : ℝ) / 2) ((m : ℝ) / 2)
    have := abs_nonneg ((m : ℝ) / 2)
    linarith

/-- **C109.** `auto_sum` of whole numbers is exact: the halves of whole numbers are machine numbers. -/
theorem C109_auto_whole_stamped (hkh : KeepsHalves rnd B) (hp : Part rnd p) (half : M → M) (hh : ∀ a, p (half a) = rnd (p a / 2))
    (f : List M) (t : List Int) (n : Option Nat) (aout : Option (List M)) (hv : ValidAuto f.length (some t)) (hd : t.Nodup)
    (w1 : ∀ a ∈ f, ∃ m : ℤ, p a = m) (w2 : ∀ k, ∃ m : ℤ, p (start aout k) = m / 2) :
    ∃ out, autoSumWith half f (some t) n aout = .ok out
      ∧ out.length = outLen n aout (defaultN f.length (some t) (some t))
      ∧ ∀ k (hk : k < out.length), |p (start aout k)| + 2 * selfSum meanAbs (stream (f.map p) (some t)) k ≤ B →
        p out[k] = p (start aout k) + selfSum mean2 (stream (f.map p) (some t)) k := by
  obtain ⟨out0, h1, h2, h3⟩ := autoSumWith_tracks (Q := fun (a : M) (s : ℝ × ℝ) => IntPart p B a s.1 s.2)
    half f t n aout hv (fun a => (p a, |p a|)) (fun a ha => sum_int_steps (keepsHalves_integers hkh) hp a (w1 a ha))
    ⟨le_rfl, fun _ => ⟨hp.zero, by simp, 0, by simp⟩⟩
  refine ⟨_, h1, by simp [h2, startOut_length], fun k hk hB => ?_⟩
  have hk0 : k < out0.length := by simp at hk; omega
  have h := h3 k hk0
  rw [pairSum_prod] at h
  simp only at h
  have ha := auto_halves_abs p f (some t) hv (by rintro u ⟨⟩; exact hd) k (by simp)
  rw [← auto_halves_part p f (some t) hv (by rintro u ⟨⟩; exact hd) k (by simp)]
  rw [List.getElem_zipWith, startOut_get, hp.add, List.getElem_mapIdx, apply_ite p, hh]
  have b0 := abs_nonneg (p (start aout k))
  obtain ⟨g1, g2, g3⟩ := h.2 (by
    rw [← ha] at hB
    have := h.1
    split_ifs at hB
    · linarith
    · simp only [smul_eq_mul] at hB
      linarith)
  exact halves_exact hkh ⟨g1.symm, g2, g3⟩ (w2 k) ha.le hB

/-- **C109.** ... and so for regular data, if eight times the moduli of the signal sum to at most `B`. -/
theorem C109_auto_whole_regular (hkh : KeepsHalves rnd B) (hp : Part rnd p) (half : M → M) (hh : ∀ a, p (half a) = rnd (p a / 2))
    (f : List M) (n : Option Nat) (aout : Option (List M)) (hfast : outLen n aout f.length ≤ f.length + 1)
    (w1 : ∀ a ∈ f, ∃ m : ℤ, p a = m) (w2 : ∀ k, ∃ m : ℤ, p (start aout k) = m / 2) :
    ∃ out, autoSumWith half f none n aout = .ok out ∧ out.length = outLen n aout f.length
      ∧ ∀ k (hk : k < out.length), |p (start aout k)| + 8 * (f.map fun a => |p a|).sum ≤ B →
        p out[k] = p (start aout k) + selfSum mean2 (stream (f.map p) none) k := by
  obtain ⟨out0, h1, h2, h3⟩ := autoSumWith_calc (intPart_calc (keepsHalves_integers hkh) hp) half f n aout p (fun a => |p a|) hfast
    (fun a ha => ⟨abs_nonneg _, fun _ => ⟨rfl, le_rfl, w1 a ha⟩⟩) (fun a _ => abs_nonneg _)
  refine ⟨_, h1, by simp [h2, startOut_length], fun k hk hB => ?_⟩
  have hk0 : k < out0.length := by simp at hk; omega
  have e := auto_halves (f.map p) none (by simp [ValidAuto]) (by simp) k (by intro _; simp; omega)
  rw [List.length_map] at e
  have hs : 0 ≤ (f.map fun a => |p a|).sum := List.sum_nonneg (by simp)
  have b0 := abs_nonneg (p (start aout k))
  obtain ⟨g1, g2, g3⟩ := (h3 k hk0).2 (by
    simp only [nsmul_eq_mul]
    push_cast
    linarith)
  rw [List.getElem_zipWith, startOut_get, hp.add, List.getElem_mapIdx, apply_ite p, hh]
  have := halves_exact (k := k) hkh ⟨g1.symm, g2, g3⟩ (w2 k) (X := 4 * (f.map fun a => |p a|).sum) (by
    simp only [nsmul_eq_mul]
    split_ifs
    · push_cast; linarith
    · simp only [smul_eq_mul]; push_cast; linarith) (by linarith)
  rw [this, e]
  rfl

end

/-- **C109.** Rounding to the nearest of `q` binary digits keeps whole and half numbers up to `2^(q-1)`. -/
theorem C109_halves_nearest (q : ℕ) (hq : 1 ≤ q) : KeepsHalves (flRound q) ((2 : ℝ) ^ (q - 1)) := by
  intro m hm
  have h : |(m : ℝ)| ≤ (2 : ℝ) ^ q := by
    rw [abs_div, abs_of_pos (by norm_num : (0 : ℝ) < 2)] at hm
    obtain ⟨r, rfl⟩ : ∃ r, q = r + 1 := ⟨q - 1, by omega⟩
    rw [pow_succ]
    simp only [Nat.add_sub_cancel] at hm
    linarith
  have := flRound_exact hq m (-1) h
  simpa [div_eq_mul_inv] using this

/-- The machine's `x / 2.` for real samples. -/
noncomputable def flHalf {rnd : ℝ → ℝ} (a : Fl rnd) : Fl rnd := ⟨rnd (a.val / 2)⟩

/-- **C109** is false of `auto_sum` for regular data: the sum `2^-60` at delay 2 is computed as zero. -/
theorem C109_auto_refuted : ∃ a b c, autoSumWith flHalf brightMiddle none (some 3) none = .ok [a, b, c] ∧ c.val = 0
    ∧ selfSum mean2 (stream (brightMiddle.map Fl.val) none) 2 = (2 : ℝ) ^ (-60 : ℤ) := by
  obtain ⟨r0, r1, r2, r3, r4⟩ := double_small
  have hc : flRound 53 (0 + flRound 53 (flRound 53 (0 + flRound 53 (flRound 53 (flRound 53 (flRound 53
      (flRound 53 (flRound 53 (flRound 53 (flRound 53 (0 + (2 : ℝ) ^ (-60 : ℤ)) + 1) + (2 : ℝ) ^ (-60 : ℤ))
        + flRound 53 (flRound 53 (flRound 53 (0 + (2 : ℝ) ^ (-60 : ℤ)) + 1) + (2 : ℝ) ^ (-60 : ℤ)))
      - (2 : ℝ) ^ (-60 : ℤ)) - (2 : ℝ) ^ (-60 : ℤ)) - 1) - 1)) / 2)) = 0 := by
    rw [zero_add, zero_add, zero_add, r3, add_comm ((2 : ℝ) ^ (-60 : ℤ)) 1, round53_tiny, round53_tiny, show (1 : ℝ) + 1 = 2 by norm_num,
      r2, round53_below, round53_below, show (2 : ℝ) - 1 = 1 by norm_num, r1, sub_self, r0, r0, zero_div, r0, r0]
  have key : ∃ a b c, autoSumWith flHalf brightMiddle none (some 3) none = .ok [a, b, c] ∧ c.val = 0 :=
    ⟨_, _, _, rfl, hc⟩
  obtain ⟨a, b, c, h1, h2⟩ := key
  refine ⟨a, b, c, h1, h2, ?_⟩
  simp [selfSum_eq, stream, regular, selfPairs, brightMiddle, mean2]

-- The hypotheses of the theorems above for real samples in double precision, with time stamps out of order.
example : Rounds (flRound 53) ((2 : ℝ) ^ (-53 : ℤ)) ∧ KeepsHalves (flRound 53) ((2 : ℝ) ^ 52)
    ∧ Part (flRound 53) (fun a : Fl (flRound 53) => a.val) ∧ (∀ a : Fl (flRound 53), (flHalf a).val = flRound 53 (a.val / 2))
    ∧ ValidAuto 3 (some [5, -2, 1]) ∧ ([5, -2, 1] : List Int).Nodup :=
  ⟨flRound_rounds 53, C109_halves_nearest 53 (by norm_num), C109_parts.1, fun _ => rfl, by simp [ValidAuto], by decide⟩

-- Two samples 1 and 2 one unit of time apart: `auto_sum` gives 3 and 3/2, exactly.
example : ∃ a b : Fl (flRound 53), autoSumWith flHalf [⟨1⟩, ⟨2⟩] (some [4, 3]) (some 2) none = .ok [a, b] ∧ a.val = 3
    ∧ b.val = 3 / 2 := by
  obtain ⟨out, h1, h2, h3⟩ := C109_auto_whole_stamped (C109_halves_nearest 53 (by norm_num)) (C109_parts (rnd := flRound 53)).1 flHalf
    (fun _ => rfl) [⟨1⟩, ⟨2⟩] [4, 3] (some 2) none (by simp [ValidAuto]) (by decide)
    (by simp only [List.mem_cons, List.not_mem_nil, or_false]; rintro a (rfl | rfl)
        · exact ⟨1, by simp⟩
        · exact ⟨2, by simp⟩)
    (fun k => ⟨0, by simp [start, (C109_parts (rnd := flRound 53)).1.zero]⟩)
  have h2' : out.length = 2 := by simpa [outLen] using h2
  obtain ⟨a, b, rfl⟩ := List.length_eq_two.mp h2'
  have z : (0 : Fl (flRound 53)).val = 0 := (C109_parts (rnd := flRound 53)).1.zero
  refine ⟨a, b, h1, ?_, ?_⟩
  · have := h3 0 (by simp) (by simp [start, z, selfSum_eq, stream, selfPairs, meanAbs]; norm_num)
    simp [start, z, selfSum_eq, stream, selfPairs, mean2] at this
    linarith
  · have := h3 1 (by simp) (by simp [start, z, selfSum_eq, stream, selfPairs, meanAbs]; norm_num)
    simp [start, z, selfSum_eq, stream, selfPairs, mean2] at this
    linarith

end Cddm
