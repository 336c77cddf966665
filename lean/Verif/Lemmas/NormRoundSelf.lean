import Verif.Lemmas.NormRoundRun
import Verif.Props.RoundingAuto

/-! # Lemmas: rounding in the normalization of autocorrelations -/

namespace Cddm
open Spec

section streams
variable {α N : Type} [AddCommMonoid N]

theorem selfSum_exact {rnd : ℝ → ℝ} (G : Cx ℝ → Cx ℝ → N) (f : List (Cx (Fl rnd))) (t : Option (List Int)) (k : Nat) :
    selfSum (fun a b => G (exact a) (exact b)) (stream f t) k = total G (selfPairsAt (stream (f.map exact) t) k) := by
  rw [← selfSum_total', stream_map_fl, selfSum_mapStream]

theorem selfSum_nat (g : α → α → ℕ) (s : Stream α) (k : Nat) : ((selfSum g s k : ℕ) : ℝ) = selfSum (fun a b => (g a b : ℝ)) s k := by
  simp [selfSum, Nat.cast_list_sum, List.map_map, Function.comp_def]

theorem pairSum_nat {β : Type} (g : α → β → ℕ) (s : Stream α) (s' : Stream β) (k : Nat) :
    ((pairSum g s s' k : ℕ) : ℝ) = pairSum (fun a b => (g a b : ℝ)) s s' k := by
  simp [pairSum, Nat.cast_list_sum, List.map_map, Function.comp_def]

end streams

section run
variable {rnd : ℝ → ℝ} {u : ℝ} {M : Type} [Zero M] [Add M] [Sub M] {p : M → ℝ}

/-- `auto_sum` adds at most twice as many samples as there are pairs. -/
theorem twice_pairs (f : List M) (t : List Int) (hv : ValidAuto f.length (some t)) (hd : t.Nodup) (k : Nat) :
    pairSum oneFst (stream (f.map p) (some t)) (otherStream f.length (some t)) k ≤ 2 * selfSum (fun _ _ => 1) (stream f (some t)) k := by
  have h := auto_halves_part (fun _ : M => (1 : ℝ)) f (some t) hv (by rintro u ⟨⟩; exact hd) k (by simp)
  rw [stream_map_fl, selfSum_mapStream] at h
  have e1 : selfSum (fun _ _ => mean2 (1 : ℝ) 1) (stream f (some t)) k = ((selfSum (fun _ _ => 1) (stream f (some t)) k : ℕ) : ℝ) := by
    rw [selfSum_nat]; norm_num [mean2]
  have e2 : pairSum (fun (_ : M) (_ : Unit) => (1 : ℝ)) (stream f (some t)) (otherStream f.length (some t)) k
      = ((pairSum oneFst (stream (f.map p) (some t)) (otherStream f.length (some t)) k : ℕ) : ℝ) := by
    rw [pairSum_nat, stream_map_fl]
    have := pairSum_mapStream (fun (a : ℝ) (b : Unit) => ((oneFst a b : ℕ) : ℝ)) p (fun a => a) (stream f (some t))
      (otherStream f.length (some t)) k
    rw [show mapStream (fun a : Unit => a) (otherStream f.length (some t)) = otherStream f.length (some t) by simp [mapStream]] at this
    rw [this]
    simp [oneFst]
  rw [e1, e2] at h
  have h' : ((pairSum oneFst (stream (f.map p) (some t)) (otherStream f.length (some t)) k : ℕ) : ℝ)
      ≤ 2 * ((selfSum (fun _ _ => 1) (stream f (some t)) k : ℕ) : ℝ) := by
    split_ifs at h
    · rw [← h]
      have : (0 : ℝ) ≤ ((pairSum oneFst (stream (f.map p) (some t)) (otherStream f.length (some t)) k : ℕ) : ℝ) := Nat.cast_nonneg _
      linarith
    · rw [← h, smul_eq_mul]; linarith
  exact_mod_cast h'

theorem self_run (hr : Rounds rnd u) (hp : Part rnd p) (half : M → M) (hh : ∀ a, p (half a) = rnd (p a / 2)) (f : List M)
    (t : List Int) (c : Int) (n : Nat) (hv : ValidAuto f.length (some t)) (hd : t.Nodup) (s : List M)
    (hs : autoSumWith half f (some (t.map (· - c))) (some n) none = .ok s) :
    s.length = n ∧ ∀ k (hk : k < s.length), Near u (2 * selfSum (fun _ _ => 1) (stream f (some t)) k + 2) (p s[k])
      (selfSum (fun a b => mean2 (p a) (p b)) (stream f (some t)) k)
      (selfSum (fun a b => meanAbs (p a) (p b)) (stream f (some t)) k) := by
  have hv' : ValidAuto f.length (some (t.map (· - c))) := by simpa [ValidAuto] using hv
  have hd' : (t.map (· - c)).Nodup := hd.map fun a b h => by simpa using h
  obtain ⟨out, h1, h2, h3⟩ := C109_auto_stamped hr hp half hh f (t.map (· - c)) (some n) none hv' hd'
  rw [hs] at h1
  cases h1
  refine ⟨h2, fun k hk => ?_⟩
  have h := h3 k hk
  have z0 : p (start (none : Option (List M)) k) = 0 := hp.zero
  rw [z0, zero_add, abs_zero, zero_add] at h
  simp only [stream_map_fl, selfSum_mapStream] at h
  have e : ∀ {N : Type} [AddCommMonoid N] (g : M → M → N), selfSum g (stream f (some (t.map (· - c)))) k = selfSum g (stream f (some t)) k :=
    fun g => selfSum_subT g f (some t) c k
  have hc := twice_pairs (p := p) f (t.map (· - c)) hv' hd' k
  rw [stream_map_fl] at hc
  rw [e] at hc
  rw [e, e] at h
  have hle : |selfSum (fun a b => mean2 (p a) (p b)) (stream f (some t)) k| ≤ selfSum (fun a b => meanAbs (p a) (p b)) (stream f (some t)) k := by
    rw [selfSum_total', selfSum_total']
    refine (Near.sumTo (u := 0) (m := 0) (g' := fun a b => mean2 (p a) (p b)) _ fun a b => ⟨?_, by simp⟩).1
    unfold mean2 meanAbs
    rw [abs_div, abs_of_pos (by norm_num : (0 : ℝ) < 2)]
    have := abs_add_le (p a) (p b)
    linarith
  exact Near.mono hr.1 (m := pairSum oneFst (mapStream p (stream f (some (t.map (· - c))))) (otherStream f.length (some (t.map (· - c)))) k + 2)
    ⟨hle, h⟩ (by omega)

theorem halfFl_val {B : ℝ} (hk : KeepsHalves rnd B) (h2 : 2 ≤ B) (x : Fl rnd) : (halfFl x).val = rnd (x.val / 2) := by
  show rnd (x.val / (flConst rnd 2).val) = _
  rw [flConst_val (x := 2) hk 4 (by norm_num) (by rw [abs_of_nonneg (by norm_num)]; exact h2)]

end run

section cell
variable {rnd : ℝ → ℝ} {u B : ℝ} {P : List (Cx ℝ × Cx ℝ)} {c q : Fl rnd} {m : Cx (Fl rnd)}

/-- The machine's sums for one delay of an autocorrelation. -/
structure SelfNear (u : ℝ) (P : List (Cx ℝ × Cx ℝ)) (z : Int) (c q : Fl rnd) (m : Cx (Fl rnd)) : Prop where
  cor : Near u (P.length + 2) c.val (total reProd P) (total absProd P)
  sq : (z = 2 ∨ z = 6 ∨ z = 10 ∨ z = 14) →
    Near u (2 * P.length + 5) q.val (total (fun a b => a.abs2 + b.abs2) P) (total (fun a b => a.abs2 + b.abs2) P)
  re : z ≠ 1 → z ≠ 2 → Near u (2 * P.length + 2) m.re.val (total (fun a b => mean2 a.re b.re) P) (total (fun a b => meanAbs a.re b.re) P)
  im : z ≠ 1 → z ≠ 2 → Near u (2 * P.length + 2) m.im.val (total (fun a b => mean2 a.im b.im) P) (total (fun a b => meanAbs a.im b.im) P)

theorem total_mean2 (f : Cx ℝ → ℝ) (P : List (Cx ℝ × Cx ℝ)) :
    total (fun a b => mean2 (f a) (f b)) P = (total (fun a _ => f a) P + total (fun _ b => f b) P) / 2 := by
  induction P with
  | nil => simp
  | cons p P ih => simp only [total_cons]; rw [ih]; unfold mean2; ring

theorem total_meanAbs (f : Cx ℝ → ℝ) (P : List (Cx ℝ × Cx ℝ)) :
    total (fun a b => meanAbs (f a) (f b)) P = (total (fun a _ => |f a|) P + total (fun _ b => |f b|) P) / 2 :=
  total_mean2 (fun a => |f a|) P

theorem total_both (P : List (Cx ℝ × Cx ℝ)) :
    total (fun a b => (1 / 2 : ℝ) • (a + b)) P = ⟨total (fun a b => mean2 a.re b.re) P, total (fun a b => mean2 a.im b.im) P⟩ := by
  induction P with
  | nil => rfl
  | cons p P ih =>
    simp only [total_cons]
    rw [ih]
    ext <;> simp [mean2] <;> ring

theorem total_both_moduli (P : List (Cx ℝ × Cx ℝ)) :
    total (fun a b => (1 / 2 : ℝ) • (moduli a + moduli b)) P
      = ⟨total (fun a b => meanAbs a.re b.re) P, total (fun a b => meanAbs a.im b.im) P⟩ := by
  induction P with
  | nil => rfl
  | cons p P ih =>
    simp only [total_cons]
    rw [ih]
    ext <;> simp [meanAbs, moduli] <;> ring

theorem selfcell_structBaseline (hr : Rounds rnd u) (hk : KeepsHalves rnd B) (h2 : 2 ≤ B) (h0 : P ≠ []) (hB : (P.length : ℝ) ≤ B)
    (h : SelfNear u P 2 c q m) (b1 b2 : Cx (Fl rnd)) {v : Fl rnd} {w W : ℝ} (hv : Near u 2 v.val w W) :
    ∃ y, structBaselineFl c P.length b1 b2 v q = some y
      ∧ Near u (2 * P.length + 10) y.val (w - (1 / 2) * mean dist2 P + (1 / 2) * dist2 (exact b1) (exact b2))
        (W + (1 / 2) * mean absDist P + (1 / 2) * absDist (exact b1) (exact b2)) := by
  have g1 := half_near hr hk h2 (h.sq (by norm_num)) (k := 2 * P.length + 6) (by omega)
  have g2 : Near u (2 * P.length + 7) (c - flConst rnd (1 / 2) * q).val _ _ := Near.subTo hr h.cor g1 (by omega) (by omega)
  obtain ⟨x, hx, g3⟩ := divCountFl_near hr hk h0 hB g2 (k := 2 * P.length + 8) (by omega)
  refine ⟨_, by rw [structBaselineFl, hx]; rfl, ?_⟩
  refine Near.congr (Near.addTo hr (Near.addTo hr g3 (bgDist_near hr hk h2 b1 b2) (k := 2 * P.length + 9) (by omega) (by omega)) hv
    (by omega) (by omega)) ?_ ?_
  · simp only [mean, smul_eq_mul, total_dist2]; ring
  · simp only [mean, smul_eq_mul, total_absDist]; ring

theorem selfcell_subtracted (hr : Rounds rnd u) (hk : KeepsHalves rnd B) (h0 : P ≠ []) (hB : (P.length : ℝ) ≤ B) {z : Int}
    (h : SelfNear u P z c q m) (hz : z ≠ 1) (hz' : z ≠ 2) (b : Cx (Fl rnd)) :
    ∃ y, corrSubtractedFl c P.length b b m m = some y
      ∧ Near u (2 * P.length + 10) y.val (mean (fun a a' => reProd (a - exact b) (a' - exact b)) P)
        (mean (fun a a' => absProd (moduli a + moduli (exact b)) (moduli a' + moduli (exact b))) P) := by
  have hN := len_ne h0
  have r1 := Near.mulTo hr (Near.refl b.re.val) (h.re hz hz') (k := 2 * P.length + 3) (by omega)
  have i1 := Near.mulTo hr (Near.refl b.im.val) (h.im hz hz') (k := 2 * P.length + 3) (by omega)
  have g1 := Near.subTo hr h.cor r1 (k := 2 * P.length + 4) (by omega) (by omega)
  have g2 := Near.subTo hr g1 i1 (k := 2 * P.length + 5) (by omega) (by omega)
  have g3 := Near.subTo hr g2 r1 (k := 2 * P.length + 6) (by omega) (by omega)
  have g4 : Near u (2 * P.length + 7) (c - b.re * m.re - b.im * m.im - b.re * m.re - b.im * m.im).val _ _ :=
    Near.subTo hr g3 i1 (by omega) (by omega)
  obtain ⟨x, hx, g5⟩ := divCountFl_near hr hk h0 hB g4 (k := 2 * P.length + 8) (by omega)
  refine ⟨_, by rw [corrSubtractedFl, hx]; rfl, ?_⟩
  have g6 := Near.addTo hr g5 (Near.mulTo hr (Near.refl b.re.val) (Near.refl b.re.val) (k := 1) (by omega)) (k := 2 * P.length + 9)
    (by omega) (by omega)
  have g7 := Near.addTo hr g6 (Near.mulTo hr (Near.refl b.im.val) (Near.refl b.im.val) (k := 1) (by omega)) (k := 2 * P.length + 10)
    (by omega) (by omega)
  refine Near.congr g7 ?_ ?_
  · simp only [mean, smul_eq_mul, total_reProd_shift, dot, total_fst_re, total_fst_im, total_snd_re, total_snd_im, exact,
      total_mean2 fun a => a.re, total_mean2 fun a => a.im]
    field_simp
    ring
  · rw [mean, total_absProd_shift, show absProd (exact b) (exact b) = |b.re.val| * |b.re.val| + |b.im.val| * |b.im.val| by
      simp only [absProd, abs_mul, exact]]
    simp only [smul_eq_mul, exact, total_meanAbs fun a => a.re, total_meanAbs fun a => a.im]
    field_simp
    ring

theorem selfcell_structSubtracted (hr : Rounds rnd u) (hk : KeepsHalves rnd B) (h2 : 2 ≤ B) (h0 : P ≠ []) (hB : (P.length : ℝ) ≤ B)
    {z : Int} (h : SelfNear u P z c q m) (hz : z = 6 ∨ z = 14) (b : Cx (Fl rnd)) {v : Fl rnd} {w W : ℝ} (hv : Near u 2 v.val w W) :
    ∃ y, structSubtractedFl c P.length b b v q m m = some y
      ∧ Near u (2 * P.length + 12) y.val (w - (1 / 2) * mean (fun a a' => dist2 (a - exact b) (a' - exact b)) P)
        (W + (1 / 2) * mean (fun a a' => absDist (moduli a + moduli (exact b)) (moduli a' + moduli (exact b))) P) := by
  have hN := len_ne h0
  have hz1 : z ≠ 1 := by omega
  have hz2 : z ≠ 2 := by omega
  have g1 := half_near hr hk h2 (h.sq (by omega)) (k := 2 * P.length + 6) (by omega)
  have g2 := Near.subTo hr h.cor g1 (k := 2 * P.length + 7) (by omega) (by omega)
  have dre := Near.subTo hr (h.re hz1 hz2) (h.re hz1 hz2) (k := 2 * P.length + 3) (by omega) (by omega)
  have dim := Near.subTo hr (h.im hz1 hz2) (h.im hz1 hz2) (k := 2 * P.length + 3) (by omega) (by omega)
  have bre := Near.subTo hr (Near.refl b.re.val) (Near.refl b.re.val) (k := 1) (by omega) (by omega)
  have bim := Near.subTo hr (Near.refl b.im.val) (Near.refl b.im.val) (k := 1) (by omega) (by omega)
  have g3 := Near.addTo hr g2 (Near.mulTo hr dre bre (k := 2 * P.length + 5) (by omega)) (k := 2 * P.length + 8) (by omega) (by omega)
  have g4 : Near u (2 * P.length + 9) (c - flConst rnd (1 / 2) * q + (m.re - m.re) * (b.re - b.re)
      + (m.im - m.im) * (b.im - b.im)).val _ _ :=
    Near.addTo hr g3 (Near.mulTo hr dim bim (k := 2 * P.length + 5) (by omega)) (by omega) (by omega)
  obtain ⟨x, hx, g5⟩ := divCountFl_near hr hk h0 hB g4 (k := 2 * P.length + 10) (by omega)
  refine ⟨_, by rw [structSubtractedFl, hx]; rfl, ?_⟩
  refine Near.congr (Near.addTo hr (Near.subTo hr g5 (bgDist_near hr hk h2 b b) (k := 2 * P.length + 11) (by omega) (by omega)) hv
    (by omega) (by omega)) ?_ ?_
  · simp only [mean, smul_eq_mul, total_dist2_shift, total_dist2, dot, Cx.sub_re, Cx.sub_im, total_fst_re, total_fst_im, total_snd_re,
      total_snd_im, exact, total_mean2 fun a => a.re, total_mean2 fun a => a.im]
    field_simp
    ring
  · simp only [mean, smul_eq_mul, total_absDist_shift, total_absDist, exact, total_meanAbs fun a => a.re, total_meanAbs fun a => a.im]
    field_simp
    ring

theorem meanAbs_total_abs (f : Cx ℝ → ℝ) (P : List (Cx ℝ × Cx ℝ)) :
    |total (fun a b => meanAbs (f a) (f b)) P| = total (fun a b => meanAbs (f a) (f b)) P :=
  abs_of_nonneg (total_nonneg _ (fun a b => by unfold meanAbs; positivity) P)

theorem selfcell_compensated (hr : Rounds rnd u) (hk : KeepsHalves rnd B) (h0 : P ≠ []) (hB : (P.length : ℝ) ≤ B)
    (h : SelfNear u P 9 c q m) :
    ∃ y, corrCompensatedFl c P.length m m = some y
      ∧ Near u (4 * P.length + 9) y.val (mean (fun a b => reProd (a - bothMean P) (b - bothMean P)) P)
        (mean absProd P + absProd (mean (fun a b => (1 / 2 : ℝ) • (moduli a + moduli b)) P)
          (mean (fun a b => (1 / 2 : ℝ) • (moduli a + moduli b)) P)) := by
  have hN := len_ne h0
  have r := Near.mulTo hr (h.re (by norm_num) (by norm_num)) (h.re (by norm_num) (by norm_num)) (k := 4 * P.length + 5) (by omega)
  have i := Near.mulTo hr (h.im (by norm_num) (by norm_num)) (h.im (by norm_num) (by norm_num)) (k := 4 * P.length + 5) (by omega)
  have g1 : Near u (4 * P.length + 6) (m.re * m.re + m.im * m.im).val _ _ := Near.addTo hr r i (by omega) (by omega)
  obtain ⟨x, hx, g2⟩ := divCountFl_near hr hk h0 hB g1 (k := 4 * P.length + 7) (by omega)
  have g3 : Near u (4 * P.length + 8) (c - x).val _ _ := Near.subTo hr h.cor g2 (by omega) (by omega)
  obtain ⟨y, hy, g4⟩ := divCountFl_near hr hk h0 hB g3 (k := 4 * P.length + 9) (by omega)
  refine ⟨y, by rw [corrCompensatedFl, hx, Option.bind_some, hy], Near.congr g4 ?_ ?_⟩
  · rw [mean, total_reProd_shift]
    simp only [bothMean, mean, total_both, smul_eq_mul, dot, Cx.smul_re, Cx.smul_im, total_fst_re, total_fst_im, total_snd_re, total_snd_im,
      total_mean2 fun a => a.re, total_mean2 fun a => a.im]
    field_simp
    ring
  · simp only [mean, smul_eq_mul, absProd, total_both_moduli, Cx.smul_re, Cx.smul_im, abs_mul]
    rw [meanAbs_total_abs fun a => a.re, meanAbs_total_abs fun a => a.im, abs_of_nonneg (show (0 : ℝ) ≤ 1 / P.length by positivity)]
    field_simp

theorem selfcell_structCompensated (hr : Rounds rnd u) (hk : KeepsHalves rnd B) (h2 : 2 ≤ B) (h0 : P ≠ []) (hB : (P.length : ℝ) ≤ B)
    (h : SelfNear u P 10 c q m) {v : Fl rnd} {w W : ℝ} (hv : Near u 2 v.val w W) :
    ∃ y, structCompensatedFl c P.length v q m m = some y
      ∧ Near u (4 * P.length + 14) y.val (w - (1 / 2) * mean (fun a b => dist2 (a - bothMean P) (b - bothMean P)) P)
        (W + (1 / 2) * mean absDist P + (1 / 2) * absDist (mean (fun a b => (1 / 2 : ℝ) • (moduli a + moduli b)) P)
          (mean (fun a b => (1 / 2 : ℝ) • (moduli a + moduli b)) P)) := by
  have hN := len_ne h0
  have dre := Near.subTo hr (h.re (by norm_num) (by norm_num)) (h.re (by norm_num) (by norm_num)) (k := 2 * P.length + 3) (by omega) (by omega)
  have dim := Near.subTo hr (h.im (by norm_num) (by norm_num)) (h.im (by norm_num) (by norm_num)) (k := 2 * P.length + 3) (by omega) (by omega)
  have g1 : Near u (4 * P.length + 8) ((m.re - m.re) * (m.re - m.re) + (m.im - m.im) * (m.im - m.im)).val _ _ :=
    Near.addTo hr (Near.mulTo hr dre dre (k := 4 * P.length + 7) (by omega)) (Near.mulTo hr dim dim (k := 4 * P.length + 7) (by omega))
      (by omega) (by omega)
  have g2 := half_near hr hk h2 g1 (k := 4 * P.length + 9) (by omega)
  obtain ⟨x, hx, g3⟩ := divCountFl_near hr hk h0 hB g2 (k := 4 * P.length + 10) (by omega)
  have g4 := Near.addTo hr h.cor g3 (k := 4 * P.length + 11) (by omega) (by omega)
  have g5 : Near u (4 * P.length + 12) (c + x - flConst rnd (1 / 2) * q).val _ _ :=
    Near.subTo hr g4 (half_near hr hk h2 (h.sq (by norm_num)) (k := 2 * P.length + 6) (by omega)) (by omega) (by omega)
  obtain ⟨y, hy, g6⟩ := divCountFl_near hr hk h0 hB g5 (k := 4 * P.length + 13) (by omega)
  refine ⟨_, by rw [structCompensatedFl, hx, Option.bind_some, hy]; rfl, Near.congr (Near.addTo hr g6 hv (by omega) (by omega)) ?_ ?_⟩
  · rw [mean, total_dist2_shift, total_dist2]
    simp only [bothMean, mean, total_both, smul_eq_mul, dist2, Cx.abs2, dot, Cx.sub_re, Cx.sub_im, Cx.smul_re, Cx.smul_im, total_fst_re,
      total_fst_im, total_snd_re, total_snd_im]
    field_simp
    ring
  · simp only [mean, smul_eq_mul, total_absDist]
    simp only [absDist, total_both_moduli, Cx.smul_re, Cx.smul_im, smul_eq_mul, abs_mul]
    rw [meanAbs_total_abs fun a => a.re, meanAbs_total_abs fun a => a.im, abs_of_nonneg (show (0 : ℝ) ≤ 1 / P.length by positivity)]
    field_simp
    ring

end cell

end Cddm
