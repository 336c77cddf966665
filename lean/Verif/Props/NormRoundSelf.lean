import Verif.Lemmas.NormRoundSelf
import Verif.Props.NormRound

/-!
# C128: rounding errors of normalized autocorrelation data
-/

namespace Cddm
open Spec

section
variable {rnd : ℝ → ℝ} {u B : ℝ}

theorem normCellFl_self (hr : Rounds rnd u) (hk : KeepsHalves rnd B) (h2 : 2 ≤ B) {P : List (Cx ℝ × Cx ℝ)} (h0 : P ≠ [])
    (hB : (P.length : ℝ) ≤ B) {z : Int} (hz : PlainNorm z) {c q : Fl rnd} {m : Cx (Fl rnd)} (h : SelfNear u P z c q m)
    (b : Cx (Fl rnd)) (w : Fl rnd) :
    ∃ y, normCellFl z.toNat b b (offsetFl w w) c P.length q m m = some y
      ∧ Near u (4 * P.length + 14) y.val (autoFormula (.one (exact b)) w.val z P) (selfSize (exact b) |w.val| z P) := by
  have hv := offset_near hr hk h2 w w
  rw [show (w.val + w.val) / 2 = w.val by ring, show (|w.val| + |w.val|) / 2 = |w.val| by ring] at hv
  simp only [PlainNorm, List.mem_cons, List.not_mem_nil, or_false] at hz
  rcases hz with rfl | rfl | rfl | rfl | rfl | rfl | rfl | rfl
  · have hc : CellNear u P 1 c q m m := ⟨h.cor, by norm_num, by norm_num, by norm_num, by norm_num, by norm_num⟩
    obtain ⟨y, hy, g⟩ := cell_baselineFl hr hk h0 hB hc b b
    exact ⟨y, hy, g.mono hr.1 (by omega)⟩
  · obtain ⟨y, hy, g⟩ := selfcell_structBaseline hr hk h2 h0 hB h b b hv
    exact ⟨y, hy, g.mono hr.1 (by omega)⟩
  · obtain ⟨y, hy, g⟩ := selfcell_subtracted hr hk h0 hB h (by norm_num) (by norm_num) b
    exact ⟨y, hy, g.mono hr.1 (by omega)⟩
  · obtain ⟨y, hy, g⟩ := selfcell_structSubtracted hr hk h2 h0 hB h (by norm_num) b hv
    exact ⟨y, hy, g.mono hr.1 (by omega)⟩
  · obtain ⟨y, hy, g⟩ := selfcell_compensated hr hk h0 hB h
    exact ⟨y, hy, g.mono hr.1 (by omega)⟩
  · obtain ⟨y, hy, g⟩ := selfcell_structCompensated hr hk h2 h0 hB h hv
    exact ⟨y, hy, g⟩
  · obtain ⟨y, hy, g⟩ := selfcell_subtracted hr hk h0 hB h (by norm_num) (by norm_num) b
    exact ⟨y, hy, g.mono hr.1 (by omega)⟩
  · obtain ⟨y, hy, g⟩ := selfcell_structSubtracted hr hk h2 h0 hB h (by norm_num) b hv
    exact ⟨y, hy, g.mono hr.1 (by omega)⟩

/-- Twice the modulus squared, rounded three times. -/
theorem twiceSq_near (hr : Rounds rnd u) (hk : KeepsHalves rnd B) (h2 : 2 ≤ B) (x : Cx (Fl rnd)) :
    Near u 3 (flConst rnd 2 * abs2Fl x).val (2 * (exact x).abs2) (2 * (exact x).abs2) := by
  show Near u 3 (rnd ((flConst rnd 2).val * (abs2Fl x).val)) _ _
  rw [flConst_val (x := 2) hk 4 (by norm_num) (by rw [abs_of_nonneg (by norm_num)]; exact h2), abs2Fl_val]
  exact Near.scaleTo hr (by norm_num) (roundedSq_near hr (exact x)) (by omega)

theorem total_mono {α β : Type} {g G : α → β → ℝ} (h : ∀ a b, g a b ≤ G a b) (P : List (α × β)) : total g P ≤ total G P := by
  induction P with
  | nil => simp
  | cons p P ih => simp only [total_cons]; linarith [h p.1 p.2]

theorem total_mul {α β : Type} (c : ℝ) (g : α → β → ℝ) (P : List (α × β)) : total (fun a b => c * g a b) P = c * total g P := by
  induction P with
  | nil => simp
  | cons p P ih => simp only [total_cons, ih]; ring

/-- The tuple computed by the machine for time-stamped data. -/
theorem acorrFl_stamped (hr : Rounds rnd u) (hk : KeepsHalves rnd B) (h2 : 2 ≤ B) (f : List (Cx (Fl rnd))) (t : List Int)
    (n : Option Nat) (v : Int) (aligned : Bool) (hv : ValidAuto f.length (some t)) (hd : t.Nodup) (hn : SupportedNorm "corr" false v) :
    ∃ d, acorrFl f (some t) n (some v) aligned = .ok d
      ∧ d.cor.length = n.getD (defaultN f.length (some t) (some t))
      ∧ d.sq.isSome = needsSquares v.toNat ∧ d.ds1.isSome = needsSums v.toNat ∧ d.ds2 = none
      ∧ ∀ k < d.cor.length, ∀ z : Int, Prepared v z →
        let P := selfPairsAt (stream (f.map exact) (some t)) k
        d.count.getD k 0 = P.length ∧ SelfNear u P z (d.cor.getD k 0) ((d.sq.getD []).getD k 0) ((d.ds1.getD []).getD k 0) := by
  obtain ⟨c, ht⟩ := inspectAuto_sub f.length (some t) n none _ rfl hv
  have hnorm : defaultNorm (some v) "corr" false = .ok v.toNat := defaultNorm_ok (norm := some v) hn
  obtain ⟨w1, w2⟩ := wants_needs (v := v) hn
  set n' := delays false n none (defaultN f.length (some t) (some t)) with hn'
  have hv' : ValidAuto f.length (some (t.map (· - c))) := by simpa [ValidAuto] using hv
  have hd' : (t.map (· - c)).Nodup := hd.map fun a b h => by simpa using h
  obtain ⟨cor, hcor, lcor, ncor⟩ := autoCorrelate_tracks (Q := Cell u 2) f (some (t.map (· - c))) (some n') aligned none hv'
    (fun a b => (reProd (exact a) (exact b), absProd (exact a) (exact b), one (exact a) (exact b)))
    (fun a _ b _ => Cell.steps hr (termRe_near hr a b))
    (fun a _ b _ => by
      rw [reProd_comm', absProd_comm]
      exact Cell.steps hr (termRe_near hr b a))
    (fun k => (0, 0, 0)) (fun k => by simp [Cell, Near, start]; rfl)
  have lcor' : cor.length = n' := lcor
  have hcount := autoCount_sub f (some t) c n' none hv
  simp only [subT, Option.map_some, Option.getD_some] at hcount
  obtain ⟨cnt, hcnt, ecnt⟩ : ∃ cnt, autoCount (.array (t.map (· - c))) (some n') none = .ok cnt
      ∧ ∀ k < n', cnt.getD k 0 = selfSum (fun _ _ => 1) (stream f (some t)) k := ⟨_, hcount, fun k hk' => by
    simp only [fieldLen, Bool.false_eq_true, if_false, List.getD_eq_getElem?_getD, addSeq_getElem?, startOut, Option.getD_none,
        List.getElem?_replicate, if_pos hk', Option.map_some, Option.getD_some, zero_add]⟩
  have hsl : ((f.map abs2Fl).map (flConst rnd 2 * ·)).length = f.length := by simp
  obtain ⟨s, hs, -, -⟩ := C109_auto_stamped hr C109_parts.1 halfFl (halfFl_val hk h2) ((f.map abs2Fl).map (flConst rnd 2 * ·))
    (t.map (· - c)) (some n') none (by rw [hsl]; exact hv') hd'
  obtain ⟨m, hm, -, -⟩ := C109_auto_stamped hr C109_parts.2.1 halfCxFl (fun a => halfFl_val hk h2 a.re) f
    (t.map (· - c)) (some n') none hv' hd'
  obtain ⟨ls, ns⟩ := self_run hr C109_parts.1 halfFl (halfFl_val hk h2) ((f.map abs2Fl).map (flConst rnd 2 * ·)) t c n'
    (by rw [hsl]; exact hv) hd s hs
  obtain ⟨lm, nre⟩ := self_run hr C109_parts.2.1 halfCxFl (fun a => halfFl_val hk h2 a.re) f t c n' hv hd m hm
  obtain ⟨-, nim⟩ := self_run hr C109_parts.2.2 halfCxFl (fun a => halfFl_val hk h2 a.im) f t c n' hv hd m hm
  refine ⟨⟨cor, cnt, if needsSquares v.toNat = true then some s else none, if needsSums v.toNat = true then some m else none, none⟩,
    ?_, ?_, ?_, ?_, rfl, ?_⟩
  · unfold acorrFl
    simp only [hnorm, ht, bind, Except.bind]
    simp only [subT, Option.map_some, Option.getD_some]
    rw [hcor]
    simp only []
    rw [hcnt]
    simp only []
    rw [hs, hm]
    by_cases h1 : needsSquares v.toNat = true <;> by_cases h2 : needsSums v.toNat = true <;> simp [h1, h2, Except.map]
  · exact lcor'
  · show (if _ then _ else _ : Option _).isSome = _
    cases needsSquares v.toNat <;> rfl
  · show (if _ then _ else _ : Option _).isSome = _
    cases needsSums v.toNat <;> rfl
  · intro k hk1 z hp P
    have hk' : k < n' := by rw [← lcor']; exact hk1
    have hlen : selfSum (fun _ _ => 1) (stream f (some t)) k = P.length := by
      rw [selfSum_exact (fun _ _ => 1) f (some t) k]
      exact total_count P
    have e : ∀ {N : Type} [AddCommMonoid N] (g : Cx (Fl rnd) → Cx (Fl rnd) → N),
        selfSum g (stream f (some (t.map (· - c)))) k = selfSum g (stream f (some t)) k := fun g => selfSum_subT g f (some t) c k
    refine ⟨?_, ?_, ?_, ?_, ?_⟩
    · exact (ecnt k hk').trans hlen
    · have h := ncor k (by omega)
      rw [selfSum_prod, selfSum_prod, e, e, e, selfSum_exact, selfSum_exact, selfSum_exact] at h
      rw [show cor.getD k 0 = cor[k] by rw [List.getD_eq_getElem?_getD, List.getElem?_eq_getElem (by omega)]; rfl]
      have e1 : total one P = P.length := total_count P
      simp only [Cell, Prod.mk_add_mk, zero_add] at h
      rw [← e1]
      exact h
    · intro hz
      simp only [if_pos (w1.mpr (hp.1 hz)), Option.getD_some]
      have h := ns k (by omega)
      rw [show s.getD k 0 = s[k] by rw [List.getD_eq_getElem?_getD, List.getElem?_eq_getElem (by omega)]; rfl]
      rw [List.map_map, stream_map_fl, selfSum_mapStream, selfSum_mapStream, selfSum_mapStream, hlen, selfSum_total', selfSum_total'] at h
      have e1 := selfSum_exact (fun a b => a.abs2 + b.abs2) f (some t) k
      rw [← e1, selfSum_total']
      have hG : ∀ a b : Cx (Fl rnd), Near u 3 (mean2 (flConst rnd 2 * abs2Fl a).val (flConst rnd 2 * abs2Fl b).val)
          ((exact a).abs2 + (exact b).abs2) ((exact a).abs2 + (exact b).abs2) := fun a b => by
        have h3 := (twiceSq_near hr hk h2 a).add (twiceSq_near hr hk h2 b)
        have n0 : ∀ x : Cx ℝ, 0 ≤ x.abs2 := fun x => add_nonneg (mul_self_nonneg _) (mul_self_nonneg _)
        refine ⟨(abs_of_nonneg (add_nonneg (n0 _) (n0 _))).le, ?_⟩
        have e3 : mean2 (flConst rnd 2 * abs2Fl a).val (flConst rnd 2 * abs2Fl b).val - ((exact a).abs2 + (exact b).abs2)
            = ((flConst rnd 2 * abs2Fl a).val + (flConst rnd 2 * abs2Fl b).val - (2 * (exact a).abs2 + 2 * (exact b).abs2)) / 2 := by
          unfold mean2; ring
        rw [e3, abs_div, abs_of_pos (by norm_num : (0 : ℝ) < 2)]
        linarith [h3.2]
      refine Near.trans (m := 2 * P.length + 2) (l := 3) hr.1 h (Near.sumTo _ hG) ?_
      rw [← total_mul]
      refine total_mono (fun a b => ?_) _
      have h3 := (twiceSq_near hr hk h2 a).abs_le
      have h4 := (twiceSq_near hr hk h2 b).abs_le
      simp only [Function.comp]
      unfold meanAbs
      linarith
    · intro hz hz'
      simp only [if_pos (w2.mpr (hp.2 hz hz')), Option.getD_some]
      have h := nre k (by omega)
      rw [show m.getD k 0 = m[k] by rw [List.getD_eq_getElem?_getD, List.getElem?_eq_getElem (by omega)]; rfl, ← hlen]
      have e1 := selfSum_exact (fun a b => mean2 a.re b.re) f (some t) k
      have e2 := selfSum_exact (fun a b => meanAbs a.re b.re) f (some t) k
      rw [← e1, ← e2]
      exact h
    · intro hz hz'
      simp only [if_pos (w2.mpr (hp.2 hz hz')), Option.getD_some]
      have h := nim k (by omega)
      rw [show m.getD k 0 = m[k] by rw [List.getD_eq_getElem?_getD, List.getElem?_eq_getElem (by omega)]; rfl, ← hlen]
      have e1 := selfSum_exact (fun a b => mean2 a.im b.im) f (some t) k
      have e2 := selfSum_exact (fun a b => meanAbs a.im b.im) f (some t) k
      rw [← e1, ← e2]
      exact h

theorem normalizeFl_self (hr : Rounds rnd u) (hk : KeepsHalves rnd B) (h2 : 2 ≤ B) (f : List (Cx (Fl rnd))) (t : List Int)
    (n : Option Nat) (aligned : Bool) (hv : ValidAuto f.length (some t)) (hd : t.Nodup) (v z : Int)
    (hn : SupportedNorm "corr" false v) (hz : PlainNorm z) (hp : Prepared v z) (b : Cx (Fl rnd)) (w : Fl rnd) (diff : Bool) :
    ∃ d out, acorrFl f (some t) n (some v) aligned = .ok d
      ∧ normalizeFl d b b w w (some z) diff = .ok out
      ∧ out.length = n.getD (defaultN f.length (some t) (some t))
      ∧ ∀ k < out.length,
        let P := selfPairsAt (stream (f.map exact) (some t)) k
        ∃ c q m, SelfNear u P z c q m
          ∧ out[k]? = some ((normCellFl z.toNat b b (offsetFl w w) c P.length q m m).map (postFl diff w w)) := by
  obtain ⟨d, hdok, hl, hsq, hds, hds2, hc⟩ := acorrFl_stamped hr hk h2 f t n v aligned hv hd hn
  obtain ⟨hnz, hw⟩ := normOf_prepared (v := v) hn hz hp
  refine ⟨d, (List.range d.cor.length).map fun k => (normCellFl z.toNat b b (offsetFl w w) (d.cor.getD k 0) (d.count.getD k 0)
      ((d.sq.getD []).getD k 0) ((d.ds1.getD []).getD k 0) ((d.ds1.getD []).getD k 0)).map (postFl diff w w), hdok, ?_, ?_, ?_⟩
  · unfold normalizeFl
    rw [hsq, hds, hnz, hds2]
    simp only [bind, Except.bind, hw, if_false, Option.none_or]
    rfl
  · simpa using hl
  · intro k hkl P
    simp only [List.length_map, List.length_range] at hkl
    obtain ⟨g1, g2⟩ := hc k hkl z hp
    exact ⟨_, _, _, g2, by rw [List.getElem?_map, List.getElem?_range hkl, Option.map_some, g1]⟩

/-- **C128.** Correlating a signal with distinct time stamps with itself by `acorr` and normalizing the result by `normalize`, in
floating-point arithmetic: as for `ccorr`, with exponent `4 pairs + 14`. -/
theorem C128_auto (hr : Rounds rnd u) (hk : KeepsHalves rnd B) (h2 : 2 ≤ B) (f : List (Cx (Fl rnd))) (t : List Int)
    (n : Option Nat) (aligned : Bool) (hv : ValidAuto f.length (some t)) (hd : t.Nodup) (v z : Int)
    (hn : SupportedNorm "corr" false v) (hz : PlainNorm z) (hp : Prepared v z) (b : Cx (Fl rnd)) (w : Fl rnd) :
    ∃ d out, acorrFl f (some t) n (some v) aligned = .ok d
      ∧ normalizeFl d b b w w (some z) false = .ok out
      ∧ out.length = n.getD (defaultN f.length (some t) (some t))
      ∧ ∀ k < out.length,
        let P := selfPairsAt (stream (f.map exact) (some t)) k
        (P = [] → out[k]? = some none) ∧
        (P ≠ [] → (P.length : ℝ) ≤ B → ∃ y : Fl rnd, out[k]? = some (some y)
          ∧ |y.val - autoFormula (.one (exact b)) w.val z P| ≤ ((1 + u) ^ (4 * P.length + 14) - 1) * selfSize (exact b) |w.val| z P) := by
  obtain ⟨d, out, hdok, ho, hl, hc⟩ := normalizeFl_self hr hk h2 f t n aligned hv hd v z hn hz hp b w false
  refine ⟨d, out, hdok, ho, hl, fun k hkl => ?_⟩
  intro P
  obtain ⟨c, q, m, h, hget⟩ := hc k hkl
  refine ⟨fun h0 => ?_, fun h0 hB => ?_⟩
  · rw [hget, show (selfPairsAt _ _) = [] from h0, List.length_nil, normCellFl_none]
    rfl
  · obtain ⟨y, hy, g⟩ := normCellFl_self hr hk h2 h0 hB hz h b w
    exact ⟨y, by rw [hget, hy]; rfl, g.2⟩

/-- **C128.** ... in mode "diff". -/
theorem C128_auto_diff (hr : Rounds rnd u) (hk : KeepsHalves rnd B) (h2 : 2 ≤ B) (f : List (Cx (Fl rnd))) (t : List Int)
    (n : Option Nat) (aligned : Bool) (hv : ValidAuto f.length (some t)) (hd : t.Nodup) (v z : Int)
    (hn : SupportedNorm "corr" false v) (hz : PlainNorm z) (hp : Prepared v z) (b : Cx (Fl rnd)) (w : Fl rnd) :
    ∃ d out, acorrFl f (some t) n (some v) aligned = .ok d
      ∧ normalizeFl d b b w w (some z) true = .ok out
      ∧ out.length = n.getD (defaultN f.length (some t) (some t))
      ∧ ∀ k < out.length,
        let P := selfPairsAt (stream (f.map exact) (some t)) k
        (P = [] → out[k]? = some none) ∧
        (P ≠ [] → (P.length : ℝ) ≤ B → ∃ y : Fl rnd, out[k]? = some (some y)
          ∧ |y.val - 2 * (w.val - autoFormula (.one (exact b)) w.val z P)|
            ≤ ((1 + u) ^ (4 * P.length + 16) - 1) * (2 * (|w.val| + selfSize (exact b) |w.val| z P))) := by
  obtain ⟨d, out, hdok, ho, hl, hc⟩ := normalizeFl_self hr hk h2 f t n aligned hv hd v z hn hz hp b w true
  refine ⟨d, out, hdok, ho, hl, fun k hkl => ?_⟩
  intro P
  obtain ⟨c, q, m, h, hget⟩ := hc k hkl
  refine ⟨fun h0 => ?_, fun h0 hB => ?_⟩
  · rw [hget, show (selfPairsAt _ _) = [] from h0, List.length_nil, normCellFl_none]
    rfl
  · obtain ⟨y, hy, g⟩ := normCellFl_self hr hk h2 h0 hB hz h b w
    have h3 := post_near hr hk h2 w w g (by omega)
    rw [show (w.val + w.val) / 2 = w.val by ring, show (|w.val| + |w.val|) / 2 = |w.val| by ring] at h3
    exact ⟨_, by rw [hget, hy]; rfl, h3.2⟩

end

-- The hypotheses in double precision: three time stamps out of order, data computed for all norms, each norm.
example : Rounds (flRound 53) ((2 : ℝ) ^ (-53 : ℤ)) ∧ KeepsHalves (flRound 53) ((2 : ℝ) ^ 52) ∧ (2 : ℝ) ≤ 2 ^ 52
    ∧ ValidAuto 3 (some [5, -2, 1]) ∧ ([5, -2, 1] : List Int).Nodup ∧ SupportedNorm "corr" false 7 ∧ ∀ z, PlainNorm z → Prepared 7 z := by
  refine ⟨flRound_rounds 53, by simpa using C109_halves_nearest 53 (by norm_num), by norm_num, by simp [ValidAuto], by decide, by
    simp [SupportedNorm], fun z _ => ⟨fun _ => by simp [WantsSquares], fun _ _ => by simp [WantsSums]⟩⟩

end Cddm
