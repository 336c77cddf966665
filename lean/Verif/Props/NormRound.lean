import Verif.Lemmas.NormRoundRun
import Verif.Props.Rounding
import Verif.Props.RoundingAuto

/-!
# C128: rounding errors of normalized correlation data
-/

namespace Cddm
open Spec

section
variable {rnd : ℝ → ℝ} {u B : ℝ}

theorem normCellFl_none (z : Nat) (b1 b2 : Cx (Fl rnd)) (v c q : Fl rnd) (m1 m2 : Cx (Fl rnd)) :
    normCellFl z b1 b2 v c 0 q m1 m2 = none := by
  unfold normCellFl
  split_ifs <;> simp [corrBaselineFl, structBaselineFl, corrSubtractedFl, corrCompensatedFl, structSubtractedFl, structCompensatedFl,
    divCountFl]

theorem normCellFl_near (hr : Rounds rnd u) (hk : KeepsHalves rnd B) (h2 : 2 ≤ B) {P : List (Cx ℝ × Cx ℝ)} (h0 : P ≠ [])
    (hB : (P.length : ℝ) ≤ B) {z : Int} (hz : PlainNorm z) {c q : Fl rnd} {m1 m2 : Cx (Fl rnd)} (h : CellNear u P z c q m1 m2)
    (b1 b2 : Cx (Fl rnd)) (w1 w2 : Fl rnd) :
    ∃ y, normCellFl z.toNat b1 b2 (offsetFl w1 w2) c P.length q m1 m2 = some y
      ∧ Near u (2 * P.length + 10) y.val (crossFormula (.two (exact b1) (exact b2)) ((w1.val + w2.val) / 2) z P)
        (normSize (exact b1) (exact b2) ((|w1.val| + |w2.val|) / 2) z P) := by
  have hv := offset_near hr hk h2 w1 w2
  simp only [PlainNorm, List.mem_cons, List.not_mem_nil, or_false] at hz
  rcases hz with rfl | rfl | rfl | rfl | rfl | rfl | rfl | rfl
  · obtain ⟨y, hy, g⟩ := cell_baselineFl hr hk h0 hB h b1 b2
    exact ⟨y, hy, g.mono hr.1 (by omega)⟩
  · obtain ⟨y, hy, g⟩ := cell_structBaselineFl hr hk h2 h0 hB h b1 b2 hv
    exact ⟨y, hy, g.mono hr.1 (by omega)⟩
  · obtain ⟨y, hy, g⟩ := cell_subtractedFl hr hk h0 hB h (by norm_num) (by norm_num) b1 b2
    exact ⟨y, hy, g.mono hr.1 (by omega)⟩
  · obtain ⟨y, hy, g⟩ := cell_structSubtractedFl hr hk h2 h0 hB h (by norm_num) b1 b2 hv
    exact ⟨y, hy, g.mono hr.1 (by omega)⟩
  · obtain ⟨y, hy, g⟩ := cell_compensatedFl hr hk h0 hB h
    exact ⟨y, hy, g.mono hr.1 (by omega)⟩
  · obtain ⟨y, hy, g⟩ := cell_structCompensatedFl hr hk h2 h0 hB h hv
    exact ⟨y, hy, g⟩
  · obtain ⟨y, hy, g⟩ := cell_subtractedFl hr hk h0 hB h (by norm_num) (by norm_num) b1 b2
    exact ⟨y, hy, g.mono hr.1 (by omega)⟩
  · obtain ⟨y, hy, g⟩ := cell_structSubtractedFl hr hk h2 h0 hB h (by norm_num) b1 b2 hv
    exact ⟨y, hy, g.mono hr.1 (by omega)⟩

theorem normOf_prepared {v z : Int} (hv : SupportedNorm "corr" true v) (hz : PlainNorm z) (hp : Prepared v z) :
    normFromCcorrData (needsSquares v.toNat) (needsSums v.toNat) (some z) = .ok z.toNat ∧ ¬ z.toNat &&& 3 = 3 := by
  simp only [SupportedNorm, PlainNorm, List.mem_cons, List.not_mem_nil, or_false, Prepared, WantsSquares, WantsSums] at *
  rw [if_neg (by decide)] at hv
  rcases hv with rfl | rfl | rfl | rfl | rfl | rfl <;> rcases hz with rfl | rfl | rfl | rfl | rfl | rfl | rfl | rfl <;>
    first
    | (exfalso; revert hp; norm_num; done)
    | (refine ⟨by decide, by decide⟩)

theorem wants_needs {v : Int} (hv : SupportedNorm "corr" true v) :
    (needsSquares v.toNat = true ↔ WantsSquares v) ∧ (needsSums v.toNat = true ↔ WantsSums v) := by
  simp only [SupportedNorm, WantsSquares, WantsSums] at *
  rw [if_neg (by decide)] at hv
  rcases hv with rfl | rfl | rfl | rfl | rfl | rfl <;> constructor <;> decide

/-- The tuple computed by the machine for time-stamped data. -/
theorem ccorrFl_stamped (hr : Rounds rnd u) (f1 f2 : List (Cx (Fl rnd))) (t1 t2 : List Int) (n : Option Nat) (v : Int)
    (aligned : Bool) (hv : ValidCross f1.length f2.length (some t1) (some t2)) (hn : SupportedNorm "corr" true v) :
    ∃ d, ccorrFl f1 f2 (some t1) (some t2) n (some v) aligned = .ok d
      ∧ d.cor.length = n.getD (defaultN f1.length (some t1) (some t2))
      ∧ d.sq.isSome = needsSquares v.toNat ∧ d.ds1.isSome = needsSums v.toNat
      ∧ ∀ k < d.cor.length, ∀ z : Int, Prepared v z →
        let P := pairsAt false (stream (f1.map exact) (some t1)) (stream (f2.map exact) (some t2)) d.cor.length k
        d.count.getD k 0 = P.length ∧ CellNear u P z (d.cor.getD k 0) ((d.sq.getD []).getD k 0) ((d.ds1.getD []).getD k 0)
          (((d.ds2.or d.ds1).getD []).getD k 0) := by
  obtain ⟨c, t, ht, e1, e2, -⟩ := inspectCross_sub f1.length f2.length (some t1) (some t2) n none false _ rfl hv
  have hnorm : defaultNorm (some v) "corr" true = .ok v.toNat := defaultNorm_ok (norm := some v) hn
  obtain ⟨w1, w2⟩ := wants_needs hn
  set n' := delays false n none (defaultN f1.length (some t1) (some t2)) with hn'
  obtain ⟨cor, hcor, lcor, ncor⟩ := cor_run hr f1 f2 (some t1) (some t2) c n' aligned hv (by simp)
  obtain ⟨s1, s2, hs1, hs2, -, nsq⟩ := sq_run hr f1 f2 t1 t2 c n' hv
  obtain ⟨m1, hm1, nm1⟩ := fst_run hr f1 f2 t1 t2 c n' hv
  obtain ⟨m2, hm2, nm2⟩ := snd_run hr f1 f2 t1 t2 c n' hv
  have hcount := count_ok false (f1.map exact) (f2.map exact) (some t1) (some t2) c n' none (by simpa using hv) (by simp)
  rw [List.length_map] at hcount
  refine ⟨⟨cor, addSeq (startOut none (fieldLen false n' (none : Option (List Nat)))) (cellSum false (fun _ _ => 1)
      (stream (f1.map exact) (some t1)) (stream (f2.map exact) (some t2)) (fieldLen false n' (none : Option (List Nat)))),
    if needsSquares v.toNat = true then some s2 else none, if needsSums v.toNat = true then some m1 else none,
    if needsSums v.toNat = true then some m2 else none⟩, ?_, ?_, ?_, ?_, ?_⟩
  · unfold ccorrFl
    simp only [hnorm, ht, bind, Except.bind]
    simp only [e1, e2]
    rw [hcor]
    simp only []
    rw [hcount]
    simp only [subT, Option.map_some]
    rw [hs1, hm1, hm2]
    by_cases h1 : needsSquares v.toNat = true <;> by_cases h2 : needsSums v.toNat = true <;> simp [h1, h2, hs2, Except.map]
  · exact lcor
  · show (if _ then _ else _ : Option _).isSome = _
    cases needsSquares v.toNat <;> rfl
  · show (if _ then _ else _ : Option _).isSome = _
    cases needsSums v.toNat <;> rfl
  · intro k hk z hp P
    have hk' : k < n' := by rw [← lcor]; exact hk
    have hP : P = pairsAt false (stream (f1.map exact) (some t1)) (stream (f2.map exact) (some t2)) n' k := by
      rw [← lcor]
    refine ⟨?_, ?_, ?_, ?_, ?_, ?_, ?_⟩
    · rw [hP]
      simp only [fieldLen, Bool.false_eq_true, if_false, List.getD_eq_getElem?_getD, addSeq_getElem?, startOut, Option.getD_none,
        List.getElem?_replicate, if_pos hk', Option.map_some, Option.getD_some, zero_add]
      rw [cellSum_total, total_one]
    · rw [hP]; exact ncor k hk'
    · intro hz
      rw [hP]
      simp only [if_pos (w1.mpr (hp.1 hz)), Option.getD_some]
      exact nsq k hk'
    all_goals
      intro hz hz'
      rw [hP]
      simp only [if_pos (w2.mpr (hp.2 hz hz')), Option.getD_some, Option.some_or]
    · exact (nm1 k hk').1
    · exact (nm1 k hk').2
    · exact (nm2 k hk').1
    · exact (nm2 k hk').2

/-- One cell, in either mode. -/
noncomputable def postFl (diff : Bool) (w1 w2 x : Fl rnd) : Fl rnd := if diff = true then corr2diffFl x (offsetFl w1 w2) else x

theorem post_near (hr : Rounds rnd u) (hk : KeepsHalves rnd B) (h2 : 2 ≤ B) (w1 w2 : Fl rnd) {x : Fl rnd} {m : Nat} {e E : ℝ}
    (h : Near u m x.val e E) (hm : 2 ≤ m) :
    Near u (m + 2) (postFl true w1 w2 x).val (2 * ((w1.val + w2.val) / 2 - e)) (2 * ((|w1.val| + |w2.val|) / 2 + E)) := by
  show Near u (m + 2) (rnd (rnd (x.val * (flConst rnd (-2)).val) + rnd ((offsetFl w1 w2).val * (flConst rnd 2).val))) _ _
  rw [flConst_val (x := 2) hk 4 (by norm_num) (by rw [abs_of_nonneg (by norm_num)]; linarith),
    flConst_val (x := -2) hk (-4) (by norm_num) (by rw [abs_neg, abs_of_nonneg (by norm_num)]; linarith)]
  have g1 := Near.mulTo hr h (Near.refl (-2 : ℝ)) (k := m + 1) (by omega)
  have g2 := Near.mulTo hr (offset_near hr hk h2 w1 w2) (Near.refl (2 : ℝ)) (k := m + 1) (by omega)
  refine Near.congr (Near.addTo hr g1 g2 (by omega) (by omega)) (by ring) ?_
  norm_num
  ring

theorem normalizeFl_stamped (hr : Rounds rnd u) (f1 f2 : List (Cx (Fl rnd))) (t1 t2 : List Int)
    (n : Option Nat) (aligned : Bool) (hv : ValidCross f1.length f2.length (some t1) (some t2)) (v z : Int)
    (hn : SupportedNorm "corr" true v) (hz : PlainNorm z) (hp : Prepared v z) (b1 b2 : Cx (Fl rnd)) (w1 w2 : Fl rnd) (diff : Bool) :
    ∃ d out, ccorrFl f1 f2 (some t1) (some t2) n (some v) aligned = .ok d
      ∧ normalizeFl d b1 b2 w1 w2 (some z) diff = .ok out
      ∧ out.length = n.getD (defaultN f1.length (some t1) (some t2))
      ∧ ∀ k < out.length,
        let P := pairsAt false (stream (f1.map exact) (some t1)) (stream (f2.map exact) (some t2)) out.length k
        ∃ c q m1 m2, CellNear u P z c q m1 m2
          ∧ out[k]? = some ((normCellFl z.toNat b1 b2 (offsetFl w1 w2) c P.length q m1 m2).map (postFl diff w1 w2)) := by
  obtain ⟨d, hd, hl, hsq, hds, hc⟩ := ccorrFl_stamped hr f1 f2 t1 t2 n v aligned hv hn
  obtain ⟨hnz, hw⟩ := normOf_prepared hn hz hp
  refine ⟨d, (List.range d.cor.length).map fun k => (normCellFl z.toNat b1 b2 (offsetFl w1 w2) (d.cor.getD k 0) (d.count.getD k 0)
      ((d.sq.getD []).getD k 0) ((d.ds1.getD []).getD k 0) (((d.ds2.or d.ds1).getD []).getD k 0)).map (postFl diff w1 w2), hd, ?_, ?_, ?_⟩
  · unfold normalizeFl
    rw [hsq, hds, hnz]
    simp only [bind, Except.bind, hw, if_false]
    rfl
  · simpa using hl
  · intro k hk P
    simp only [List.length_map, List.length_range] at hk
    have hP : P = pairsAt false (stream (f1.map exact) (some t1)) (stream (f2.map exact) (some t2)) d.cor.length k := by
      simp [P]
    obtain ⟨g1, g2⟩ := hc k hk z hp
    rw [← hP] at g1 g2
    exact ⟨_, _, _, _, g2, by rw [List.getElem?_map, List.getElem?_range hk, Option.map_some, g1]⟩

/-- **C128.** Correlating two signals with time stamps by `ccorr` and normalizing the result by `normalize`, both in floating-point arithmetic:
a delay with pairs differs from the norm's formula over its pairs by at most `(1+u)^(2 pairs + 10) - 1` times the same formula with all numbers
replaced by their moduli and all signs by plus; a delay without pairs gives no number. -/
theorem C128_cross (hr : Rounds rnd u) (hk : KeepsHalves rnd B) (h2 : 2 ≤ B) (f1 f2 : List (Cx (Fl rnd))) (t1 t2 : List Int)
    (n : Option Nat) (aligned : Bool) (hv : ValidCross f1.length f2.length (some t1) (some t2)) (v z : Int)
    (hn : SupportedNorm "corr" true v) (hz : PlainNorm z) (hp : Prepared v z) (b1 b2 : Cx (Fl rnd)) (w1 w2 : Fl rnd) :
    ∃ d out, ccorrFl f1 f2 (some t1) (some t2) n (some v) aligned = .ok d
      ∧ normalizeFl d b1 b2 w1 w2 (some z) false = .ok out
      ∧ out.length = n.getD (defaultN f1.length (some t1) (some t2))
      ∧ ∀ k < out.length,
        let P := pairsAt false (stream (f1.map exact) (some t1)) (stream (f2.map exact) (some t2)) out.length k
        (P = [] → out[k]? = some none) ∧
        (P ≠ [] → (P.length : ℝ) ≤ B → ∃ y : Fl rnd, out[k]? = some (some y)
          ∧ |y.val - crossFormula (.two (exact b1) (exact b2)) ((w1.val + w2.val) / 2) z P|
            ≤ ((1 + u) ^ (2 * P.length + 10) - 1) * normSize (exact b1) (exact b2) ((|w1.val| + |w2.val|) / 2) z P) := by
  obtain ⟨d, out, hd, ho, hl, hc⟩ := normalizeFl_stamped hr f1 f2 t1 t2 n aligned hv v z hn hz hp b1 b2 w1 w2 false
  refine ⟨d, out, hd, ho, hl, fun k hkl => ?_⟩
  intro P
  obtain ⟨c, q, m1, m2, h, hget⟩ := hc k hkl
  refine ⟨fun h0 => ?_, fun h0 hB => ?_⟩
  · rw [hget, show (pairsAt false _ _ _ _) = [] from h0, List.length_nil, normCellFl_none]
    rfl
  · obtain ⟨y, hy, g⟩ := normCellFl_near hr hk h2 h0 hB hz h b1 b2 w1 w2
    exact ⟨y, by rw [hget, hy]; rfl, g.2⟩

/-- **C128.** ... in mode "diff": the result is compared with twice the variance less twice the formula. -/
theorem C128_cross_diff (hr : Rounds rnd u) (hk : KeepsHalves rnd B) (h2 : 2 ≤ B) (f1 f2 : List (Cx (Fl rnd))) (t1 t2 : List Int)
    (n : Option Nat) (aligned : Bool) (hv : ValidCross f1.length f2.length (some t1) (some t2)) (v z : Int)
    (hn : SupportedNorm "corr" true v) (hz : PlainNorm z) (hp : Prepared v z) (b1 b2 : Cx (Fl rnd)) (w1 w2 : Fl rnd) :
    ∃ d out, ccorrFl f1 f2 (some t1) (some t2) n (some v) aligned = .ok d
      ∧ normalizeFl d b1 b2 w1 w2 (some z) true = .ok out
      ∧ out.length = n.getD (defaultN f1.length (some t1) (some t2))
      ∧ ∀ k < out.length,
        let P := pairsAt false (stream (f1.map exact) (some t1)) (stream (f2.map exact) (some t2)) out.length k
        (P = [] → out[k]? = some none) ∧
        (P ≠ [] → (P.length : ℝ) ≤ B → ∃ y : Fl rnd, out[k]? = some (some y)
          ∧ |y.val - 2 * ((w1.val + w2.val) / 2 - crossFormula (.two (exact b1) (exact b2)) ((w1.val + w2.val) / 2) z P)|
            ≤ ((1 + u) ^ (2 * P.length + 12) - 1)
              * (2 * ((|w1.val| + |w2.val|) / 2 + normSize (exact b1) (exact b2) ((|w1.val| + |w2.val|) / 2) z P))) := by
  obtain ⟨d, out, hd, ho, hl, hc⟩ := normalizeFl_stamped hr f1 f2 t1 t2 n aligned hv v z hn hz hp b1 b2 w1 w2 true
  refine ⟨d, out, hd, ho, hl, fun k hkl => ?_⟩
  intro P
  obtain ⟨c, q, m1, m2, h, hget⟩ := hc k hkl
  refine ⟨fun h0 => ?_, fun h0 hB => ?_⟩
  · rw [hget, show (pairsAt false _ _ _ _) = [] from h0, List.length_nil, normCellFl_none]
    rfl
  · obtain ⟨y, hy, g⟩ := normCellFl_near hr hk h2 h0 hB hz h b1 b2 w1 w2
    exact ⟨_, by rw [hget, hy]; rfl, (post_near hr hk h2 w1 w2 g (by omega)).2⟩

/-- **C128.** Regular data and the standard norm (1), which needs no sums: the error is at most `(1+u)^(pairs+4) - 1` times the moduli. -/
theorem C128_baseline (hr : Rounds rnd u) (hk : KeepsHalves rnd B) (f1 f2 : List (Cx (Fl rnd))) (n : Option Nat) (aligned : Bool)
    (hv : f1.length = f2.length) (hfast : aligned = true → n.getD f1.length ≤ f1.length + 1) (b1 b2 : Cx (Fl rnd)) (w1 w2 : Fl rnd) :
    ∃ d out, ccorrFl f1 f2 none none n (some 1) aligned = .ok d
      ∧ normalizeFl d b1 b2 w1 w2 (some 1) false = .ok out
      ∧ out.length = n.getD f1.length
      ∧ ∀ k < out.length,
        let P := pairsAt false (regular (f1.map exact)) (regular (f2.map exact)) out.length k
        (P = [] → out[k]? = some none) ∧
        (P ≠ [] → (P.length : ℝ) ≤ B → ∃ y : Fl rnd, out[k]? = some (some y)
          ∧ |y.val - (mean reProd P - reProd (exact b1) (exact b2))|
            ≤ ((1 + u) ^ (P.length + 4) - 1) * (mean absProd P + absProd (exact b1) (exact b2))) := by
  have hv' : ValidCross f1.length f2.length none none := hv
  obtain ⟨c, t, ht, e1, e2, -⟩ := inspectCross_sub f1.length f2.length none none n none false _ rfl hv'
  have hnorm : defaultNorm (some 1) "corr" true = .ok 1 := by decide
  set n' := delays false n none (defaultN f1.length none none) with hn'
  have hn'' : n' = n.getD f1.length := rfl
  obtain ⟨cor, hcor, lcor, ncor⟩ := cor_run hr f1 f2 none none c n' aligned hv' (fun _ h => by rw [hn'']; exact hfast h)
  have hcount := count_ok false (f1.map exact) (f2.map exact) none none c n' none (by simpa using hv') (by simp)
  rw [List.length_map] at hcount
  have hf1 : needsSquares 1 = false := by decide
  have hf2 : needsSums 1 = false := by decide
  set cnt := addSeq (startOut none (fieldLen false n' (none : Option (List Nat)))) (cellSum false (fun _ _ => 1)
      (stream (f1.map exact) none) (stream (f2.map exact) none) (fieldLen false n' (none : Option (List Nat)))) with hcnt
  refine ⟨⟨cor, cnt, none, none, none⟩, (List.range cor.length).map fun k => corrBaselineFl (cor.getD k 0) (cnt.getD k 0) b1 b2,
    ?_, ?_, ?_, ?_⟩
  · unfold ccorrFl
    simp only [hnorm, ht, bind, Except.bind]
    simp only [e1, e2]
    rw [hcor]
    simp only []
    rw [hcount]
    simp [hf1, hf2]
  · have h1 : normFromCcorrData false false (some 1) = .ok 1 := by decide
    unfold normalizeFl
    simp only [Option.isSome_none, h1, bind, Except.bind]
    simp [normCellFl]
  · simp [lcor, hn'']
  · intro k hkl P
    simp only [List.length_map, List.length_range] at hkl
    have hk' : k < n' := by omega
    have hP : P = pairsAt false (stream (f1.map exact) none) (stream (f2.map exact) none) n' k := by
      simp only [P, List.length_map, List.length_range, lcor]; rfl
    have g1 : cnt.getD k 0 = P.length := by
      rw [hP, hcnt]
      simp only [fieldLen, Bool.false_eq_true, if_false, List.getD_eq_getElem?_getD, addSeq_getElem?, startOut, Option.getD_none,
        List.getElem?_replicate, if_pos hk', Option.map_some, Option.getD_some, zero_add]
      rw [cellSum_total, total_one]
    rw [List.getElem?_map, List.getElem?_range hkl, Option.map_some, g1]
    refine ⟨fun h0 => ?_, fun h0 hB => ?_⟩
    · rw [h0]; rfl
    · have hcell : CellNear u P 1 (cor.getD k 0) 0 0 0 := ⟨hP ▸ ncor k hk', by norm_num, by norm_num, by norm_num, by norm_num, by norm_num⟩
      obtain ⟨y, hy, g⟩ := cell_baselineFl hr hk h0 hB hcell b1 b2
      exact ⟨y, by rw [hy], g.2⟩

end

/-- **C128.** No bound relative to the result holds, here either: in double precision a normalized correlation that is not zero can be computed as
zero. -/
theorem C128_not_relative : ∃ d y, ccorrFl (List.replicate 3 ⟨⟨1⟩, ⟨0⟩⟩) cancelling none none (some 1) (some 1) true = .ok d
    ∧ normalizeFl d ⟨⟨0⟩, ⟨0⟩⟩ ⟨⟨0⟩, ⟨0⟩⟩ ⟨1⟩ ⟨1⟩ (some 1) false = .ok [some y] ∧ y.val = 0
    ∧ crossFormula (.two 0 0) 1 1 (pairsAt false (regular ((List.replicate 3 (⟨⟨1⟩, ⟨0⟩⟩ : Cx (Fl (flRound 53)))).map exact))
        (regular (cancelling.map exact)) 1 0) = (2 : ℝ) ^ (-60 : ℤ) / 3 := by
  obtain ⟨out, h1, h2, h3⟩ := C107_not_relative
  have hcount : crossCount (.array (arange 3)) (some (.array (arange 3))) (some 1) false none = .ok [3] := by decide
  have hnorm : defaultNorm (some 1) "corr" true = .ok 1 := by decide
  have hf1 : needsSquares 1 = false := by decide
  have hf2 : needsSums 1 = false := by decide
  have h4 : normFromCcorrData false false (some 1) = .ok 1 := by decide
  have r0 : flRound 53 0 = 0 := by simpa using flRound_exact (p := 53) (by norm_num) 0 0 (by norm_num)
  refine ⟨⟨[out], [3], none, none, none⟩, out / flConst (flRound 53) 3 - (⟨0⟩ * ⟨0⟩ + ⟨0⟩ * ⟨0⟩), ?_, ?_, ?_, ?_⟩
  · unfold ccorrFl
    have hi : inspectCross (List.replicate 3 (⟨⟨1⟩, ⟨0⟩⟩ : Cx (Fl (flRound 53)))).length cancelling.length none none (some 1) none false
        = .ok (none, 1) := rfl
    simp only [hnorm, hi, bind, Except.bind, Option.map_none, Option.getD_none]
    rw [h1]
    simp only [List.length_replicate]
    rw [hcount]
    simp [hf1, hf2]
  · unfold normalizeFl
    simp only [Option.isSome_none, h4, bind, Except.bind]
    simp [normCellFl, corrBaselineFl, divCountFl]
  · show flRound 53 (flRound 53 (out.val / _) - flRound 53 (flRound 53 (0 * 0) + flRound 53 (0 * 0))) = 0
    simp [h2, r0]
  · simp only [crossFormula, normFormula, if_true]
    have hl : (pairsAt false (regular ((List.replicate 3 (⟨⟨1⟩, ⟨0⟩⟩ : Cx (Fl (flRound 53)))).map exact))
        (regular (cancelling.map exact)) 1 0).length = 3 := by
      rw [← total_one, ← cellSum_total]
      simp [cellSum, pairSum_eq, regular, cancelling, List.replicate]
    rw [mean, hl, ← cellSum_total]
    have h3' : cellSum false reProd (regular ((List.replicate 3 (⟨⟨1⟩, ⟨0⟩⟩ : Cx (Fl (flRound 53)))).map exact))
        (regular (cancelling.map exact)) 1 0 = (2 : ℝ) ^ (-60 : ℤ) := h3
    rw [h3']
    simp [reProd, Background.fst, Background.snd]
    ring

-- The hypotheses of C128 in double precision: two signals with time stamps, data computed for all norms, each norm.
example : Rounds (flRound 53) ((2 : ℝ) ^ (-53 : ℤ)) ∧ KeepsHalves (flRound 53) ((2 : ℝ) ^ 52) ∧ (2 : ℝ) ≤ 2 ^ 52
    ∧ ValidCross 2 2 (some [0, 7]) (some [5, -3]) ∧ SupportedNorm "corr" true 7 ∧ ∀ z, PlainNorm z → Prepared 7 z := by
  refine ⟨flRound_rounds 53, by simpa using C109_halves_nearest 53 (by norm_num), by norm_num, by simp [ValidCross], by
    simp [SupportedNorm], fun z _ => ⟨fun _ => by simp [WantsSquares], fun _ _ => by simp [WantsSums]⟩⟩
-- A delay which has pairs: the samples taken at times 7 and 5.
example : pairsAt false (stream [(⟨1, 2⟩ : Cx ℝ), ⟨3, 4⟩] (some [0, 7])) (stream [(⟨5, 6⟩ : Cx ℝ), ⟨7, 8⟩] (some [5, -3])) 3 2
    = [(⟨3, 4⟩, ⟨5, 6⟩)] := by
  simp [pairsAt, stream, delay, List.filter]
-- A hundred thousand pairs in double precision: the factor is below 5e-11.
example : (1 + (2 : ℝ) ^ (-53 : ℤ)) ^ (2 * 10 ^ 5 + 10) - 1 ≤ 5 / 10 ^ 11 := by
  refine (C107_factor _ (by positivity) (2 * 10 ^ 5 + 10) (by norm_num)).trans ?_
  norm_num

end Cddm
