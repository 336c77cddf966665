import Verif.Props.Chain

/-!
# C126 for the slow levels of first samples, and for the method 'diff'

With binning 'first', and always with the method 'diff', level `j` holds the first sample of each block of `2^(j+1)` samples.
-/

namespace Cddm
open Spec

theorem one_le_levels {N n nl : Nat} (hN : 2 * n ≤ N) (k2 : N / 2 ^ (nl + 1) < n) : 1 ≤ nl := by
  by_contra h
  have : nl = 0 := by omega
  rw [this] at k2
  have : n ≤ N / 2 ^ (0 + 1) := by rw [zero_add, pow_one]; omega
  omega

/-- Curves of cross-correlation data with any kind of levels. -/
theorem chain_cross_of {d : CorrAoutAny ℝ × List (CorrAoutAny ℝ)} {frame : List Nat} (hne : 0 ∉ frame) (h1 : AoutFits frame d.1)
    (h2 : ∀ l ∈ d.2, AoutFits frame l) (method : Option String) {L n nl : Nat} {v : Int} {m : String} (hnl : 1 ≤ nl)
    (s1 s2 : List Nat → Stream (Cx ℝ)) (q1 q2 : List Nat → Stream ℝ) (g1 g2 : List Nat → Nat → Stream (Cx ℝ)) (u1 u2 : List Nat → Nat → Stream ℝ)
    (hone : ∀ p, InShape p frame → (crossData false (productOf m) m v L (s1 p) (s2 p) (q1 p) (q2 p),
        (List.range nl).map fun j => crossData false (productOf m) m v n (g1 p j) (g2 p j) (u1 p j) (u2 p j)) =
      (aoutAt frame d.1 p, d.2.map fun l => aoutAt frame l p))
    (bg : FrameArg (Cx ℝ)) (var : FrameArg ℝ) (hbg : ArgFits frame bg ∨ ArgFits [] bg) (hvar : ArgFits frame var ∨ ArgFits [] var)
    (z : Int) (mode : String) (scale : Bool) (Q : List Nat → List (Option ℝ) → Prop) (R : List Nat → Nat → List (Option ℝ) → Prop)
    (hcur : ∀ p, InShape p frame → ∃ (lin : List (Option ℝ)) (levels : Nat → List (Option ℝ)),
      normalizeMulti normOpsR ((crossData false (productOf m) m v L (s1 p) (s2 p) (q1 p) (q2 p)).toData (method.getD "corr"))
        (((List.range nl).map fun j => crossData false (productOf m) m v n (g1 p j) (g2 p j) (u1 p j) (u2 p j)).map
          (CorrAout.toData (method.getD "corr"))) (some (backgroundAt bg p)) (some (varianceAt var p)) (.num (some z)) mode scale =
        .ok (lin, (List.range nl).map levels) ∧ Q p lin ∧ ∀ j < nl, R p j (levels j)) :
    ∃ lin multi, normalizeLevels normOpsR method d (some bg) (some var) (.num (some z)) mode scale none = .ok (lin, multi) ∧
      lin.shape = frame ++ [L] ∧ multi.shape = nl :: frame ++ [n] ∧ ∀ p, InShape p frame → Q p (curveAt lin p) ∧
        ∀ j < nl, R p j (curveAt multi (j :: p)) := by
  have key := normalizeLevels_ok normOpsR method (d := d) (frame := frame) (n := L) (L := nl) (m := n) hne hnl h1 h2
    (fun p => (crossData false (productOf m) m v L (s1 p) (s2 p) (q1 p) (q2 p),
        (List.range nl).map fun j => crossData false (productOf m) m v n (g1 p j) (g2 p j) (u1 p j) (u2 p j)))
    hone (fun p => sizedData_cross) (fun p => by simp)
    (fun p l hl => by
      obtain ⟨j, -, rfl⟩ := List.mem_map.1 hl
      exact sizedData_cross)
    (fun p => by
      rw [List.map_map]
      exact allOrNone_ite _ _ _)
    (fun p => by
      rw [List.map_map]
      exact allOrNone_ite _ _ _)
    (fun p => by
      rw [List.map_map]
      exact allOrNone_ite _ _ _)
    (some bg) (some var) (.num (some z)) mode scale (fun x hx => by cases hx; exact hbg) (fun x hx => by cases hx; exact hvar)
  exact chain_curves key hcur

/-- Curves of auto-correlation data with any kind of levels. -/
theorem chain_auto_of {d : CorrAoutAny ℝ × List (CorrAoutAny ℝ)} {frame : List Nat} (hne : 0 ∉ frame) (h1 : AoutFits frame d.1)
    (h2 : ∀ l ∈ d.2, AoutFits frame l) (method : Option String) {L n nl : Nat} {v : Int} {m : String} (hnl : 1 ≤ nl)
    (s : List Nat → Stream (Cx ℝ)) (q : List Nat → Stream ℝ) (g : List Nat → Nat → Stream (Cx ℝ)) (u : List Nat → Nat → Stream ℝ)
    (hone : ∀ p, InShape p frame → (autoData (productOf m) m v L (s p) (q p),
        (List.range nl).map fun j => autoData (productOf m) m v n (g p j) (u p j)) =
      (aoutAt frame d.1 p, d.2.map fun l => aoutAt frame l p))
    (bg : FrameArg (Cx ℝ)) (var : FrameArg ℝ) (hbg : ArgFits frame bg ∨ ArgFits [] bg) (hvar : ArgFits frame var ∨ ArgFits [] var)
    (z : Int) (mode : String) (scale : Bool) (Q : List Nat → List (Option ℝ) → Prop) (R : List Nat → Nat → List (Option ℝ) → Prop)
    (hcur : ∀ p, InShape p frame → ∃ (lin : List (Option ℝ)) (levels : Nat → List (Option ℝ)),
      normalizeMulti normOpsR ((autoData (productOf m) m v L (s p) (q p)).toData (method.getD "corr"))
        (((List.range nl).map fun j => autoData (productOf m) m v n (g p j) (u p j)).map
          (CorrAout.toData (method.getD "corr"))) (some (backgroundAt bg p)) (some (varianceAt var p)) (.num (some z)) mode scale =
        .ok (lin, (List.range nl).map levels) ∧ Q p lin ∧ ∀ j < nl, R p j (levels j)) :
    ∃ lin multi, normalizeLevels normOpsR method d (some bg) (some var) (.num (some z)) mode scale none = .ok (lin, multi) ∧
      lin.shape = frame ++ [L] ∧ multi.shape = nl :: frame ++ [n] ∧ ∀ p, InShape p frame → Q p (curveAt lin p) ∧
        ∀ j < nl, R p j (curveAt multi (j :: p)) := by
  have key := normalizeLevels_ok normOpsR method (d := d) (frame := frame) (n := L) (L := nl) (m := n) hne hnl h1 h2
    (fun p => (autoData (productOf m) m v L (s p) (q p), (List.range nl).map fun j => autoData (productOf m) m v n (g p j) (u p j)))
    hone (fun p => sizedData_auto) (fun p => by simp)
    (fun p l hl => by
      obtain ⟨j, -, rfl⟩ := List.mem_map.1 hl
      exact sizedData_auto)
    (fun p => by
      rw [List.map_map]
      exact allOrNone_ite _ _ _)
    (fun p => by
      rw [List.map_map]
      exact allOrNone_ite _ _ _)
    (fun p => by
      rw [List.map_map]
      exact Or.inr fun x hx => by
        obtain ⟨b, -, rfl⟩ := List.mem_map.1 hx
        rfl)
    (some bg) (some var) (.num (some z)) mode scale (fun x hx => by cases hx; exact hbg) (fun x hx => by cases hx; exact hvar)
  exact chain_curves key hcur

/-- C126 for `ccorr_multi` with the first sample of each block in the levels: binning 'first' with the methods corr and fft and any norm
that is not weighted, or the method 'diff' with the norms 2 and 6. -/
theorem C126_ccorr_multi_first_partial (flags : Nat → Bool × Bool) (f1 f2 : Tensor (Cx ℝ)) (t1 t2 : Option (List Int)) (axis : Int)
    (n : Nat) (norm : Option Int) (method : Option String) (period : Nat) (binning : Option Int)
    (align contiguous : Bool) (divisor : Option Int) (r : Nat → ℚ) (ax : Nat) (hs : f2.shape = f1.shape)
    (hax : NamesAxis f1.shape.length axis ax) (hd : DivisorFits f1.shape ax divisor) (hne : 0 ∉ frameShape f1.shape ax)
    (N : Nat) (hN : f1.shape.getD ax 0 = N) (m : String) (v : Int) (z : Int)
    (hm : m = method.getD "corr")
    (hk : (m = "corr" ∨ m = "fft") ∧ binning = some 0 ∧ PlainNorm z ∧ Prepared v z ∨
      m = "diff" ∧ (binning = none ∨ binning = some 0) ∧ (z = 2 ∨ z = 6 ∧ WantsSums v))
    (hv : v = effNorm norm m true) (hargs : CrossArgs m v N N t1 t2 (period * n)) (hn : 5 ≤ n) (h2 : 2 * n ≤ N)
    (bg : FrameArg (Cx ℝ)) (var : FrameArg ℝ) (hbg : ArgFits (frameShape f1.shape ax) bg ∨ ArgFits [] bg)
    (hvar : ArgFits (frameShape f1.shape ax) var ∨ ArgFits [] var)
    (mode : String) (hmo : mode = "corr" ∨ mode = "diff") (scale : Bool)
    (hsc : scale = true → ∀ p, InShape p (frameShape f1.shape ax) → (varianceAt var p).offset ≠ 0) :
    ∃ d nl lin multi, n ≤ N / 2 ^ nl ∧ N / 2 ^ (nl + 1) < n ∧
      ccorrMultiAny flags f1 f2 t1 t2 axis n norm method period binning none align contiguous divisor r = .ok d ∧
      normalizeLevels normOpsR method d (some bg) (some var) (.num (some z)) mode scale none = .ok (lin, multi) ∧
      lin.shape = frameShape f1.shape ax ++ [period * n] ∧ multi.shape = nl :: frameShape f1.shape ax ++ [n] ∧
      ∀ p, InShape p (frameShape f1.shape ax) →
        IsCurve (period * n) (pairsAt false (stream (along f1 ax p) t1) (stream (along f2 ax p) t2) (period * n))
          (shownAs mode scale (varianceAt var p).offset ∘ crossFormula (backgroundAt bg p) (varianceAt var p).offset z) (curveAt lin p) ∧
        ∀ j < nl, IsCurve n (pairsAt false (regular (blockFirsts (2 ^ (j + 1)) (along f1 ax p)))
            (regular (blockFirsts (2 ^ (j + 1)) (along f2 ax p))) n)
          (shownAs mode scale (varianceAt var p).offset ∘ crossFormula (backgroundAt bg p) (varianceAt var p).offset z) (curveAt multi (j :: p)) := by
  have hb : binning = some 0 ∨ m = "diff" ∧ binning = none := by tauto
  have l1 : ∀ p, (along f1 ax p).length = N := fun p => by rw [along_length, hN]
  have l2 : ∀ p, (along f2 ax p).length = N := fun p => by rw [along_length, hs, hN]
  obtain ⟨al, hpw⟩ := C123_ccorr_multi_partial flags f1 f2 t1 t2 axis n norm method period binning none align contiguous divisor r ax hs hax hd
    (fun h => by
      rw [hN]
      have := hargs.span (Or.inr h)
      subst h
      simpa [defaultN] using this) (by simp)
  obtain ⟨p0, hp0⟩ : ∃ p, InShape p (frameShape f1.shape ax) := ⟨_, inShape_zeros _ hne⟩
  have c38 : ∀ p, _ := fun p => C38_cross_first (along f1 ax p) (along f2 ax p) t1 t2 n norm method period binning al r m v hm hb hv
    (by rw [l1, l2]; exact hargs) hn (by rw [l1]; omega)
  obtain ⟨nl, k1, k2, -⟩ := c38 p0
  rw [l1] at k1 k2
  choose cnt a1 a2 hdata using c38
  have hcnt : ∀ p, cnt p = nl := fun p => levels_unique (by rw [← l1 p]; exact a1 p) (by rw [← l1 p]; exact a2 p) k1 k2
  simp only [hcnt] at hdata
  rcases hres : ccorrMultiAny flags f1 f2 t1 t2 axis n norm method period binning none align contiguous divisor r with e | d
  · rw [hres] at hpw
    have := (hpw p0 hp0).symm.trans (hdata p0)
    cases this
  · rw [hres] at hpw
    obtain ⟨g1, g2, g3⟩ := hpw
    obtain ⟨lin, multi, k⟩ := chain_cross_of hne g1 g2 method (one_le_levels h2 k2)
      (fun p => stream (along f1 ax p) t1) (fun p => stream (along f2 ax p) t2)
      (fun p => stream ((along f1 ax p).map Cx.abs2) t1) (fun p => stream ((along f2 ax p).map Cx.abs2) t2)
      (fun p j => regular (blockFirsts (2 ^ (j + 1)) (along f1 ax p))) (fun p j => regular (blockFirsts (2 ^ (j + 1)) (along f2 ax p)))
      (fun p j => regular (blockFirsts (2 ^ (j + 1)) ((along f1 ax p).map Cx.abs2)))
      (fun p j => regular (blockFirsts (2 ^ (j + 1)) ((along f2 ax p).map Cx.abs2)))
      (fun p hp => Except.ok.inj ((hdata p).symm.trans (g3 p hp))) bg var hbg hvar z mode scale
      (fun p c => IsCurve (period * n) (pairsAt false (stream (along f1 ax p) t1) (stream (along f2 ax p) t2) (period * n))
          (shownAs mode scale (varianceAt var p).offset ∘ crossFormula (backgroundAt bg p) (varianceAt var p).offset z) c)
      (fun p j c => IsCurve n (pairsAt false (regular (blockFirsts (2 ^ (j + 1)) (along f1 ax p)))
            (regular (blockFirsts (2 ^ (j + 1)) (along f2 ax p))) n)
          (shownAs mode scale (varianceAt var p).offset ∘ crossFormula (backgroundAt bg p) (varianceAt var p).offset z) c)
      (fun p hp' => by
        have hz' : PlainNorm z := by
          rcases hk with hk | hk
          · exact hk.2.2.1
          · rcases hk.2.2 with h | h <;> simp [PlainNorm, h]
        have c79 : ∃ nl' lin levels, n ≤ (along f1 ax p).length / 2 ^ nl' ∧ (along f1 ax p).length / 2 ^ (nl' + 1) < n ∧
            ccorrMultiNormalized (along f1 ax p) (along f2 ax p) t1 t2 n norm method period binning none al r (backgroundAt bg p)
              (some (varianceAt var p)) z "corr" false = .ok (lin, (List.range nl').map levels) ∧
            IsCurve (period * n) (pairsAt false (stream (along f1 ax p) t1) (stream (along f2 ax p) t2) (period * n))
              (crossFormula (backgroundAt bg p) (varianceAt var p).offset z) lin ∧
            ∀ j < nl', IsCurve n (pairsAt false (regular (blockFirsts (2 ^ (j + 1)) (along f1 ax p)))
              (regular (blockFirsts (2 ^ (j + 1)) (along f2 ax p))) n)
              (crossFormula (backgroundAt bg p) (varianceAt var p).offset z) (levels j) := by
          rcases hk with ⟨hm', rfl, hz, hp⟩ | ⟨rfl, hb', hz⟩
          · exact C79_cross_first _ _ t1 t2 n norm method period al r m v hm hm' hv (by rw [l1, l2]; exact hargs) hn (by rw [l1]; omega) _ _ z
              hz hp
          · obtain rfl : method = some "diff" := by
              cases method with
              | none => simp at hm
              | some x => simp at hm; rw [← hm]
            exact C79_cross_diff _ _ t1 t2 n norm period binning hb' al r v hv (by rw [l1, l2]; exact hargs) hn (by rw [l1]; omega) _ _ z hz
        obtain ⟨nl', lin, levels, a1, a2, a3, a4, a5⟩ := c79
        rw [l1] at a1 a2
        obtain rfl := levels_unique k1 k2 a1 a2
        refine ⟨_, _, normalizeMulti_shown hz' hmo (fun h => hsc h p hp') ?_, isCurve_shown a4 _, fun j hj => isCurve_shown (a5 j hj) _⟩
        unfold ccorrMultiNormalized at a3
        rw [hdata p] at a3
        exact a3)
    exact ⟨d, nl, lin, multi, k1, k2, rfl, k⟩

/-- C126 for `acorr_multi` with the first sample of each block in the levels; the method 'diff' has norm 2 only. -/
theorem C126_acorr_multi_first_partial (flags : Nat → Bool × Bool) (f : Tensor (Cx ℝ)) (t : Option (List Int)) (axis : Int)
    (n : Nat) (norm : Option Int) (method : Option String) (period : Nat) (binning : Option Int)
    (align contiguous : Bool) (divisor : Option Int) (r : Nat → ℚ) (ax : Nat)
    (hax : NamesAxis f.shape.length axis ax) (hd : DivisorFits f.shape ax divisor) (hne : 0 ∉ frameShape f.shape ax)
    (N : Nat) (hN : f.shape.getD ax 0 = N) (m : String) (v : Int) (z : Int)
    (hm : m = method.getD "corr")
    (bg : FrameArg (Cx ℝ)) (var : FrameArg ℝ)
    (hk : (m = "corr" ∨ m = "fft") ∧ binning = some 0 ∧ PlainNorm z ∧ Prepared v z ∧
        (z = 5 ∨ z = 13 ∨ z = 6 ∨ z = 14 → ∀ p, (backgroundAt bg p).fst = (backgroundAt bg p).snd) ∨
      m = "diff" ∧ (binning = none ∨ binning = some 0) ∧ z = 2)
    (hv : v = effNorm norm m false) (hargs : AutoArgs m v N t (period * n)) (hn : 5 ≤ n) (h2 : 2 * n ≤ N)
    (hbg : ArgFits (frameShape f.shape ax) bg ∨ ArgFits [] bg)
    (hvar : ArgFits (frameShape f.shape ax) var ∨ ArgFits [] var)
    (mode : String) (hmo : mode = "corr" ∨ mode = "diff") (scale : Bool)
    (hsc : scale = true → ∀ p, InShape p (frameShape f.shape ax) → (varianceAt var p).offset ≠ 0) :
    ∃ d nl lin multi, n ≤ N / 2 ^ nl ∧ N / 2 ^ (nl + 1) < n ∧
      acorrMultiAny flags f t axis n norm method period binning none align contiguous divisor r = .ok d ∧
      normalizeLevels normOpsR method d (some bg) (some var) (.num (some z)) mode scale none = .ok (lin, multi) ∧
      lin.shape = frameShape f.shape ax ++ [period * n] ∧ multi.shape = nl :: frameShape f.shape ax ++ [n] ∧
      ∀ p, InShape p (frameShape f.shape ax) →
        IsCurve (period * n) (selfPairsAt (stream (along f ax p) t))
          (shownAs mode scale (varianceAt var p).offset ∘ autoFormula (backgroundAt bg p) (varianceAt var p).offset z) (curveAt lin p) ∧
        ∀ j < nl, IsCurve n (selfPairsAt (regular (blockFirsts (2 ^ (j + 1)) (along f ax p))))
          (shownAs mode scale (varianceAt var p).offset ∘ autoFormula (backgroundAt bg p) (varianceAt var p).offset z) (curveAt multi (j :: p)) := by
  have hb : binning = some 0 ∨ m = "diff" ∧ binning = none := by tauto
  have l1 : ∀ p, (along f ax p).length = N := fun p => by rw [along_length, hN]
  obtain ⟨al, hpw⟩ := C123_acorr_multi_partial flags f t axis n norm method period binning none align contiguous divisor r ax hax hd
    (fun h => by
      rw [hN]
      have := hargs.span (Or.inr h)
      subst h
      simpa [defaultN] using this) (by simp)
  obtain ⟨p0, hp0⟩ : ∃ p, InShape p (frameShape f.shape ax) := ⟨_, inShape_zeros _ hne⟩
  have c38 : ∀ p, _ := fun p => C38_auto_first (along f ax p) t n norm method period binning al r m v hm hb hv
    (by rw [l1]; exact hargs) hn (by rw [l1]; omega)
  obtain ⟨nl, k1, k2, -⟩ := c38 p0
  rw [l1] at k1 k2
  choose cnt a1 a2 hdata using c38
  have hcnt : ∀ p, cnt p = nl := fun p => levels_unique (by rw [← l1 p]; exact a1 p) (by rw [← l1 p]; exact a2 p) k1 k2
  simp only [hcnt] at hdata
  rcases hres : acorrMultiAny flags f t axis n norm method period binning none align contiguous divisor r with e | d
  · rw [hres] at hpw
    have := (hpw p0 hp0).symm.trans (hdata p0)
    cases this
  · rw [hres] at hpw
    obtain ⟨g1, g2, g3⟩ := hpw
    obtain ⟨lin, multi, k⟩ := chain_auto_of hne g1 g2 method (one_le_levels h2 k2)
      (fun p => stream (along f ax p) t) (fun p => stream ((along f ax p).map Cx.abs2) t)
      (fun p j => regular (blockFirsts (2 ^ (j + 1)) (along f ax p)))
      (fun p j => regular (blockFirsts (2 ^ (j + 1)) ((along f ax p).map Cx.abs2)))
      (fun p hp => Except.ok.inj ((hdata p).symm.trans (g3 p hp))) bg var hbg hvar z mode scale
      (fun p c => IsCurve (period * n) (selfPairsAt (stream (along f ax p) t))
          (shownAs mode scale (varianceAt var p).offset ∘ autoFormula (backgroundAt bg p) (varianceAt var p).offset z) c)
      (fun p j c => IsCurve n (selfPairsAt (regular (blockFirsts (2 ^ (j + 1)) (along f ax p))))
          (shownAs mode scale (varianceAt var p).offset ∘ autoFormula (backgroundAt bg p) (varianceAt var p).offset z) c)
      (fun p hp' => by
        have hz' : PlainNorm z := by
          rcases hk with hk | hk
          · exact hk.2.2.1
          · simp [PlainNorm, hk.2.2]
        have c79 : ∃ nl' lin levels, n ≤ (along f ax p).length / 2 ^ nl' ∧ (along f ax p).length / 2 ^ (nl' + 1) < n ∧
            acorrMultiNormalized (along f ax p) t n norm method period binning none al r (backgroundAt bg p)
              (some (varianceAt var p)) z "corr" false = .ok (lin, (List.range nl').map levels) ∧
            IsCurve (period * n) (selfPairsAt (stream (along f ax p) t))
              (autoFormula (backgroundAt bg p) (varianceAt var p).offset z) lin ∧
            ∀ j < nl', IsCurve n (selfPairsAt (regular (blockFirsts (2 ^ (j + 1)) (along f ax p))))
              (autoFormula (backgroundAt bg p) (varianceAt var p).offset z) (levels j) := by
          rcases hk with ⟨hm', rfl, hz, hp, hsame⟩ | ⟨rfl, hb', rfl⟩
          · exact C79_auto_first _ t n norm method period al r m v hm hm' hv (by rw [l1]; exact hargs) hn (by rw [l1]; omega) _ _ z
              hz hp (fun h => hsame h p)
          · obtain rfl : method = some "diff" := by
              cases method with
              | none => simp at hm
              | some x => simp at hm; rw [← hm]
            exact C79_auto_diff _ t n norm period binning hb' al r v hv (by rw [l1]; exact hargs) hn (by rw [l1]; omega) _ _
        obtain ⟨nl', lin, levels, a1, a2, a3, a4, a5⟩ := c79
        rw [l1] at a1 a2
        obtain rfl := levels_unique k1 k2 a1 a2
        refine ⟨_, _, normalizeMulti_shown hz' hmo (fun h => hsc h p hp') ?_, isCurve_shown a4 _, fun j hj => isCurve_shown (a5 j hj) _⟩
        unfold acorrMultiNormalized at a3
        rw [hdata p] at a3
        exact a3)
    exact ⟨d, nl, lin, multi, k1, k2, rfl, k⟩

/-- The method 'diff' meets the hypotheses: 64 frames of 3 × 2 pixels, sixteen delays per level, other arguments default. -/
example : CrossArgs "diff" (effNorm none "diff" true) 64 64 none none (1 * 16) ∧ AutoArgs "diff" (effNorm none "diff" false) 64 none (1 * 16) ∧
    WantsSums (effNorm none "diff" true) := by
  refine ⟨⟨.inr (.inr rfl), by simp [SupportedNorm, effNorm], rfl, fun _ => by simp [defaultN], by simp⟩,
    ⟨.inr (.inr rfl), by simp [SupportedNorm, effNorm], trivial, by simp [Distinct], fun _ => by simp [defaultN], by simp⟩,
    by simp [WantsSums, effNorm]⟩

end Cddm
