import Verif.Lemmas.Multitau

/-!
# The levels of `ccorr_multi` and `acorr_multi` for given sequences of binned signals

Helpers of Props/Multitau.
-/

namespace Cddm
open Spec

theorem rowOf_congr {C : Type} {nm : Nat} {m : String} {cross : Bool} {L Lc : Nat} {d e : RowFns C}
    (h1 : d.1 = e.1) (h2 : d.2.1 = e.2.1) (h4 : d.2.2.2.1 = e.2.2.2.1)
    (h5 : d.2.2.2.2 = e.2.2.2.2)
    (h3 : needsSquares nm = true → m ≠ "diff" → d.2.2.1 = e.2.2.1) :
    rowOf nm m cross L Lc d = rowOf nm m cross L Lc e := by
  unfold rowOf
  rw [h1, h2, h4, h5]
  split
  · next h => rw [h3 h.1 h.2]
  · rfl

theorem squaresOf_eq {v : Int} {m : String} (hm : m = "corr" ∨ m = "fft" ∨ m = "diff")
    (f : List (Cx ℝ)) (h1 : needsSquares v.toNat = true) (h2 : m ≠ "diff") :
    squaresOf v m f = some (f.map Cx.abs2) := by
  unfold squaresOf
  rcases hm with rfl | rfl | rfl <;> simp_all

theorem squaresOf_length {v : Int} {m : String} (f : List (Cx ℝ)) (g : List ℝ)
    (h : squaresOf v m f = some g) : g.length = f.length := by
  unfold squaresOf at h
  split at h
  · rw [← Option.some.inj h]; simp
  · simp at h

/-- The levels for given sequences of binned signals. -/
theorem ccorrMulti_levels (f1 f2 : List (Cx ℝ)) (t1 t2 : Option (List Int)) (n : Nat)
    (norm : Option Int) (method : Option String) (period : Nat) (binning nlevel : Option Int)
    (al : Nat → Bool) (r : Nat → ℚ) (m : String) (b v : Int) (nl : Nat)
    (hmb : defaultMethodBinning method binning = .ok (m, b))
    (hv : v = effNorm norm m true)
    (hfast : CrossArgs m v f1.length f2.length t1 t2 (period * n)) (hn : 5 ≤ n)
    (hnl : determineLengths f1.length n period nlevel = .ok (period * n, n, nl))
    (F1 F2 : Nat → List (Cx ℝ)) (Q1 Q2 : Nat → List ℝ)
    (h1 : F1 0 = f1) (h2 : F2 0 = f2) (hq1 : Q1 0 = f1.map Cx.abs2) (hq2 : Q2 0 = f2.map Cx.abs2)
    (hF1 : ∀ i, F1 (i + 1) = binData b (r (4 * i)) (F1 i))
    (hF2 : ∀ i, F2 (i + 1) = binData b (r (4 * i + 1)) (F2 i))
    (hQ1 : ∀ i, Q1 (i + 1) = binData b (r (4 * i + 2)) (Q1 i))
    (hQ2 : ∀ i, Q2 (i + 1) = binData b (r (4 * i + 3)) (Q2 i))
    (hlen : ∀ j, j ≤ nl → n ≤ (F1 j).length ∧ (F2 j).length = (F1 j).length ∧
      (Q1 j).length = (F1 j).length ∧ (Q2 j).length = (F1 j).length) :
    ccorrMulti f1 f2 t1 t2 n norm method period binning nlevel al r = .ok
      (crossData false (productOf m) m v (period * n) (stream f1 t1) (stream f2 t2)
        (stream (f1.map Cx.abs2) t1) (stream (f2.map Cx.abs2) t2),
      (List.range nl).map fun j => crossData false (productOf m) m v n
        (regular (F1 (j + 1))) (regular (F2 (j + 1))) (regular (Q1 (j + 1)))
        (regular (Q2 (j + 1)))) := by
  have hq : ∀ (f : List (Cx ℝ)) (Q : Nat → List ℝ) (p : Nat → Nat), Q 0 = f.map Cx.abs2 →
      (∀ i, Q (i + 1) = binData b (r (p i)) (Q i)) →
      (∀ i, (squaresOf v m f).map (fun _ => Q (i + 1))
        = ((squaresOf v m f).map (fun _ => Q i)).map (binData b (r (p i)))) ∧
      (squaresOf v m f).map (fun _ => Q 0) = squaresOf v m f := by
    intro f Q p h0 hs
    refine ⟨fun i => ?_, ?_⟩
    · cases squaresOf v m f with
      | none => rfl
      | some g => simp [hs]
    · cases e : squaresOf v m f with
      | none => rfl
      | some g =>
        rw [h0]
        unfold squaresOf at e
        split at e
        · simpa using e
        · simp at e
  obtain ⟨a1, a0⟩ := hq f1 Q1 (fun i => 4 * i + 2) hq1 hQ1
  obtain ⟨b1, b0⟩ := hq f2 Q2 (fun i => 4 * i + 3) hq2 hQ2
  unfold ccorrMulti
  rw [ccorrMultiBody_ok ccorr_CrossOK f1 f2 t1 t2 n norm method period binning nlevel al r m b v nl
    (period * n) hmb hv hnl F1 F2 (fun i => (squaresOf v m f1).map fun _ => Q1 i)
    (fun i => (squaresOf v m f2).map fun _ => Q2 i) h1 h2 a0 b0 hF1 hF2 a1 b1 (by simp)
    ⟨hfast.method, hfast.norm, by simp, hfast.valid, fun g => squaresOf_length f1 g,
      fun g => squaresOf_length f2 g, fun e => ⟨(hfast.fft e).2.1, (hfast.fft e).2.2, ?_⟩,
      ⟨by simp, fun e => (hfast.fft e).1, fun e => hfast.span e⟩, by simp⟩ ?_]
  · rw [crossData_eq false _ hfast.norm]
    congr 2
    apply List.map_congr_left
    intro j _
    rw [crossData_eq false _ hfast.norm]
    apply rowOf_congr <;> try rfl
    intro e1 e2
    simp only [squaresOf_eq hfast.method _ e1 e2, Option.map_some, Option.getD_some]
    rfl
  · intro j hj1 hj2
    obtain ⟨c1, c2, c3, c4⟩ := hlen j hj2
    refine ⟨hfast.method, hfast.norm, by simp, ?_, ?_, ?_, fun e => ⟨by simp [Distinct],
      by simp [Distinct], by omega⟩, ⟨by simp, fun _ => by simp; omega, fun _ => ?_⟩, by simp⟩
    · simp only [ValidCross]; omega
    · intro g e
      cases e' : squaresOf v m f1 <;> simp [e'] at e
      rw [← e, c3]
    · intro g e
      cases e' : squaresOf v m f2 <;> simp [e'] at e
      rw [← e, c4, c2]
    · simp only [Bool.false_eq_true, if_false, defaultN]
      omega
  · have := (hlen 0 (Nat.zero_le _)).1
    rw [h1] at this
    omega

theorem defaultMethodBinning_mean {method : Option String} {binning : Option Int} {m : String}
    (hm : m = method.getD "corr") (hm' : m = "corr" ∨ m = "fft")
    (hb : binning.getD 1 = 1) : defaultMethodBinning method binning = .ok (m, 1) := by
  unfold defaultMethodBinning
  simp only [← hm, if_pos hm', hb]
  simp

theorem defaultMethodBinning_first {method : Option String} {binning : Option Int} {m : String}
    (hm : m = method.getD "corr") (hm' : m = "corr" ∨ m = "fft" ∨ m = "diff")
    (hb : binning = some 0 ∨ m = "diff" ∧ binning = none) :
    defaultMethodBinning method binning = .ok (m, 0) := by
  unfold defaultMethodBinning
  simp only [← hm]
  rcases hm' with h | h | h <;> subst h <;> rcases hb with rfl | ⟨h, rfl⟩ <;>
    simp at * 

theorem defaultMethodBinning_choose {method : Option String} {m : String}
    (hm : m = method.getD "corr") (hm' : m = "corr" ∨ m = "fft" ∨ m = "diff") :
    defaultMethodBinning method (some 2) = .ok (m, 2) := by
  unfold defaultMethodBinning
  simp only [← hm]
  rcases hm' with h | h | h <;> subst h <;> simp

theorem level_enough {N n nl j : Nat} (h : n ≤ N / 2 ^ nl) (hj : j ≤ nl) : n ≤ N / 2 ^ j :=
  h.trans (Nat.div_le_div_left (Nat.pow_le_pow_right (by omega) hj) (Nat.two_pow_pos j))

theorem binMean_seq {V : Type} [AddCommGroup V] [Module ℝ V] (f : List V) (r : ℚ) (i : Nat) :
    blockMeans (2 ^ (i + 1)) f = binData 1 r (blockMeans (2 ^ i) f) := by
  unfold binData
  rw [if_pos rfl, blockMeans_double, pow_succ]

theorem binFirst_seq {V : Type} [AddCommGroup V] [Module ℝ V] (f : List V) (r : ℚ) (i : Nat) :
    blockFirsts (2 ^ (i + 1)) f = binData 0 r (blockFirsts (2 ^ i) f) := by
  unfold binData
  rw [if_neg (by decide), if_pos rfl, everySecond_blockFirsts _ (Nat.two_pow_pos _), pow_succ]


theorem acorrMulti_levels (f : List (Cx ℝ)) (t : Option (List Int)) (n : Nat)
    (norm : Option Int) (method : Option String) (period : Nat) (binning nlevel : Option Int)
    (al : Nat → Bool) (r : Nat → ℚ) (m : String) (b v : Int) (nl : Nat)
    (hmb : defaultMethodBinning method binning = .ok (m, b))
    (hv : v = effNorm norm m false)
    (hfast : AutoArgs m v f.length t (period * n)) (hn : 5 ≤ n)
    (hnl : determineLengths f.length n period nlevel = .ok (period * n, n, nl))
    (F : Nat → List (Cx ℝ)) (Q : Nat → List ℝ)
    (h1 : F 0 = f) (hq1 : Q 0 = f.map Cx.abs2)
    (hF : ∀ i, F (i + 1) = binData b (r (4 * i)) (F i))
    (hQ : ∀ i, Q (i + 1) = binData b (r (4 * i + 2)) (Q i))
    (hlen : ∀ j, j ≤ nl → n ≤ (F j).length ∧ (Q j).length = (F j).length) :
    acorrMulti f t n norm method period binning nlevel al r = .ok
      (autoData (productOf m) m v (period * n) (stream f t) (stream (f.map Cx.abs2) t),
      (List.range nl).map fun j => autoData (productOf m) m v n
        (regular (F (j + 1))) (regular (Q (j + 1)))) := by
  have hq : (∀ i, (squaresOf v m f).map (fun _ => Q (i + 1))
        = ((squaresOf v m f).map (fun _ => Q i)).map (binData b (r (4 * i + 2)))) ∧
      (squaresOf v m f).map (fun _ => Q 0) = squaresOf v m f := by
    refine ⟨fun i => ?_, ?_⟩
    · cases squaresOf v m f with
      | none => rfl
      | some g => simp [hQ]
    · cases e : squaresOf v m f with
      | none => rfl
      | some g =>
        rw [hq1]
        unfold squaresOf at e
        split at e
        · simpa using e
        · simp at e
  obtain ⟨a1, a0⟩ := hq
  unfold acorrMulti
  rw [acorrMultiBody_ok acorr_AutoOK (fun m f t c => by funext k; exact selfSum_subT _ _ _ _ _)
    f t n norm method period binning nlevel al r m b v nl hmb hv (by simp) hnl F
    (fun i => (squaresOf v m f).map fun _ => Q i) h1 a0 hF a1
    ⟨hfast.method, hfast.norm, hfast.valid, fun g => squaresOf_length f g, hfast.distinct,
      fun _ => ?_, ⟨by simp, fun e => hfast.fft e, fun e => hfast.span e⟩⟩ ?_]
  · rw [autoData_eq _ hfast.norm]
    congr 2
    apply List.map_congr_left
    intro j _
    rw [autoData_eq _ hfast.norm]
    apply rowOf_congr <;> try rfl
    intro e1 e2
    simp only [squaresOf_eq hfast.method _ e1 e2, Option.map_some, Option.getD_some]
  · intro j hj1 hj2
    obtain ⟨c1, c3⟩ := hlen j hj2
    refine ⟨hfast.method, hfast.norm, trivial, ?_, by simp [Distinct], fun _ => by omega,
      ⟨by simp, fun _ => by simp; omega, fun _ => ?_⟩⟩
    · intro g e
      cases e' : squaresOf v m f <;> simp [e'] at e
      rw [← e, c3]
    · simp only [Bool.false_eq_true, if_false, defaultN]
      omega
  · have := (hlen 0 (Nat.zero_le _)).1
    rw [h1] at this
    omega

theorem Spec.CrossArgs.lengths {m : String} {v : Int} {N1 N2 : Nat} {t1 t2 : Option (List Int)}
    {L : Nat} (h : CrossArgs m v N1 N2 t1 t2 L) : N2 = N1 := by
  have := h.valid
  unfold ValidCross at this
  split at this
  · exact this.symm
  · exact this.1.symm
  · exact this.elim

theorem blockFirsts_length {α : Type} (m : Nat) (hm : 0 < m) (x : List α) :
    (blockFirsts m x).length = (x.length + m - 1) / m := by
  unfold blockFirsts
  rw [List.length_filterMap_eq_countP, List.countP_eq_length.2, List.length_range]
  intro b hb
  have hb := List.mem_range.1 hb
  rw [Nat.lt_div_iff_mul_lt hm] at hb
  rw [List.getElem?_eq_getElem (by omega)]
  rfl

theorem filterMap_range_eq {α : Type} (L K : Nat) (p : Nat → Nat) (x y : List α)
    (hy : y.length = L) (hget : ∀ b, b < L → y[b]? = x[p b]?) (hK : K = L) :
    (List.range K).filterMap (fun b => x[p b]?) = y := by
  subst hK
  subst hy
  have : ∀ (k : Nat), k ≤ y.length → (List.range k).filterMap (fun b => x[p b]?) = y.take k := by
    intro k
    induction k with
    | zero => simp
    | succ k ih =>
      intro hk
      rw [List.range_succ, List.filterMap_append, ih (by omega), List.take_add_one,
        hget k (by omega)]
      cases e : x[p k]? <;> simp [e]
  rw [this _ le_rfl, List.take_length]

theorem blockPicks_length {α : Type} (m o : Nat) (ho : o < m) (x : List α) :
    (blockPicks m o x).length = x.length / m := by
  unfold blockPicks
  rw [List.length_filterMap_eq_countP, List.countP_eq_length.2, List.length_range]
  intro b hb
  have hb := List.mem_range.1 hb
  have := (Nat.le_div_iff_mul_le (by omega)).1 (Nat.succ_le_of_lt hb)
  rw [Nat.succ_mul] at this
  rw [List.getElem?_eq_getElem (by omega)]
  rfl

theorem blockPicks_get {α : Type} (m o : Nat) (ho : o < m) (x : List α) (b : Nat)
    (hb : b < x.length / m) : (blockPicks m o x)[b]? = x[b * m + o]? := by
  have h : ∀ c, c < x.length / m → c * m + o < x.length := by
    intro c hc
    have := (Nat.le_div_iff_mul_le (by omega)).1 (Nat.succ_le_of_lt hc)
    rw [Nat.succ_mul] at this
    omega
  have e : blockPicks m o x = List.ofFn fun b : Fin (x.length / m) => x[b * m + o]'(h b b.2) := by
    unfold blockPicks
    refine filterMap_range_eq (x.length / m) _ (fun b => b * m + o) x _ (by simp) ?_ rfl
    intro c hc
    rw [List.getElem?_ofFn, dif_pos hc, List.getElem?_eq_getElem (h c hc)]
  rw [e, List.getElem?_ofFn, dif_pos hb, List.getElem?_eq_getElem (h b hb)]

/-- The offset within its block of the sample kept by random binning after `i` steps. -/
def pickOffset (r : Nat → ℚ) (p : Nat → Nat) : Nat → Nat
  | 0 => 0
  | i + 1 => pickOffset r p i + if r (p i) < 1 / 2 then 2 ^ i else 0

theorem pickOffset_lt (r : Nat → ℚ) (p : Nat → Nat) (i : Nat) : pickOffset r p i < 2 ^ i := by
  induction i with
  | zero => simp [pickOffset]
  | succ i ih =>
    unfold pickOffset
    rw [pow_succ]
    split <;> omega

theorem binChoose_seq {V : Type} [AddCommGroup V] [Module ℝ V] (f : List V) (r : Nat → ℚ)
    (p : Nat → Nat) (i : Nat) :
    blockPicks (2 ^ (i + 1)) (pickOffset r p (i + 1)) f
      = binData 2 (r (p i)) (blockPicks (2 ^ i) (pickOffset r p i) f) := by
  have hl := blockPicks_length (2 ^ i) _ (pickOffset_lt r p i) f
  unfold binData
  rw [if_neg (by decide), if_neg (by decide)]
  refine filterMap_range_eq _ _ (fun b => b * 2 ^ (i + 1) + pickOffset r p (i + 1)) f _
    (chooseData_length _ _) ?_ ?_
  · intro b hb
    rw [chooseData_get _ _ _ hb, blockPicks_get _ _ (pickOffset_lt r p i) _ _
      (by rw [← hl]; split <;> omega)]
    congr 1
    rw [show pickOffset r p (i + 1) = pickOffset r p i + if r (p i) < 1 / 2 then 2 ^ i else 0
      from rfl]
    by_cases h : r (p i) < 1 / 2
    · rw [if_pos h, if_pos (by simpa using h)]; ring
    · rw [if_neg h, if_neg (by simpa using h)]; ring
  · rw [hl, Nat.div_div_eq_div_mul, pow_succ]

theorem blockPicks_one {α : Type} (x : List α) : blockPicks 1 0 x = x :=
  filterMap_range_eq x.length _ (fun b => b * 1 + 0) x x rfl (by simp) (by simp)

end Cddm
