import Verif.Lemmas.MultiRow
import Verif.Lemmas.LogAvg

/-!
# In-memory multiple tau: levels as block averages
-/

namespace Cddm
open Spec

/-! ### while loops -/

theorem whileUp_prop (p : Nat → Bool) (fuel d : Nat) :
    d ≤ whileUp p fuel d ∧ whileUp p fuel d ≤ d + fuel ∧
      (∀ y, d ≤ y → y < whileUp p fuel d → p y = true) ∧
      (whileUp p fuel d < d + fuel → p (whileUp p fuel d) = false) := by
  induction fuel generalizing d with
  | zero => exact ⟨le_refl _, le_refl _, fun y h1 h2 => by simp [whileUp] at h2; omega,
      fun h => by simp [whileUp] at h⟩
  | succ fuel ih =>
    unfold whileUp
    by_cases hp : p d = true
    · rw [if_pos hp]
      obtain ⟨h1, h2, h3, h4⟩ := ih (d + 1)
      refine ⟨by omega, by omega, fun y hy1 hy2 => ?_, fun h => h4 (by omega)⟩
      by_cases e : y = d
      · subst e; exact hp
      · exact h3 y (by omega) hy2
    · rw [if_neg hp]
      exact ⟨le_refl _, by omega, fun y h1 h2 => by omega, fun _ => by simpa using hp⟩

/-- The loop stops at the first value at which the condition fails. -/
theorem whileUp_spec (p : Nat → Bool) (fuel x : Nat) (hx : x ≤ fuel) (hp : p x = false) :
    p (whileUp p fuel 0) = false ∧ ∀ y, y < whileUp p fuel 0 → p y = true := by
  obtain ⟨_, h2, h3, h4⟩ := whileUp_prop p fuel 0
  refine ⟨?_, fun y hy => h3 y (Nat.zero_le _) hy⟩
  by_cases h : whileUp p fuel 0 < 0 + fuel
  · exact h4 h
  · have e : whileUp p fuel 0 = fuel := by omega
    by_cases hx' : x = fuel
    · rw [e, ← hx']; exact hp
    · have := h3 x (Nat.zero_le _) (by omega)
      rw [hp] at this; cases this

/-! ### binning -/
section
variable {V : Type} [AddCommGroup V] [Module ℝ V]

omit [AddCommGroup V] [Module ℝ V] in
theorem halves_length (x : List V) :
    (takeIdx x (sliceBy x.length 0 (x.length - 1) 2)).length = x.length / 2 ∧
    (takeIdx x (sliceBy x.length 1 x.length 2)).length = x.length / 2 := by
  have h0 := chooseData_length false x
  have h1 := chooseData_length true x
  unfold chooseData at h0 h1
  exact ⟨by simpa using h0, by simpa using h1⟩

theorem meanData_length (x : List V) : (meanData x).length = x.length / 2 := by
  obtain ⟨h1, h2⟩ := halves_length x
  simp only [meanData, List.length_zipWith, h1, h2, min_self]

theorem meanData_get (x : List V) (b : Nat) (hb : b < x.length / 2) :
    (meanData x)[b]? = some ((1 / 2 : ℝ) • (x[2 * b]'(by omega) + x[2 * b + 1]'(by omega))) := by
  have g0 := chooseData_get false x b hb
  have g1 := chooseData_get true x b hb
  unfold chooseData at g0 g1
  simp only [Bool.false_eq_true, if_false, if_true, Nat.add_zero] at g0 g1
  simp only [meanData, List.getElem?_zipWith, g0, g1]
  rw [List.getElem?_eq_getElem (by omega), List.getElem?_eq_getElem (by omega)]

theorem blockMeans_length (m : Nat) (x : List V) : (blockMeans m x).length = x.length / m := by
  simp [blockMeans]

theorem blockMean_double (m : Nat) (x : List V) (b : Nat) :
    blockMean (m * 2) x b
      = (1 / 2 : ℝ) • (blockMean m x (2 * b) + blockMean m x (2 * b + 1)) := by
  unfold blockMean
  have e : m * 2 = m + m := by omega
  have e1 : b * (m * 2) = 2 * b * m := by ring
  have e2 : (2 * b + 1) * m = 2 * b * m + m := by ring
  rw [e1, e2, e, List.take_add, List.sum_append, List.drop_drop]
  push_cast
  by_cases hm : (m : ℝ) = 0
  · simp [hm]
  · rw [← smul_add, smul_smul]
    congr 1
    rw [show ((m : ℝ) + m) = 2 * m by ring]
    rw [one_div, mul_inv, one_div, one_div]

theorem blockMeans_double (m : Nat) (x : List V) :
    meanData (blockMeans m x) = blockMeans (m * 2) x := by
  apply List.ext_getElem?
  intro b
  by_cases hb : b < x.length / (m * 2)
  · have hb' : b < (blockMeans m x).length / 2 := by
      rw [blockMeans_length, Nat.div_div_eq_div_mul]; exact hb
    rw [meanData_get _ _ hb', List.getElem?_eq_getElem (by rw [blockMeans_length]; exact hb)]
    simp only [blockMeans, List.getElem_map, List.getElem_range]
    rw [blockMean_double]
  · have h1 : (meanData (blockMeans m x)).length ≤ b := by
      rw [meanData_length, blockMeans_length, Nat.div_div_eq_div_mul]
      exact not_lt.mp hb
    rw [List.getElem?_eq_none h1,
      List.getElem?_eq_none (by rw [blockMeans_length]; exact not_lt.mp hb)]

theorem blockMeans_one (x : List V) : blockMeans 1 x = x := by
  apply List.ext_getElem
  · simp [blockMeans]
  · intro k h1 h2
    simp [blockMeans, blockMean, List.take_one, List.head?_drop, List.getElem?_eq_getElem h2]

theorem everySecond_blockFirsts {α : Type} (m : Nat) (hm : 0 < m) (x : List α) :
    everySecond (blockFirsts m x) = blockFirsts (m * 2) x := by
  have key : ∀ m, 0 < m → (∀ b, b < (x.length + m - 1) / m → b * m < x.length) := by
    intro m hm b hb
    have h1 := (Nat.le_div_iff_mul_le hm).mp (Nat.succ_le_of_lt hb)
    have h2 : (b + 1) * m = b * m + m := by ring
    rw [Nat.succ_eq_add_one, h2] at h1
    omega
  have form : ∀ m, 0 < m → ∀ b, (blockFirsts m x)[b]? = x[b * m]? := by
    intro m hm b
    have e : blockFirsts m x = takeIdx x (List.range' 0 ((x.length + m - 1) / m) m) := by
      unfold blockFirsts takeIdx
      have er : List.range' 0 ((x.length + m - 1) / m) m
          = (List.range ((x.length + m - 1) / m)).map (· * m) := by
        apply List.ext_getElem
        · simp
        · intro k h1 h2
          simp [Nat.mul_comm]
      rw [er, List.filterMap_map]
      rfl
    obtain ⟨h1, h2⟩ := takeIdx_range' x 0 ((x.length + m - 1) / m) m (fun i hi => by
      rw [Nat.zero_add, Nat.mul_comm]; exact key m hm i hi)
    by_cases hb : b < (x.length + m - 1) / m
    · rw [e, h2 b hb, Nat.zero_add, Nat.mul_comm]
    · rw [List.getElem?_eq_none (by rw [e, h1]; omega), List.getElem?_eq_none]
      have := (Nat.div_lt_iff_lt_mul hm).mp (Nat.lt_succ_of_le (not_lt.mp hb))
      rw [Nat.succ_mul] at this
      omega
  apply List.ext_getElem?
  intro b
  rw [everySecond_get, form m hm, form (m * 2) (by omega)]
  congr 1
  ring

theorem blockFirsts_one {α : Type} (x : List α) : blockFirsts 1 x = x := by
  have e : blockFirsts 1 x = takeIdx x (List.range' 0 x.length 1) := by
    unfold blockFirsts takeIdx
    rw [← List.range_eq_range']
    simp
  obtain ⟨h1, h2⟩ := takeIdx_range' x 0 x.length 1 (fun i hi => by omega)
  apply List.ext_getElem?
  intro b
  rw [e]
  by_cases hb : b < x.length
  · rw [h2 b hb]; congr 1; omega
  · rw [List.getElem?_eq_none (by omega), List.getElem?_eq_none (by omega)]

end

/-! ### the loop over levels -/

theorem multiLevels_ok {C : Type} [AddCommMonoid C] {full : Bool} {g : String → Cx ℝ → Cx ℝ → C}
    {cc : CrossFn C} (K : CrossOK full g cc) (binning : Int) (m : String) (v : Int) (n L Lc : Nat)
    (squares : Bool) (al : Nat → Bool) (r : Nat → ℚ) (F1 F2 : Nat → List (Cx ℝ))
    (Q1 Q2 : Nat → Option (List ℝ))
    (hF1 : ∀ i, F1 (i + 1) = binData binning (r (4 * i)) (F1 i))
    (hF2 : ∀ i, F2 (i + 1) = binData binning (r (4 * i + 1)) (F2 i))
    (hQ1 : ∀ i, Q1 (i + 1)
      = if squares then (Q1 i).map (binData binning (r (4 * i + 2))) else Q1 i)
    (hQ2 : ∀ i, Q2 (i + 1)
      = if squares then (Q2 i).map (binData binning (r (4 * i + 3))) else Q2 i)
    (k i : Nat)
    (h : ∀ j, i < j → j ≤ i + k →
      CallOK full m v (F1 j).length (F2 j).length none none (Q1 j) (Q2 j) L Lc) :
    multiLevels cc binning m v.toNat n squares (rowOf v.toNat m true L Lc 0) al r k i
        (F1 i) (F2 i) (Q1 i) (Q2 i)
      = .ok ((List.range' i k).map fun j => rowOf v.toNat m true L Lc
          (crossFns full (g m) L Lc (regular (F1 (j + 1))) (regular (F2 (j + 1)))
            (regular ((Q1 (j + 1)).getD ((F1 (j + 1)).map Cx.abs2)))
            (regular ((Q2 (j + 1)).getD ((F2 (j + 1)).map Cx.abs2))))) := by
  induction k generalizing i with
  | zero => rfl
  | succ k ih =>
    have hv : (v.toNat : Int) = v := by
      have := (h (i + 1) (by omega) (by omega)).norm
      unfold SupportedNorm at this
      split at this <;> omega
    unfold multiLevels
    simp only
    rw [← hF1, ← hF2, ← hQ1, ← hQ2, hv]
    obtain ⟨d, e1, e2⟩ := K.into (n := n) (al := al (i + 1)) 0 (h (i + 1) (by omega) (by omega))
    rw [e1]
    simp only [bind, Except.bind]
    rw [ih (i + 1) (fun j h1 h2 => h j (by omega) (by omega))]
    simp only [e2, zero_add, List.range'_succ, List.map_cons, stream]

theorem multiLevelsAuto_ok {C : Type} [AddCommMonoid C] {cplx : Bool}
    {cor : String → Stream (Cx ℝ) → Nat → C} {ac : AutoFn C} (K : AutoOK cplx cor ac)
    (binning : Int) (m : String) (v : Int) (n L Lc : Nat)
    (squares : Bool) (al : Nat → Bool) (r : Nat → ℚ) (F : Nat → List (Cx ℝ))
    (Q : Nat → Option (List ℝ))
    (hF : ∀ i, F (i + 1) = binData binning (r (4 * i)) (F i))
    (hQ : ∀ i, Q (i + 1) = if squares then (Q i).map (binData binning (r (4 * i + 2))) else Q i)
    (k i : Nat) (hd : cplx = true → m ≠ "diff")
    (h : ∀ j, i < j → j ≤ i + k → AutoCallOK m v (F j).length none (Q j) L) :
    multiLevelsAuto ac binning m v.toNat n squares (rowOf v.toNat m false L Lc 0) al r k i
        (F i) (Q i)
      = .ok ((List.range' i k).map fun j => rowOf v.toNat m false L Lc
          (autoFns (cor m) (regular (F (j + 1)))
            (regular ((Q (j + 1)).getD ((F (j + 1)).map Cx.abs2))))) := by
  induction k generalizing i with
  | zero => rfl
  | succ k ih =>
    have hv : (v.toNat : Int) = v := by
      have := (h (i + 1) (by omega) (by omega)).norm
      unfold SupportedNorm at this
      split at this <;> omega
    unfold multiLevelsAuto
    simp only
    rw [← hF, ← hQ, hv]
    obtain ⟨d, e1, e2⟩ := K.into (n := n) (Lc := Lc) (al := al (i + 1)) 0
      (h (i + 1) (by omega) (by omega)) hd
    rw [e1]
    simp only [bind, Except.bind]
    rw [ih (i + 1) (fun j h1 h2 => h j (by omega) (by omega))]
    simp only [e2, zero_add, List.range'_succ, List.map_cons, stream]


theorem determineLengths_some (N n period : Nat) (hn : 4 < n) (nl : Nat) :
    determineLengths N n period (some (nl : Int)) = .ok (period * n, n, nl) := by
  unfold determineLengths
  simp [hn]

/-- The automatic number of levels: the largest for which the last level has `n` samples. -/
theorem determineLengths_none (N n period : Nat) (hn : 4 < n) (hN : n ≤ N) :
    ∃ nl, determineLengths N n period none = .ok (period * n, n, nl) ∧
      n ≤ N / 2 ^ nl ∧ N / 2 ^ (nl + 1) < n := by
  obtain ⟨h1, h2⟩ := whileUp_spec (fun d => decide (N / 2 ^ d ≥ n)) (N + 1) N (by omega) (by
    rw [Nat.div_eq_of_lt Nat.lt_two_pow_self]
    simp; omega)
  generalize hw : whileUp (fun d => decide (N / 2 ^ d ≥ n)) (N + 1) 0 = w at h1 h2
  have hw0 : w ≠ 0 := by
    rintro rfl
    simp at h1; omega
  refine ⟨w - 1, ?_, ?_, ?_⟩
  · unfold determineLengths
    simp only [hw, Option.getD_none]
    rw [if_neg (by omega), if_pos (by omega)]
    congr 3
    omega
  · simpa using h2 (w - 1) (by omega)
  · rw [show w - 1 + 1 = w by omega]
    simpa using h1

theorem CallOK.subT {full : Bool} {m : String} {v : Int} {N1 N2 : Nat}
    {t1 t2 : Option (List Int)} {f1s f2s : Option (List ℝ)} {L Lc : Nat}
    (h : CallOK full m v N1 N2 t1 t2 f1s f2s L Lc) (c : Int) :
    CallOK full m v N1 N2 (subT c t1) (subT c t2) f1s f2s L Lc where
  method := h.method
  norm := h.norm
  diff := h.diff
  valid := h.valid.subT c
  sq1 := h.sq1
  sq2 := h.sq2
  fft := fun e => ⟨(h.fft e).1.subT c, (h.fft e).2.1.subT c, (h.fft e).2.2⟩
  len := by
    obtain ⟨h1, h2, h3⟩ := h.len
    refine ⟨h1, h2, fun e => ?_⟩
    rw [defaultN_subT]
    refine h3 (e.imp_right fun h => ?_)
    rcases t1 with _ | t1
    · rfl
    · simp [Cddm.subT] at h
  clen := h.clen

theorem crossFns_subT {C : Type} [AddCommMonoid C] (full : Bool) (g : Cx ℝ → Cx ℝ → C)
    (L Lc : Nat) (f1 f2 : List (Cx ℝ)) (q1 q2 : List ℝ) {t1 t2 : Option (List Int)} {N1 N2 : Nat}
    (hv : ValidCross N1 N2 t1 t2) (c : Int) :
    crossFns full g L Lc (stream f1 (subT c t1)) (stream f2 (subT c t2)) (stream q1 (subT c t1))
      (stream q2 (subT c t2))
    = crossFns full g L Lc (stream f1 t1) (stream f2 t2) (stream q1 t1) (stream q2 t2) := by
  unfold crossFns
  simp only [Prod.mk.injEq]
  refine ⟨?_, ?_, ?_, ?_, ?_⟩ <;> funext k <;> exact cellSum_stream _ _ _ _ hv _ _ _

/-- The squares kept track of. -/
noncomputable def squaresOf (v : Int) (m : String) (f : List (Cx ℝ)) : Option (List ℝ) :=
  if needsSquares v.toNat && decide (m = "corr" ∨ m = "fft") then some (f.map Cx.abs2) else none

theorem ccorrMultiBody_ok {C : Type} [AddCommMonoid C] {full : Bool}
    {g : String → Cx ℝ → Cx ℝ → C} {cc : CrossFn C} (K : CrossOK full g cc)
    (f1 f2 : List (Cx ℝ)) (t1 t2 : Option (List Int)) (n : Nat) (norm : Option Int)
    (method : Option String) (period : Nat) (binning nlevel : Option Int) (al : Nat → Bool)
    (r : Nat → ℚ) (m : String) (b v : Int) (nl L : Nat)
    (hmb : defaultMethodBinning method binning = .ok (m, b))
    (hv : v = effNorm norm m true)
    (hnl : determineLengths f1.length n period nlevel = .ok (period * n, n, nl))
    (F1 F2 : Nat → List (Cx ℝ)) (Q1 Q2 : Nat → Option (List ℝ))
    (h1 : F1 0 = f1) (h2 : F2 0 = f2) (hq1 : Q1 0 = squaresOf v m f1) (hq2 : Q2 0 = squaresOf v m f2)
    (hF1 : ∀ i, F1 (i + 1) = binData b (r (4 * i)) (F1 i))
    (hF2 : ∀ i, F2 (i + 1) = binData b (r (4 * i + 1)) (F2 i))
    (hQ1 : ∀ i, Q1 (i + 1) = (Q1 i).map (binData b (r (4 * i + 2))))
    (hQ2 : ∀ i, Q2 (i + 1) = (Q2 i).map (binData b (r (4 * i + 3))))
    (hL : L = if full then 2 * (period * n) - 1 else period * n)
    (hfast : CallOK full m v f1.length f2.length t1 t2 (squaresOf v m f1) (squaresOf v m f2) L L)
    (hslow : ∀ j, 0 < j → j ≤ nl →
      CallOK full m v (F1 j).length (F2 j).length none none (Q1 j) (Q2 j)
        (if full then n * 2 + 1 else n) n) :
    ccorrMultiBody full cc f1 f2 t1 t2 n norm method period binning nlevel al r = .ok
      (rowOf v.toNat m true L L (crossFns full (g m) L L (stream f1 t1) (stream f2 t2)
        (stream (f1.map Cx.abs2) t1) (stream (f2.map Cx.abs2) t2)),
      (List.range nl).map fun j => rowOf v.toNat m true (if full then n * 2 + 1 else n) n
          (crossFns full (g m) (if full then n * 2 + 1 else n) n
            (regular (F1 (j + 1))) (regular (F2 (j + 1)))
            (regular ((Q1 (j + 1)).getD ((F1 (j + 1)).map Cx.abs2)))
            (regular ((Q2 (j + 1)).getD ((F2 (j + 1)).map Cx.abs2))))) := by
  have hvv : (v.toNat : Int) = v := by
    have := hfast.norm
    unfold SupportedNorm at this
    split at this <;> omega
  have hn : defaultNorm norm m true = .ok v.toNat := by
    rw [hv]; exact defaultNorm_ok (hv ▸ hfast.norm)
  obtain ⟨c, t, e, et1, et2, -⟩ := inspectCross_sub f1.length f2.length t1 t2 (some n) none false _
    rfl hfast.valid
  have hd : delays false (some n) none (defaultN f1.length t1 t2) = n := rfl
  rw [hd] at e
  have hcor : decide (m = "corr" ∨ m = "fft") = true ↔ m ≠ "diff" := by
    rcases hfast.method with h | h | h <;> subst h <;> decide
  unfold ccorrMultiBody
  simp only [hmb, hn, e, hnl, bind, Except.bind, hvv]
  obtain ⟨d, e1, e2⟩ := K.new (n := period * n) (al := al 0) hL (hfast.subT c)
  have hsq : ∀ f : List (Cx ℝ), (if (needsSquares v.toNat && decide (m = "corr" ∨ m = "fft")) = true
      then some (f.map Cx.abs2) else none) = squaresOf v m f := fun f => rfl
  simp only [hsq, et1, et2, e1]
  rw [zeroArrays_eq v.toNat m true _ _ _ hcor]
  have hQ : ∀ (f : List (Cx ℝ)) (Q : Nat → Option (List ℝ)) (p : Nat → Nat), Q 0 = squaresOf v m f →
      (∀ i, Q (i + 1) = (Q i).map (binData b (r (p i)))) →
      ∀ i, Q (i + 1) = if (needsSquares v.toNat && decide (m = "corr" ∨ m = "fft")) = true then
        (Q i).map (binData b (r (p i))) else Q i := by
    intro f Q p h0 hs i
    split
    · exact hs i
    · next hc =>
      have hnone : ∀ i, Q i = none := by
        intro i
        induction i with
        | zero => rw [h0, squaresOf, if_neg hc]
        | succ i ih => rw [hs, ih]; rfl
      rw [hnone, hnone]
  have key := multiLevels_ok K b m v n (if full then n * 2 + 1 else n) n
    (needsSquares v.toNat && decide (m = "corr" ∨ m = "fft")) al r F1 F2 Q1 Q2 hF1 hF2
    (hQ f1 Q1 (fun i => 4 * i + 2) hq1 hQ1) (hQ f2 Q2 (fun i => 4 * i + 3) hq2 hQ2) nl 0
    (fun j a b => hslow j a (by omega))
  rw [h1, h2, hq1, hq2] at key
  rw [key]
  simp only [e2]
  rw [crossFns_subT _ _ _ _ _ _ _ _ hfast.valid, ← List.range_eq_range']
  congr 3
  have hg : ∀ f : List (Cx ℝ), (squaresOf v m f).getD (f.map Cx.abs2) = f.map Cx.abs2 := by
    intro f
    unfold squaresOf
    split <;> rfl
  rw [hg, hg]


theorem AutoCallOK.subT {m : String} {v : Int} {N : Nat} {t : Option (List Int)}
    {fs : Option (List ℝ)} {L : Nat} (h : AutoCallOK m v N t fs L) (c : Int) :
    AutoCallOK m v N (subT c t) fs L where
  method := h.method
  norm := h.norm
  valid := h.valid.subT c
  sq := h.sq
  times := h.times.subT c
  fft := h.fft
  len := by
    obtain ⟨h1, h2, h3⟩ := h.len
    refine ⟨h1, h2, fun e => ?_⟩
    rw [defaultN_subT]
    refine h3 (e.imp_right fun h => ?_)
    rcases t with _ | t
    · rfl
    · simp [Cddm.subT] at h

theorem acorrMultiBody_ok {C : Type} [AddCommMonoid C] {cplx : Bool}
    {cor : String → Stream (Cx ℝ) → Nat → C} {ac : AutoFn C} (K : AutoOK cplx cor ac)
    (hcor : ∀ m f t c, cor m (stream f (subT c t)) = cor m (stream f t))
    (f : List (Cx ℝ)) (t : Option (List Int)) (n : Nat) (norm : Option Int)
    (method : Option String) (period : Nat) (binning nlevel : Option Int) (al : Nat → Bool)
    (r : Nat → ℚ) (m : String) (b v : Int) (nl : Nat)
    (hmb : defaultMethodBinning method binning = .ok (m, b))
    (hv : v = effNorm norm m false) (hd : cplx = true → m ≠ "diff")
    (hnl : determineLengths f.length n period nlevel = .ok (period * n, n, nl))
    (F : Nat → List (Cx ℝ)) (Q : Nat → Option (List ℝ))
    (h1 : F 0 = f) (hq : Q 0 = squaresOf v m f)
    (hF : ∀ i, F (i + 1) = binData b (r (4 * i)) (F i))
    (hQ : ∀ i, Q (i + 1) = (Q i).map (binData b (r (4 * i + 2))))
    (hfast : AutoCallOK m v f.length t (squaresOf v m f) (period * n))
    (hslow : ∀ j, 0 < j → j ≤ nl →
      AutoCallOK m v (F j).length none (Q j) (if cplx then n * 2 + 1 else n)) :
    acorrMultiBody cplx ac f t n norm method period binning nlevel al r = .ok
      (rowOf v.toNat m false (period * n) (period * n) (autoFns (cor m) (stream f t)
        (stream (f.map Cx.abs2) t)),
      (List.range nl).map fun j => rowOf v.toNat m false (if cplx then n * 2 + 1 else n) n
          (autoFns (cor m) (regular (F (j + 1)))
            (regular ((Q (j + 1)).getD ((F (j + 1)).map Cx.abs2))))) := by
  have hvv : (v.toNat : Int) = v := by
    have := hfast.norm
    unfold SupportedNorm at this
    split at this <;> omega
  have hn : defaultNorm norm m false = .ok v.toNat := by
    rw [hv]; exact defaultNorm_ok (hv ▸ hfast.norm)
  obtain ⟨c, e⟩ := inspectAuto_sub f.length t (some n) none _ rfl hfast.valid
  have hdl : delays false (some n) none (defaultN f.length t t) = n := rfl
  rw [hdl] at e
  have hc : decide (m = "corr" ∨ m = "fft") = true ↔ m ≠ "diff" := by
    rcases hfast.method with h | h | h <;> subst h <;> decide
  unfold acorrMultiBody
  simp only [hmb, hn, e, hnl, bind, Except.bind, hvv]
  obtain ⟨d, e1, e2⟩ := K.new (n := period * n) (al := al 0) (hfast.subT c) hd
  have hsq : ∀ f : List (Cx ℝ), (if (needsSquares v.toNat && decide (m = "corr" ∨ m = "fft")) = true
      then some (f.map Cx.abs2) else none) = squaresOf v m f := fun f => rfl
  simp only [hsq, e1]
  rw [zeroArrays_eq v.toNat m false _ _ _ hc]
  have hQ' : ∀ i, Q (i + 1) = if (needsSquares v.toNat && decide (m = "corr" ∨ m = "fft")) = true
      then (Q i).map (binData b (r (4 * i + 2))) else Q i := by
    intro i
    split
    · exact hQ i
    · next hc =>
      have hnone : ∀ i, Q i = none := by
        intro i
        induction i with
        | zero => rw [hq, squaresOf, if_neg hc]
        | succ i ih => rw [hQ, ih]; rfl
      rw [hnone, hnone]
  have key := multiLevelsAuto_ok K b m v n (if cplx then n * 2 + 1 else n) n
    (needsSquares v.toNat && decide (m = "corr" ∨ m = "fft")) al r F Q hF hQ' nl 0 hd
    (fun j a b => hslow j a (by omega))
  rw [h1, hq] at key
  rw [key]
  simp only [e2]
  rw [← List.range_eq_range']
  have hg : (squaresOf v m f).getD (f.map Cx.abs2) = f.map Cx.abs2 := by
    unfold squaresOf
    split <;> rfl
  rw [hg]
  congr 3
  unfold autoFns
  rw [hcor]
  have e3 : ∀ {M : Type} [AddCommMonoid M] {α : Type} (g : α → α → M) (x : List α),
      selfSum g (stream x (subT c t)) = selfSum g (stream x t) := by
    intro M _ α g x
    funext k
    exact selfSum_subT _ _ _ _ _
  simp only [e3]

end Cddm
