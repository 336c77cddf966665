import Verif.Lemmas.LogAny
import Verif.Props.CorrViewerLog

/-!
# C120: log averaging and merging of arrays act on every wave vector by itself
-/

namespace Cddm
open Spec
variable {α V : Type}

/-! ## Multilevel data -/

theorem levelWise_of {frame : List Nat} {size : Nat} {res : Py (Tensor α)} {one : List Nat → Py (List (List α))}
    (h : LevelRes frame size res one) : LevelWise frame size res one := by
  unfold LevelRes PW at h
  unfold LevelWise
  cases res <;> exact h

theorem timeCurveWise_of {frame : List Nat} {res : Py (List Nat × Tensor α)} {one : List Nat → Py (List Nat × List α)}
    (h : TimeRes frame res one) : TimeCurveWise frame res one := by
  unfold TimeRes PW at h
  unfold TimeCurveWise
  cases res <;> exact h

/-- `multilevel`: for data of any number of axes and any of the binning modes, the levels at each position are those of the curve
at that position. -/
theorem C120_multilevel (K : Type) [Field K] [AddCommGroup V] [Module K V] (frame : List Nat) (N : Nat) (data : Tensor V)
    (h : data.shape = frame ++ [N]) (size binning : Int) (low : Nat → Bool) :
    LevelWise frame size.toNat (multilevelAny K data size binning low)
      fun p => multilevel K (curveAt data p) size binning low :=
  levelWise_of (multilevelAny_ok K h size binning low)

/-- The same for complex data, folded or not. -/
theorem C120_multilevel_complex (frame : List Nat) (N : Nat) (data : Tensor (Cx ℝ)) (h : data.shape = frame ++ [N])
    (size binning : Int) (low : Nat → Bool) (fold : Option Bool) :
    LevelWise frame size.toNat (multilevelComplexAny data size binning low fold)
      fun p => multilevelComplex (curveAt data p) size binning low fold := by
  apply levelWise_of
  unfold multilevelComplexAny multilevelComplex
  by_cases hb : binning ∉ ([2, 1, 0] : List Int)
  · simp only [hb, not_false_eq_true, if_true]
    exact fun _ _ => rfl
  · simp only [hb, if_false]
    by_cases hs : size < 2
    · simp only [hs, if_true]
      exact fun _ _ => rfl
    · simp only [hs, if_false]
      exact PW.bind (foldIfAskedAny_ok h fold) (k' := fun _ d => multilevel ℝ d size binning low)
        fun d _ hd => multilevelAny_ok ℝ hd size binning low

/-! ## Merging -/

/-- `merge_multilevel`, both modes: the levels are the first axis, the times are common, and the values at each position are those
merged from the levels at that position. -/
theorem C120_merge (frame : List Nat) (L n : Nat) (data : Tensor α) (h : data.shape = L :: frame ++ [n]) (mode : String) :
    TimeCurveWise frame (mergeMultilevelAny data mode) fun p => mergeMultilevel (levelsAt data p) n mode :=
  timeCurveWise_of (mergeMultilevelAny_ok h mode)

theorem flatten_range_getElem? {β : Type} (m L l j : Nat) (f : Nat → Nat → β) (hl : l < L) (hj : j < m) :
    ((List.range L).map fun l => (List.range m).map fun j => f l j).flatten[l * m + j]? = some (f l j) := by
  have h := range_mul_flatten m L fun k => f (k / m) (k % m)
  have e : ((List.range L).map fun l => (List.range m).map fun j => f ((l * m + j) / m) ((l * m + j) % m))
      = (List.range L).map fun l => (List.range m).map fun j => f l j := by
    apply List.map_congr_left
    intro l _
    apply List.map_congr_left
    intro j hj
    rw [List.mem_range] at hj
    rw [Nat.mul_comm l m, Nat.mul_add_div (by omega), Nat.mul_add_mod, Nat.div_eq_of_lt hj, Nat.mod_eq_of_lt hj, Nat.add_zero]
  rw [e] at h
  have hk : l * m + j < m * L := by
    have : (l + 1) * m ≤ L * m := Nat.mul_le_mul_right _ hl
    rw [Nat.add_mul, Nat.one_mul] at this
    rw [Nat.mul_comm m L]
    omega
  rw [← h, List.getElem?_map, List.getElem?_range hk, Option.map_some, Nat.mul_comm l m, Nat.mul_add_div (by omega),
    Nat.mul_add_mod, Nat.div_eq_of_lt hj, Nat.mod_eq_of_lt hj, Nat.add_zero]

/-- `merge_multilevel(mode = "half")`, entry by entry: what stood at level `l` and time `n/2 + j` stands, for every position, at
`l * (n/2) + j`, with the time `(n/2 + j) * 2^l`. -/
theorem C120_merge_half_entry (frame : List Nat) (L n : Nat) (data : Tensor α) (h : data.shape = L :: frame ++ [n])
    (hne : 0 ∉ frame) (he : n % 2 = 0) :
    ∃ x y, mergeMultilevelAny data "half" = .ok (x, y) ∧ y.shape = frame ++ [L * (n / 2)] ∧ x.length = L * (n / 2) ∧
      ∀ p l j, InShape p frame → l < L → j < n / 2 →
        x[l * (n / 2) + j]? = some ((n / 2 + j) * 2 ^ l) ∧
        y.get (p ++ [l * (n / 2) + j]) = data.get (l :: p ++ [n / 2 + j]) := by
  have h1 := mergeMultilevelAny_ok h "half"
  have hlast : data.shape.getLastD 0 = n := by rw [h, List.getLastD_concat]
  have hhead : data.shape.headD 0 = L := by rw [h]; rfl
  have one : ∀ p, mergeMultilevel (levelsAt data p) n "half"
      = .ok (((List.range L).map fun l => (List.range (n / 2)).map fun j => (n / 2 + j) * 2 ^ l).flatten,
        ((List.range L).map fun l => (List.range (n / 2)).map fun j => data.get (l :: p ++ [n / 2 + j])).flatten) := by
    intro p
    unfold mergeMultilevel mergeHalf
    rw [if_neg (by decide), if_pos rfl, if_neg (by omega)]
    refine congrArg Except.ok (Prod.ext (congrArg List.flatten ?_) (congrArg List.flatten ?_))
    · simp only [levelsAt, hhead]
      apply List.ext_getElem
      · simp
      · intro i g1 g2
        simp only [List.getElem_map, List.getElem_mapIdx, List.getElem_range]
        rw [← List.map_drop]
        apply List.ext_getElem
        · simp; omega
        · intro k k1 k2; simp
    · simp only [levelsAt, hhead, List.map_map]
      apply List.map_congr_left
      intro l _
      simp only [Function.comp]
      unfold curveAt
      rw [hlast, ← List.map_drop]
      apply List.ext_getElem
      · simp; omega
      · intro k k1 k2; simp
  have hz := inShape_zeros frame hne
  cases hr : mergeMultilevelAny data "half" with
  | error e =>
    rw [hr] at h1
    have := h1 _ hz
    simp only [one] at this
    cases this
  | ok r =>
    rw [hr] at h1
    obtain ⟨h2, h3⟩ := h1
    have h4 := h3 _ hz
    simp only [one, Except.ok.injEq, Prod.mk.injEq] at h4
    have hlen : r.1.length = L * (n / 2) := by
      rw [← h4.1, List.length_flatten]
      simp [Function.comp_def]
    refine ⟨r.1, r.2, rfl, by rw [h2, hlen], hlen, fun p l j hp hl hj => ⟨?_, ?_⟩⟩
    · rw [← h4.1, flatten_range_getElem? (n / 2) L l j _ hl hj]
    · have h5 := h3 p hp
      simp only [one, Except.ok.injEq, Prod.mk.injEq] at h5
      have h6 := congrArg (fun z => z[l * (n / 2) + j]?) h5.2
      simp only [flatten_range_getElem? (n / 2) L l j (fun l j => data.get (l :: p ++ [n / 2 + j])) hl hj] at h6
      rw [curveAt_getElem?, h2, List.getLastD_concat, hlen] at h6
      have hk : l * (n / 2) + j < L * (n / 2) := by
        have : (l + 1) * (n / 2) ≤ L * (n / 2) := Nat.mul_le_mul_right _ hl
        rw [Nat.add_mul, Nat.one_mul] at this
        omega
      rw [if_pos hk, Option.some.injEq] at h6
      exact h6.symm

/-! ## Averaging and merging -/

/-- `log_average` of any array: the common times are those of log averaging, and at each position stands the log-average of the
curve at that position. -/
theorem C120_log_average (K : Type) [Field K] [AddCommGroup V] [Module K V] (frame : List Nat) (N : Nat) (data : Tensor V)
    (h : data.shape = frame ++ [N]) (hne : 0 ∉ frame) (size : Nat) (hs : 1 ≤ size) :
    ∃ x y, logAverageAny K data size = .ok (x, y) ∧ y.shape = frame ++ [x.length] ∧
      ∀ p, InShape p frame → IsLogAverage K (curveAt data p) size x (curveAt y p) := by
  have h1 := logAverageAny_ok K h (size : Int)
  have hz := inShape_zeros frame hne
  cases hr : logAverageAny K data size with
  | error e =>
    rw [hr] at h1
    obtain ⟨x, y, e1, -⟩ := logAverage_isLogAverage K (curveAt data (frame.map fun _ => 0)) size hs
    have := h1 _ hz
    simp only [e1] at this
    cases this
  | ok r =>
    rw [hr] at h1
    refine ⟨r.1, r.2, rfl, h1.1, fun p hp => ?_⟩
    obtain ⟨x, y, e1, e2⟩ := logAverage_isLogAverage K (curveAt data p) size hs
    have := h1.2 p hp
    simp only [e1, Except.ok.injEq, Prod.mk.injEq] at this
    rw [← this.1, ← this.2]
    exact e2

/-- Without any condition: `log_average` acts on each curve by itself, and raises what it raises for each. -/
theorem C120_log_average_each (K : Type) [Field K] [AddCommGroup V] [Module K V] (frame : List Nat) (N : Nat) (data : Tensor V)
    (h : data.shape = frame ++ [N]) (size : Int) :
    TimeCurveWise frame (logAverageAny K data size) fun p => logAverage K (curveAt data p) size :=
  timeCurveWise_of (logAverageAny_ok K h size)

/-- The same for complex data, folded or not. -/
theorem C120_log_average_complex (frame : List Nat) (N : Nat) (data : Tensor (Cx ℝ)) (h : data.shape = frame ++ [N])
    (size : Int) (fold : Option Bool) :
    TimeCurveWise frame (logAverageComplexAny data size fold) fun p => logAverageComplex (curveAt data p) size fold := by
  apply timeCurveWise_of
  unfold logAverageComplexAny logAverageComplex
  by_cases hs : size < 1
  · simp only [hs, if_true]
    exact fun _ _ => rfl
  · simp only [hs, if_false]
    have h1 := C120_multilevel_complex frame N data h (size * 2) 1 (fun _ => false) fold
    have h2 : LevelRes frame (size * 2).toNat (multilevelComplexAny data (size * 2) 1 (fun _ => false) fold)
        fun p => multilevelComplex (curveAt data p) (size * 2) 1 (fun _ => false) fold := by
      revert h1
      cases multilevelComplexAny data (size * 2) 1 (fun _ => false) fold <;> exact fun h1 => h1
    exact PW.bind h2 (k' := fun _ rows => mergeMultilevel rows (size * 2).toNat "full") fun ld _ hl => by
        obtain ⟨L, hL⟩ := hl
        exact mergeMultilevelAny_ok hL "full"

/-- `log_merge` of any arrays with mean binning: common times, and at each position the merged curve of that position. -/
theorem C120_log_merge (K : Type) [Field K] [AddCommGroup V] [Module K V] (frame : List Nat) (L period n : Nat)
    (lin multi : Tensor V) (hp : 1 ≤ period) (hn : 2 ≤ n) (he : n % 2 = 0) (h : lin.shape = frame ++ [period * n])
    (hm : multi.shape = L :: frame ++ [n]) (hne : 0 ∉ frame) :
    ∃ x y, logMergeAny K lin multi 1 (fun _ => false) = .ok (x, y) ∧ y.shape = frame ++ [x.length] ∧
      ∀ p, InShape p frame → IsLogMerge K (curveAt lin p) (levelsAt multi p) period n x (curveAt y p) := by
  have hlast : multi.shape.getLastD 0 = n := by rw [hm, List.getLastD_concat]
  have h1 := logMergeCoreAny_ok K h hm 1 fun _ => false
  have one : ∀ p, ∃ x y, logMergeCore K (curveAt lin p) (levelsAt multi p) n 1 (fun _ => false) = .ok (x, y) ∧
      IsLogMerge K (curveAt lin p) (levelsAt multi p) period n x y := by
    intro p
    obtain ⟨x, y, e1, e2⟩ := logMerge_isLogMerge K (curveAt lin p) (levelsAt multi p) period n hp hn he
      (by rw [curveAt_length, h, List.getLastD_concat]) (by
        intro r hr
        simp only [levelsAt, List.mem_map] at hr
        obtain ⟨l, -, rfl⟩ := hr
        rw [curveAt_length, hlast])
    unfold logMerge at e1
    rw [if_neg (by decide)] at e1
    exact ⟨x, y, e1, e2⟩
  have hz := inShape_zeros frame hne
  unfold logMergeAny
  rw [if_neg (by decide)]
  cases hr : logMergeCoreAny K lin multi 1 (fun _ => false) with
  | error e =>
    rw [hr] at h1
    obtain ⟨x, y, e1, -⟩ := one (frame.map fun _ => 0)
    have := h1 _ hz
    simp only [e1] at this
    cases this
  | ok r =>
    rw [hr] at h1
    refine ⟨r.1, r.2, rfl, h1.1, fun p hp => ?_⟩
    obtain ⟨x, y, e1, e2⟩ := one p
    have := h1.2 p hp
    simp only [e1, Except.ok.injEq, Prod.mk.injEq] at this
    rw [← this.1, ← this.2]
    exact e2

/-- All binning modes, without any condition on the lengths. -/
theorem C120_log_merge_each (K : Type) [Field K] [AddCommGroup V] [Module K V] (frame : List Nat) (N L n : Nat)
    (lin multi : Tensor V) (h : lin.shape = frame ++ [N]) (hm : multi.shape = L :: frame ++ [n]) (binning : Int)
    (low : Nat → Bool) :
    TimeCurveWise frame (logMergeAny K lin multi binning low)
      fun p => logMerge K (curveAt lin p) (levelsAt multi p) n binning low := by
  apply timeCurveWise_of
  unfold logMergeAny logMerge
  by_cases hb : binning ∉ ([2, 1, 0] : List Int)
  · simp only [hb, not_false_eq_true, if_true]
    exact fun _ _ => rfl
  · simp only [hb, if_false]
    exact logMergeCoreAny_ok K h hm binning low

/-- The same for complex data, folded or not. -/
theorem C120_log_merge_complex (frame : List Nat) (N L n : Nat) (lin multi : Tensor (Cx ℝ)) (h : lin.shape = frame ++ [N])
    (hm : multi.shape = L :: frame ++ [n]) (binning : Int) (low : Nat → Bool) (fold : Option Bool) :
    TimeCurveWise frame (logMergeComplexAny lin multi binning low fold)
      fun p => logMergeComplex (curveAt lin p) (levelsAt multi p) n binning low fold := by
  apply timeCurveWise_of
  unfold logMergeComplexAny logMergeComplex
  by_cases hb : binning ∉ ([2, 1, 0] : List Int)
  · simp only [hb, not_false_eq_true, if_true]
    exact fun _ _ => rfl
  · simp only [hb, if_false]
    refine PW.bind (foldIfAskedAny_ok h fold) (k' := fun p lin => do
      let multi ← (if fold = none then .error .valueError else (levelsAt multi p).mapM (fun row => foldIfAsked row fold))
      logMergeCore ℝ lin multi (if fold = some true then (n + 1) / 2 else n) binning low) fun lin' hl1 hl => ?_
    cases fold with
    | none => exact absurd hl1 (by simp [foldIfAskedAny])
    | some b =>
      simp only [reduceCtorEq, if_false]
      obtain ⟨m', e1, e2, e3⟩ := foldIfAskedAny_isOk hm b
      rw [e1]
      have hmap : ∀ p, InShape p frame → (levelsAt multi p).mapM (fun row => foldIfAsked row (some b)) = .ok (levelsAt m' p) := by
        intro p hp
        unfold levelsAt
        have hL : multi.shape.headD 0 = L := by rw [hm]; rfl
        have hL' : m'.shape.headD 0 = L := by rw [e2]; rfl
        rw [hL, hL', List.mapM_map, mapM_ok _ _ fun l => curveAt m' (l :: p)]
        intro l hl
        exact e3 (l :: p) (List.Forall₂.cons (List.mem_range.1 hl) hp)
      refine PW.congr (logMergeCoreAny_ok ℝ hl e2 binning low) fun p hp => ?_
      simp only [hmap p hp]
      rfl

/-- The frames of the linear and of the multilevel data must be the same: nothing is stretched. -/
theorem C120_log_merge_frames (K : Type) [Field K] [AddCommGroup V] [Module K V] (frame frame' : List Nat) (N L n : Nat)
    (lin multi : Tensor V) (h : lin.shape = frame ++ [N]) (hm : multi.shape = L :: frame' ++ [n]) (hne : frame ≠ frame')
    (binning : Int) (low : Nat → Bool) : ∀ r, logMergeAny K lin multi binning low ≠ .ok r := by
  intro r hr
  unfold logMergeAny at hr
  by_cases hb : binning ∉ ([2, 1, 0] : List Int)
  · rw [if_pos hb] at hr
    cases hr
  · rw [if_neg hb] at hr
    unfold logMergeCoreAny at hr
    rw [if_neg (by rw [h, hm]; simp)] at hr
    have h0 : ∀ {A B : Type} {x : Py A} {k : A → Py B} {b : B}, (x >>= k) = .ok b → ∃ a, x = .ok a ∧ k a = .ok b := by
      intro A B x k b hx
      cases x with
      | error e => cases hx
      | ok a => exact ⟨a, rfl, hx⟩
    obtain ⟨period, -, hr⟩ := h0 hr
    obtain ⟨ld, e1, hr⟩ := h0 hr
    have h1 := multilevelAny_ok K h (multi.shape.getLastD 0) binning low
    rw [e1] at h1
    obtain ⟨⟨L', hL'⟩, -⟩ := h1
    obtain ⟨fast, e2, hr⟩ := h0 hr
    have h2 := mergeMultilevelAny_ok hL' "full"
    rw [e2] at h2
    obtain ⟨slow, e3, hr⟩ := h0 hr
    have h3 := mergeMultilevelAny_ok hm "half"
    rw [e3] at h3
    obtain ⟨cc, e4, -⟩ := h0 hr
    unfold concatLast at e4
    rw [if_pos] at e4
    · cases e4
    · refine .inr (.inr ?_)
      have a1 : fast.2.shape = frame ++ [fast.1.length] := h2.1
      have a2 : slow.2.shape = frame' ++ [slow.1.length] := h3.1
      simp only [a1, a2, List.dropLast_concat]
      exact hne

/-! ## Examples -/

-- Two by two wave vectors and four delays.
example : (0 : Nat) ∉ [2, 2] ∧ (⟨[2, 2, 4], fun p => (p.sum : ℚ)⟩ : Tensor ℚ).shape = [2, 2] ++ [4] ∧
    curveAt (⟨[2, 2, 4], fun p => (p.sum : ℚ)⟩ : Tensor ℚ) [1, 1] = [2, 3, 4, 5] := by
  refine ⟨by decide, rfl, ?_⟩
  simp [curveAt, List.range_succ]
  norm_num

-- Two levels of four delays for two wave vectors, merged: the values of different wave vectors are not mixed.
example : (mergeMultilevelAny (⟨[2, 2, 4], fun p => p⟩ : Tensor (List Nat)) "half").toOption.map
    (fun r => (r.1, r.2.shape, curveAt r.2 [0], curveAt r.2 [1])) =
    some ([2, 3, 4, 6], [2, 4], [[0, 0, 2], [0, 0, 3], [1, 0, 2], [1, 0, 3]], [[0, 1, 2], [0, 1, 3], [1, 1, 2], [1, 1, 3]]) := by
  decide

-- The linear data of three wave vectors and two levels.
example : (⟨[3, 4], fun p => (p.sum : ℚ)⟩ : Tensor ℚ).shape = [3] ++ [2 * 2] ∧
    (⟨[2, 3, 2], fun p => (p.sum : ℚ)⟩ : Tensor ℚ).shape = 2 :: [3] ++ [2] ∧ 0 ∉ [3] ∧
    levelsAt (⟨[2, 3, 2], fun p => (p.sum : ℚ)⟩ : Tensor ℚ) [2] = [[2, 3], [3, 4]] := by
  refine ⟨rfl, rfl, by decide, ?_⟩
  simp [levelsAt, curveAt, List.range_succ]
  norm_num

end Cddm
