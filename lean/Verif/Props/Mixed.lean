import Verif.Lemmas.Mixed
import Verif.Lemmas.Vec
import Verif.Lemmas.NormMulti

/-!
# C115: counting pairs of frame pairs

`auto_count_mixed` and `cross_count_mixed` count, for every delay, the pairs of frame pairs with that delay by the time
between them.  The tables in between are filled as described; the counts are right for the delays whose frame pairs
fit in the table, as long as all times are positive.
-/

namespace Cddm
open Spec

/-- C115: `auto_tau_times` writes in row `m` the times of the first frames of the pairs with delay `m`, as many as fit. -/
theorem C115_auto_times (t : List Int) (tpos : List (List Int)) (h : t.Pairwise (· ≤ ·)) :
    ∃ out, autoTauTimes t tpos = .ok out ∧ out.length = tpos.length
      ∧ ∀ (m : Nat) row, tpos[m]? = some row → ∃ r, out[m]? = some r ∧ RowOf (pairStarts t m) row r := by
  refine ⟨_, autoTauTimes_ok t tpos h, by simp, fun m row e => ?_⟩
  exact ⟨_, by rw [List.getElem?_mapIdx, e]; rfl, filed_rowOf _ _⟩

example : autoTauTimes [1, 2, 4] [[-1, -1], [-1, -1], [-1, -1]] = .ok [[1, 2], [1, -1], [2, -1]] := by decide

/-- C115: times that are not in order are refused. -/
theorem C115_auto_times_order (t : List Int) (tpos : List (List Int)) :
    autoTauTimes t tpos = .error .assertionError ↔ ¬ t.Pairwise (· ≤ ·) := by
  refine ⟨fun h hs => ?_, autoTauTimes_error t tpos⟩
  rw [autoTauTimes_ok t tpos hs] at h
  cases h

example : autoTauTimes [1, 3, 2] [[-1, -1]] = .error .assertionError := by decide

/-- C115: `cross_tau_times` writes the times of the first camera: in row `m` of the first table those that follow a frame of
the second camera by `m`, in row `m > 0` of the second table those that precede one by `m`. -/
theorem C115_cross_times (t1 t2 : List Int) (tpos tneg : List (List Int)) (h : t1.length = t2.length)
    (hl : tneg.length = tpos.length) :
    ∃ pos neg, crossTauTimes t1 t2 tpos tneg = .ok (pos, neg) ∧ pos.length = tpos.length ∧ neg.length = tneg.length
      ∧ (∀ (m : Nat) row, tpos[m]? = some row → ∃ r, pos[m]? = some r ∧ RowOf (crossStarts t1 t2 m) row r)
      ∧ (∀ (m : Nat) row, 0 < m → tneg[m]? = some row → ∃ r, neg[m]? = some r ∧ RowOf (crossStarts t1 t2 (-m)) row r)
      ∧ neg[0]? = tneg[0]? := by
  refine ⟨_, _, crossTauTimes_ok t1 t2 tpos tneg h hl.ge, by simp, by simp, fun m row e => ?_, fun m row hm e => ?_, ?_⟩
  · exact ⟨_, by rw [List.getElem?_mapIdx, e]; rfl, filed_rowOf _ _⟩
  · have hm' : m < tneg.length := (List.getElem?_eq_some_iff.1 e).1
    refine ⟨_, by rw [List.getElem?_mapIdx, e, Option.map_some, if_pos ⟨hm, by omega⟩], filed_rowOf _ _⟩
  · rw [List.getElem?_mapIdx]
    simp

example : crossTauTimes [1, 3] [2, 3] [[-1, -1], [-1, -1]] [[-1, -1], [-1, -1]]
    = .ok ([[3, -1], [3, -1]], [[-1, -1], [1, -1]]) := by decide

/-- C115: different numbers of frames are refused. -/
theorem C115_cross_times_length (t1 t2 : List Int) (tpos tneg : List (List Int)) (h : t1.length ≠ t2.length) :
    crossTauTimes t1 t2 tpos tneg = .error .assertionError := by
  unfold crossTauTimes
  rw [if_pos h]

example : crossTauTimes [1, 3] [2] [[-1]] [[-1]] = .error .assertionError := by decide

/-- The times of a row of the table that the counts use. -/
theorem positive_filed (o : List Int) (w : Nat) :
    positiveTimes (filed o (List.replicate w (-1))) = (o.take w).filter fun v => 0 < v := by
  unfold positiveTimes filed
  rw [List.filter_append, List.length_replicate]
  have : (List.replicate w (-1 : Int)).drop o.length = List.replicate (w - o.length) (-1) := by simp
  rw [this]
  simp

theorem count_apart (a b : List Int) (N : Nat) :
    orUB (addCountCross a b (List.replicate N 0)) = .ok ((List.range N).map fun k => apart a b k) := by
  rw [addCountCross_eq]
  simp only [orUB]
  congr 1
  apply List.ext_getElem
  · simp
  · intro k h1 h2
    simp only [addSeq, List.getElem_mapIdx, List.getElem_replicate, Nat.zero_add, List.getElem_map, List.getElem_range,
      apart_pairSum]

theorem autoCountMixed_ok (t : List Int) (n period : Nat) (hp : 0 < period) (h : t.Pairwise (· ≤ ·)) :
    autoCountMixed t n period = .ok ((List.range n).map fun i : Nat => (List.range (2 * n)).map fun k : Nat =>
      apart (((pairStarts t i).take (t.length / period * 2)).filter fun v => 0 < v)
        (((pairStarts t i).take (t.length / period * 2)).filter fun v => 0 < v) k) := by
  unfold autoCountMixed
  rw [if_neg (by omega), autoTauTimes_ok _ _ h]
  simp only [bind, Except.bind, count_apart]
  rw [mapM_ok _ _ _ fun _ _ => rfl]
  congr 1
  apply List.ext_getElem
  · simp [emptyTable]
  · intro i h1 h2
    simp only [emptyTable, List.getElem_map, List.getElem_mapIdx, List.getElem_replicate, List.getElem_range, positive_filed]

/-- C115: `auto_count_mixed` returns a table of `n` rows of length `2 n`; row `i` counts, for the distances `k`, the
pairs of frame pairs with delay `i` that are `k` apart.  Missing: delays with more frame pairs than the table has
columns, and times that are zero or negative. -/
theorem C115_auto_count_partial (t : List Int) (n period : Nat) (hp : 0 < period) (h : t.Pairwise (· ≤ ·))
    (hpos : ∀ a ∈ t, 0 < a) :
    ∃ out, autoCountMixed t n period = .ok out ∧ out.length = n
      ∧ ∀ i, i < n → (pairStarts t i).length ≤ t.length / period * 2 →
        ∃ row, out[i]? = some row ∧ row.length = 2 * n
          ∧ ∀ k, k < 2 * n → row[k]? = some (apart (pairStarts t i) (pairStarts t i) k) := by
  refine ⟨_, autoCountMixed_ok t n period hp h, by simp, fun i hi hfit => ⟨_, by simp [hi]; rfl, by simp, fun k hk => ?_⟩⟩
  have e : ((pairStarts t i).take (t.length / period * 2)).filter (fun v => decide (0 < v)) = pairStarts t i := by
    rw [List.take_of_length_le hfit]
    apply List.filter_eq_self.2
    intro a ha
    unfold pairStarts at ha
    obtain ⟨p, hp, rfl⟩ := List.mem_map.1 ha
    simpa using hpos _ (selfPairs_mem (List.mem_filter.1 hp).1).1
  simp [hk, e]

/-- Frames at the times 1, 3, 5, 6: the frame pairs with delay 2 start at 1 and 3, which fit in the 2 columns. -/
example : (0 < 4 ∧ List.Pairwise (· ≤ ·) [(1 : Int), 3, 5, 6] ∧ (∀ a ∈ [(1 : Int), 3, 5, 6], 0 < a)
    ∧ pairStarts [1, 3, 5, 6] 2 = [1, 3] ∧ (pairStarts [1, 3, 5, 6] 2).length ≤ 4 / 4 * 2)
    ∧ autoCountMixed [1, 3, 5, 6] 3 4
      = .ok [[2, 0, 2, 0, 0, 0], [1, 0, 0, 0, 0, 0], [2, 0, 2, 0, 0, 0]] := by decide

/-- C115: a period of zero is refused. -/
theorem C115_period (t t1 t2 : List Int) (n : Nat) :
    autoCountMixed t n 0 = .error .zeroDivisionError ∧ crossCountMixed t1 t2 n 0 = .error .zeroDivisionError := ⟨rfl, rfl⟩

theorem crossCountMixed_ok (t1 t2 : List Int) (n period : Nat) (hp : 0 < period) (h : t1.length = t2.length) :
    crossCountMixed t1 t2 n period = .ok
      (let pos := fun i : Nat => ((crossStarts t1 t2 i).take (t1.length / period * 2)).filter fun v => 0 < v
       let neg := fun i : Nat => if 0 < i then ((crossStarts t1 t2 (-i)).take (t1.length / period * 2)).filter (fun v => 0 < v) else []
       ((List.range n).map fun i => (List.range (2 * n)).map fun k => apart (pos i) (pos i) k,
        (List.range n).map fun i => (List.range (2 * n)).map fun k => apart (neg i) (neg i) k,
        (List.range n).map fun i => (List.range (2 * n)).map fun k => apart (pos i) (neg i) k)) := by
  unfold crossCountMixed
  rw [if_neg (by omega), crossTauTimes_ok _ _ _ _ h (by simp [emptyTable])]
  simp only [bind, Except.bind, count_apart]
  have hneg : ∀ i : Nat, i < n → positiveTimes (if 0 < i ∧ i < n then filed (crossStarts t1 t2 (-(i : Int))) (List.replicate (t1.length / period * 2) (-1))
        else List.replicate (t1.length / period * 2) (-1))
      = if 0 < i then ((crossStarts t1 t2 (-i)).take (t1.length / period * 2)).filter (fun v => 0 < v) else [] := by
    intro i hi
    by_cases h0 : 0 < i
    · rw [if_pos ⟨h0, hi⟩, if_pos h0, positive_filed]
    · rw [if_neg (by omega), if_neg h0]
      have := positive_filed [] (t1.length / period * 2)
      simpa [filed] using this
  rw [mapM_ok _ _ _ fun _ _ => rfl]
  simp only
  rw [mapM_ok _ _ _ fun _ _ => rfl]
  simp only
  rw [mapM_ok _ _ _ fun _ _ => rfl]
  simp only
  congr 1
  refine Prod.ext ?_ (Prod.ext ?_ ?_)
  · apply List.ext_getElem
    · simp [emptyTable]
    · intro i h1 h2
      simp only [emptyTable, List.getElem_map, List.getElem_mapIdx, List.getElem_replicate, List.getElem_range, positive_filed]
  · apply List.ext_getElem
    · simp [emptyTable]
    · intro i h1 h2
      have hi : i < n := by simpa using h2
      simp only [emptyTable, List.getElem_map, List.getElem_mapIdx, List.getElem_replicate, List.getElem_range,
        List.length_replicate, hneg i hi]
  · apply List.ext_getElem
    · simp [emptyTable]
    · intro i h1 h2
      have hi : i < n := by simpa using h2
      simp only [emptyTable, List.getElem_map, List.getElem_mapIdx, List.getElem_replicate, List.getElem_range,
        List.length_replicate, List.getElem_zip, hneg i hi, positive_filed]

theorem crossStarts_mem {t1 t2 : List Int} {d a : Int} (h : a ∈ crossStarts t1 t2 d) : a ∈ t1 := by
  unfold crossStarts at h
  obtain ⟨p, hp, rfl⟩ := List.mem_map.1 h
  exact (List.mem_product.1 (List.mem_filter.1 hp).1).1

/-- C115: `cross_count_mixed` returns three tables of `n` rows of length `2 n`: pairs of frame pairs with delay `i`, with delay
`-i`, and one of each.  Missing: delays with more frame pairs than the table has columns, times that are zero or
negative, and the delay zero in the second and third table. -/
theorem C115_cross_count_partial (t1 t2 : List Int) (n period : Nat) (hp : 0 < period) (h : t1.length = t2.length)
    (hpos : ∀ a ∈ t1, 0 < a) :
    ∃ pp nn pn, crossCountMixed t1 t2 n period = .ok (pp, nn, pn) ∧ pp.length = n ∧ nn.length = n ∧ pn.length = n
      ∧ (∀ i, i < n → (crossStarts t1 t2 i).length ≤ t1.length / period * 2 →
        ∃ row, pp[i]? = some row ∧ row.length = 2 * n
          ∧ ∀ k, k < 2 * n → row[k]? = some (apart (crossStarts t1 t2 i) (crossStarts t1 t2 i) k))
      ∧ (∀ i, 0 < i → i < n → (crossStarts t1 t2 (-i)).length ≤ t1.length / period * 2 →
        ∃ row, nn[i]? = some row ∧ row.length = 2 * n
          ∧ ∀ k, k < 2 * n → row[k]? = some (apart (crossStarts t1 t2 (-i)) (crossStarts t1 t2 (-i)) k))
      ∧ (∀ i, 0 < i → i < n → (crossStarts t1 t2 i).length ≤ t1.length / period * 2 →
        (crossStarts t1 t2 (-i)).length ≤ t1.length / period * 2 →
        ∃ row, pn[i]? = some row ∧ row.length = 2 * n
          ∧ ∀ k, k < 2 * n → row[k]? = some (apart (crossStarts t1 t2 i) (crossStarts t1 t2 (-i)) k)) := by
  have e : ∀ d : Int, (crossStarts t1 t2 d).length ≤ t1.length / period * 2 →
      ((crossStarts t1 t2 d).take (t1.length / period * 2)).filter (fun v => decide (0 < v)) = crossStarts t1 t2 d := by
    intro d hfit
    rw [List.take_of_length_le hfit]
    apply List.filter_eq_self.2
    intro a ha
    simpa using hpos _ (crossStarts_mem ha)
  refine ⟨_, _, _, crossCountMixed_ok t1 t2 n period hp h, by simp, by simp, by simp,
    fun i hi hfit => ⟨_, by simp [hi]; rfl, by simp, fun k hk => ?_⟩,
    fun i h0 hi hfit => ⟨_, by simp [hi]; rfl, by simp, fun k hk => ?_⟩,
    fun i h0 hi hfit hfit' => ⟨_, by simp [hi]; rfl, by simp, fun k hk => ?_⟩⟩
  · simp [hk, e _ hfit]
  · simp [hk, h0, e _ hfit]
  · simp [hk, h0, e _ hfit, e _ hfit']

/-- First camera at 1, 4, second at 2, 3: the frame of the first camera at 4 follows the one at 3 by 1, the frame at 1 precedes the
one at 2 by 1; they are 3 apart. -/
example : ((∀ a ∈ [(1 : Int), 4], 0 < a) ∧ crossStarts [1, 4] [2, 3] 1 = [4] ∧ crossStarts [1, 4] [2, 3] (-1) = [1])
    ∧ crossCountMixed [1, 4] [2, 3] 2 1 = .ok ([[0, 0, 0, 0], [1, 0, 0, 0]], [[0, 0, 0, 0], [1, 0, 0, 0]],
      [[0, 0, 0, 0], [0, 0, 0, 1]]) := by decide

/-- C115 is false of times that start at zero, as the frames of an ordinary video do: the frame pairs that
start with the first frame are left out. -/
theorem C115_refuted : ¬ ∀ (t : List Int) (n period : Nat), 0 < period → t.Pairwise (· ≤ ·) →
    (∀ i, i < n → (pairStarts t i).length ≤ t.length / period * 2) →
    ∃ out, autoCountMixed t n period = .ok out ∧ ∀ i, i < n → ∃ row, out[i]? = some row
      ∧ ∀ k, k < 2 * n → row[k]? = some (apart (pairStarts t i) (pairStarts t i) k) := by
  intro h
  obtain ⟨out, e, ho⟩ := h [0, 1, 2] 2 1 (by decide) (by decide) (by decide)
  have e' : autoCountMixed [0, 1, 2] 2 1 = .ok [[2, 2, 0, 0], [1, 0, 0, 0]] := by decide
  rw [e'] at e
  obtain ⟨row, hr, hk⟩ := ho 0 (by decide)
  rw [← Except.ok.inj e] at hr
  have := hk 0 (by decide)
  rw [← Option.some.inj hr] at this
  revert this
  decide

theorem apart_sum (a b : List Int) (k : Nat) :
    apart a b k = (a.map fun x => (b.filter fun y => |y - x| = (k : Int)).length).sum := by
  unfold apart
  induction a with
  | nil => simp
  | cons x a ih =>
    rw [List.product_cons, List.filter_append, List.length_append, ih, List.filter_map, List.length_map, List.map_cons,
      List.sum_cons]
    rfl

theorem apart_cut (a b : List Int) (v : Int) : apart a a 0 < apart (a ++ v :: b) (a ++ v :: b) 0 := by
  rw [apart_sum, apart_sum, List.map_append, List.sum_append, List.map_cons, List.sum_cons]
  have h1 : (a.map fun x => (a.filter fun y => |y - x| = ((0 : Nat) : Int)).length).sum
      ≤ (a.map fun x => ((a ++ v :: b).filter fun y => |y - x| = ((0 : Nat) : Int)).length).sum := by
    apply List.sum_le_sum
    intro x _
    rw [List.filter_append, List.length_append]
    omega
  have h2 : 0 < ((a ++ v :: b).filter fun y => |y - v| = ((0 : Nat) : Int)).length :=
    List.length_pos_of_mem (a := v) (by simp)
  omega

theorem pairStarts_zero (t : List Int) : t.length ≤ (pairStarts t 0).length := by
  unfold pairStarts
  rw [List.length_map]
  induction t with
  | nil => simp
  | cons a t ih =>
    rw [selfPairs, List.filter_append, List.length_append, List.map_cons, List.filter_cons_of_pos (by simp),
      List.length_cons, List.length_cons]
    omega

/-- C115 is false of the delay zero for every period of at least three: every frame forms such a pair with itself, and
they do not fit in the table, so that the number of pairs with distance zero comes out too small. -/
theorem C115_zero_delay_refuted (t : List Int) (n period : Nat) (hn : 0 < n) (hp : 3 ≤ period) (h0 : t ≠ [])
    (h : t.Pairwise (· ≤ ·)) (hpos : ∀ a ∈ t, 0 < a) :
    ∃ out row c, autoCountMixed t n period = .ok out ∧ out[0]? = some row ∧ row[0]? = some c
      ∧ c < apart (pairStarts t 0) (pairStarts t 0) 0 := by
  have hl : t.length / period * 2 < t.length := by
    have h1 : 0 < t.length := List.length_pos_of_ne_nil h0
    have h2 : t.length / period ≤ t.length / 3 := Nat.div_le_div_left hp (by decide)
    omega
  have hw : t.length / period * 2 < (pairStarts t 0).length := lt_of_lt_of_le hl (pairStarts_zero t)
  refine ⟨_, _, _, autoCountMixed_ok t n period (by omega) h, by simp [hn]; rfl, by simp [hn]; rfl, ?_⟩
  have e : ((pairStarts t 0).take (t.length / period * 2)).filter (fun v => decide (0 < v))
      = (pairStarts t 0).take (t.length / period * 2) := by
    apply List.filter_eq_self.2
    intro a ha
    obtain ⟨p, hp, rfl⟩ := List.mem_map.1 (List.mem_of_mem_take ha)
    simpa using hpos _ (selfPairs_mem (List.mem_filter.1 hp).1).1
  simp only [Nat.cast_zero, e]
  conv_rhs => rw [← List.take_append_drop (t.length / period * 2) (pairStarts t 0)]
  rw [List.drop_eq_getElem_cons hw]
  exact apart_cut _ _ _

/-- Four frames, period four: two of the four pairs are counted. -/
example : autoCountMixed [1, 2, 3, 4] 1 4 = .ok [[2, 2]] ∧ apart (pairStarts [1, 2, 3, 4] 0) (pairStarts [1, 2, 3, 4] 0) 0 = 4 := by
  decide

end Cddm
