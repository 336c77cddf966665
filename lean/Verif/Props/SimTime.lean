import Verif.Lemmas.Trigger

/-!
# Trigger times and triggered frames (C56, C57, C58)
-/

namespace Cddm
open Spec

/-- C56: for all random outcomes `create_random_time` with `1 <= n` and `dt_min <= n` returns one time in
every interval of `n` ticks; the times increase strictly and are at least `dt_min` apart. -/
theorem C56_random_time (nframes : Nat) (n dtMin : Int) (rand : Nat → Int → Int → Int)
    (hrand : ∀ (i : Nat) (low high : Int), low < high → low ≤ rand i low high ∧ rand i low high < high)
    (hn : 1 ≤ n) (hd : dtMin ≤ n) :
    ∃ t, createRandomTime nframes n dtMin rand = .ok t ∧ t.length = nframes ∧ t.Pairwise (· < ·) ∧
      (∀ (i : Nat) (v : Int), t[i]? = some v → i * n ≤ v ∧ v < (i + 1) * n) ∧
      ∀ (i : Nat) (v w : Int), t[i]? = some v → t[i + 1]? = some w → v + dtMin ≤ w := by
  obtain ⟨t, ht⟩ := randomTimeLoop_ok hd hrand nframes 0 0 (le_refl _) (by omega)
  obtain ⟨h1, h2, _, h4⟩ := randomTimeLoop_spec hrand nframes 0 0 t ht
  refine ⟨t, ht, h1, ?_, ?_, fun i v w hv hw => (h4 i v w hv hw).2⟩
  · exact pairwise_of_next (fun a b : Int => a < b) (fun _ _ _ => lt_trans) t fun k v w hv hw => (h4 k v w hv hw).1
  · intro i v hv
    have := h2 i v hv
    rw [Nat.zero_add] at this
    exact ⟨this.1, by linarith [this.2]⟩

/-- C56: whatever the arguments, times that are returned at all are spaced by `dt_min` and increase; if no
time is possible in the interval the call is a ValueError. -/
theorem C56_spacing (nframes : Nat) (n dtMin : Int) (rand : Nat → Int → Int → Int)
    (hrand : ∀ (i : Nat) (low high : Int), low < high → low ≤ rand i low high ∧ rand i low high < high) :
    (∀ t, createRandomTime nframes n dtMin rand = .ok t →
      ∀ (i : Nat) (v w : Int), t[i]? = some v → t[i + 1]? = some w → v < w ∧ v + dtMin ≤ w) ∧
    (n ≤ 0 → 0 < nframes → createRandomTime nframes n dtMin rand = .error .valueError) ∧
    (2 * n ≤ dtMin → 0 < nframes → createRandomTime nframes n dtMin rand = .error .valueError) := by
  refine ⟨fun t ht => (randomTimeLoop_spec hrand nframes 0 0 t ht).2.2.2, fun h h0 => ?_, fun h h0 => ?_⟩
  all_goals
    obtain ⟨k, rfl⟩ := Nat.exists_eq_add_of_lt h0
    unfold createRandomTime
    rw [Nat.zero_add]
    unfold randomTimeLoop randint
    dsimp only
    rw [if_neg (by omega)]
    rfl

/-- C56: `create_random_times1` returns for every period of `2*n` ticks one time of camera 1 in its first
half and one of camera 2 at its beginning or its middle. -/
theorem C56_random_times1 (nframes n : Nat) (rand1 rand2 : Nat → Nat) (hn : 0 < n) (h1 : ∀ k, rand1 k < n)
    (h2 : ∀ k, rand2 k < 2) :
    ∃ t1 t2, createRandomTimes1 nframes n rand1 rand2 = .ok (t1, t2) ∧ t1.length = nframes ∧ t2.length = nframes ∧
      ∀ (k : Nat) (a b : Int), t1[k]? = some a → t2[k]? = some b →
        (2 * n * k ≤ a ∧ a < 2 * n * k + n) ∧ (b = 2 * n * k ∨ b = 2 * n * k + n) := by
  refine ⟨_, _, by unfold createRandomTimes1; rw [if_neg hn.ne'], by simp, by simp, ?_⟩
  intro k a b ha hb
  simp only [List.getElem?_map, Option.map_eq_some_iff, List.getElem?_eq_some_iff, List.getElem_range,
    List.length_range] at ha hb
  obtain ⟨_, ⟨_, rfl⟩, rfl⟩ := ha
  obtain ⟨_, ⟨_, rfl⟩, rfl⟩ := hb
  have e1 : n * 2 / (2 * n) = 1 := by rw [Nat.mul_comm]; exact Nat.div_self (by omega)
  have e2 : n * 2 / 2 = n := by omega
  rw [e1, e2]
  have a1 := h1 k
  have e3 : k * (n * 2) = 2 * n * k := by ring
  rw [e3]
  refine ⟨⟨by push_cast; omega, by push_cast; omega⟩, ?_⟩
  rcases (show rand2 k = 0 ∨ rand2 k = 1 by have := h2 k; omega) with e | e
  · left; rw [e]; push_cast; ring
  · right; rw [e]; push_cast; ring

/-- C56: `create_random_times2` also, except that sometimes camera 2 is triggered together with camera 1. -/
theorem C56_random_times2 (nframes n : Nat) (rand1 rand2 rand3 : Nat → Nat) (hn : 0 < n) (h1 : ∀ k, rand1 k < n)
    (h2 : ∀ k, rand2 k < 2) :
    ∃ t1 t2, createRandomTimes2 nframes n rand1 rand2 rand3 = .ok (t1, t2) ∧ t1.length = nframes ∧
      t2.length = nframes ∧ ∀ (k : Nat) (a b : Int), t1[k]? = some a → t2[k]? = some b →
        (2 * n * k ≤ a ∧ a < 2 * n * k + n) ∧
        if rand3 k = 0 then b = a else b = 2 * n * k ∨ b = 2 * n * k + n := by
  refine ⟨_, _, by unfold createRandomTimes2; rw [if_neg hn.ne'], by simp, by simp, ?_⟩
  intro k a b ha hb
  simp only [List.getElem?_map, Option.map_eq_some_iff, List.getElem?_eq_some_iff, List.getElem_range,
    List.length_range] at ha hb
  obtain ⟨_, ⟨_, rfl⟩, rfl⟩ := ha
  obtain ⟨_, ⟨_, rfl⟩, rfl⟩ := hb
  have e1 : n * 2 / (2 * n) = 1 := by rw [Nat.mul_comm]; exact Nat.div_self (by omega)
  have e2 : n * 2 / 2 = n := by omega
  rw [e1, e2]
  have a1 := h1 k
  have e3 : k * (n * 2) = 2 * n * k := by ring
  rw [e3]
  refine ⟨⟨by push_cast; omega, by push_cast; omega⟩, ?_⟩
  split
  · rfl
  · rcases (show rand2 k = 0 ∨ rand2 k = 1 by have := h2 k; omega) with e | e
    · left; rw [e]; push_cast; ring
    · right; rw [e]; push_cast; ring

/-- C56: with `n = 0` both are a ValueError. -/
theorem C56_rejected (nframes : Nat) (rand1 rand2 rand3 : Nat → Nat) :
    createRandomTimes1 nframes 0 rand1 rand2 = .error .valueError ∧
    createRandomTimes2 nframes 0 rand1 rand2 rand3 = .error .valueError := ⟨rfl, rfl⟩

/-- C57: the full claim is that for every set of indices the items at the non-negative ones come out, in
increasing order.  This holds for all index lists (unordered, with repetitions, beyond the data) that are not
empty and have no negative index. -/
theorem C57_trigger_partial {α : Type} (data : List α) (indices : List Int) (hne : indices ≠ [])
    (hpos : ∀ i ∈ indices, 0 ≤ i) : dataTrigger data indices = .ok (requested data indices) := by
  have hm : ∀ x, x ∈ indices.toFinset.sort (· ≤ ·) ↔ x ∈ indices := by simp
  have hs : (indices.toFinset.sort (· ≤ ·)).Pairwise (· < ·) := (Finset.sortedLT_sort _).pairwise
  unfold dataTrigger requested
  cases e : indices.toFinset.sort (· ≤ ·) with
  | nil =>
    exfalso
    cases indices with
    | nil => exact hne rfl
    | cons a l =>
      have := (hm a).mpr List.mem_cons_self
      rw [e] at this
      cases this
  | cons ii t =>
    rw [e] at hm hs
    dsimp only
    rw [triggerLoop_spec data 0 ii t (by simpa using hpos ii ((hm ii).mp List.mem_cons_self)) hs]
    simp only [hm]

/-- C57: one negative index and nothing at all comes out. -/
theorem C57_negative {α : Type} (data : List α) (indices : List Int) (h : ∃ i ∈ indices, i < 0) :
    dataTrigger data indices = .ok [] := by
  obtain ⟨i, hi, hneg⟩ := h
  have hm : ∀ x, x ∈ indices.toFinset.sort (· ≤ ·) ↔ x ∈ indices := by simp
  have hs : (indices.toFinset.sort (· ≤ ·)).Pairwise (· < ·) := (Finset.sortedLT_sort _).pairwise
  unfold dataTrigger
  cases e : indices.toFinset.sort (· ≤ ·) with
  | nil =>
    have := (hm i).mpr hi
    rw [e] at this
    cases this
  | cons ii t =>
    rw [e] at hm hs
    dsimp only
    rw [triggerLoop_negative]
    rcases List.mem_cons.mp ((hm i).mpr hi) with rfl | h
    · exact hneg
    · exact lt_trans ((List.pairwise_cons.mp hs).1 i h) hneg

/-- C57: so the claim fails for `[-1, 1]`, where item 1 is requested, and with no indices at all, where
IndexError is raised. -/
theorem C57_refuted :
    dataTrigger ['a', 'b', 'c'] [-1, 1] = .ok [] ∧ requested ['a', 'b', 'c'] [-1, 1] = ['b'] ∧
    dataTrigger ['a', 'b', 'c'] [] = .error .indexError ∧ requested ['a', 'b', 'c'] [] = [] := by
  refine ⟨C57_negative _ _ ⟨-1, by simp, by norm_num⟩, by decide, ?_, by decide⟩
  unfold dataTrigger
  simp

/-- C58: two cameras.  If every pair of times is over before the next begins, the pairs yielded are the
frames of camera 1 at `t1[k]` and of camera 2 at `t2[k]`, in order, as far as the data reach. -/
theorem C58_pairs {D F : Type} (f1 f2 : D → F) (data : List D) (t1 t2 : List Int) (hlen : t1.length = t2.length)
    (h1 : ∀ a ∈ t1, 0 ≤ a) (h2 : ∀ a ∈ t2, 0 ≤ a) (hord : OneAfterAnother t1 t2) :
    dualLoop f1 f2 data 0 t1 t2 none none = framesAt f1 f2 data (t1.zip t2) := by
  have hp : (t1.zip t2).Pairwise (fun p q => max p.1 p.2 < min q.1 q.2) := by
    refine pairwise_of_next _ (fun p q r h h' => by omega) _ fun k p q hk hk' => ?_
    rw [List.getElem?_zip_eq_some] at hk hk'
    exact hord k p.1 p.2 q.1 q.2 hk.1 hk.2 hk'.1 hk'.2
  have := (dualLoop_spec f1 f2 data data 0 rfl).1 (t1.zip t2) hp (fun p hp => by
    have := h1 p.1 (List.of_mem_zip hp).1
    have := h2 p.2 (List.of_mem_zip hp).2
    push_cast
    omega)
  rwa [List.map_fst_zip hlen.le, List.map_snd_zip hlen.ge] at this

/-- C58: if the data reach beyond the last time (as in `simple_brownian_video`) there is one pair for every
pair of times, and the `k`-th is taken at `t1[k]` and `t2[k]`. -/
theorem C58_kth {D F : Type} (f1 f2 : D → F) (data : List D) (t1 t2 : List Int) (hlen : t1.length = t2.length)
    (h1 : ∀ a ∈ t1, 0 ≤ a ∧ a < data.length) (h2 : ∀ a ∈ t2, 0 ≤ a ∧ a < data.length)
    (hord : OneAfterAnother t1 t2) :
    (dualLoop f1 f2 data 0 t1 t2 none none).length = t1.length ∧
    ∀ (k : Nat) (a b : Int) (x y : D), t1[k]? = some a → t2[k]? = some b → data[a.toNat]? = some x →
      data[b.toNat]? = some y → (dualLoop f1 f2 data 0 t1 t2 none none)[k]? = some (f1 x, f2 y) := by
  rw [C58_pairs f1 f2 data t1 t2 hlen (fun a ha => (h1 a ha).1) (fun a ha => (h2 a ha).1) hord]
  clear hord
  induction t1 generalizing t2 with
  | nil => simp [framesAt]
  | cons a t1 ih =>
    cases t2 with
    | nil => simp at hlen
    | cons b t2 =>
      obtain ⟨l, e⟩ := ih t2 (by simpa using hlen) (fun a ha => h1 a (List.mem_cons_of_mem _ ha))
        (fun a ha => h2 a (List.mem_cons_of_mem _ ha))
      obtain ⟨a0, a1⟩ := h1 a List.mem_cons_self
      obtain ⟨b0, b1⟩ := h2 b List.mem_cons_self
      have ea : itemAt data a = some (data[a.toNat]'(by omega)) := by
        unfold itemAt
        rw [if_pos a0, List.getElem?_eq_getElem]
      have eb : itemAt data b = some (data[b.toNat]'(by omega)) := by
        unfold itemAt
        rw [if_pos b0, List.getElem?_eq_getElem]
      rw [List.zip_cons_cons, framesAt_cons, ea, eb]
      refine ⟨by simp [l], ?_⟩
      intro k a' b' x y ha hb hx hy
      cases k with
      | zero =>
        simp only [List.getElem?_cons_zero, Option.some.injEq] at ha hb
        subst ha
        subst hb
        rw [List.getElem?_eq_getElem (by omega)] at hx hy
        cases hx
        cases hy
        rfl
      | succ k => exact e k a' b' x y ha hb hx hy

/-- C58: the times of `create_random_times1` and `create_random_times2` are non-negative, as many for both
cameras, and every pair is over before the next begins. -/
theorem C58_random_times (nframes n : Nat) (rand1 rand2 rand3 : Nat → Nat) (hn : 0 < n) (hr1 : ∀ k, rand1 k < n)
    (hr2 : ∀ k, rand2 k < 2) (t1 t2 : List Int)
    (h : createRandomTimes1 nframes n rand1 rand2 = .ok (t1, t2) ∨
      createRandomTimes2 nframes n rand1 rand2 rand3 = .ok (t1, t2)) :
    t1.length = t2.length ∧ (∀ a ∈ t1, 0 ≤ a) ∧ (∀ a ∈ t2, 0 ≤ a) ∧ OneAfterAnother t1 t2 := by
  have key : t1.length = nframes ∧ t2.length = nframes ∧ ∀ (k : Nat) (a b : Int), t1[k]? = some a →
      t2[k]? = some b → (2 * n * k ≤ a ∧ a < 2 * n * (k + 1 : Nat)) ∧ 2 * n * k ≤ b ∧ b < 2 * n * (k + 1 : Nat) := by
    rcases h with h | h
    · obtain ⟨u1, u2, e, l1, l2, p⟩ := C56_random_times1 nframes n rand1 rand2 hn hr1 hr2
      rw [h] at e
      cases e
      refine ⟨l1, l2, fun k a b ha hb => ?_⟩
      obtain ⟨⟨q1, q2⟩, q3⟩ := p k a b ha hb
      push_cast
      rw [Int.mul_add]
      rcases q3 with q3 | q3 <;> omega
    · obtain ⟨u1, u2, e, l1, l2, p⟩ := C56_random_times2 nframes n rand1 rand2 rand3 hn hr1 hr2
      rw [h] at e
      cases e
      refine ⟨l1, l2, fun k a b ha hb => ?_⟩
      obtain ⟨⟨q1, q2⟩, q3⟩ := p k a b ha hb
      push_cast
      rw [Int.mul_add]
      split at q3
      · omega
      · rcases q3 with q3 | q3 <;> omega
  obtain ⟨l1, l2, key⟩ := key
  have nonneg : ∀ k : Nat, (0 : Int) ≤ 2 * n * k := fun k => by positivity
  refine ⟨l1.trans l2.symm, ?_, ?_, ?_⟩
  · intro a ha
    obtain ⟨k, hk, rfl⟩ := List.mem_iff_getElem.mp ha
    have := key k t1[k] (t2[k]'(by omega)) (List.getElem?_eq_getElem _) (List.getElem?_eq_getElem _)
    exact le_trans (nonneg k) this.1.1
  · intro a ha
    obtain ⟨k, hk, rfl⟩ := List.mem_iff_getElem.mp ha
    have := key k (t1[k]'(by omega)) t2[k] (List.getElem?_eq_getElem _) (List.getElem?_eq_getElem _)
    exact le_trans (nonneg k) this.2.1
  · intro k a b a' b' ha hb ha' hb'
    have u := key k a b ha hb
    have v := key (k + 1) a' b' ha' hb'
    omega

/-- C58: the condition is needed.  With times 0, 1 of camera 1 and 2, 3 of camera 2 the only pair yielded is
that of times 1 and 2. -/
theorem C58_condition_needed :
    dualLoop (fun n : Nat => n) (fun n => n) [0, 1, 2, 3] 0 [0, 1] [2, 3] none none = [(1, 2)] ∧
    framesAt (fun n : Nat => n) (fun n => n) [0, 1, 2, 3] [(0, 2), (1, 3)] = [(0, 2), (1, 3)] := by
  constructor <;> rfl

/-- C58: one camera, for strictly increasing times: the frames at these times. -/
theorem C58_single {D F : Type} (f1 : D → F) (data : List D) (t : List Int) (ht : t.Pairwise (· < ·))
    (h0 : ∀ a ∈ t, 0 ≤ a) : singleLoop f1 data 0 t = t.filterMap fun a => (itemAt data a).map f1 :=
  singleLoop_spec f1 data data 0 rfl t ht (by simpa using h0)

/-- The hypotheses can be met. -/
example : ∃ t, createRandomTime 5 32 4 (fun i low high => if i = 0 then high - 1 else low) = .ok t ∧
    t.length = 5 := by
  obtain ⟨t, h, l, _⟩ := C56_random_time 5 32 4 (fun i low high => if i = 0 then high - 1 else low)
    (by intro i low high h; split <;> omega) (by norm_num) (by norm_num)
  exact ⟨t, h, l⟩

example : createRandomTime 3 10 4 (fun i low high => if i = 0 then high - 1 else low) = .ok [9, 13, 20] := by decide

example : dataTrigger ['a', 'b', 'c', 'd'] [3, 1, 1, 7] = .ok ['b', 'd'] := by
  rw [C57_trigger_partial _ _ (by simp) (by simp)]
  decide

example : OneAfterAnother [0, 5, 8] [2, 5, 9] := by
  intro k a b a' b' h1 h2 h3 h4
  match k with
  | 0 => simp at h1 h2 h3 h4; omega
  | 1 => simp at h1 h2 h3 h4; omega
  | k + 2 => simp at h3

example : dualLoop (fun n : Nat => n) (fun n => n + 100) (List.range 10) 0 [0, 5, 8] [2, 5, 9] none none =
    [(0, 102), (5, 105), (8, 109)] := by decide

end Cddm
