import Verif.Model.LogAny
import Verif.Spec.LogAny
import Verif.Lemmas.AnyAxisCcorr
import Verif.Lemmas.NormAny
import Verif.Lemmas.LogAvg

/-! # Lemmas about log averaging and merging of arrays -/

namespace Cddm
open Spec
variable {α V : Type}

/-! ### Slices -/

theorem curveAt_length (x : Tensor α) (p : List Nat) : (curveAt x p).length = x.shape.getLastD 0 := by simp [curveAt]

theorem curveAt_getElem? (x : Tensor α) (p : List Nat) (i : Nat) :
    (curveAt x p)[i]? = if i < x.shape.getLastD 0 then some (x.get (p ++ [i])) else none := by
  unfold curveAt
  by_cases h : i < x.shape.getLastD 0
  · rw [if_pos h, List.getElem?_map, List.getElem?_range h]; rfl
  · rw [if_neg h, List.getElem?_eq_none (by simpa using h)]

theorem curveAt_pickLast (x : Tensor α) (idx : List Nat) (h : ∀ i ∈ idx, i < x.shape.getLastD 0) (p : List Nat) :
    curveAt (pickLast x idx) p = takeIdx (curveAt x p) idx := by
  obtain ⟨h1, h2⟩ := takeIdx_eq (curveAt x p) idx (by simpa [curveAt_length] using h)
  apply List.ext_getElem?
  intro j
  rw [curveAt_getElem?]
  have hs : (pickLast x idx).shape.getLastD 0 = idx.length := List.getLastD_concat
  rw [hs]
  by_cases hj : j < idx.length
  · rw [if_pos hj, h2 j idx[j] (List.getElem?_eq_getElem hj), curveAt_getElem?, if_pos (h _ (List.getElem_mem hj))]
    simp [pickLast, List.getD_eq_getElem?_getD, List.getElem?_eq_getElem hj]
  · rw [if_neg hj, List.getElem?_eq_none (by omega)]

theorem mem_sliceBy {len a b s i : Nat} (hs : 1 ≤ s) (h : i ∈ sliceBy len a b s) : i < len := by
  unfold sliceBy at h
  obtain ⟨k, hk, rfl⟩ := List.mem_range'.1 h
  have h1 : k * s < min b len - a + s - 1 + 1 := by
    have := Nat.div_mul_le_self (min b len - a + s - 1) s
    have : (k + 1) * s ≤ (min b len - a + s - 1) / s * s := Nat.mul_le_mul_right _ hk
    nlinarith
  have h2 : (k + 1) * s ≤ min b len - a + s - 1 :=
    (Nat.mul_le_mul_right s hk).trans (Nat.div_mul_le_self _ _)
  rw [Nat.add_mul, Nat.one_mul] at h2
  rw [Nat.mul_comm]
  omega

theorem sliceBy_one (len a b : Nat) : sliceBy len a b 1 = List.range' a (min b len - a) := by
  simp [sliceBy]

theorem pickLast_shape {frame : List Nat} {N : Nat} {x : Tensor α} (h : x.shape = frame ++ [N]) (idx : List Nat) :
    (pickLast x idx).shape = frame ++ [idx.length] := by
  simp [pickLast, h]

theorem curveAt_everySecondAny {frame : List Nat} {N : Nat} {x : Tensor V} (h : x.shape = frame ++ [N]) (p : List Nat) :
    curveAt (everySecondAny x) p = everySecond (curveAt x p) := by
  unfold everySecondAny everySecond
  rw [curveAt_pickLast _ _ (fun i hi => mem_sliceBy (by omega) hi), curveAt_length]

theorem curveAt_chooseDataAny {frame : List Nat} {N : Nat} {x : Tensor V} (h : x.shape = frame ++ [N]) (low : Bool)
    (p : List Nat) : curveAt (chooseDataAny low x) p = chooseData low (curveAt x p) := by
  unfold chooseDataAny chooseData
  simp only [curveAt_length]
  cases low
  · simp only [Bool.false_eq_true, if_false]
    rw [curveAt_pickLast _ _ (fun i hi => mem_sliceBy (by omega) hi)]
  · simp only [if_true]
    rw [curveAt_pickLast _ _ (fun i hi => mem_sliceBy (by omega) hi)]

theorem chooseDataAny_shape {frame : List Nat} {N : Nat} {x : Tensor V} (h : x.shape = frame ++ [N]) (low : Bool) :
    ∃ M, (chooseDataAny low x).shape = frame ++ [M] := by
  unfold chooseDataAny
  cases low
  · exact ⟨_, pickLast_shape h _⟩
  · exact ⟨_, pickLast_shape h _⟩

theorem levelArray_shape {frame : List Nat} {N : Nat} {x : Tensor V} (h : x.shape = frame ++ [N]) (size : Nat) :
    (levelArray size x).shape = frame ++ [size] := by simp [levelArray, h]

theorem curveAt_levelArray [AddCommGroup V] {frame : List Nat} {N : Nat} {x : Tensor V} (h : x.shape = frame ++ [N])
    (size : Nat) (p : List Nat) : curveAt (levelArray size x) p = levelRow size (curveAt x p) := by
  apply List.ext_getElem?
  intro j
  rw [curveAt_getElem?, levelArray_shape h, List.getLastD_concat]
  by_cases hj : j < size
  · rw [if_pos hj, levelRow_get size _ j hj]
    have hN : x.shape.getLastD 0 = N := by rw [h, List.getLastD_concat]
    rw [curveAt_getElem?, hN]
    congr 1
    simp only [levelArray, pickLast_shape h, List.getLastD_concat, sliceBy_one, List.length_range', hN, Nat.sub_zero]
    by_cases hjN : j < N
    · rw [if_pos (by omega), if_pos hjN]
      simp only [pickLast, List.dropLast_concat, List.getLastD_concat, List.getD_eq_getElem?_getD]
      rw [getElem?_range' _ _ _ (by omega)]
      simp
    · rw [if_neg (by omega), if_neg hjN]
  · rw [if_neg hj, List.getElem?_eq_none (by rw [levelRow_length]; omega)]

/-! ### Levels -/

/-- `PW` for arrays with one curve at each position. -/
abbrev CurveRes (frame : List Nat) (res : Py (Tensor α)) (one : List Nat → Py (List α)) : Prop :=
  PW frame (fun p r => curveAt r p) (fun r => ∃ M, r.shape = frame ++ [M]) res one

theorem along_eq_curveAt {frame p : List Nat} {r : Tensor α} {L : Nat} (h : r.shape = frame ++ [L]) (hp : InShape p frame) :
    along r frame.length p = curveAt r p := by
  rw [along_eq_rowAt r h (inShape_length hp), curveAt_row r frame L h]

theorem curveRes_of_pixelWise {frame : List Nat} {res : Py (Tensor α)} {one : List Nat → Py (List α)}
    (h : PixelWise frame res one) : CurveRes frame res one := by
  unfold PixelWise at h
  unfold CurveRes PW
  rcases res with e | r
  · exact h
  · obtain ⟨L, h1, h2⟩ := h
    exact ⟨⟨L, h1⟩, fun p hp => by rw [h2 p hp, along_eq_curveAt h1 hp]⟩

section
variable (K : Type) [Field K] [AddCommGroup V] [Module K V]

theorem PW.ok {A B : Type} {frame : List Nat} {sel : List Nat → A → B} {P : A → Prop} {a : A} {one : List Nat → Py B}
    (h : P a) (e : ∀ p, InShape p frame → one p = .ok (sel p a)) : PW frame sel P (.ok a) one := ⟨h, e⟩

theorem convolveInto_length {a b : List V} (h : convolveInto K a a = .ok b) : b.length = a.length := by
  by_cases hn : 2 < a.length
  · rw [convolveInto_eq K a a rfl hn] at h
    cases h
    exact stencil_length _ _
  · rw [convolveInto, if_neg hn] at h
    cases h

theorem nextLevelAny_ok {frame : List Nat} {N : Nat} {x : Tensor V} (h : x.shape = frame ++ [N]) (binning : Int) (low : Bool) :
    CurveRes frame (nextLevelAny K binning low x) fun p => nextLevel K binning low (curveAt x p) := by
  unfold nextLevelAny nextLevel
  by_cases h1 : binning = 1
  · simp only [h1, if_true]
    rw [h, List.dropLast_concat, List.getLastD_concat]
    have e : (fun o => convolveInto K (rowAt x N o) (rowAt x N o)) = fun o => convolveInto K (curveAt x o) (curveAt x o) := by
      funext o; rw [curveAt_row x frame N h]
    rw [e]
    have hl : ∀ o, (curveAt x o).length = N := fun o => by rw [curveAt_length, h, List.getLastD_concat]
    have h2 := curveRes_of_pixelWise (overRowsPy_pixelWise frame N (fun o => convolveInto K (curveAt x o) (curveAt x o)) (by
      intro o o' _ _
      by_cases hn : 2 < N
      · refine .inr ⟨_, _, convolveInto_eq K _ _ rfl (by rw [hl]; exact hn), convolveInto_eq K _ _ rfl (by rw [hl]; exact hn),
          ?_, ?_⟩
        · rw [stencil_length, hl]
        · rw [stencil_length, hl]
      · refine .inl ⟨.assertionError, ?_, ?_⟩
        · rw [convolveInto, if_neg (by rw [hl]; exact hn)]
        · rw [convolveInto, if_neg (by rw [hl]; exact hn)]))
    refine PW.bind h2 (sel' := fun p r => curveAt r p) (P' := fun r => ∃ M, r.shape = frame ++ [M])
      (k' := fun _ c => .ok (everySecond c)) fun c _ hc => ?_
    obtain ⟨M, hM⟩ := hc
    exact PW.ok ⟨_, pickLast_shape hM _⟩ fun p _ => by rw [curveAt_everySecondAny hM]
  · simp only [h1, if_false]
    by_cases h0 : binning = 0
    · simp only [h0, if_true]
      exact PW.ok ⟨_, pickLast_shape h _⟩ fun p _ => by rw [curveAt_everySecondAny h]
    · simp only [h0, if_false]
      exact PW.ok (chooseDataAny_shape h low) fun p _ => by rw [curveAt_chooseDataAny h]

theorem levelArrays_ok (size : Nat) (binning : Int) (low : Nat → Bool) {frame : List Nat} (k : Nat) :
    ∀ (l : Nat) (x : Tensor V) (N : Nat), x.shape = frame ++ [N] →
      PW frame (fun p rs => rs.map (curveAt · p)) (fun rs => ∀ r ∈ rs, r.shape = frame ++ [size])
        (levelArrays K size binning low k l x) fun p => levelRows K size binning low k l (curveAt x p) := by
  induction k with
  | zero =>
    intro l x N h
    refine PW.ok ?_ fun p _ => ?_
    · intro r hr
      rw [List.mem_singleton] at hr
      rw [hr, levelArray_shape h]
    · simp only [levelRows, List.map_cons, List.map_nil, curveAt_levelArray h]
  | succ k ih =>
    intro l x N h
    unfold levelArrays levelRows
    refine PW.bind (nextLevelAny_ok K h binning (low l)) (k' := fun p next => do
      let rest ← levelRows K size binning low k (l + 1) next
      .ok (levelRow size (curveAt x p) :: rest)) fun next _ hn => ?_
    obtain ⟨M, hM⟩ := hn
    refine PW.bind (ih (l + 1) next M hM) (k' := fun p rest => .ok (levelRow size (curveAt x p) :: rest)) fun rest _ hr => ?_
    refine PW.ok ?_ fun p _ => ?_
    · intro r h'
      rcases List.mem_cons.1 h' with rfl | h'
      · exact levelArray_shape h size
      · exact hr r h'
    · simp only [List.map_cons, curveAt_levelArray h]

theorem levelsAt_stackLevels {frame : List Nat} {size : Nat} (rs : List (Tensor (Option V)))
    (h : ∀ r ∈ rs, r.shape = frame ++ [size]) (p : List Nat) :
    levelsAt (stackLevels (frame ++ [size]) rs) p = rs.map (curveAt · p) := by
  unfold levelsAt
  apply List.ext_getElem?
  intro l
  rw [List.getElem?_map, List.getElem?_map]
  have hs : (stackLevels (frame ++ [size]) rs).shape = rs.length :: (frame ++ [size]) := rfl
  rw [hs, List.headD_cons]
  by_cases hl : l < rs.length
  · rw [List.getElem?_range hl, List.getElem?_eq_getElem hl, Option.map_some, Option.map_some]
    congr 1
    unfold curveAt
    rw [hs, h _ (List.getElem_mem hl)]
    have : (rs.length :: (frame ++ [size])).getLastD 0 = size := by
      rw [← List.cons_append, List.getLastD_concat]
    rw [this, List.getLastD_concat]
    apply List.map_congr_left
    intro i _
    simp [stackLevels, List.getElem?_eq_getElem hl]
  · rw [List.getElem?_eq_none (by simpa using hl), List.getElem?_eq_none (by omega)]
    rfl

/-- `PW` for multilevel data. -/
abbrev LevelRes (frame : List Nat) (size : Nat) (res : Py (Tensor α)) (one : List Nat → Py (List (List α))) : Prop :=
  PW frame (fun p r => levelsAt r p) (fun r => ∃ L, r.shape = L :: frame ++ [size]) res one

theorem multilevelAny_ok {frame : List Nat} {N : Nat} {x : Tensor V} (h : x.shape = frame ++ [N]) (levelSize binning : Int)
    (low : Nat → Bool) :
    LevelRes frame levelSize.toNat (multilevelAny K x levelSize binning low)
      fun p => multilevel K (curveAt x p) levelSize binning low := by
  unfold multilevelAny multilevel
  by_cases hb : binning ∉ ([2, 1, 0] : List Int)
  · simp only [hb, not_false_eq_true, if_true]
    exact fun _ _ => rfl
  · simp only [hb, if_false]
    by_cases hs : levelSize < 2
    · simp only [hs, if_true]
      exact fun _ _ => rfl
    · simp only [hs, if_false]
      rw [if_neg (by rw [h]; simp), h, List.getLastD_concat, List.dropLast_concat]
      simp only [curveAt_length, h, List.getLastD_concat]
      have := PW.bind (levelArrays_ok K levelSize.toNat binning low (levelLoop levelSize.toNat N 0) 0 x N h)
        (k := fun rs => .ok (stackLevels (frame ++ [levelSize.toNat]) rs)) (k' := fun _ rs => .ok rs)
        (sel' := fun p r => levelsAt r p) (P' := fun r => ∃ L, r.shape = L :: frame ++ [levelSize.toNat])
        fun rs _ hr => PW.ok ⟨rs.length, rfl⟩ fun p _ => by rw [levelsAt_stackLevels rs hr]
      refine this.congr fun p _ => ?_
      cases levelRows K levelSize.toNat binning low (levelLoop levelSize.toNat N 0) 0 (curveAt x p) <;> rfl

end

/-! ### C order -/

theorem ravel_from (s p : List Nat) (a : Nat) (h : p.length = s.length) :
    (s.zip p).foldl (fun k (ni : Nat × Nat) => k * ni.1 + ni.2) a = a * s.prod + ravel s p := by
  induction s generalizing p a with
  | nil => simp [ravel]
  | cons n s ih =>
    cases p with
    | nil => simp at h
    | cons i p =>
      have h' : p.length = s.length := by simpa using h
      unfold ravel
      rw [List.zip_cons_cons, List.foldl_cons, List.foldl_cons, ih p _ h', ih p (0 * n + i) h', List.prod_cons]
      simp only []
      ring

theorem ravel_cons (n i : Nat) (s p : List Nat) (h : p.length = s.length) :
    ravel (n :: s) (i :: p) = i * s.prod + ravel s p := by
  unfold ravel
  rw [List.zip_cons_cons, List.foldl_cons, ravel_from s p _ h]
  simp [ravel]

theorem ravel_lt {s p : List Nat} (h : InShape p s) : ravel s p < s.prod := by
  induction h with
  | nil => simp [ravel]
  | @cons i n p s hi hp ih =>
    rw [ravel_cons _ _ _ _ (inShape_length hp), List.prod_cons]
    have : (i + 1) * s.prod ≤ n * s.prod := Nat.mul_le_mul_right _ hi
    rw [Nat.add_mul, Nat.one_mul] at this
    omega

theorem unravel_ravel {s p : List Nat} (h : InShape p s) : unravel s (ravel s p) = p := by
  induction h with
  | nil => rfl
  | @cons i n p s hi hp ih =>
    have hlt := ravel_lt hp
    rw [ravel_cons _ _ _ _ (inShape_length hp), unravel, Nat.mul_comm, Nat.mul_add_div (by omega), Nat.mul_add_mod,
      Nat.div_eq_of_lt hlt, Nat.mod_eq_of_lt hlt, ih, Nat.add_zero]

theorem ravel_append (s t p q : List Nat) (h : p.length = s.length) (h' : q.length = t.length) :
    ravel (s ++ t) (p ++ q) = ravel s p * t.prod + ravel t q := by
  unfold ravel
  rw [List.zip_append h.symm, List.foldl_append, ravel_from t q _ h']
  rfl

/-- The elements of the last two axes, taken together, in C order. -/
theorem ravel_merge {s p : List Nat} (h : p.length = s.length) (L m l j : Nat) :
    ravel (s ++ [m * L]) (p ++ [l * m + j]) = ravel (s ++ [L, m]) (p ++ [l, j]) := by
  rw [ravel_append s [m * L] p [l * m + j] h rfl, ravel_append s [L, m] p [l, j] h rfl]
  simp only [ravel, List.zip_cons_cons, List.zip_nil_left, List.foldl_cons, List.foldl_nil, List.prod_cons, List.prod_nil]
  ring

theorem range_mul_flatten {β : Type} (m L : Nat) (f : Nat → β) :
    (List.range (m * L)).map f = ((List.range L).map fun l => (List.range m).map fun j => f (l * m + j)).flatten := by
  induction L with
  | zero => simp
  | succ L ih =>
    rw [Nat.mul_add, Nat.mul_one, List.range_add, List.map_append, ih, List.range_succ, List.map_append, List.flatten_append]
    simp [Nat.mul_comm]

/-! ### Merging -/

theorem levelAxes_eq (m : Nat) : levelAxes (m + 2) = (List.range m).map (· + 1) ++ [0, m + 1] := by
  unfold levelAxes
  have h1 : (List.range (m + 2)).tail = (List.range m).map (· + 1) ++ [m + 1] := by
    rw [List.range_succ_eq_map, List.tail_cons, List.range_succ, List.map_append]
    rfl
  have h2 : (List.range (m + 2)).headD 0 = 0 := by rw [List.range_succ_eq_map]; rfl
  simp only [h1, h2]
  rw [List.length_append, List.length_map, List.length_range]
  simp only [List.length_cons, List.length_nil, Nat.zero_add, Nat.add_sub_cancel]
  unfold pyInsert
  rw [List.take_append_of_le_length (by simp), List.take_of_length_le (by simp), List.drop_append_of_le_length (by simp),
    List.drop_of_length_le (by simp)]
  rfl

theorem idxOf_levelAxes (m a : Nat) (ha : a < m + 2) :
    ((List.range m).map (· + 1) ++ [0, m + 1]).idxOf a = if a = 0 then m else if a = m + 1 then m + 1 else a - 1 := by
  have hlen : ((List.range m).map (· + 1)).length = m := by simp
  by_cases h0 : a = 0
  · subst h0
    rw [if_pos rfl, List.idxOf_append_of_notMem (by simp), hlen]
    simp
  · rw [if_neg h0]
    by_cases h1 : a = m + 1
    · subst h1
      rw [if_pos rfl, List.idxOf_append_of_notMem (by simp), hlen]
      simp [List.idxOf_cons]
    · rw [if_neg h1]
      have hmem : a ∈ (List.range m).map (· + 1) := by
        simp only [List.mem_map, List.mem_range]
        exact ⟨a - 1, by omega, by omega⟩
      rw [List.idxOf_append_of_mem hmem]
      have hnd : ((List.range m).map (· + 1)).Nodup := List.Nodup.map (fun a b h => by simpa using h) List.nodup_range
      have hg : ((List.range m).map (· + 1))[a - 1]'(by simp; omega) = a := by simp; omega
      have := hnd.idxOf_getElem (a - 1) (by simp; omega)
      rw [hg] at this
      exact this

theorem transpose_levels {s q : List Nat} {L m l j : Nat} (x : Tensor α) (hx : x.shape = L :: s ++ [m])
    (hq : q.length = s.length) :
    (transposeAxes x (levelAxes x.shape.length)).shape = s ++ [L, m] ∧
      (transposeAxes x (levelAxes x.shape.length)).get (q ++ [l, j]) = x.get (l :: q ++ [j]) := by
  have hlen : x.shape.length = s.length + 2 := by rw [hx]; simp
  rw [hlen, levelAxes_eq]
  constructor
  · simp only [transposeAxes, List.map_append, List.map_map, hx, List.map_cons, List.map_nil]
    congr 1
    · apply List.ext_getElem
      · simp
      · intro i h1 h2
        simp [List.getD_eq_getElem?_getD, List.getElem?_append_left h2, List.getElem?_eq_getElem h2]
    · simp [List.getD_eq_getElem?_getD]
  · simp only [transposeAxes]
    congr 1
    apply List.ext_getElem
    · simp [hq]
    · intro i h1 h2
      have hi : i < s.length + 2 := by simpa using h1
      rw [List.getElem_map, List.getElem_range, idxOf_levelAxes _ _ hi]
      by_cases h0 : i = 0
      · subst h0
        simp [List.getD_eq_getElem?_getD, ← hq]
      · rw [if_neg h0]
        by_cases h1 : i = s.length + 1
        · subst h1
          simp [List.getD_eq_getElem?_getD, ← hq]
        · rw [if_neg h1]
          obtain ⟨k, rfl⟩ : ∃ k, i = k + 1 := ⟨i - 1, by omega⟩
          have hk : k < q.length := by omega
          simp [List.getD_eq_getElem?_getD, List.getElem?_append_left hk, List.getElem_append_left hk,
            List.getElem?_eq_getElem hk]

/-- `PW` for times and values. -/
abbrev TimeRes (frame : List Nat) (res : Py (List Nat × Tensor α)) (one : List Nat → Py (List Nat × List α)) : Prop :=
  PW frame (fun p r => (r.1, curveAt r.2 p)) (fun r => r.2.shape = frame ++ [r.1.length]) res one

theorem mergeHalfAny_ok {frame : List Nat} {L n : Nat} {x : Tensor α} (h : x.shape = L :: frame ++ [n]) :
    TimeRes frame (mergeHalfAny x) fun p => mergeHalf (levelsAt x p) n := by
  have hlast : x.shape.getLastD 0 = n := by rw [h, List.getLastD_concat]
  have hhead : x.shape.headD 0 = L := by rw [h]; rfl
  unfold mergeHalfAny mergeHalf
  rw [if_neg (by rw [h]; simp), hlast, hhead]
  by_cases hn : n % 2 ≠ 0
  · simp only [hn, ne_eq, not_false_eq_true, if_true]
    exact fun _ _ => rfl
  · simp only [hn, if_false]
    set m := n / 2 with hm
    have hn2 : n = m + m := by omega
    have hidx : sliceBy n m n 1 = List.range' m m := by rw [sliceBy_one]; congr 1; omega
    have hps : (pickLast x (sliceBy n m n 1)).shape = L :: frame ++ [m] := by
      rw [pickLast_shape h, hidx, List.length_range']
    have hts := (transpose_levels (q := frame) (l := 0) (j := 0) (pickLast x (sliceBy n m n 1)) hps rfl).1
    rw [hts]
    have hd : (frame ++ [L, m]).dropLast.dropLast = frame := by
      rw [show frame ++ [L, m] = (frame ++ [L]) ++ [m] by simp, List.dropLast_concat, List.dropLast_concat]
    rw [hd]
    unfold reshapeAny
    rw [if_neg (by rw [hts]; simp [Nat.mul_comm])]
    refine PW.ok ?_ fun p hp => ?_
    · show frame ++ [m * L] = _
      congr 2
      rw [List.length_flatten]
      simp only [List.map_map, Function.comp_def, List.length_drop, List.length_map, List.length_range]
      rw [show n - m = m by omega]
      simp [Nat.mul_comm]
    · congr 2
      · congr 2
        simp only [levelsAt, hhead]
        apply List.ext_getElem
        · simp
        · intro i h1 h2
          simp
      · have hc : curveAt (⟨frame ++ [m * L], fun p => (transposeAxes (pickLast x (sliceBy n m n 1))
            (levelAxes (pickLast x (sliceBy n m n 1)).shape.length)).get (unravel
              (transposeAxes (pickLast x (sliceBy n m n 1)) (levelAxes (pickLast x (sliceBy n m n 1)).shape.length)).shape
              (ravel (frame ++ [m * L]) p))⟩ : Tensor α) p
            = ((List.range L).map fun l => (List.range m).map fun j => x.get (l :: p ++ [m + j])).flatten := by
          unfold curveAt
          simp only [List.getLastD_concat]
          rw [range_mul_flatten]
          congr 1
          apply List.map_congr_left
          intro l hl
          apply List.map_congr_left
          intro j hj
          rw [List.mem_range] at hl hj
          have hin : InShape (p ++ [l, j]) (frame ++ [L, m]) :=
            inShape_append hp (List.Forall₂.cons hl (List.Forall₂.cons hj List.Forall₂.nil))
          rw [hts, ravel_merge (inShape_length hp), unravel_ravel hin,
            (transpose_levels _ hps (inShape_length hp)).2]
          simp only [pickLast, hidx, List.dropLast_concat, List.getLastD_concat, List.getD_eq_getElem?_getD]
          rw [getElem?_range' _ _ _ hj]
          rfl
        rw [hc]
        congr 1
        simp only [levelsAt, hhead, List.map_map]
        apply List.map_congr_left
        intro l _
        simp only [Function.comp]
        unfold curveAt
        rw [hlast, ← List.map_drop]
        apply List.ext_getElem
        · simp; omega
        · intro i h1 h2
          simp

theorem concatLast_ok {frame : List Nat} {a b : Nat} {x y : Tensor α} (hx : x.shape = frame ++ [a]) (hy : y.shape = frame ++ [b]) :
    ∃ r, concatLast x y = .ok r ∧ r.shape = frame ++ [a + b] ∧ ∀ p, curveAt r p = curveAt x p ++ curveAt y p := by
  unfold concatLast
  rw [if_neg (by rw [hx, hy]; simp)]
  refine ⟨_, rfl, by simp [hx, hy], fun p => ?_⟩
  unfold curveAt
  simp only [hx, hy, List.getLastD_concat]
  rw [List.range_add, List.map_append, List.map_map]
  congr 1
  · apply List.map_congr_left
    intro i hi
    rw [if_pos (List.mem_range.1 hi)]
  · apply List.map_congr_left
    intro i _
    simp only [Function.comp]
    rw [if_neg (by omega), List.dropLast_concat, Nat.add_sub_cancel_left]

theorem mergeMultilevelAny_ok {frame : List Nat} {L n : Nat} {x : Tensor α} (h : x.shape = L :: frame ++ [n]) (mode : String) :
    TimeRes frame (mergeMultilevelAny x mode) fun p => mergeMultilevel (levelsAt x p) n mode := by
  have hlast : x.shape.getLastD 0 = n := by rw [h, List.getLastD_concat]
  unfold mergeMultilevelAny mergeMultilevel
  by_cases hf : mode = "full"
  · simp only [hf, if_true]
    rw [hlast, h]
    cases L with
    | zero =>
      refine fun p _ => ?_
      simp only [levelsAt, h]
      rfl
    | succ L =>
      set y0 : Tensor α := ⟨frame ++ [n], fun p => x.get (0 :: p)⟩ with hy0
      set rest : Tensor α := ⟨L :: frame ++ [n], fun p => x.get ((p.headD 0 + 1) :: p.tail)⟩ with hrest
      have hsplit : ∀ p, levelsAt x p = curveAt y0 p :: levelsAt rest p := by
        intro p
        have hr : rest.shape.headD 0 = L := rfl
        have hx : x.shape.headD 0 = L + 1 := by rw [h]; rfl
        unfold levelsAt
        rw [hx, hr, List.range_succ_eq_map, List.map_cons, List.map_map]
        congr 1
        · unfold curveAt
          simp only [hlast, hy0, List.getLastD_concat, List.cons_append]
        · apply List.map_congr_left
          intro l _
          unfold curveAt
          have hrl : rest.shape.getLastD 0 = n := by rw [hrest]; exact List.getLastD_concat
          simp only [Function.comp, hrl, hlast]
          rfl
      have h1 : TimeRes frame (mergeHalfAny rest) fun p => mergeHalf (levelsAt rest p) n := mergeHalfAny_ok rfl
      have h2 := PW.bind h1 (k := fun xy => do
          let y ← concatLast y0 xy.2
          .ok (List.range n ++ xy.1.map (· * 2), y))
        (k' := fun p xy => .ok (List.range n ++ xy.1.map (· * 2), curveAt y0 p ++ xy.2))
        (sel' := fun p r => (r.1, curveAt r.2 p)) (P' := fun r => r.2.shape = frame ++ [r.1.length]) (fun xy _ hxy => by
          obtain ⟨r, hr1, hr2, hr3⟩ := concatLast_ok (x := y0) (y := xy.2) rfl hxy
          rw [hr1]
          refine PW.ok ?_ fun p _ => ?_
          · show r.shape = _
            rw [hr2]; simp
          · simp only [hr3])
      refine h2.congr fun p _ => ?_
      simp only [hsplit]
  · simp only [hf, if_false]
    by_cases hh : mode = "half"
    · simp only [hh, if_true]
      exact mergeHalfAny_ok h
    · simp only [hh, if_false]
      exact fun _ _ => rfl

/-! ### Averaging and merging -/

section
variable (K : Type) [Field K] [AddCommGroup V] [Module K V]

theorem logAverageAny_ok {frame : List Nat} {N : Nat} {x : Tensor V} (h : x.shape = frame ++ [N]) (size : Int) :
    TimeRes frame (logAverageAny K x size) fun p => logAverage K (curveAt x p) size := by
  unfold logAverageAny logAverage
  by_cases hs : size < 1
  · simp only [hs, if_true]
    exact fun _ _ => rfl
  · simp only [hs, if_false]
    exact PW.bind (multilevelAny_ok K h (size * 2) 1 _) (k' := fun _ rows => mergeMultilevel rows (size * 2).toNat "full")
      fun ld _ hl => by
        obtain ⟨L, hL⟩ := hl
        exact mergeMultilevelAny_ok hL "full"

theorem logMergeCoreAny_ok {frame : List Nat} {N L n : Nat} {lin multi : Tensor V} (h : lin.shape = frame ++ [N])
    (hm : multi.shape = L :: frame ++ [n]) (binning : Int) (low : Nat → Bool) :
    TimeRes frame (logMergeCoreAny K lin multi binning low)
      fun p => logMergeCore K (curveAt lin p) (levelsAt multi p) n binning low := by
  have hlast : multi.shape.getLastD 0 = n := by rw [hm, List.getLastD_concat]
  have hN : lin.shape.getLastD 0 = N := by rw [h, List.getLastD_concat]
  unfold logMergeCoreAny logMergeCore
  rw [if_neg (by rw [h, hm]; simp), hlast]
  simp only [curveAt_length, hN]
  refine PW.bind (PW.const (periodFromData N n)) (k' := fun p period => do
      let ldata ← multilevel K (curveAt lin p) n binning low
      let (xfast, cfast) ← mergeMultilevel ldata n "full"
      let (xslow, cslow) ← mergeMultilevel (levelsAt multi p) n "half"
      .ok (xfast ++ xslow.map (2 * period * ·), cfast ++ cslow.map some)) fun period _ _ => ?_
  refine PW.bind (multilevelAny_ok K h n binning low) (k' := fun p ldata => do
      let (xfast, cfast) ← mergeMultilevel ldata n "full"
      let (xslow, cslow) ← mergeMultilevel (levelsAt multi p) n "half"
      .ok (xfast ++ xslow.map (2 * period * ·), cfast ++ cslow.map some)) fun ld _ hl => ?_
  obtain ⟨L', hL'⟩ := hl
  rw [Int.toNat_natCast] at hL'
  refine PW.bind (mergeMultilevelAny_ok hL' "full") (k' := fun p fast => do
      let (xslow, cslow) ← mergeMultilevel (levelsAt multi p) n "half"
      .ok (fast.1 ++ xslow.map (2 * period * ·), fast.2 ++ cslow.map some)) fun fast _ hfast => ?_
  refine PW.bind (mergeMultilevelAny_ok hm "half") (k' := fun p slow =>
      .ok (fast.1 ++ slow.1.map (2 * period * ·), curveAt fast.2 p ++ slow.2.map some)) fun slow _ hslow => ?_
  obtain ⟨r, hr1, hr2, hr3⟩ := concatLast_ok (x := fast.2)
    (y := ⟨slow.2.shape, fun p => some (slow.2.get p)⟩) hfast hslow
  simp only [hr1]
  refine PW.ok ?_ fun p _ => ?_
  · show r.shape = _
    rw [hr2]; simp
  · simp only [hr3]
    congr 3
    unfold curveAt
    simp

end

theorem assignIdx_length {x : List α} {idx : List Nat} {v : List α} (h : idx.length = v.length) :
    ∃ r, assignIdx x idx v = .ok r ∧ r.length = x.length :=
  ⟨_, by rw [assignIdx, if_pos h], foldl_set_length _ _⟩

theorem foldData_ok (a : List (Cx ℝ)) : ∃ r, foldData (.cplx a) 0 = .ok r ∧ r.length = (a.length + 1) / 2 := by
  obtain ⟨n, hn⟩ : ∃ n, n = (a.length + 1) / 2 := ⟨_, rfl⟩
  have h1 : (takeIdx a (sliceUp a.length 0 n)).length = n := by
    have e : sliceUp a.length 0 n = List.range' 0 n := by
      have := sliceUp_nat a.length 0 n (by omega) (by omega)
      simpa using this
    rw [e, (takeIdx_eq a _ (by simp; omega)).1, List.length_range']
  have h2 : (takeIdx a (sliceDown a.length (-1) (-n))).length = n - 1 := by
    by_cases h0 : n = 0
    · have : a = [] := List.eq_nil_of_length_eq_zero (by omega)
      subst this
      simp [h0, sliceDown, takeIdx]
    · have e := sliceDown_neg a.length 1 n (by omega) (by omega) (by omega)
      simp only [Nat.cast_one] at e
      rw [e, (takeIdx_eq a _ (by simp; omega)).1]
      simp
  have h3 : ∀ x : List (Cx ℝ), x.length = n → (takeIdx x (sliceUp n 1 n)).length = n - 1 ∧ (sliceUp n 1 n).length = n - 1 := by
    intro x hx
    by_cases h0 : n = 0
    · simp [h0, sliceUp, takeIdx]
    · have e : sliceUp n 1 n = List.range' 1 (n - 1) := by
        have := sliceUp_nat n 1 n (by omega) (by omega)
        simpa using this
      rw [e, (takeIdx_eq x _ (by simp; omega)).1, List.length_range']
      exact ⟨rfl, rfl⟩
  simp only [foldData, ← hn]
  rw [if_neg (by simp), if_pos (by simp), if_pos trivial, h1, if_pos (by rw [(h3 _ h1).1, List.length_map, h2])]
  obtain ⟨r, hr1, hr2⟩ := assignIdx_length (x := takeIdx a (sliceUp a.length 0 n)) (idx := sliceUp n 1 n)
    (v := List.zipWith (· + ·) (takeIdx (takeIdx a (sliceUp a.length 0 n)) (sliceUp n 1 n))
      ((takeIdx a (sliceDown a.length (-1) (-n))).map Cx.conj))
    (by rw [List.length_zipWith, List.length_map, h2, (h3 _ h1).1, (h3 _ h1).2, Nat.min_self])
  have hrl : r.length = n := hr2.trans h1
  obtain ⟨r', hr1', hr2'⟩ := assignIdx_length (x := r) (idx := sliceUp n 1 n)
    (v := (takeIdx r (sliceUp n 1 n)).map fun x => (1 / 2 : ℝ) • x)
    (by rw [List.length_map, (h3 _ hrl).1, (h3 _ hrl).2])
  exact ⟨r', by simp only [hr1, bind, Except.bind, hr1'], by omega⟩

theorem foldData_same {a b : List (Cx ℝ)} (h : a.length = b.length) :
    SameRes ((a.length + 1) / 2) (foldData (.cplx a) 0) (foldData (.cplx b) 0) := by
  obtain ⟨r, h1, h2⟩ := foldData_ok a
  obtain ⟨r', h1', h2'⟩ := foldData_ok b
  exact .inr ⟨r, r', h1, h1', h2, by rw [h, h2']⟩

theorem foldIfAskedAny_ok {frame : List Nat} {N : Nat} {x : Tensor (Cx ℝ)} (h : x.shape = frame ++ [N]) (fold : Option Bool) :
    PW frame (fun p r => curveAt r p) (fun r => r.shape = frame ++ [if fold = some true then (N + 1) / 2 else N])
      (foldIfAskedAny x fold) fun p => foldIfAsked (curveAt x p) fold := by
  unfold foldIfAskedAny foldIfAsked
  match fold with
  | none => exact fun _ _ => rfl
  | some false => exact PW.ok h fun p _ => rfl
  | some true =>
    simp only [if_true]
    unfold foldDataAny
    rw [if_neg (by rw [h]; simp), h, List.getLastD_concat, List.dropLast_concat]
    have e : (fun o => foldData (.cplx (rowAt x N o)) 0) = fun o => foldData (.cplx (curveAt x o)) 0 := by
      funext o; rw [curveAt_row x frame N h]
    simp only [e]
    have hl : ∀ o, (curveAt x o).length = N := fun o => by rw [curveAt_length, h, List.getLastD_concat]
    have h2 := overRowsPy_pixelWise frame ((N + 1) / 2) (fun o => foldData (.cplx (curveAt x o)) 0) (by
      intro o o' _ _
      have := foldData_same (a := curveAt x o) (b := curveAt x o') (by rw [hl, hl])
      rwa [hl] at this)
    unfold overRowsPy at h2 ⊢
    revert h2
    cases (positionsOf frame).mapM fun o => foldData (.cplx (curveAt x o)) 0 with
    | error e => exact fun h2 => h2
    | ok _ =>
      rintro ⟨L, hL, h3⟩
      exact PW.ok rfl fun p hp => (h3 p hp).trans (by rw [along_eq_curveAt hL hp])

theorem foldIfAskedAny_isOk {frame : List Nat} {N : Nat} {x : Tensor (Cx ℝ)} (h : x.shape = frame ++ [N]) (b : Bool) :
    ∃ r, foldIfAskedAny x (some b) = .ok r ∧ r.shape = frame ++ [if some b = some true then (N + 1) / 2 else N] ∧
      ∀ p, InShape p frame → foldIfAsked (curveAt x p) (some b) = .ok (curveAt r p) := by
  have h1 := foldIfAskedAny_ok h (some b)
  cases hr : foldIfAskedAny x (some b) with
  | ok r =>
    rw [hr] at h1
    exact ⟨r, rfl, h1.1, h1.2⟩
  | error e =>
    exfalso
    cases b with
    | false => cases hr
    | true =>
      simp only [foldIfAskedAny, foldDataAny] at hr
      rw [if_neg (by rw [h]; simp)] at hr
      unfold overRowsPy at hr
      rcases mapM_py_cases (positionsOf x.shape.dropLast)
        (fun o => foldData (.cplx (rowAt x (x.shape.getLastD 0) o)) 0) with ⟨e', a, -, h3, -⟩ | ⟨r, h3, -⟩
      · obtain ⟨r, h4, -⟩ := foldData_ok (rowAt x (x.shape.getLastD 0) a)
        rw [h4] at h3
        cases h3
      · rw [h3] at hr
        cases hr

theorem inShape_zeros : ∀ s : List Nat, 0 ∉ s → InShape (s.map fun _ => 0) s := by
  intro s
  induction s with
  | nil => intro _; exact List.Forall₂.nil
  | cons k s ih =>
    intro h
    simp only [List.mem_cons, not_or] at h
    exact List.Forall₂.cons (Nat.pos_of_ne_zero (Ne.symm h.1)) (ih h.2)

end Cddm
