import Verif.Spec.Reshape
import Mathlib.Algebra.Order.BigOperators.Group.List
import Mathlib.Tactic.Ring

/-!
# Lemmas about reshaping
-/

namespace Cddm
open Spec

theorem map_toNat_cast (s : List Nat) : (s.map fun (n : Nat) => (n : Int)).map Int.toNat = s := by
  rw [List.map_map]
  conv_rhs => rw [← List.map_id s]
  apply List.map_congr_left
  intro a _
  simp

theorem npReshape_nat {α : Type} (x : NdArr α) (s : List Nat) :
    npReshape x (s.map fun (n : Nat) => (n : Int)) =
      if s.prod = x.shape.prod then .ok ⟨s, x.data⟩ else .error .valueError := by
  unfold npReshape
  rw [map_toNat_cast, if_neg]
  simp

theorem threadFrameShape_none (shape : List Nat) (force : Bool) (h : shape.length ≠ 1 ∨ force = false) :
    threadFrameShape shape none force = .ok (shape.map fun (n : Nat) => (n : Int)) := by
  unfold threadFrameShape
  rw [if_neg]
  rintro ⟨a, -, c⟩
  rcases h with h | h
  · exact h a
  · rw [h] at c
    cases c

theorem threadFrameShape_some (shape : List Nat) (hs : shape ≠ []) (d : Nat) (hd : 0 < d) (hdvd : d ∣ shape.prod)
    (force : Bool) :
    threadFrameShape shape (some d) force = .ok ([d, shape.prod / d].map fun (n : Nat) => (n : Int)) := by
  unfold threadFrameShape
  rw [if_neg (by simp)]
  have e : Int.fdiv (shape.prod : Int) (d : Int) = ((shape.prod / d : Nat) : Int) := by
    rw [Int.fdiv_eq_ediv_of_nonneg _ (by omega)]
    rfl
  dsimp only
  rw [if_neg hs, if_neg (by omega), e, if_neg]
  · rfl
  · rw [← Nat.cast_mul, Nat.mul_div_cancel' hdvd]
    simp

theorem threadFrameShape_force (P : Nat) : threadFrameShape [P] none true = .ok ([1, P].map fun (n : Nat) => (n : Int)) := by
  unfold threadFrameShape
  simp

theorem reshapeInput_unmasked {α : Type} [Inhabited α] (x : NdArr α) (axis : Int) (k : Nat)
    (hk : resolveIdx x.shape.length axis = some k) (divisor : Option Int) (new : List Nat)
    (hnew : threadFrameShape (x.shape.eraseIdx k) divisor true = .ok (new.map fun (n : Nat) => (n : Int)))
    (hprod : (pyInsert new k (x.shape.getD k 0)).prod = x.shape.prod) :
    reshapeInput x axis divisor none = .ok (⟨pyInsert new k (x.shape.getD k 0), x.data⟩, x.shape.eraseIdx k) := by
  unfold reshapeInput
  rw [hk]
  simp only [bind, Except.bind, Option.isNone_none, hnew]
  have e : pyInsert (new.map fun (n : Nat) => (n : Int)) k ((x.shape.getD k 0 : Nat) : Int) =
      (pyInsert new k (x.shape.getD k 0)).map fun (n : Nat) => (n : Int) := by
    unfold pyInsert
    simp
  rw [e, npReshape_nat, if_pos hprod]

theorem mapM_zipIdx_ok {α β : Type} (f : α × Nat → Py β) (g : α → Nat → β) (l : List α) (n : Nat)
    (h : ∀ (i : Nat) (a : α), l[i]? = some a → f (a, n + i) = .ok (g a (n + i))) :
    (l.zipIdx n).mapM f = .ok ((l.zipIdx n).map fun p => g p.1 p.2) := by
  induction l generalizing n with
  | nil => rfl
  | cons a l ih =>
    have h0 : f (a, n) = .ok (g a n) := h 0 a rfl
    rw [List.zipIdx_cons, List.mapM_cons, h0, ih (n + 1)]
    · rfl
    · intro i b hb
      rw [show n + 1 + i = n + (i + 1) by omega]
      exact h (i + 1) b (by simpa using hb)

theorem mapM_zipIdx_err {α β : Type} (f : α × Nat → Py β) (a : α) (l : List α) (n : Nat) (e : PyErr)
    (h : f (a, n) = .error e) : ((a :: l).zipIdx n).mapM f = .error e := by
  rw [List.zipIdx_cons, List.mapM_cons, h]
  rfl

/-- `reshape_output` of a tuple, once the shape is known. -/
theorem reshapeOutput_unmasked {α : Type} (nan : α) (d0 : NdArr α) (rest : List (Option (NdArr α))) (F lead : List Nat)
    (m : Nat) (hd0 : d0.shape ≠ []) (hm : d0.shape.getLastD 0 = m)
    (hlead : shapeHead d0.shape (F.length + 1) = lead)
    (hprod : ∀ (i : Nat) (x : NdArr α), i ≠ 1 → (some d0 :: rest)[i]? = some (some x) →
      (lead ++ F ++ [m]).prod = x.shape.prod) :
    reshapeOutput nan (some d0 :: rest) (some F) none =
      .ok ((some d0 :: rest).zipIdx.map fun p =>
        if p.2 = 1 then p.1 else p.1.map fun x => ⟨lead ++ F ++ [m], x.data⟩) := by
  unfold reshapeOutput
  dsimp only
  rw [if_neg hd0]
  subst hm
  subst hlead
  apply mapM_zipIdx_ok _
    (fun (x : Option (NdArr α)) i => if i = 1 then x else x.map fun x => ⟨_ ++ F ++ [d0.shape.getLastD 0], x.data⟩)
  intro i a ha
  dsimp only
  rw [Nat.zero_add]
  unfold reshapeOne
  split_ifs with hi
  · rfl
  · cases a with
    | none => rfl
    | some x =>
      dsimp only
      rw [npReshape_nat, if_pos (hprod i x hi ha)]
      rfl

theorem reshapeOutput_fails {α : Type} (nan : α) (d0 : NdArr α) (rest : List (Option (NdArr α))) (F lead : List Nat)
    (hd0 : d0.shape ≠ []) (mask : Option (NdArr Bool))
    (hlead : (match mask with
      | none => shapeHead d0.shape (F.length + 1)
      | some mk => shapeHead d0.shape mk.shape.length) = lead)
    (hprod : (lead ++ F ++ [d0.shape.getLastD 0]).prod ≠ d0.shape.prod) :
    reshapeOutput nan (some d0 :: rest) (some F) mask = .error .valueError := by
  unfold reshapeOutput
  dsimp only
  rw [if_neg hd0]
  apply mapM_zipIdx_err
  dsimp only
  unfold reshapeOne
  rw [if_neg (by decide)]
  cases mask with
  | none =>
    dsimp only at hlead ⊢
    rw [hlead, npReshape_nat, if_neg hprod]
  | some mk =>
    dsimp only at hlead ⊢
    rw [hlead, npReshape_nat, if_neg hprod]

theorem getD_flatMap_range {α : Type} (f : Nat → List α) (P : Nat) (hf : ∀ t, (f t).length = P) (n t p : Nat) (ht : t < n)
    (hp : p < P) (d : α) : ((List.range n).flatMap f).getD (t * P + p) d = (f t).getD p d := by
  have hl : ∀ n, ((List.range n).flatMap f).length = n * P := by
    intro n
    induction n with
    | zero => simp
    | succ n ih => rw [List.range_succ, List.flatMap_append, List.length_append, ih]; simp [hf]; ring
  induction n with
  | zero => omega
  | succ n ih =>
    rw [List.range_succ, List.flatMap_append]
    rw [List.getD_eq_getElem?_getD, List.getD_eq_getElem?_getD]
    rcases Nat.lt_or_ge t n with h | h
    · rw [List.getElem?_append_left, ← List.getD_eq_getElem?_getD, ih h, List.getD_eq_getElem?_getD]
      rw [hl]
      calc t * P + p < t * P + P := by omega
        _ = (t + 1) * P := by ring
        _ ≤ n * P := Nat.mul_le_mul_right _ h
    · have : t = n := by omega
      subst this
      rw [List.getElem?_append_right (by rw [hl]; omega), hl, show t * P + p - t * P = p by omega]
      simp

theorem rowsOf_flatten {α : Type} (m : Nat) (rows : List (List α)) (hm : ∀ r ∈ rows, r.length = m) (tail : List α) :
    rowsOf m rows.length (rows.flatten ++ tail) = rows := by
  induction rows with
  | nil => rfl
  | cons r rows ih =>
    have hr : r.length = m := hm r List.mem_cons_self
    unfold rowsOf
    rw [List.length_cons, List.range_succ_eq_map, List.map_cons, List.map_map]
    congr 1
    · rw [Nat.zero_mul, List.drop_zero, List.flatten_cons, List.append_assoc, ← hr, List.take_left]
    · refine Eq.trans ?_ (ih fun r hr => hm r (List.mem_cons_of_mem _ hr))
      unfold rowsOf
      apply List.map_congr_left
      intro k _
      simp only [Function.comp]
      rw [List.flatten_cons, List.append_assoc, show (k + 1) * m = r.length + k * m by rw [hr]; ring, ← List.drop_drop,
        List.drop_left]

/-- Scattering the rows of the selected pixels. -/
theorem scatterRows_truePos {α : Type} (fill : List α) (ms : List Bool) (h : Nat → List α) :
    ∀ o, scatterRows fill ms (((List.range ms.length).filter fun q => ms.getD q false).map fun q => h (o + q)) =
      (List.range ms.length).map fun q => if ms.getD q false then h (o + q) else fill := by
  induction ms with
  | nil => intro o; rfl
  | cons b ms ih =>
    intro o
    have ih' := ih (o + 1)
    rw [List.length_cons, List.range_succ_eq_map, List.filter_cons]
    have e : ((List.map Nat.succ (List.range ms.length)).filter fun q => (b :: ms).getD q false).map (fun q => h (o + q)) =
        ((List.range ms.length).filter fun q => ms.getD q false).map fun q => h (o + 1 + q) := by
      rw [List.filter_map, List.map_map]
      have : ((fun q => (b :: ms).getD q false) ∘ Nat.succ) = fun q => ms.getD q false := by
        funext q
        simp
      rw [this]
      apply List.map_congr_left
      intro q _
      simp only [Function.comp]
      congr 1
      omega
    have e2 : List.map (fun q => if (b :: ms).getD q false = true then h (o + q) else fill)
        (List.map Nat.succ (List.range ms.length)) =
        (List.range ms.length).map fun q => if ms.getD q false then h (o + 1 + q) else fill := by
      rw [List.map_map]
      apply List.map_congr_left
      intro q _
      simp only [Function.comp, List.getD_cons_succ, Nat.succ_eq_add_one]
      rw [show o + (q + 1) = o + 1 + q by omega]
    cases b with
    | false =>
      simp only [List.getD_cons_zero, Bool.false_eq_true, if_false, List.map_cons]
      rw [e, e2]
      unfold scatterRows
      rw [ih']
    | true =>
      simp only [List.getD_cons_zero, if_true, List.map_cons]
      rw [e, e2]
      unfold scatterRows
      rw [ih']

theorem drop_flatMap_range {α : Type} (f : Nat → List α) (c : Nat) (hf : ∀ t, (f t).length = c) (n b : Nat) (hb : b < n) :
    ∃ tail, ((List.range n).flatMap f).drop (b * c) = f b ++ tail := by
  induction n with
  | zero => omega
  | succ n ih =>
    have hl : ∀ n, ((List.range n).flatMap f).length = n * c := by
      intro n
      induction n with
      | zero => simp
      | succ n ih => rw [List.range_succ, List.flatMap_append, List.length_append, ih]; simp [hf]; ring
    rw [List.range_succ, List.flatMap_append]
    rcases Nat.lt_or_ge b n with h | h
    · obtain ⟨tail, ht⟩ := ih h
      rw [List.drop_append_of_le_length, ht]
      · exact ⟨tail ++ List.flatMap f [n], by simp⟩
      · rw [hl]
        exact Nat.mul_le_mul_right _ (by omega)
    · have : b = n := by omega
      subst this
      rw [List.drop_append, hl, List.drop_of_length_le (by rw [hl])]
      exact ⟨[], by simp⟩

theorem series_outer {α : Type} [Inhabited α] (data : List α) (n P p : Nat) (hp : p < P) :
    series data n P p = (List.range n).map fun (t : Nat) => data.getD (t * P + p) default := by
  unfold series
  apply List.map_congr_left
  intro t _
  rw [Nat.div_eq_of_lt hp, Nat.mod_eq_of_lt hp]
  simp

/-- The series of the selected pixels. -/
theorem series_masked {α : Type} [Inhabited α] (x : NdArr α) (n M : Nat) (pos : List Nat) (hpos : ∀ q ∈ pos, q < M) :
    (List.range pos.length).map (series ((List.range n).flatMap fun (t : Nat) =>
      pos.map fun (q : Nat) => x.data.getD (t * M + q) default) n pos.length) =
    pos.map (series x.data n M) := by
  refine List.ext_getElem (by simp) fun i hi hi' => ?_
  have hi2 : i < pos.length := by simpa using hi
  rw [List.getElem_map, List.getElem_range, List.getElem_map, series_outer _ _ _ _ hi2,
    series_outer _ _ _ _ (hpos _ (List.getElem_mem hi2))]
  apply List.map_congr_left
  intro t ht
  rw [getD_flatMap_range _ pos.length (by simp) n t i (List.mem_range.mp ht) hi2]
  simp [List.getD_eq_getElem?_getD, List.getElem?_eq_getElem hi2]

end Cddm
