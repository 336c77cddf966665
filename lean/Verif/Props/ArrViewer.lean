import Verif.Spec.ArrViewer
import Verif.Props.Viewer
import Verif.Props.CorrViewer
import Verif.Lemmas.Vec
import Verif.Lemmas.Fft2
import Mathlib.Data.List.Nodup
import Mathlib.Data.List.Perm.Basic

/-!
# The viewers of arrays of curves show the mean over the chosen pixels (C92)
-/

namespace Cddm
open Spec

/-! ### Indices -/

theorem setItems_ok (vals : List Int) (axes : List Nat) : ∀ (m : Nat) (idx : List AxisIdx),
    (∀ ax ∈ axes, ax < idx.length) → axes.Nodup → m + axes.length ≤ vals.length →
    ∃ out, setItems vals ((axes.map fun (a : Nat) => (a : Int)).zipIdx m) idx = .ok out ∧ out.length = idx.length ∧
      (∀ (i ax : Nat) (v : Int), axes[i]? = some ax → vals[m + i]? = some v → out[ax]? = some (.pick v)) ∧
      ∀ k, k ∉ axes → out[k]? = idx[k]? := by
  induction axes with
  | nil =>
    intro m idx _ _ _
    exact ⟨idx, rfl, rfl, by simp, fun _ _ => rfl⟩
  | cons a axes ih =>
    intro m idx h1 h2 h3
    obtain ⟨v, hv⟩ : ∃ v, vals[m]? = some v := ⟨_, List.getElem?_eq_getElem (by simp at h3; omega)⟩
    have ha : a < idx.length := h1 a (by simp)
    have hstep : setItem idx (a : Int) vals[m]? = .ok (idx.set a (.pick v)) := by
      unfold setItem
      rw [hv]
      dsimp only
      rw [resolveIdx_natCast _ _ ha]
    rw [List.nodup_cons] at h2
    obtain ⟨out, e, o1, o2, o3⟩ := ih (m + 1) (idx.set a (.pick v))
      (fun ax hax => by rw [List.length_set]; exact h1 ax (by simp [hax])) h2.2 (by simp at h3; omega)
    refine ⟨out, ?_, by rw [o1, List.length_set], ?_, ?_⟩
    · rw [List.map_cons, List.zipIdx_cons]
      unfold setItems
      rw [hstep]
      exact e
    · intro i ax u hi hu
      cases i with
      | zero =>
        simp only [List.getElem?_cons_zero, Option.some.injEq] at hi
        subst hi
        rw [o3 _ h2.1, List.getElem?_set_self ha]
        rw [Nat.add_zero, hv] at hu
        rw [Option.some.inj hu]
      | succ i =>
        rw [List.getElem?_cons_succ] at hi
        exact o2 i ax u hi (by rw [← hu]; congr 1; omega)
    · intro k hk
      simp only [List.mem_cons, not_or] at hk
      rw [o3 k hk.2, List.getElem?_set_ne (by omega)]

/-- For axes that are all the first ones in some order the tuple of indices is the expected one. -/
theorem indexTuple_ok (axes : List Nat) (hp : axes.Perm (List.range axes.length)) (vals : List Int)
    (hv : axes.length ≤ vals.length) :
    ∃ idx, indexTuple (axes.map fun (a : Nat) => (a : Int)) vals = .ok idx ∧ idx.length = axes.length ∧
      ∀ (i ax : Nat) (v : Int), axes[i]? = some ax → vals[i]? = some v → idx[ax]? = some (.pick v) := by
  obtain ⟨out, e, o1, o2, -⟩ := setItems_ok vals axes 0 (List.replicate axes.length .all)
    (fun ax hax => by simpa using hp.mem_iff.mp hax) (hp.nodup_iff.mpr List.nodup_range) (by omega)
  refine ⟨out, ?_, by simpa using o1, fun i ax v h1 h2 => o2 i ax v h1 (by simpa using h2)⟩
  unfold indexTuple
  rw [List.length_map]
  exact e

theorem setItems_short (vals : List Int) (axes : List Int) : ∀ (m : Nat) (idx : List AxisIdx),
    m ≤ vals.length → vals.length < m + axes.length → ∃ e, setItems vals (axes.zipIdx m) idx = .error e ∧ e = .indexError := by
  induction axes with
  | nil => intro m idx h1 h2; simp at h2; omega
  | cons a axes ih =>
    intro m idx h1 h2
    rw [List.zipIdx_cons]
    unfold setItems setItem
    cases hv : vals[m]? with
    | none => exact ⟨_, rfl, rfl⟩
    | some v =>
      dsimp only
      cases hr : resolveIdx idx.length a with
      | none => exact ⟨_, rfl, rfl⟩
      | some k =>
        have hm : m < vals.length := by
          by_contra hc
          rw [List.getElem?_eq_none (by omega)] at hv
          cases hv
        exact ih (m + 1) _ (by omega) (by simp at h2; omega)

/-- Too few values: IndexError. -/
theorem indexTuple_short (axes vals : List Int) (hv : vals.length < axes.length) :
    indexTuple axes vals = .error .indexError := by
  obtain ⟨e, h, rfl⟩ := setItems_short vals axes 0 (List.replicate axes.length .all) (by omega) (by omega)
  exact h

/-! ### Positions -/

theorem mem_cartesian (ls : List (List Nat)) (p : List Nat) :
    p ∈ cartesian ls ↔ p.length = ls.length ∧ ∀ (k x : Nat) (l : List Nat), ls[k]? = some l → p[k]? = some x → x ∈ l := by
  induction ls generalizing p with
  | nil =>
    simp only [cartesian, List.mem_singleton, List.length_nil, List.length_eq_zero_iff]
    constructor
    · rintro rfl; exact ⟨rfl, by simp⟩
    · exact fun h => h.1
  | cons l ls ih =>
    simp only [cartesian, List.mem_flatMap, List.mem_map]
    constructor
    · rintro ⟨x, hx, q, hq, rfl⟩
      obtain ⟨q1, q2⟩ := (ih q).mp hq
      refine ⟨by simp [q1], ?_⟩
      intro k y m hm hy
      cases k with
      | zero =>
        simp only [List.getElem?_cons_zero, Option.some.injEq] at hm hy
        rw [← hm, ← hy]; exact hx
      | succ k => exact q2 k y m (by simpa using hm) (by simpa using hy)
    · rintro ⟨h1, h2⟩
      match p, h1 with
      | x :: q, h1 =>
        refine ⟨x, h2 0 x l rfl rfl, q, (ih q).mpr ⟨by simpa using h1, fun k y m hm hy => h2 (k + 1) y m (by simpa using hm) (by simpa using hy)⟩, rfl⟩

theorem nodup_cartesian (ls : List (List Nat)) (h : ∀ l ∈ ls, l.Nodup) : (cartesian ls).Nodup := by
  induction ls with
  | nil => simp [cartesian]
  | cons l ls ih =>
    simp only [cartesian]
    rw [List.nodup_flatMap]
    refine ⟨fun x _ => (ih fun m hm => h m (List.mem_cons_of_mem _ hm)).map fun a b e => (List.cons.inj e).2, ?_⟩
    refine (h l (by simp)).imp fun {a b} hab => ?_
    rw [Function.onFun, List.disjoint_left]
    rintro p hp hq
    obtain ⟨q, -, rfl⟩ := List.mem_map.mp hp
    obtain ⟨r, -, e⟩ := List.mem_map.mp hq
    exact hab (List.cons.inj e).1.symm

/-- The positions of an axis, without the error. -/
def axisList (n : Nat) : AxisIdx → List Nat
  | .all => List.range n
  | .pick v => (resolveIdx n v).toList

theorem resolveIdx_eq {n : Nat} {v : Int} (h : -(n : Int) ≤ v ∧ v < n) :
    ∃ k, resolveIdx n v = some k ∧ k < n ∧ (k : Int) = if v < 0 then v + n else v := by
  unfold resolveIdx
  by_cases h0 : 0 ≤ v
  · rw [if_pos h0, if_pos h.2]
    exact ⟨_, rfl, by omega, by rw [if_neg (by omega)]; omega⟩
  · rw [if_neg h0, if_pos (by omega)]
    exact ⟨_, rfl, by omega, by rw [if_pos (by omega)]; omega⟩

theorem indexPositions_ok (shape axes : List Nat) (hp : axes.Perm (List.range axes.length)) (vals : List Int)
    (hv : axes.length ≤ vals.length) (hr : axes.length ≤ shape.length) (hin : InRange shape axes vals)
    (idx : List AxisIdx) (hl : idx.length = axes.length)
    (hi : ∀ (i ax : Nat) (v : Int), axes[i]? = some ax → vals[i]? = some v → idx[ax]? = some (.pick v)) :
    ∃ ps, indexPositions shape idx = .ok ps ∧ ps.Nodup ∧ ∀ p, p ∈ ps ↔ Chosen shape axes vals p := by
  obtain ⟨full, hfull⟩ : ∃ full, full = idx ++ List.replicate (shape.length - idx.length) AxisIdx.all := ⟨_, rfl⟩
  have hfl : full.length = shape.length := by rw [hfull]; simp; omega
  -- every axis is either chosen or free
  have hget : ∀ k : Nat, k < shape.length → (∃ (i : Nat) (v : Int), axes[i]? = some k ∧ vals[i]? = some v ∧ full[k]? = some (.pick v)) ∨
      (k ∉ axes ∧ full[k]? = some .all) := by
    intro k hk
    by_cases hka : k < axes.length
    · have : k ∈ axes := hp.mem_iff.mpr (List.mem_range.mpr hka)
      obtain ⟨i, hi'⟩ := List.mem_iff_getElem?.mp this
      have hil : i < axes.length := by
        by_contra hc
        rw [List.getElem?_eq_none (by omega)] at hi'
        cases hi'
      obtain ⟨v, hv'⟩ : ∃ v, vals[i]? = some v := ⟨_, List.getElem?_eq_getElem (by omega)⟩
      refine Or.inl ⟨i, v, hi', hv', ?_⟩
      rw [hfull, List.getElem?_append_left (by omega)]
      exact hi i k v hi' hv'
    · refine Or.inr ⟨fun hm => hka (List.mem_range.mp (hp.mem_iff.mp hm)), ?_⟩
      rw [hfull, List.getElem?_append_right (by omega), List.getElem?_replicate, if_pos (by omega)]
  have hok : (shape.zip full).mapM (fun p => axisPositions p.1 p.2) =
      .ok ((shape.zip full).map fun p => axisList p.1 p.2) := by
    refine mapM_ok _ _ _ ?_
    intro p hpm
    obtain ⟨k, hk⟩ := List.mem_iff_getElem?.mp hpm
    rw [List.getElem?_zip_eq_some] at hk
    have hks : k < shape.length := by
      by_contra hc
      rw [List.getElem?_eq_none (by omega)] at hk
      cases hk.1
    rcases hget k hks with ⟨i, v, h1, h2, h3⟩ | ⟨h1, h2⟩
    · rw [hk.2] at h3
      rw [Option.some.inj h3]
      obtain ⟨q, hq, -⟩ := resolveIdx_eq (hin i k p.1 v h1 h2 hk.1)
      simp [axisPositions, axisList, hq]
    · rw [hk.2] at h2
      rw [Option.some.inj h2]
      rfl
  refine ⟨cartesian ((shape.zip full).map fun p => axisList p.1 p.2), ?_, ?_, ?_⟩
  · unfold indexPositions
    rw [if_neg (by omega), ← hfull, hok]
    rfl
  · refine nodup_cartesian _ ?_
    intro l hl'
    obtain ⟨p, -, rfl⟩ := List.mem_map.mp hl'
    cases p.2 with
    | all => exact List.nodup_range
    | pick v =>
      simp only [axisList]
      cases resolveIdx p.1 v <;> simp
  · intro p
    rw [mem_cartesian, List.length_map, List.length_zip, hfl, Nat.min_self]
    have hls : ∀ (k n : Nat) (a : AxisIdx), shape[k]? = some n → full[k]? = some a →
        ((shape.zip full).map fun p => axisList p.1 p.2)[k]? = some (axisList n a) := by
      intro k n a h1 h2
      have : (shape.zip full)[k]? = some (n, a) := by rw [List.getElem?_zip_eq_some]; exact ⟨h1, h2⟩
      rw [List.getElem?_map, this]
      rfl
    have hlt : ∀ (k n : Nat), shape[k]? = some n → k < shape.length := by
      intro k n h
      by_contra hc
      rw [List.getElem?_eq_none (by omega)] at h
      cases h
    constructor
    · rintro ⟨h1, h2⟩
      refine ⟨h1, ?_, ?_⟩
      · intro k n x hn hx
        rcases hget k (hlt k n hn) with ⟨i, v, e1, e2, e3⟩ | ⟨e1, e2⟩
        · have := h2 k x _ (hls k n _ hn e3) hx
          obtain ⟨q, hq, hq2, -⟩ := resolveIdx_eq (hin i k n v e1 e2 hn)
          simp only [axisList, hq, Option.toList_some, List.mem_singleton] at this
          omega
        · have := h2 k x _ (hls k n _ hn e2) hx
          exact List.mem_range.mp this
      · intro i ax n x v e1 e2 hn hx
        have hf : full[ax]? = some (.pick v) := by
          rw [hfull, List.getElem?_append_left ?_]
          · exact hi i ax v e1 e2
          · rw [hl]; exact List.mem_range.mp (hp.mem_iff.mp (List.mem_of_getElem? e1))
        have := h2 ax x _ (hls ax n _ hn hf) hx
        obtain ⟨q, hq, hq2, hq3⟩ := resolveIdx_eq (hin i ax n v e1 e2 hn)
        simp only [axisList, hq, Option.toList_some, List.mem_singleton] at this
        rw [this, hq3]
    · rintro ⟨h1, h2, h3⟩
      refine ⟨h1, ?_⟩
      intro k x l hl' hx
      rw [List.getElem?_map] at hl'
      cases hz : (shape.zip full)[k]? with
      | none => rw [hz] at hl'; cases hl'
      | some na =>
        rw [hz] at hl'
        rw [List.getElem?_zip_eq_some] at hz
        rw [Option.map_some] at hl'
        rw [← Option.some.inj hl']
        rcases hget k (hlt k _ hz.1) with ⟨i, v, e1, e2, e3⟩ | ⟨e1, e2⟩
        · rw [hz.2] at e3
          rw [Option.some.inj e3]
          obtain ⟨q, hq, hq2, hq3⟩ := resolveIdx_eq (hin i k na.1 v e1 e2 hz.1)
          simp only [axisList, hq, Option.toList_some, List.mem_singleton]
          have := h3 i k na.1 x v e1 e2 hz.1 hx
          omega
        · rw [hz.2] at e2
          rw [Option.some.inj e2]
          exact List.mem_range.mpr (h2 k na.1 x hz.1 hx)

/-- An index out of range: IndexError. -/
theorem indexPositions_out (shape axes : List Nat) (hp : axes.Perm (List.range axes.length)) (vals : List Int)
    (hv : axes.length ≤ vals.length) (idx : List AxisIdx) (hl : idx.length = axes.length)
    (hi : ∀ (i ax : Nat) (v : Int), axes[i]? = some ax → vals[i]? = some v → idx[ax]? = some (.pick v))
    (hout : shape.length < axes.length ∨ ¬ InRange shape axes vals) :
    indexPositions shape idx = .error .indexError := by
  unfold indexPositions
  by_cases hr : shape.length < axes.length
  · rw [if_pos (by omega)]
  · rw [if_neg (by omega)]
    obtain ⟨i, ax, n, v, e1, e2, e3, e4⟩ : ∃ (i ax n : Nat) (v : Int), axes[i]? = some ax ∧ vals[i]? = some v ∧
        shape[ax]? = some n ∧ ¬ (-(n : Int) ≤ v ∧ v < n) := by
      have := hout.resolve_left hr
      unfold InRange at this
      push Not at this
      obtain ⟨i, ax, n, v, h1, h2, h3, h4⟩ := this
      exact ⟨i, ax, n, v, h1, h2, h3, fun h => by have := h4 h.1; omega⟩
    have hbad : (n, AxisIdx.pick v) ∈ shape.zip (idx ++ List.replicate (shape.length - idx.length) .all) := by
      refine List.mem_of_getElem? (i := ax) ?_
      rw [List.getElem?_zip_eq_some]
      refine ⟨e3, ?_⟩
      rw [List.getElem?_append_left ?_]
      · exact hi i ax v e1 e2
      · rw [hl]; exact List.mem_range.mp (hp.mem_iff.mp (List.mem_of_getElem? e1))
    have herr : ∀ l : List (Nat × AxisIdx), (n, AxisIdx.pick v) ∈ l →
        l.mapM (fun p => axisPositions p.1 p.2) = .error .indexError := by
      intro l
      induction l with
      | nil => intro h; cases h
      | cons a l ih =>
        intro h
        rw [List.mapM_cons]
        by_cases ha : a = (n, AxisIdx.pick v)
        · subst ha
          have : resolveIdx n v = none := resolveIdx_none (by omega)
          simp only [axisPositions, this]
          rfl
        · have := ih ((List.mem_cons.mp h).resolve_left fun h => ha h.symm)
          rw [this]
          obtain ⟨m, b⟩ := a
          cases b with
          | all => rfl
          | pick u =>
            simp only [axisPositions]
            cases resolveIdx m u <;> rfl
    rw [herr _ hbad]
    rfl

theorem plainMean_finset {C ι : Type} [AddCommGroup C] [Module ℝ C] (ps : List ι) (hn : ps.Nodup) (S : Finset ι)
    (hS : ∀ p, p ∈ S ↔ p ∈ ps) (f : ι → Option C) : plainMean (ps.map f) = strictMean S f := by
  classical
  have hSe : S = ps.toFinset := by ext p; rw [hS, List.mem_toFinset]
  unfold plainMean strictMean
  by_cases hall : ∀ p ∈ ps, (f p).isSome
  · rw [mapM_id_some ps f (fun p => (f p).getD 0) (fun p hp => by
      obtain ⟨y, hy⟩ := Option.isSome_iff_exists.mp (hall p hp)
      rw [hy]; rfl)]
    cases ps with
    | nil =>
      rw [if_neg]
      · rfl
      · rintro ⟨⟨p, hp⟩, -⟩
        rw [hS] at hp
        cases hp
    | cons a l =>
      rw [if_pos ⟨⟨a, (hS a).mpr (by simp)⟩, fun p hp => hall p ((hS p).mp hp)⟩]
      rw [hSe, List.toFinset_card_of_nodup hn, List.sum_toFinset _ hn]
      simp only [List.map_cons, List.length_cons, List.length_map]
  · rw [if_neg fun h => hall fun p hp => h.2 p ((hS p).mpr hp)]
    have : (ps.map f).mapM id = none := by
      push Not at hall
      obtain ⟨p, hp, hf⟩ := hall
      have hf : f p = none := by simpa using hf
      clear hn hS hSe
      induction ps with
      | nil => cases hp
      | cons a l ih =>
        rw [List.map_cons, List.mapM_cons]
        rcases List.mem_cons.mp hp with rfl | h
        · simp [hf]
        · rw [ih h]
          cases f a <;> rfl
    rw [this]

/-! ### Any sequence of calls -/

section
variable {α : Type}

/-- The state after any calls of a `DataArrayViewer`. -/
structure ArrInv (axes : List Nat) (vals : List Int) (d : Option (PixArr α)) (v : ArrView α) : Prop where
  axes_eq : v.axes = axes.map fun (a : Nat) => (a : Int)
  long : axes.length ≤ vals.length
  idx_eq : indexTuple (axes.map fun (a : Nat) => (a : Int)) vals = .ok v.indices
  data_eq : v.data = d

theorem arr_new (axes : List Nat) (hp : axes.Perm (List.range axes.length)) :
    ∃ v : ArrView α, ArrView.new (axes.map fun (a : Nat) => (a : Int)) = .ok v ∧
      ArrInv axes (List.replicate axes.length 0) none v ∧ v.t = [] := by
  obtain ⟨idx, e, -, -⟩ := indexTuple_ok axes hp (List.replicate axes.length 0) (by simp)
  refine ⟨⟨_, idx, none, []⟩, ?_, ⟨rfl, by simp, e, rfl⟩, rfl⟩
  unfold ArrView.new
  rw [List.length_map, e]
  rfl

theorem arr_indices {axes : List Nat} (hp : axes.Perm (List.range axes.length)) {vals : List Int} {d : Option (PixArr α)}
    {v : ArrView α} (h : ArrInv axes vals d v) (new : List Int) :
    ArrInv axes (if axes.length ≤ new.length then new else vals) d (v.setIndices new).1 ∧
      (v.setIndices new).1.t = v.t ∧
      (v.setIndices new).2 = if axes.length ≤ new.length then .ok () else .error .indexError := by
  unfold ArrView.setIndices
  rw [h.axes_eq]
  by_cases hl : axes.length ≤ new.length
  · obtain ⟨idx, e, -, -⟩ := indexTuple_ok axes hp new hl
    rw [e, if_pos hl, if_pos hl]
    dsimp only
    exact ⟨⟨rfl, hl, e, h.data_eq⟩, rfl, rfl⟩
  · rw [indexTuple_short _ _ (by rw [List.length_map]; omega), if_neg hl, if_neg hl]
    exact ⟨h, rfl, rfl⟩

theorem hasAxes_all (axes : List Nat) (a : PixArr α) :
    ((axes.map fun (a : Nat) => (a : Int)).all fun ax => (resolveIdx (a.lead.length + 1) ax).isSome) = true ↔
      HasAxes axes a := by
  simp only [List.all_map, List.all_eq_true, Function.comp, HasAxes]
  refine forall₂_congr fun ax _ => ?_
  by_cases h : ax ≤ a.lead.length
  · rw [resolveIdx_natCast _ _ (by omega)]
    simp [h]
  · rw [resolveIdx_none (by omega)]
    simp [h]

open Classical in
theorem arr_data {axes : List Nat} {vals : List Int} {d : Option (PixArr α)}
    {v : ArrView α} (h : ArrInv axes vals d v) (a : PixArr α) (t : Option (List ℝ)) :
    ArrInv axes vals (if HasAxes axes a then some a else d) (v.setDataT a t).1 ∧
      (v.setDataT a t).1.t = (if HasAxes axes a ∧ (timesOf a t).length = a.len then timesOf a t else v.t) ∧
      (v.setDataT a t).2 = if HasAxes axes a ∧ (timesOf a t).length = a.len then .ok () else .error .valueError := by
  unfold ArrView.setDataT
  rw [h.axes_eq]
  by_cases ha : HasAxes axes a
  · rw [if_pos ((hasAxes_all axes a).mpr ha), if_pos ha]
    have ht : t.getD ((List.range a.len).map fun (k : Nat) => (k : ℝ)) = timesOf a t := rfl
    simp only [ht]
    by_cases hl : (timesOf a t).length = a.len
    · simp only [hl, ha, and_self, if_true]
      exact ⟨⟨rfl, h.long, h.idx_eq, rfl⟩, trivial⟩
    · simp only [hl, and_false, if_false]
      exact ⟨⟨rfl, h.long, h.idx_eq, rfl⟩, trivial, trivial⟩
  · rw [if_neg fun c => ha ((hasAxes_all axes a).mp c), if_neg ha, if_neg fun c => ha c.1, if_neg fun c => ha c.1]
    exact ⟨h, rfl, rfl⟩

theorem arr_run {axes : List Nat} (hp : axes.Perm (List.range axes.length)) (ops : List (ArrOp α)) :
    ∃ v : ArrView α, ArrView.new (axes.map fun (a : Nat) => (a : Int)) = .ok v ∧
      ArrInv axes (lastVals axes ops) (lastArr axes ops) (ops.foldl ArrView.step v) ∧
      (ops.foldl ArrView.step v).t = lastTimes axes ops := by
  classical
  obtain ⟨v, e, i, t0⟩ := arr_new (α := α) axes hp
  refine ⟨v, e, ?_⟩
  induction ops using List.reverseRecOn with
  | nil => exact ⟨i, t0⟩
  | append_singleton ops op ih =>
    obtain ⟨ih1, ih2⟩ := ih
    unfold lastVals lastArr lastTimes at *
    simp only [List.foldl_append, List.foldl_cons, List.foldl_nil]
    cases op with
    | indices new =>
      obtain ⟨a1, a2, -⟩ := arr_indices hp ih1 new
      exact ⟨a1, by rw [ArrView.step, a2, ih2]⟩
    | data a t =>
      obtain ⟨a1, a2, -⟩ := arr_data ih1 a t
      exact ⟨a1, by rw [ArrView.step, a2, ih2]⟩

theorem arr_runC {axes : List Nat} (hp : axes.Perm (List.range axes.length)) (ops : List (ArrOp α)) :
    ∃ v : ArrView α, ArrView.new (axes.map fun (a : Nat) => (a : Int)) = .ok v ∧
      ArrInv axes (lastVals axes ops) (lastAny ops) (ops.foldl ArrView.stepC v) := by
  obtain ⟨v, e, i, -⟩ := arr_new (α := α) axes hp
  refine ⟨v, e, ?_⟩
  induction ops using List.reverseRecOn with
  | nil => exact i
  | append_singleton ops op ih =>
    unfold lastVals lastAny at *
    simp only [List.foldl_append, List.foldl_cons, List.foldl_nil]
    cases op with
    | indices new => exact (arr_indices hp ih new).1
    | data a t => exact ⟨ih.axes_eq, ih.long, ih.idx_eq, rfl⟩

end

section
variable {C : Type} [AddCommGroup C] [Module ℝ C]

/-- **C92 (partial: the axes are the first ones, in any order, and not the last axis).**  A `DataArrayViewer` shows, after
any calls of `set_indices` and `set_data`, failed ones included, the mean of the current data over exactly the pixels at
the indices chosen last; indices out of range raise IndexError, and nothing to show raises ValueError. -/
theorem C92_data_partial (axes : List Nat) (hp : axes.Perm (List.range axes.length))
    (ops : List (ArrOp (Nat → Option C))) :
    ∃ v, ArrView.new (axes.map fun (a : Nat) => (a : Int)) = .ok v ∧
      (lastArr axes ops = none → (ops.foldl ArrView.step v).getData = .error .valueError) ∧
      ∀ d, lastArr axes ops = some d → axes.length ≤ d.lead.length →
        (InRange d.lead axes (lastVals axes ops) → ∀ S : Finset (List Nat),
          (∀ p, p ∈ S ↔ Chosen d.lead axes (lastVals axes ops) p) →
          (ops.foldl ArrView.step v).getData = .ok (lastTimes axes ops,
            (List.range d.len).map fun n => strictMean S fun p => d.get p n)) ∧
        (¬ InRange d.lead axes (lastVals axes ops) → (ops.foldl ArrView.step v).getData = .error .indexError) := by
  obtain ⟨v, e, i, ht⟩ := arr_run hp ops
  obtain ⟨idx, e1, e2, e3⟩ := indexTuple_ok axes hp (lastVals axes ops) i.long
  have hidx : (ops.foldl ArrView.step v).indices = idx := by
    have := i.idx_eq
    rw [e1] at this
    exact (Except.ok.inj this).symm
  refine ⟨v, e, ?_, ?_⟩
  · intro hn
    unfold ArrView.getData
    rw [i.data_eq, hn]
  · intro d hd hr
    constructor
    · intro hin S hS
      obtain ⟨ps, p1, p2, p3⟩ := indexPositions_ok d.lead axes hp (lastVals axes ops) i.long hr hin idx e2 e3
      unfold ArrView.getData
      rw [i.data_eq, hd]
      dsimp only
      rw [hidx, if_neg (by omega), p1, ht]
      dsimp only [bind, Except.bind]
      congr 2
      exact List.map_congr_left fun n _ => plainMean_finset ps p2 S (fun p => by rw [hS, p3]) _
    · intro hin
      unfold ArrView.getData
      rw [i.data_eq, hd]
      dsimp only
      rw [hidx, if_neg (by omega), indexPositions_out d.lead axes hp (lastVals axes ops) i.long idx e2 e3 (Or.inr hin)]
      rfl

/-- **C92, raw correlation data (partial: the axes are the first ones, in any order).**  `CorrArrayViewer` and
`MultitauArrayViewer` show, after any calls, the mean of the curves that they make (`corrCurve`, `multiCurve`) of the
pixels at the indices chosen last. -/
theorem C92_curves_partial {D : Type} (curve : ViewCell D → Py (List Nat × List (Option C))) (axes : List Nat)
    (hp : axes.Perm (List.range axes.length)) (ops : List (ArrOp (ViewCell D))) :
    ∃ v, ArrView.new (axes.map fun (a : Nat) => (a : Int)) = .ok v ∧
      (lastAny ops = none → (ops.foldl ArrView.stepC v).getCurve curve = .error .valueError) ∧
      ∀ d, lastAny ops = some d →
        (axes.length ≤ d.lead.length → InRange d.lead axes (lastVals axes ops) → ∀ S : Finset (List Nat),
          (∀ p, p ∈ S ↔ Chosen d.lead axes (lastVals axes ops) p) → S.Nonempty →
          (∀ (t : List Nat) (N : Nat) (g : List Nat → List (Option C)),
            (∀ p ∈ S, curve (d.get p) = .ok (t, g p) ∧ (g p).length = N) →
            (ops.foldl ArrView.stepC v).getCurve curve = .ok (t,
              (List.range N).map fun n => strictMean S fun p => (g p).getD n none)) ∧
          (∀ err, (∀ p ∈ S, curve (d.get p) = .error err) →
            (ops.foldl ArrView.stepC v).getCurve curve = .error err)) ∧
        (d.lead.length < axes.length ∨ ¬ InRange d.lead axes (lastVals axes ops) →
          (ops.foldl ArrView.stepC v).getCurve curve = .error .indexError) := by
  obtain ⟨v, e, i⟩ := arr_runC hp ops
  obtain ⟨idx, e1, e2, e3⟩ := indexTuple_ok axes hp (lastVals axes ops) i.long
  have hidx : (ops.foldl ArrView.stepC v).indices = idx := by
    have := i.idx_eq
    rw [e1] at this
    exact (Except.ok.inj this).symm
  refine ⟨v, e, ?_, ?_⟩
  · intro hn
    unfold ArrView.getCurve
    rw [i.data_eq, hn]
  · intro d hd
    constructor
    · intro hr hin S hS hne
      obtain ⟨ps, p1, p2, p3⟩ := indexPositions_ok d.lead axes hp (lastVals axes ops) i.long hr hin idx e2 e3
      have hSp : ∀ p, p ∈ S ↔ p ∈ ps := fun p => by rw [hS, p3]
      have hps : ps ≠ [] := by
        obtain ⟨p, h⟩ := hne
        exact List.ne_nil_of_mem ((hSp p).mp h)
      constructor
      · intro t N g hg
        unfold ArrView.getCurve
        rw [i.data_eq, hd]
        dsimp only
        rw [hidx, p1]
        dsimp only [bind, Except.bind]
        rw [mapM_ok ps (fun p => curve (d.get p)) (fun p => (t, g p)) (fun p h => (hg p ((hSp p).mpr h)).1)]
        dsimp only
        have hl : ∃ q ∈ ps, ∃ r, (ps.map fun p => (t, g p)) = (t, g q) :: r := by
          cases ps with
          | nil => exact absurd rfl hps
          | cons q r => exact ⟨q, by simp, _, rfl⟩
        obtain ⟨q, hq, r, hr'⟩ := hl
        rw [hr']
        dsimp only
        rw [← hr', (hg q ((hSp q).mpr hq)).2]
        congr 2
        refine List.map_congr_left fun n _ => ?_
        rw [List.map_map]
        exact plainMean_finset ps p2 S hSp _
      · intro err herr
        unfold ArrView.getCurve
        rw [i.data_eq, hd]
        dsimp only
        rw [hidx, p1]
        dsimp only [bind, Except.bind]
        rw [mapM_err _ hps _ err fun p h => herr p ((hSp p).mpr h)]
    · intro hout
      unfold ArrView.getCurve
      rw [i.data_eq, hd]
      dsimp only
      rw [hidx, indexPositions_out d.lead axes hp (lastVals axes ops) i.long idx e2 e3 hout]
      rfl

end

/-! ### Sliders -/

theorem truncInt_bound (x : ℝ) (n : Nat) (h : |x| ≤ ((n - 1 : ℕ) : ℝ)) (hn : 1 ≤ n) :
    -(n : Int) ≤ truncInt x ∧ truncInt x < n := by
  obtain ⟨m, rfl⟩ : ∃ m, n = m + 1 := ⟨n - 1, by omega⟩
  rw [Nat.add_sub_cancel] at h
  have hb := abs_le.mp h
  unfold truncInt
  split
  · rename_i h0
    have h1 : 0 ≤ ⌊x⌋ := Int.floor_nonneg.mpr h0
    have h2 : (⌊x⌋ : ℝ) ≤ ((m : Int) : ℝ) := (Int.floor_le x).trans (by exact_mod_cast hb.2)
    have h3 : ⌊x⌋ ≤ (m : Int) := by exact_mod_cast h2
    push_cast
    omega
  · rename_i h0
    have h1 : ⌈x⌉ ≤ 0 := Int.ceil_le.mpr (by push_cast; linarith)
    have h2 : ((-(m : Int) : Int) : ℝ) ≤ (⌈x⌉ : ℝ) := le_trans (by push_cast; exact hb.1) (Int.le_ceil x)
    have h3 : -(m : Int) ≤ ⌈x⌉ := by exact_mod_cast h2
    push_cast
    omega

/-- **C92, sliders (partial as above).**  A slider of an axis of length `n` gives any real number from `-(n-1)` to `n-1`.
Whatever the positions of the sliders, the new indices are in range: moving a slider never raises, and what is shown then
is the mean over the pixels at the integer parts of the positions. -/
theorem C92_sliders_partial {α : Type} (axes : List Nat) (hp : axes.Perm (List.range axes.length))
    (ops : List (ArrOp α)) (d : PixArr α) (hr : axes.length ≤ d.lead.length) (hpos : ∀ n ∈ d.lead, 1 ≤ n)
    (x : List ℝ) (hx : x.length = axes.length)
    (hrange : ∀ (i ax n : Nat) (y : ℝ), axes[i]? = some ax → d.lead[ax]? = some n → x[i]? = some y →
      |y| ≤ ((n - 1 : ℕ) : ℝ)) :
    ∃ v, ArrView.new (axes.map fun (a : Nat) => (a : Int)) = .ok v ∧
      ((ops.foldl ArrView.step v).slide x).2 = .ok () ∧
      ((ops.foldl ArrView.step v).slide x).1 = (ops ++ [ArrOp.indices (x.map truncInt)]).foldl ArrView.step v ∧
      lastVals axes (ops ++ [ArrOp.indices (x.map truncInt)]) = x.map truncInt ∧
      InRange d.lead axes (lastVals axes (ops ++ [ArrOp.indices (x.map truncInt)])) := by
  obtain ⟨v, e, i, -⟩ := arr_run hp ops
  have hl : lastVals axes (ops ++ [ArrOp.indices (x.map truncInt)]) = x.map truncInt := by
    unfold lastVals
    rw [List.foldl_append, List.foldl_cons, List.foldl_nil]
    dsimp only
    rw [if_pos (by rw [List.length_map, hx])]
  obtain ⟨-, -, h3⟩ := arr_indices hp i (x.map truncInt)
  refine ⟨v, e, ?_, ?_, hl, ?_⟩
  · unfold ArrView.slide
    rw [h3, if_pos (by rw [List.length_map, hx])]
  · rw [List.foldl_append, List.foldl_cons, List.foldl_nil]
    rfl
  · rw [hl]
    intro j ax n u h1 h2 h4
    rw [List.getElem?_map] at h2
    cases hj : x[j]? with
    | none => rw [hj] at h2; cases h2
    | some y =>
      rw [hj] at h2
      rw [← Option.some.inj h2]
      exact truncInt_bound y n (hrange j ax n y h1 h4 hj) (hpos n (List.mem_of_getElem? h4))

/-- **C92, failing calls.**  Too few indices: IndexError, and the indices stay.  Data without one of the axes: ValueError,
and nothing changes. -/
theorem C92_failed_calls {α : Type} (axes : List Nat) (hp : axes.Perm (List.range axes.length)) (ops : List (ArrOp α)) :
    ∃ v, ArrView.new (axes.map fun (a : Nat) => (a : Int)) = .ok v ∧
      (∀ new : List Int, new.length < axes.length →
        (ops.foldl ArrView.step v).setIndices new = (ops.foldl ArrView.step v, .error .indexError)) ∧
      ∀ (a : PixArr α) (t : Option (List ℝ)), ¬ HasAxes axes a →
        (ops.foldl ArrView.step v).setDataT a t = (ops.foldl ArrView.step v, .error .valueError) := by
  obtain ⟨v, e, i, -⟩ := arr_run hp ops
  refine ⟨v, e, ?_, ?_⟩
  · intro new hn
    unfold ArrView.setIndices
    rw [i.axes_eq, indexTuple_short _ _ (by rw [List.length_map]; omega)]
  · intro a t ha
    unfold ArrView.setDataT
    rw [i.axes_eq, if_neg fun c => ha ((hasAxes_all axes a).mp c)]

/-! ### Where the code does not do it -/

/-- **C92, refuted for axes that are not the first ones.**  A viewer with a slider for the second axis only, or for any
axes one of which is not smaller than their number, cannot be constructed: IndexError. -/
theorem C92_other_axes_refuted {α : Type} (axes : List Int) (ax : Int) (hm : ax ∈ axes) (ha : (axes.length : Int) ≤ ax) :
    (ArrView.new axes : Py (ArrView α)) = .error .indexError := by
  have key : ∀ (l : List Int) (vals : List Int) (m : Nat) (idx : List AxisIdx), idx.length = axes.length → ax ∈ l →
      setItems vals (l.zipIdx m) idx = .error .indexError := by
    intro l vals
    induction l with
    | nil => intro m idx _ h; cases h
    | cons b l ih =>
      intro m idx hidx h
      rw [List.zipIdx_cons]
      unfold setItems setItem
      cases vals[m]? with
      | none => rfl
      | some u =>
        dsimp only
        by_cases hb : b = ax
        · rw [hb, hidx, resolveIdx_none (by omega)]
          rfl
        · cases hr : resolveIdx idx.length b with
          | none => rfl
          | some k =>
            exact ih (m + 1) _ (by rw [List.length_set, hidx]) ((List.mem_cons.mp h).resolve_left fun h => hb h.symm)
  unfold ArrView.new indexTuple
  rw [key _ _ _ _ (by simp) hm]
  rfl

/-- **C92, refuted for negative axes.**  `axes = (-1,)` names the last axis, and the constructor and `set_data` accept it,
but the chosen index selects on the first axis: shown is the mean of `d[1, :]`. -/
theorem C92_negative_axis_refuted :
    ∃ v : ArrView (Nat → Option ℝ), ArrView.new [-1] = .ok v ∧
      let d : PixArr (Nat → Option ℝ) := ⟨[2, 2], 1, fun p _ => some (if p = [1, 0] then 8 else if p = [0, 1] then 2 else 0)⟩
      let w := v.setDataT d none
      w.2 = .ok () ∧ (w.1.setIndices [1]).2 = .ok () ∧ (w.1.setIndices [1]).1.getData = .ok ([0], [some 4]) := by
  refine ⟨⟨[-1], [.pick 0], none, []⟩, rfl, ?_⟩
  intro d w
  have hw : w = (⟨[-1], [.pick 0], some d, [0]⟩, .ok ()) := by
    simp only [w, ArrView.setDataT]
    rw [if_pos (by decide)]
    simp [d]
  have hs : (w.1.setIndices [1]) = (⟨[-1], [.pick 1], some d, [0]⟩, .ok ()) := by rw [hw]; rfl
  refine ⟨by rw [hw], by rw [hs], ?_⟩
  rw [hs]
  unfold ArrView.getData
  dsimp only
  rw [if_neg (by simp [d])]
  have : indexPositions d.lead [.pick 1] = .ok [[1, 0], [1, 1]] := by rfl
  rw [this]
  dsimp only [bind, Except.bind]
  simp [d, plainMean]
  norm_num

/-- **C92, refuted for times that do not fit.**  `set_data` with times of a wrong length raises ValueError, but it has
replaced the data: afterwards the times of the data set before are shown with the new values, of another number. -/
theorem C92_wrong_times_refuted :
    ∃ v : ArrView (Nat → Option ℝ), ArrView.new [] = .ok v ∧
      let a : PixArr (Nat → Option ℝ) := ⟨[], 2, fun _ n => some (n + 1)⟩
      let b : PixArr (Nat → Option ℝ) := ⟨[], 3, fun _ _ => some 7⟩
      let w := v.setDataT a none
      w.2 = .ok () ∧ (w.1.setDataT b (some [0])).2 = .error .valueError ∧
        (w.1.setDataT b (some [0])).1.getData = .ok ([0, 1], [some 7, some 7, some 7]) := by
  refine ⟨⟨[], [], none, []⟩, rfl, ?_⟩
  intro a b w
  have hw : w = (⟨[], [], some a, [0, 1]⟩, .ok ()) := by
    simp only [w, ArrView.setDataT]
    rw [if_pos (by decide)]
    simp [a, List.range_succ]
  have hs : (w.1.setDataT b (some [0])) = (⟨[], [], some b, [0, 1]⟩, .error .valueError) := by
    rw [hw]
    simp only [ArrView.setDataT]
    rw [if_pos (by decide)]
    simp [b]
  refine ⟨by rw [hw], by rw [hs], ?_⟩
  rw [hs]
  unfold ArrView.getData
  dsimp only
  rw [if_neg (by simp [b])]
  have : indexPositions b.lead [] = .ok [[]] := by rfl
  rw [this]
  dsimp only [bind, Except.bind]
  simp [b, plainMean, List.range_succ]

/-! ### A case -/

/-- Data of 2 x 3 pixels; axes in reverse order. -/
def arrCase : PixArr (Nat → Option ℝ) := ⟨[2, 3], 1, fun p n => some (10 * (p.getD 0 0 : ℝ) + p.getD 1 0 + n)⟩

/-- A call with too few indices in between has no effect; the index -1 on the second axis and 1 on the first give the
pixel (1, 2). -/
example : lastVals [1, 0] [.data arrCase none, ArrOp.indices [-1, 1], .indices [0]] = [-1, 1] ∧
    lastArr [1, 0] [.data arrCase none, .indices [-1, 1], .indices [0]] = some arrCase ∧
    [1, 0].Perm (List.range 2) ∧ InRange arrCase.lead [1, 0] [-1, 1] ∧
    (∀ p, p ∈ ({[1, 2]} : Finset (List Nat)) ↔ Chosen arrCase.lead [1, 0] [-1, 1] p) := by
  refine ⟨rfl, ?_, by decide, ?_, ?_⟩
  · unfold lastArr
    simp only [List.foldl_cons, List.foldl_nil]
    rw [if_pos]
    intro ax hax
    simp only [arrCase, List.length_cons, List.length_nil]
    rcases List.mem_cons.mp hax with rfl | h
    · omega
    · rw [List.mem_singleton.mp h]; omega
  · intro i ax n v h1 h2 h3
    match i, h1, h2 with
    | 0, h1, h2 => cases h1; cases h2; cases h3; decide
    | 1, h1, h2 => cases h1; cases h2; cases h3; decide
  · intro p
    rw [Finset.mem_singleton]
    constructor
    · rintro rfl
      refine ⟨rfl, ?_, ?_⟩
      · intro k n x h1 h2
        match k, h1, h2 with
        | 0, h1, h2 => cases h1; cases h2; decide
        | 1, h1, h2 => cases h1; cases h2; decide
      · intro i ax n x v h1 h2 h3 h4
        match i, h1, h2 with
        | 0, h1, h2 => cases h1; cases h2; cases h3; cases h4; decide
        | 1, h1, h2 => cases h1; cases h2; cases h3; cases h4; decide
    · rintro ⟨h1, -, h3⟩
      match p, h1 with
      | [x, y], _ =>
        have e1 := h3 0 1 3 y (-1) rfl rfl rfl rfl
        have e2 := h3 1 0 2 x 1 rfl rfl rfl rfl
        norm_num at e1 e2
        have : y = 2 := by omega
        have : x = 1 := by omega
        subst_vars
        rfl

end Cddm
