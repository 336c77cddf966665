import Verif.Model.Chain
import Verif.Props.NormMultiAny
import Verif.Spec.MultiAny

/-! # The arrays of the correlation functions as seen by `normalize_multi` -/

namespace Cddm
open Spec

/-- All arrays of one pixel have `n` entries, correlation and count are there. -/
structure SizedData {C : Type} (n : Nat) (d : CorrAout C) : Prop where
  cor : ∃ x, d.cor = some x ∧ x.length = n
  count : ∃ x, d.count = some x ∧ x.length = n
  sq : ∀ x, d.sq = some x → x.length = n
  ds1 : ∀ x, d.ds1 = some x → x.length = n
  ds2 : ∀ x, d.ds2 = some x → x.length = n

theorem curveAt_countArray (c : List Nat) : curveAt (countArray c) [] = c := by
  unfold curveAt countArray
  refine List.ext_getElem (by simp) fun i h1 h2 => ?_
  simp [List.getElem?_eq_getElem h2]

theorem outAt_curve {α : Type} {frame : List Nat} {x : Option (Tensor α)} (h : OutFits frame x) {p : List Nat}
    (hp : InShape p frame) : outAt frame x p = x.map (curveAt · p) := by
  rcases x with _ | x
  · rfl
  · obtain ⟨L, hL⟩ := h x rfl
    show some (along x frame.length p) = some (curveAt x p)
    rw [along_eq_curveAt hL hp]

theorem fits_shape {α : Type} {frame : List Nat} {x : Option (Tensor α)} (h : OutFits frame x) {p : List Nat}
    (hp : InShape p frame) {n : Nat} (hn : ∀ y, outAt frame x p = some y → y.length = n) : ∀ y, x = some y → y.shape = frame ++ [n] := by
  rintro y rfl
  obtain ⟨L, hL⟩ := h y rfl
  have := hn _ (outAt_curve h hp)
  simp only [curveAt, List.length_map, List.length_range, hL, List.getLastD_concat] at this
  rw [hL, this]

/-- The linear data. -/
theorem toData_ok {C : Type} {frame : List Nat} {d : CorrAoutAny C} (h : AoutFits frame d) {n : Nat} (m : String) {p0 : List Nat}
    (hp0 : InShape p0 frame) (hs : SizedData n (aoutAt frame d p0)) :
    DataFits [] frame n (d.toData m) ∧ ∀ p, InShape p frame → dataAt (d.toData m) [] p = (aoutAt frame d p).toData m := by
  obtain ⟨h1, h2, h3, h4⟩ := h
  obtain ⟨⟨x, ex, lx⟩, ⟨c, ec, lc⟩, hsq, hd1, hd2⟩ := hs
  rcases d with ⟨cor, count, sq, ds1, ds2⟩
  have ec' : count = some c := ec
  subst ec'
  rcases cor with _ | cor
  · cases ex
  have e1 := fits_shape h1 hp0 (n := n) (fun y hy => by
    have : some y = some x := hy.symm.trans ex
    cases this
    exact lx) cor rfl
  have e2 := fits_shape h2 hp0 (n := n) hsq
  have e3 := fits_shape h3 hp0 (n := n) hd1
  have e4 := fits_shape h4 hp0 (n := n) hd2
  have ecnt : (countArray c).shape = [] ++ [n] := by rw [← lc]; rfl
  constructor
  · unfold CorrAoutAny.toData
    dsimp only
    split
    · exact ⟨e1, ecnt, e3, e4⟩
    · exact ⟨e1, ecnt, e2, e3, e4⟩
  · intro p hp
    unfold CorrAoutAny.toData CorrAout.toData aoutAt
    dsimp only
    rw [outAt_curve h1 hp, outAt_curve h2 hp, outAt_curve h3 hp, outAt_curve h4 hp]
    dsimp only [Option.map_some]
    split
    · simp only [dataAt, List.nil_append, curveAt_countArray]
    · simp only [dataAt, List.nil_append, curveAt_countArray]

/-- There for all or for none. -/
def AllOrNone {α : Type} (xs : List (Option α)) : Prop := (∀ x ∈ xs, x.isSome) ∨ ∀ x ∈ xs, x = none

theorem mapM_id_map_some {α : Type} (ys : List α) : (ys.map some).mapM id = some ys := by
  induction ys with
  | nil => rfl
  | cons y ys ih => simp only [List.map_cons, List.mapM_cons, ih, id]; rfl

theorem stackOpt_ok {α : Type} {S : List Nat} {n : Nat} (xs : List (Option (Tensor α))) (hne : xs ≠ [])
    (h : ∀ x ∈ xs, ∀ y, x = some y → y.shape = S ++ [n]) (hall : AllOrNone xs) :
    (∀ y, stackOpt xs = some y → y.shape = xs.length :: (S ++ [n])) ∧ ((stackOpt xs).isSome ↔ ∀ x ∈ xs, x.isSome) ∧
      ∀ j (hj : j < xs.length) q, (stackOpt xs).map (curveAt · (j :: q)) = xs[j].map (curveAt · q) := by
  rcases hall with hall | hall
  · obtain ⟨ys, rfl⟩ : ∃ ys : List (Tensor α), xs = ys.map some := by
      clear h hne
      induction xs with
      | nil => exact ⟨[], rfl⟩
      | cons x xs ih =>
        obtain ⟨ys, e⟩ := ih fun y hy => hall y (List.mem_cons_of_mem _ hy)
        obtain ⟨y, hy⟩ := Option.isSome_iff_exists.1 (hall x (by simp))
        exact ⟨y :: ys, by rw [hy, e]; rfl⟩
    rcases ys with _ | ⟨x, ys⟩
    · exact absurd rfl hne
    have hx : x.shape = S ++ [n] := h (some x) (by simp) x rfl
    have e : stackOpt ((x :: ys).map some) = some (stackArr x ys) := by
      unfold stackOpt
      rw [mapM_id_map_some]
    rw [e]
    refine ⟨?_, by simp, ?_⟩
    · rintro y hy
      cases hy
      simp [stackArr, hx]
    · intro j hj q
      have hj' : j < (x :: ys).length := by simpa using hj
      have hs : ((x :: ys)[j]).shape = S ++ [n] := h (some (x :: ys)[j]) (by
        rw [List.mem_map]
        exact ⟨_, List.getElem_mem _, rfl⟩) _ rfl
      simp only [Option.map_some, List.getElem_map, Option.some.injEq]
      unfold curveAt
      rw [hs]
      have hl : (stackArr x ys).shape.getLastD 0 = n := by
        show ((ys.length + 1) :: x.shape).getLastD 0 = n
        rw [hx, ← List.cons_append, List.getLastD_concat]
      rw [hl, List.getLastD_concat]
      refine List.map_congr_left fun i _ => ?_
      simp [stackArr, List.getElem?_eq_getElem hj']
  · have e : stackOpt xs = none := by
      rcases xs with _ | ⟨x, xs⟩
      · exact absurd rfl hne
      · unfold stackOpt
        rw [hall x (by simp), List.mapM_cons]
        rfl
    rw [e]
    refine ⟨by simp, ?_, fun j hj q => ?_⟩
    · rcases xs with _ | ⟨x, xs⟩
      · exact absurd rfl hne
      · have := hall x (by simp)
        simp [this]
    · rw [hall xs[j] (List.getElem_mem _)]
      rfl

/-- The data of the levels. -/
theorem levelsToData_ok {C : Type} {frame : List Nat} {ds : List (CorrAoutAny C)} (hne : ds ≠ []) (h : ∀ d ∈ ds, AoutFits frame d)
    {n : Nat} (m : String) {p0 : List Nat} (hp0 : InShape p0 frame) (hs : ∀ d ∈ ds, SizedData n (aoutAt frame d p0))
    (hsq : AllOrNone (ds.map (·.sq))) (hd1 : AllOrNone (ds.map (·.ds1))) (hd2 : AllOrNone (ds.map (·.ds2))) :
    DataFits [ds.length] frame n (levelsToData m ds) ∧ ∀ p, InShape p frame →
      levelDataAt (levelsToData m ds) ds.length p = ds.map fun d => (aoutAt frame d p).toData m := by
  have hcor : AllOrNone (ds.map (·.cor)) := Or.inl fun x hx => by
    obtain ⟨d, hd, rfl⟩ := List.mem_map.1 hx
    obtain ⟨x, ex, -⟩ := (hs d hd).cor
    rcases hc : d.cor with _ | c
    · simp [aoutAt, outAt, hc] at ex
    · rfl
  have hcnt : AllOrNone (ds.map fun d => d.count.map countArray) := Or.inl fun x hx => by
    obtain ⟨d, hd, rfl⟩ := List.mem_map.1 hx
    obtain ⟨x, ex, -⟩ := (hs d hd).count
    have : d.count = some x := ex
    simp [this]
  have s1 : ∀ x ∈ ds.map (·.cor), ∀ y, x = some y → y.shape = frame ++ [n] := fun x hx => by
    obtain ⟨d, hd, rfl⟩ := List.mem_map.1 hx
    exact fits_shape (h d hd).1 hp0 fun y hy => by
      obtain ⟨z, ez, lz⟩ := (hs d hd).cor
      have : some y = some z := hy.symm.trans ez
      cases this
      exact lz
  have s2 : ∀ x ∈ ds.map (·.sq), ∀ y, x = some y → y.shape = frame ++ [n] := fun x hx => by
    obtain ⟨d, hd, rfl⟩ := List.mem_map.1 hx
    exact fits_shape (h d hd).2.1 hp0 (hs d hd).sq
  have s3 : ∀ x ∈ ds.map (·.ds1), ∀ y, x = some y → y.shape = frame ++ [n] := fun x hx => by
    obtain ⟨d, hd, rfl⟩ := List.mem_map.1 hx
    exact fits_shape (h d hd).2.2.1 hp0 (hs d hd).ds1
  have s4 : ∀ x ∈ ds.map (·.ds2), ∀ y, x = some y → y.shape = frame ++ [n] := fun x hx => by
    obtain ⟨d, hd, rfl⟩ := List.mem_map.1 hx
    exact fits_shape (h d hd).2.2.2 hp0 (hs d hd).ds2
  have s5 : ∀ x ∈ ds.map (fun d => d.count.map countArray), ∀ y, x = some y → y.shape = [] ++ [n] := fun x hx y hy => by
    obtain ⟨d, hd, rfl⟩ := List.mem_map.1 hx
    obtain ⟨z, ez, lz⟩ := (hs d hd).count
    have : d.count = some z := ez
    rw [this] at hy
    cases hy
    rw [← lz]
    rfl
  obtain ⟨a1, b1, c1⟩ := stackOpt_ok _ (by simpa using hne) s1 hcor
  obtain ⟨a2, -, c2⟩ := stackOpt_ok _ (by simpa using hne) s2 hsq
  obtain ⟨a3, -, c3⟩ := stackOpt_ok _ (by simpa using hne) s3 hd1
  obtain ⟨a4, -, c4⟩ := stackOpt_ok _ (by simpa using hne) s4 hd2
  obtain ⟨a5, b5, c5⟩ := stackOpt_ok _ (by simpa using hne) s5 hcnt
  have i1 := b1.2 (fun x hx => by
    rcases hcor with hcor | hcor
    · exact hcor x hx
    · obtain ⟨d, hd, rfl⟩ := List.mem_map.1 hx
      obtain ⟨z, ez, -⟩ := (hs d hd).cor
      have e : d.cor = none := hcor _ hx
      simp [aoutAt, outAt, e] at ez)
  have i5 := b5.2 (fun x hx => by
    rcases hcnt with hcnt | hcnt
    · exact hcnt x hx
    · obtain ⟨d, hd, rfl⟩ := List.mem_map.1 hx
      obtain ⟨z, ez, -⟩ := (hs d hd).count
      have e : d.count = some z := ez
      simp [e])
  obtain ⟨cor, ecor⟩ := Option.isSome_iff_exists.1 i1
  obtain ⟨cnt, ecnt⟩ := Option.isSome_iff_exists.1 i5
  rw [ecor] at a1 c1
  rw [ecnt] at a5 c5
  simp only [List.length_map] at a1 a2 a3 a4 a5 c1 c2 c3 c4 c5
  constructor
  · unfold levelsToData
    rw [ecor, ecnt]
    dsimp only
    split
    · exact ⟨a1 _ rfl, a5 _ rfl, a3, a4⟩
    · exact ⟨a1 _ rfl, a5 _ rfl, a2, a3, a4⟩
  · intro p hp
    refine List.ext_getElem (by simp [levelDataAt]) fun j h1 h2 => ?_
    have hj : j < ds.length := by simpa using h2
    simp only [levelDataAt, List.getElem_map, List.getElem_range]
    have f := h ds[j] (List.getElem_mem _)
    obtain ⟨z, ez, -⟩ := (hs ds[j] (List.getElem_mem _)).count
    have ez' : ds[j].count = some z := ez
    have k1 := c1 j hj p
    have k5 := c5 j hj []
    simp only [List.getElem_map, Option.map_some, ez', Option.some.injEq, curveAt_countArray] at k1 k5
    have k2 := c2 j hj p
    have k3 := c3 j hj p
    have k4 := c4 j hj p
    simp only [List.getElem_map] at k2 k3 k4
    unfold levelsToData CorrAout.toData aoutAt
    rw [ecor, ecnt]
    dsimp only
    rw [outAt_curve f.1 hp, outAt_curve f.2.1 hp, outAt_curve f.2.2.1 hp, outAt_curve f.2.2.2 hp, ez', ← k1, ← k2, ← k3, ← k4]
    dsimp only
    split
    · simp only [dataAt, List.singleton_append, k5]
    · simp only [dataAt, List.singleton_append, k5]

/-- `normalize_multi` of data that hold at each pixel the given data of that pixel. -/
theorem normalizeLevels_ok {C : Type} [AddCommGroup C] [Module ℝ C] (ops : NormOps C) (method : Option String)
    {d : CorrAoutAny C × List (CorrAoutAny C)} {frame : List Nat} {n L m : Nat} (hne : 0 ∉ frame) (hL : 1 ≤ L)
    (h1 : AoutFits frame d.1) (h2 : ∀ l ∈ d.2, AoutFits frame l) (one : List Nat → CorrAout C × List (CorrAout C))
    (hone : ∀ p, InShape p frame → one p = (aoutAt frame d.1 p, d.2.map fun l => aoutAt frame l p))
    (hfast : ∀ p, SizedData n (one p).1) (hlen : ∀ p, (one p).2.length = L) (hslow : ∀ p, ∀ l ∈ (one p).2, SizedData m l)
    (hsq : ∀ p, AllOrNone ((one p).2.map (·.sq))) (hd1 : ∀ p, AllOrNone ((one p).2.map (·.ds1)))
    (hd2 : ∀ p, AllOrNone ((one p).2.map (·.ds2))) (bg : Option (FrameArg (Cx ℝ)))
    (var : Option (FrameArg ℝ)) (norm : NormArg) (mode : String) (scale : Bool)
    (hb : ∀ x, bg = some x → ArgFits frame x ∨ ArgFits [] x) (hv : ∀ x, var = some x → ArgFits frame x ∨ ArgFits [] x) :
    MultiWise frame n L m (normalizeLevels ops method d bg var norm mode scale none) fun p =>
      normalizeMulti ops ((one p).1.toData (method.getD "corr")) ((one p).2.map (CorrAout.toData (method.getD "corr")))
        (bg.map (backgroundAt · p)) (var.map (varianceAt · p)) norm mode scale := by
  obtain ⟨p0, hp0⟩ : ∃ p, InShape p frame := ⟨_, inShape_zeros frame hne⟩
  have e0 := hone p0 hp0
  have hlen0 := hlen p0
  rw [e0] at hlen0
  have hL' : d.2.length = L := by simpa using hlen0
  have aon : ∀ {α : Type} (g : CorrAoutAny C → Option (Tensor α)) (g' : CorrAout C → Option (List α)),
      (∀ l, g' (aoutAt frame l p0) = outAt frame (g l) p0) → AllOrNone ((one p0).2.map g') → AllOrNone (d.2.map g) := by
    intro α g g' hg ha
    rw [e0] at ha
    rcases ha with ha | ha
    · refine Or.inl fun x hx => ?_
      obtain ⟨l, hl, rfl⟩ := List.mem_map.1 hx
      have := ha (g' (aoutAt frame l p0)) (by simp only [List.mem_map]; exact ⟨_, ⟨l, hl, rfl⟩, rfl⟩)
      rw [hg] at this
      simpa [outAt] using this
    · refine Or.inr fun x hx => ?_
      obtain ⟨l, hl, rfl⟩ := List.mem_map.1 hx
      have := ha (g' (aoutAt frame l p0)) (by simp only [List.mem_map]; exact ⟨_, ⟨l, hl, rfl⟩, rfl⟩)
      rw [hg] at this
      simpa [outAt] using this
  obtain ⟨f1, g1⟩ := toData_ok h1 (n := n) (method.getD "corr") hp0 (by have := hfast p0; rw [e0] at this; exact this)
  obtain ⟨f2, g2⟩ := levelsToData_ok (ds := d.2) (by rintro h; rw [h] at hL'; simp at hL'; omega) h2 (n := m) (method.getD "corr") hp0
    (fun l hl => by
      have := hslow p0
      rw [e0] at this
      exact this _ (List.mem_map.2 ⟨l, hl, rfl⟩))
    (aon (·.sq) (·.sq) (fun _ => rfl) (hsq p0)) (aon (·.ds1) (·.ds1) (fun _ => rfl) (hd1 p0))
    (aon (·.ds2) (·.ds2) (fun _ => rfl) (hd2 p0))
  rw [hL'] at f2 g2
  refine multiWise_congr (fun p hp => ?_) (C121_normalize_multi_partial ops _ _ bg var norm mode scale frame n L m hne hL f1 f2 hb hv)
  rw [g1 p hp, g2 p hp, hone p hp, List.map_map]
  rfl

end Cddm
