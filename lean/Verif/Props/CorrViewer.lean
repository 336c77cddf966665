import Verif.Model.CorrViewer
import Verif.Spec.CorrViewer
import Verif.Props.ViewerAvg
import Verif.Props.Unbiased
import Verif.Props.Fold
import Verif.Props.Viewer

/-!
# What the viewers of raw correlation data show (C91)
-/

namespace Cddm
open Spec

section
variable {D C : Type} [AddCommGroup C] [Module ℝ C]
variable {shape : Option (Nat × Nat)} {computed : Option (Arr2 Bool)} {flat : Bool} {h w : Nat}

theorem mapM_id_some {α β : Type} (l : List α) (f : α → Option β) (g : α → β) (hf : ∀ a ∈ l, f a = some (g a)) :
    (l.map f).mapM id = some (l.map g) := by
  induction l with
  | nil => rfl
  | cons a l ih =>
    rw [List.map_cons, List.mapM_cons, hf a (by simp), ih fun b hb => hf b (List.mem_cons_of_mem _ hb)]
    rfl

theorem halfPlace_inside {i j a b : Nat} (hh : 1 ≤ h) (hj : j < w) (hi : i < h) (hN : 2 * j ≠ w)
    (e : (a, b) = halfPlace h w i j) : a < h ∧ 2 * b < w := by
  unfold halfPlace at e
  by_cases hj2 : 2 * j < w
  · rw [if_pos hj2] at e
    cases e
    exact ⟨hi, hj2⟩
  · rw [if_neg hj2] at e
    cases e
    refine ⟨wrap_lt hh _, ?_⟩
    rw [wrap_neg (by omega) (by omega)]
    omega

/-- What a viewer in a reachable state shows, for any treatment of the pixels. -/
theorem shown_average (hh : 1 ≤ h) (hw : 1 ≤ w) (hs : ShapeFits shape h w)
    (hcomp : ∀ c, computed = some c → c.h = h ∧ c.w = w / 2 + 1)
    (hflat : flat = true → computed ≠ none) {F : Arr2 (Option (ViewCell D))} {k : Nat} {angle sector kstep : ℝ}
    {v : DataView (ViewCell D)} (hv : ViewInv shape computed flat h w F (some (k, angle, sector, kstep)) v)
    (S : Finset (Nat × Nat)) (hS : ViewCells h w shape computed angle sector kstep k S) (hne : S.Nonempty)
    (hny : NoNyquist h w shape angle sector kstep k) (conj : C → C)
    (curve : ViewCell D → Py (List Nat × List (Option C))) (cell : Nat → Nat → ViewCell D)
    (hcell : ∀ p ∈ S, ∀ i j : Nat, (i, j) = halfPlace h w p.1 p.2 → F.get i j = some (cell i j)) :
    (∀ (t : List Nat) (N : Nat) (g : Nat → Nat → List (Option C)),
      (∀ p ∈ S, ∀ i j : Nat, (i, j) = halfPlace h w p.1 p.2 →
        curve (cell i j) = .ok (t, g i j) ∧ (g i j).length = N) →
      shownCurve conj curve v = .ok (t, averageCurve S N fun n =>
        fullSpace conj h w fun i j => (g i j).getD n none)) ∧
    (∀ e : PyErr, (∀ p ∈ S, ∀ i j : Nat, (i, j) = halfPlace h w p.1 p.2 → curve (cell i j) = .error e) →
      shownCurve conj curve v = .error e) := by
  obtain ⟨ms, H, M, m2, D1, D2, hmem, hm⟩ := view_selected hh hw hs hcomp hflat hv S hS hny
  have hcells : selectCells (storedData computed flat F) ms.half = .ok ((whereTrue H).map fun p => cell p.1 p.2) := by
    unfold selectCells
    rw [D1]
    dsimp only [bind, Except.bind]
    rw [mapM_id_some (whereTrue H) (fun p => F.get p.1 p.2) (fun p => cell p.1 p.2)]
    rintro ⟨i, j⟩ hp
    obtain ⟨p, hpS, he⟩ := (hmem i j).mp hp
    exact hcell p hpS i j he
  have hHne : whereTrue H ≠ [] := by
    obtain ⟨p, hp⟩ := hne
    have := (hmem (halfPlace h w p.1 p.2).1 (halfPlace h w p.1 p.2).2).mpr ⟨p, hp, rfl⟩
    exact List.ne_nil_of_mem this
  constructor
  · intro t N g hg
    have hcurves : ((whereTrue H).map fun p => cell p.1 p.2).mapM curve =
        .ok ((whereTrue H).map fun p => (t, g p.1 p.2)) := by
      rw [List.mapM_map]
      refine mapM_ok _ _ _ ?_
      rintro ⟨i, j⟩ hp
      obtain ⟨p, hpS, he⟩ := (hmem i j).mp hp
      exact (hg p hpS i j he).1
    unfold shownCurve
    simp only [hv.data_eq, m2, hcells, bind, Except.bind]
    rw [hcurves]
    simp only [D2]
    unfold averageCurves
    have hl : ∃ q ∈ whereTrue H, ∃ r, ((whereTrue H).map fun p => (t, g p.1 p.2)) = (t, g q.1 q.2) :: r := by
      cases hW : whereTrue H with
      | nil => exact absurd hW hHne
      | cons q r => exact ⟨q, by simp, _, rfl⟩
    obtain ⟨⟨i0, j0⟩, hq, r, hr⟩ := hl
    have hN : (g i0 j0).length = N := by
      obtain ⟨p, hpS, he⟩ := (hmem i0 j0).mp hq
      exact (hg p hpS i0 j0 he).2
    rw [hr]
    dsimp only
    rw [← hr, hN]
    congr 2
    unfold averageCurve
    refine List.map_congr_left fun n _ => ?_
    rw [zip_map_map]
    rw [← hm C conj ⟨h, w, fullSpace conj h w fun i j => (g i j).getD n none⟩ rfl rfl ?_]
    · congr 1
      refine List.map_congr_left ?_
      rintro ⟨i, j⟩ hp
      obtain ⟨p, hpS, he⟩ := (hmem i j).mp hp
      obtain ⟨p1, p2, p3, -⟩ := (hS p.1 p.2).mp hpS
      have := (halfPlace_inside hh p2 p1 (hny _ _ p1 p2 p3).2 he).2
      simp only [fullSpace, if_pos this]
    · intro i j hi h1 h2
      have hw' : wrap w (-(j : Int)) = w - j := wrap_neg (by omega) (by omega)
      simp only [fullSpace, if_pos h2]
      rw [if_neg (by omega)]
      unfold halfPlace
      rw [if_neg (by omega), wrap_wrap hi, wrap_wrap (by omega)]
  · intro e he
    unfold shownCurve
    simp only [hv.data_eq, m2, hcells, bind, Except.bind]
    rw [List.mapM_map, mapM_err _ hHne _ e]
    rintro ⟨i, j⟩ hp
    obtain ⟨p, hpS, hpe⟩ := (hmem i j).mp hp
    exact he p hpS i j hpe

end


/-! ### Any treatment of the pixels -/

section
variable {C : Type} [AddCommGroup C] [Module ℝ C]
variable {shape : Option (Nat × Nat)} {computed : Option (Arr2 Bool)} {flat : Bool} {h w : Nat}

/-- **C91 (partial: rings and sectors without Nyquist wave vectors).**  A `CorrViewer` that was given data and selections
in any order shows, at each time, the mean over the selected wave vectors of the whole space of the curves that
`normalize`, `fold_data` and `log_average` make of their pixels: for the opposite of a stored wave vector the conjugate
curve. -/
theorem C91_corr_partial (ops : ViewOps C) (cfg : ViewConfig) (hh : 1 ≤ h) (hw : 1 ≤ w) (hs : ShapeFits shape h w)
    (hcomp : ∀ c, computed = some c → c.h = h ∧ c.w = w / 2 + 1) (hflat : flat = true → computed ≠ none)
    (F0 : Arr2 (Option (ViewCell (NormData C)))) (hF0 : F0.h = h ∧ F0.w = w)
    (rs : List (ViewReq (ViewCell (NormData C)))) (hrs : ∀ r ∈ rs, r.Valid h w) (k : Nat) (angle sector kstep : ℝ)
    (hsel : lastSelect none rs = some (k, angle, sector, kstep)) (S : Finset (Nat × Nat))
    (hS : ViewCells h w shape computed angle sector kstep k S) (hne : S.Nonempty)
    (hny : NoNyquist h w shape angle sector kstep k) (cell : Nat → Nat → ViewCell (NormData C))
    (hcell : ∀ p ∈ S, ∀ i j : Nat, (i, j) = halfPlace h w p.1 p.2 → (lastData F0 rs).get i j = some (cell i j))
    (t : List Nat) (N : Nat) (g : Nat → Nat → List (Option C))
    (hg : ∀ p ∈ S, ∀ i j : Nat, (i, j) = halfPlace h w p.1 p.2 →
      corrCurve ops cfg (cell i j) = .ok (t, g i j) ∧ (g i j).length = N) :
    ∃ v, (DataView.new shape computed).run
        (.data (storedData computed flat F0) :: rs.map (ViewReq.op computed flat)) = .ok v ∧
      corrShown ops cfg v = .ok (t, averageCurve S N fun n =>
        fullSpace ops.conj h w fun i j => (g i j).getD n none) := by
  obtain ⟨v0, e0, i0⟩ := view_new (shape := shape) hcomp hflat F0 hF0
  obtain ⟨v, e, i⟩ := view_run hh hw hs hcomp hflat rs i0 hrs
  rw [hsel] at i
  refine ⟨v, ?_, (shown_average hh hw hs hcomp hflat i S hS hne hny ops.conj (corrCurve ops cfg) cell hcell).1 t N g hg⟩
  simp only [DataView.run, DataView.step, e0, bind, Except.bind, e]

/-- **C91, multi-tau data (partial: rings and sectors without Nyquist wave vectors).**  The same for a
`MultitauViewer`. -/
theorem C91_multi_partial (ops : ViewOps C) (cfg : ViewConfig) (hh : 1 ≤ h) (hw : 1 ≤ w) (hs : ShapeFits shape h w)
    (hcomp : ∀ c, computed = some c → c.h = h ∧ c.w = w / 2 + 1) (hflat : flat = true → computed ≠ none)
    (F0 : Arr2 (Option (ViewCell (NormData C × List (NormData C))))) (hF0 : F0.h = h ∧ F0.w = w)
    (rs : List (ViewReq (ViewCell (NormData C × List (NormData C))))) (hrs : ∀ r ∈ rs, r.Valid h w) (k : Nat)
    (angle sector kstep : ℝ) (hsel : lastSelect none rs = some (k, angle, sector, kstep)) (S : Finset (Nat × Nat))
    (hS : ViewCells h w shape computed angle sector kstep k S) (hne : S.Nonempty)
    (hny : NoNyquist h w shape angle sector kstep k) (cell : Nat → Nat → ViewCell (NormData C × List (NormData C)))
    (hcell : ∀ p ∈ S, ∀ i j : Nat, (i, j) = halfPlace h w p.1 p.2 → (lastData F0 rs).get i j = some (cell i j))
    (t : List Nat) (N : Nat) (g : Nat → Nat → List (Option C))
    (hg : ∀ p ∈ S, ∀ i j : Nat, (i, j) = halfPlace h w p.1 p.2 →
      multiCurve ops cfg (cell i j) = .ok (t, g i j) ∧ (g i j).length = N) :
    ∃ v, (DataView.new shape computed).run
        (.data (storedData computed flat F0) :: rs.map (ViewReq.op computed flat)) = .ok v ∧
      multiShown ops cfg v = .ok (t, averageCurve S N fun n =>
        fullSpace ops.conj h w fun i j => (g i j).getD n none) := by
  obtain ⟨v0, e0, i0⟩ := view_new (shape := shape) hcomp hflat F0 hF0
  obtain ⟨v, e, i⟩ := view_run hh hw hs hcomp hflat rs i0 hrs
  rw [hsel] at i
  refine ⟨v, ?_, (shown_average hh hw hs hcomp hflat i S hS hne hny ops.conj (multiCurve ops cfg) cell hcell).1 t N g hg⟩
  simp only [DataView.run, DataView.step, e0, bind, Except.bind, e]

end

/-! ### Real data: from the signals to the plot -/

theorem conj_sub (a b : Cx ℝ) : (a - b).conj = a.conj - b.conj := by
  ext <;> simp [Cx.conj]; ring

theorem reProd_conj (a b : Cx ℝ) : reProd a.conj b.conj = reProd a b := by
  simp [reProd, Cx.conj]

theorem dist2_conj (a b : Cx ℝ) : dist2 a.conj b.conj = dist2 a b := by
  simp [dist2, Cx.conj, Cx.abs2]; ring

/-- The formulas for the norms with given background are the same for the opposite wave vector. -/
theorem crossFormula_conj (b1 b2 : Cx ℝ) (v : ℝ) (z : Int) (hz : GivenNorm z) (P : List (Cx ℝ × Cx ℝ)) :
    crossFormula (.two b1.conj b2.conj) v z (P.map (Prod.map Cx.conj Cx.conj)) = crossFormula (.two b1 b2) v z P := by
  simp only [GivenNorm, List.mem_cons, List.not_mem_nil, or_false] at hz
  rcases hz with rfl | rfl | rfl | rfl | rfl | rfl <;>
    simp [crossFormula, normFormula, Background.fst, Background.snd, mean_map, reProd_conj, dist2_conj, ← conj_sub]

theorem meanOver_congr {V : Type} [AddCommGroup V] [Module ℝ V] (S : Finset (Nat × Nat)) (f g : Nat → Nat → Option V)
    (h : ∀ p ∈ S, f p.1 p.2 = g p.1 p.2) : meanOver S f = meanOver S g := by
  unfold meanOver
  have e : (S.filter fun p => (f p.1 p.2).isSome) = S.filter fun p => (g p.1 p.2).isSome :=
    Finset.filter_congr fun p hp => by rw [h p hp]
  simp only [e]
  congr 3
  refine Finset.sum_congr rfl fun p hp => ?_
  rw [h p (Finset.mem_filter.mp hp).1]

section
variable {shape : Option (Nat × Nat)} {computed : Option (Arr2 Bool)} {flat : Bool} {h w : Nat}

/-- The cells of a viewer for the cross-correlation of the signals `f1`, `f2` with backgrounds and variances of all the
wave vectors. -/
def CrossCells (f1 f2 : Nat → Nat → List (Cx ℝ)) (t1 t2 : Option (List Int)) (n : Option Nat) (norm : Option Int)
    (method : Option String) (aligned : Bool) (b1 b2 : Nat → Nat → Cx ℝ) (v1 v2 : Nat → Nat → ℝ) (i j : Nat)
    (c : ViewCell (NormData ℝ)) : Prop :=
  (∃ r, ccorr (f1 i j) (f2 i j) t1 t2 n norm method aligned none none {} = .ok r ∧
    c.data = r.toData (effMethod method n)) ∧
  c.b1 = b1 i j ∧ c.b2 = b2 i j ∧ c.v1 = v1 i j ∧ c.v2 = v2 i j

/-- **C91, from the signals to the plot (partial: rings and sectors without Nyquist wave vectors).**  A `CorrViewer` for
cross-correlation data of two videos, with backgrounds and variances of both and any norm with given background, shows at
delay `k` the mean over the selected wave vectors of the whole space of the covariance estimates: the wave vectors that
are not stored included. -/
theorem C91_signals_partial (cfg : ViewConfig) (z : Int) (hz : GivenNorm z) (hcn : cfg.norm = .num (some z))
    (hsc : cfg.scale = false) (hsz : cfg.size = none) (hbg : cfg.bg = .tuple) (hvar : cfg.var = .tuple)
    (f1 f2 : Nat → Nat → List (Cx ℝ)) (t1 t2 : Option (List Int)) (n : Option Nat) (norm : Option Int)
    (method : Option String) (aligned : Bool) (n' N1 N2 : Nat) (b1 b2 : Nat → Nat → Cx ℝ) (v1 v2 : Nat → Nat → ℝ)
    (hf1 : Hermitian (List.map Cx.conj) ⟨h, w, f1⟩) (hf2 : Hermitian (List.map Cx.conj) ⟨h, w, f2⟩)
    (hb1 : Hermitian Cx.conj ⟨h, w, b1⟩) (hb2 : Hermitian Cx.conj ⟨h, w, b2⟩)
    (hv1 : Hermitian id ⟨h, w, v1⟩) (hv2 : Hermitian id ⟨h, w, v2⟩)
    (hl1 : ∀ i j, (f1 i j).length = N1) (hl2 : ∀ i j, (f2 i j).length = N2)
    (call : CrossCall false N1 N2 t1 t2 n norm method n')
    (hm : (effMethod method n ≠ "diff" ∧ Prepared (effNorm norm (effMethod method n) true) z) ∨
      (method = some "diff" ∧ (z = 2 ∨ (z = 6 ∧ AskSums norm (some "diff") n true))))
    (hh : 1 ≤ h) (hw : 1 ≤ w) (hs : ShapeFits shape h w)
    (hcomp : ∀ c, computed = some c → c.h = h ∧ c.w = w / 2 + 1) (hflat : flat = true → computed ≠ none)
    (F0 : Arr2 (Option (ViewCell (NormData ℝ)))) (hF0 : F0.h = h ∧ F0.w = w)
    (rs : List (ViewReq (ViewCell (NormData ℝ)))) (hrs : ∀ r ∈ rs, r.Valid h w) (k : Nat) (angle sector kstep : ℝ)
    (hsel : lastSelect none rs = some (k, angle, sector, kstep)) (S : Finset (Nat × Nat))
    (hS : ViewCells h w shape computed angle sector kstep k S) (hne : S.Nonempty)
    (hny : NoNyquist h w shape angle sector kstep k)
    (hcell : ∀ i j : Nat, i < h → 2 * j < w → ∃ c, (lastData F0 rs).get i j = some c ∧
      CrossCells f1 f2 t1 t2 n norm method aligned b1 b2 v1 v2 i j c) :
    ∃ v, (DataView.new shape computed).run
        (.data (storedData computed flat F0) :: rs.map (ViewReq.op computed flat)) = .ok v ∧
      corrShown viewOpsR cfg v = .ok (List.range n', averageCurve S n' fun d i j =>
        if pairsAt false (stream (f1 i j) t1) (stream (f2 i j) t2) n' d = [] then none
        else some (crossFormula (.two (b1 i j) (b2 i j)) ((v1 i j + v2 i j) / 2) z
          (pairsAt false (stream (f1 i j) t1) (stream (f2 i j) t2) n' d))) := by
  classical
  have hcurve : ∀ i j, ∃ out, ccorrNormalized (f1 i j) (f2 i j) t1 t2 n norm method aligned (.two (b1 i j) (b2 i j))
      (some (.two (v1 i j) (v2 i j))) z "corr" false = .ok out ∧
      IsCurve n' (pairsAt false (stream (f1 i j) t1) (stream (f2 i j) t2) n')
        (crossFormula (.two (b1 i j) (b2 i j)) ((v1 i j + v2 i j) / 2) z) out := by
    intro i j
    rcases hm with ⟨hd, hp⟩ | ⟨rfl, hp⟩
    · exact ccorr_formula (f1 i j) (f2 i j) t1 t2 n norm method aligned n' (.two (b1 i j) (b2 i j))
        (.two (v1 i j) (v2 i j)) (by rw [hl1, hl2]; exact call) hd z hz hp
    · exact ccorr_diff_formula (f1 i j) (f2 i j) t1 t2 n norm aligned n' (.two (b1 i j) (b2 i j))
        (.two (v1 i j) (v2 i j)) (by rw [hl1, hl2]; exact call) z hp
  choose g hg1 hg2 using hcurve
  haveI : Nonempty (ViewCell (NormData ℝ)) := ⟨(hcell 0 0 (by omega) (by omega)).choose⟩
  choose! cell hc1 hc2 using hcell
  have hin : ∀ p ∈ S, ∀ i j : Nat, (i, j) = halfPlace h w p.1 p.2 → i < h ∧ 2 * j < w := by
    intro p hp i j he
    obtain ⟨p1, p2, p3, -⟩ := (hS p.1 p.2).mp hp
    exact halfPlace_inside hh p2 p1 (hny _ _ p1 p2 p3).2 he
  have hgc : ∀ p ∈ S, ∀ i j : Nat, (i, j) = halfPlace h w p.1 p.2 →
      corrCurve viewOpsR cfg (cell i j) = .ok (List.range n', g i j) ∧ (g i j).length = n' := by
    intro p hp i j he
    obtain ⟨⟨r, hr, hdata⟩, e1, e2, e3, e4⟩ := hc2 i j (hin p hp i j he).1 (hin p hp i j he).2
    have hlen := (hg2 i j).1
    refine ⟨?_, hlen⟩
    have e := hg1 i j
    unfold ccorrNormalized at e
    rw [hr] at e
    dsimp only [bind, Except.bind] at e
    unfold corrCurve viewNormalize
    rw [hcn, hsc, hsz, hdata, hbg, hvar]
    simp only [ViewArg.background, ViewArg.variance, e1, e2, e3, e4]
    change (do
      let r ← (do
        let r ← normalize normOpsR (r.toData (effMethod method n)) (some (.two (b1 i j) (b2 i j)))
          (some (.two (v1 i j) (v2 i j))) (some z) "corr" false none
        Except.ok r.1)
      let f ← cfg.foldFun viewOpsR 0
      let r ← foldCurve f r
      Except.ok (List.range r.length, r)) = _
    dsimp only [bind, Except.bind]
    rw [e]
    simp only [ViewConfig.foldFun, viewOpsR, foldCurve, hlen]
  obtain ⟨v, ev, hv⟩ := C91_corr_partial viewOpsR cfg hh hw hs hcomp hflat F0 hF0 rs hrs k angle sector kstep hsel S hS
    hne hny cell (fun p hp i j he => hc1 i j (hin p hp i j he).1 (hin p hp i j he).2) (List.range n') n' g hgc
  refine ⟨v, ev, ?_⟩
  rw [hv]
  congr 2
  unfold averageCurve
  refine List.map_congr_left fun d hd => meanOver_congr _ _ _ ?_
  rintro ⟨i, j⟩ hp
  obtain ⟨p1, p2, p3, -⟩ := (hS i j).mp hp
  rw [List.mem_range] at hd
  have hval : ∀ i j, (g i j).getD d none =
      if pairsAt false (stream (f1 i j) t1) (stream (f2 i j) t2) n' d = [] then none
      else some (crossFormula (.two (b1 i j) (b2 i j)) ((v1 i j + v2 i j) / 2) z
        (pairsAt false (stream (f1 i j) t1) (stream (f2 i j) t2) n' d)) := by
    intro i j
    rw [List.getD_eq_getElem?_getD]
    split
    · next h0 => rw [((hg2 i j).2 d hd).1 h0]; rfl
    · next h0 => rw [((hg2 i j).2 d hd).2 h0]; rfl
  unfold fullSpace
  dsimp only
  by_cases hj : 2 * j < w
  · rw [if_pos hj, hval]
  · rw [if_neg hj, hval]
    have hN := (hny i j p1 p2 p3).2
    unfold halfPlace
    rw [if_neg hj]
    have a1 := hf1 i j p1 p2
    have a2 := hf2 i j p1 p2
    have a3 := hb1 i j p1 p2
    have a4 := hb2 i j p1 p2
    have a5 := hv1 i j p1 p2
    have a6 := hv2 i j p1 p2
    dsimp only at a1 a2 a3 a4 a5 a6 ⊢
    rw [a1, a2, a3, a4, a5, a6, pairsAt_stream_map]
    by_cases h0 : pairsAt false (stream (f1 i j) t1) (stream (f2 i j) t2) n' d = []
    · simp [h0]
    · rw [if_neg (by simpa using h0), if_neg h0, crossFormula_conj _ _ _ _ hz]
      rfl

end

/-! ### Complex data -/

theorem cxProd_conj (a b : Cx ℝ) : cxProd a.conj b.conj = (cxProd a b).conj := by
  ext <;> simp [cxProd, Cx.conj]; ring

theorem conj_smul (r : ℝ) (a : Cx ℝ) : (r • a).conj = r • a.conj := by
  ext <;> simp [Cx.conj]

theorem conj_add (a b : Cx ℝ) : (a + b).conj = a.conj + b.conj := by
  ext <;> simp [Cx.conj]; ring

theorem mean_conj {α β : Type} (g : α → β → Cx ℝ) (P : List (α × β)) :
    mean (fun a b => (g a b).conj) P = (mean g P).conj := by
  unfold mean total
  rw [conj_smul, list_conj_sum]

theorem crossFormulaC_conj (b1 b2 : Cx ℝ) (z : Int) (P : List (Cx ℝ × Cx ℝ)) :
    crossFormulaC b1.conj b2.conj z (P.map (Prod.map Cx.conj Cx.conj)) = (crossFormulaC b1 b2 z P).conj := by
  unfold crossFormulaC
  split <;> simp only [mean_map, cxProd_conj, ← conj_sub, mean_conj]

theorem pairsAt_signed {α β : Type} (s1 : Stream α) (s2 : Stream β) (n k : Nat) (hk : k < 2 * n - 1) :
    pairsAt true s1 s2 (2 * n - 1) k = signedPairs s1 s2 (if k < n then (k : Int) else (k : Int) - (2 * n - 1 : Nat)) := by
  unfold pairsAt signedPairs cellDelay
  simp only [if_true, show (2 * n - 1 + 1) / 2 = n by omega]

theorem signedPairs_map {α β γ δ : Type} (φ : α → γ) (ψ : β → δ) (f1 : List α) (f2 : List β)
    (t1 t2 : Option (List Int)) (n : Nat) (d : Int) (hd : -n < d ∧ d < n) :
    signedPairs (stream (f1.map φ) t1) (stream (f2.map ψ) t2) d =
      (signedPairs (stream f1 t1) (stream f2 t2) d).map (Prod.map φ ψ) := by
  obtain ⟨k, hk, e⟩ : ∃ k : Nat, k < 2 * n - 1 ∧ (if k < n then (k : Int) else (k : Int) - (2 * n - 1 : Nat)) = d := by
    by_cases h : 0 ≤ d
    · refine ⟨d.toNat, by omega, ?_⟩
      rw [if_pos (by omega)]; omega
    · refine ⟨(d + (2 * n - 1 : Nat)).toNat, by omega, ?_⟩
      rw [if_neg (by omega)]; omega
  rw [← e, ← pairsAt_signed _ _ _ _ hk, ← pairsAt_signed _ _ _ _ hk, pairsAt_stream_map]

theorem allFinite_some {α : Type} (x : List α) : allFinite (x.map some) = .ok x := by
  unfold allFinite
  rw [mapM_id_some x some id (fun a _ => rfl), List.map_id]

theorem curve_some {α β M : Type} {n : Nat} {P : Nat → List (α × β)} {F : List (α × β) → M} {out : List (Option M)}
    (h : IsCurve n P F out) (hP : ∀ k < n, P k ≠ []) : out = ((List.range n).map fun k => F (P k)).map some := by
  apply List.ext_getElem?
  intro k
  by_cases hk : k < n
  · rw [(h.2 k hk).2 (hP k hk)]
    simp [hk]
  · rw [List.getElem?_eq_none (by rw [h.1]; omega), List.getElem?_eq_none (by simp; omega)]

section
variable {shape : Option (Nat × Nat)} {computed : Option (Arr2 Bool)} {flat : Bool} {h w : Nat}

/-- The cells of a viewer for the complex cross-correlation of the signals `f1`, `f2`. -/
def CrossCellsC (f1 f2 : Nat → Nat → List (Cx ℝ)) (t1 t2 : Option (List Int)) (n : Option Nat) (norm : Option Int)
    (method : Option String) (aligned : Bool) (b1 b2 : Nat → Nat → Cx ℝ) (i j : Nat)
    (c : ViewCell (NormData (Cx ℝ))) : Prop :=
  (∃ r, ccorrComplex (f1 i j) (f2 i j) t1 t2 n norm method aligned none none {} = .ok r ∧
    c.data = r.toData (effMethod method n)) ∧
  c.b1 = b1 i j ∧ c.b2 = b2 i j

/-- **C91, complex data, from the signals to the plot (partial: rings and sectors without Nyquist wave vectors; every
delay occurs).**  Complex cross-correlation data: the mean over the selected wave vectors of the whole space of the
covariance at delay `d`, itself the mean of that at `d` and the conjugate of that at `-d`. -/
theorem C91_signals_complex_partial (cfg : ViewConfig) (z : Int) (hz : z = 1 ∨ z = 5 ∨ z = 13)
    (hcn : cfg.norm = .num (some z)) (hsc : cfg.scale = false) (hsz : cfg.size = none) (hbg : cfg.bg = .tuple)
    (f1 f2 : Nat → Nat → List (Cx ℝ)) (t1 t2 : Option (List Int)) (n : Option Nat) (norm : Option Int)
    (method : Option String) (aligned : Bool) (n' N1 N2 : Nat) (hn' : 1 ≤ n') (b1 b2 : Nat → Nat → Cx ℝ)
    (hf1 : Hermitian (List.map Cx.conj) ⟨h, w, f1⟩) (hf2 : Hermitian (List.map Cx.conj) ⟨h, w, f2⟩)
    (hb1 : Hermitian Cx.conj ⟨h, w, b1⟩) (hb2 : Hermitian Cx.conj ⟨h, w, b2⟩)
    (hl1 : ∀ i j, (f1 i j).length = N1) (hl2 : ∀ i j, (f2 i j).length = N2)
    (call : CrossCall true N1 N2 t1 t2 n norm method n') (hp : z ≠ 1 → AskSums norm method n true)
    (hocc : ∀ d : Int, -n' < d → d < n' → ∀ i j, signedPairs (stream (f1 i j) t1) (stream (f2 i j) t2) d ≠ [])
    (hh : 1 ≤ h) (hw : 1 ≤ w) (hs : ShapeFits shape h w)
    (hcomp : ∀ c, computed = some c → c.h = h ∧ c.w = w / 2 + 1) (hflat : flat = true → computed ≠ none)
    (F0 : Arr2 (Option (ViewCell (NormData (Cx ℝ))))) (hF0 : F0.h = h ∧ F0.w = w)
    (rs : List (ViewReq (ViewCell (NormData (Cx ℝ))))) (hrs : ∀ r ∈ rs, r.Valid h w) (k : Nat) (angle sector kstep : ℝ)
    (hsel : lastSelect none rs = some (k, angle, sector, kstep)) (S : Finset (Nat × Nat))
    (hS : ViewCells h w shape computed angle sector kstep k S) (hne : S.Nonempty)
    (hny : NoNyquist h w shape angle sector kstep k)
    (hcell : ∀ i j : Nat, i < h → 2 * j < w → ∃ c, (lastData F0 rs).get i j = some c ∧
      CrossCellsC f1 f2 t1 t2 n norm method aligned b1 b2 i j c) :
    ∃ v, (DataView.new shape computed).run
        (.data (storedData computed flat F0) :: rs.map (ViewReq.op computed flat)) = .ok v ∧
      corrShown viewOpsC cfg v = .ok (List.range n', averageCurve S n' fun d i j => some (
        if d = 0 then crossFormulaC (b1 i j) (b2 i j) z (signedPairs (stream (f1 i j) t1) (stream (f2 i j) t2) 0)
        else (1 / 2 : ℝ) • (crossFormulaC (b1 i j) (b2 i j) z (signedPairs (stream (f1 i j) t1) (stream (f2 i j) t2) d) +
          (crossFormulaC (b1 i j) (b2 i j) z (signedPairs (stream (f1 i j) t1) (stream (f2 i j) t2) (-d))).conj))) := by
  classical
  obtain ⟨C, hC⟩ : ∃ C : Nat → Nat → Int → Cx ℝ, ∀ i j d, C i j d =
      crossFormulaC (b1 i j) (b2 i j) z (signedPairs (stream (f1 i j) t1) (stream (f2 i j) t2) d) :=
    ⟨_, fun _ _ _ => rfl⟩
  simp only [← hC]
  have hcurve : ∀ i j (var : Option Variance), ccorrNormalizedC (f1 i j) (f2 i j) t1 t2 n norm method aligned
      (.two (b1 i j) (b2 i j)) var z "corr" false = .ok (((List.range (2 * n' - 1)).map fun k =>
        C i j (if k < n' then (k : Int) else (k : Int) - (2 * n' - 1 : Nat))).map some) := by
    intro i j var
    have hc : CrossCall true (f1 i j).length (f2 i j).length t1 t2 n norm method n' := by rw [hl1, hl2]; exact call
    obtain ⟨out, e, ho⟩ : ∃ out, ccorrNormalizedC (f1 i j) (f2 i j) t1 t2 n norm method aligned
        (.two (b1 i j) (b2 i j)) var z "corr" false = .ok out ∧
        IsCurve (2 * n' - 1) (pairsAt true (stream (f1 i j) t1) (stream (f2 i j) t2) (2 * n' - 1))
          (crossFormulaC (b1 i j) (b2 i j) z) out := by
      rcases hz with rfl | rfl | rfl
      · exact C21_standard_complex (f1 i j) (f2 i j) t1 t2 n norm method aligned n' (.two (b1 i j) (b2 i j)) var hc _ rfl
      · exact C21_cross_complex (f1 i j) (f2 i j) t1 t2 n norm method aligned n' (.two (b1 i j) (b2 i j)) var hc _ rfl
          (hp (by decide)) 5 (by decide)
      · exact C21_cross_complex (f1 i j) (f2 i j) t1 t2 n norm method aligned n' (.two (b1 i j) (b2 i j)) var hc _ rfl
          (hp (by decide)) 13 (by decide)
    rw [e, curve_some ho]
    · congr 2
      refine List.map_congr_left fun k hk => ?_
      rw [hC, pairsAt_signed _ _ _ _ (List.mem_range.mp hk)]
    · intro k hk
      rw [pairsAt_signed _ _ _ _ hk]
      apply hocc <;> split <;> omega
  haveI : Nonempty (ViewCell (NormData (Cx ℝ))) := ⟨(hcell 0 0 (by omega) (by omega)).choose⟩
  choose! cell hc1 hc2 using hcell
  have hin : ∀ p ∈ S, ∀ i j : Nat, (i, j) = halfPlace h w p.1 p.2 → i < h ∧ 2 * j < w := by
    intro p hp i j he
    obtain ⟨p1, p2, p3, -⟩ := (hS p.1 p.2).mp hp
    exact halfPlace_inside hh p2 p1 (hny _ _ p1 p2 p3).2 he
  obtain ⟨G, hG⟩ : ∃ G : Nat → Nat → Nat → Cx ℝ, ∀ i j d, G i j d =
      if d = 0 then C i j 0 else (1 / 2 : ℝ) • (C i j d + (C i j (-d)).conj) := ⟨_, fun _ _ _ => rfl⟩
  simp only [← hG]
  have hfold : ∀ i j, foldData (.cplx ((List.range (2 * n' - 1)).map fun k =>
      C i j (if k < n' then (k : Int) else (k : Int) - (2 * n' - 1 : Nat)))) 0 = .ok ((List.range n').map (G i j)) := by
    intro i j
    obtain ⟨r, e, hr, h0, hk⟩ := C29_fold_mean n' hn' ((List.range (2 * n' - 1)).map fun k =>
      C i j (if k < n' then (k : Int) else (k : Int) - (2 * n' - 1 : Nat))) (by simp)
    rw [e]
    congr 1
    apply List.ext_getElem?
    intro d
    by_cases hd : d < n'
    · by_cases hd0 : d = 0
      · subst hd0
        rw [h0]
        simp [hG, show 0 < 2 * n' - 1 by omega, show 0 < n' by omega]
      · obtain ⟨x, y, hx, hy, e⟩ := hk d (by omega) hd
        rw [e]
        rw [List.getElem?_map, List.getElem?_range (by omega), Option.map_some, if_pos hd] at hx
        rw [List.getElem?_map, List.getElem?_range (by omega), Option.map_some, if_neg (by omega)] at hy
        rw [← Option.some.inj hx, ← Option.some.inj hy, List.getElem?_map, List.getElem?_range hd, Option.map_some, hG,
          if_neg hd0]
        congr 6
        omega
    · rw [List.getElem?_eq_none (by omega), List.getElem?_eq_none (by simp; omega)]
  have hgc : ∀ p ∈ S, ∀ i j : Nat, (i, j) = halfPlace h w p.1 p.2 →
      corrCurve viewOpsC cfg (cell i j) = .ok (List.range n', ((List.range n').map (G i j)).map some) ∧
        (((List.range n').map (G i j)).map some).length = n' := by
    intro p hp i j he
    obtain ⟨⟨r, hr, hdata⟩, e1, e2⟩ := hc2 i j (hin p hp i j he).1 (hin p hp i j he).2
    refine ⟨?_, by simp⟩
    have e := hcurve i j (cfg.var.variance (cell i j))
    unfold ccorrNormalizedC at e
    rw [hr] at e
    dsimp only [bind, Except.bind] at e
    unfold corrCurve viewNormalize
    rw [hcn, hsc, hsz, hdata, hbg]
    simp only [ViewArg.background, e1, e2]
    change (do
      let r ← (do
        let r ← normalize normOpsC (r.toData (effMethod method n)) (some (.two (b1 i j) (b2 i j)))
          (cfg.var.variance (cell i j)) (some z) "corr" false none
        Except.ok r.1)
      let f ← cfg.foldFun viewOpsC 0
      let r ← foldCurve f r
      Except.ok (List.range r.length, r)) = _
    dsimp only [bind, Except.bind]
    rw [e]
    simp only [ViewConfig.foldFun, viewOpsC, foldCurve, hbg, true_or, if_true, allFinite_some, bind, Except.bind, hfold]
    simp
  obtain ⟨v, ev, hv⟩ := C91_corr_partial viewOpsC cfg hh hw hs hcomp hflat F0 hF0 rs hrs k angle sector kstep hsel S hS
    hne hny cell (fun p hp i j he => hc1 i j (hin p hp i j he).1 (hin p hp i j he).2) (List.range n') n' _ hgc
  refine ⟨v, ev, ?_⟩
  rw [hv]
  congr 2
  unfold averageCurve
  refine List.map_congr_left fun d hd => meanOver_congr _ _ _ ?_
  rintro ⟨i, j⟩ hp
  obtain ⟨p1, p2, p3, -⟩ := (hS i j).mp hp
  rw [List.mem_range] at hd
  have hval : ∀ i j, ((((List.range n').map (G i j)).map some).getD d none) = some (G i j d) := by
    intro i j
    simp [hd]
  unfold fullSpace
  dsimp only
  by_cases hj : 2 * j < w
  · rw [if_pos hj, hval]
  · rw [if_neg hj, hval]
    have a1 := hf1 i j p1 p2
    have a2 := hf2 i j p1 p2
    have a3 := hb1 i j p1 p2
    have a4 := hb2 i j p1 p2
    have hCc : ∀ e : Int, -n' < e → e < n' →
        C (wrap h (-(i : Int))) (wrap w (-(j : Int))) e = (C i j e).conj := by
      intro e l1 l2
      dsimp only at a1 a2 a3 a4
      rw [hC, hC, a1, a2, a3, a4, signedPairs_map _ _ _ _ _ _ n' e ⟨l1, l2⟩, crossFormulaC_conj]
    unfold halfPlace
    rw [if_neg hj]
    change some ((G (wrap h (-(i : Int))) (wrap w (-(j : Int))) d).conj) = _
    rw [hG, hG]
    split
    · rw [hCc 0 (by omega) (by omega)]
      simp [Cx.conj]
    · rw [hCc d (by omega) (by omega), hCc (-d) (by omega) (by omega), conj_smul, conj_add]
      simp [Cx.conj]

end

/-! ### Missing background -/

section
variable {C : Type} [AddCommGroup C] [Module ℝ C]

theorem normalize_no_background (ops : NormOps C) (data : NormData C) (var : Option Variance) (z : Option Int)
    (scale : Bool) (w : Option (List C)) : normalize ops data none var z "corr" scale w = .error .valueError := by
  have hm : inspectMode "corr" = .ok "corr" := by simp [inspectMode]
  unfold normalize
  rw [hm]
  cases hn : normOf data z with
  | error e => rw [normOf_error hn]; rfl
  | ok n =>
    have hpos : n > 0 := by
      have := normOf_ok data z n hn
      cases data with
      | corr => exact Int.ofNat_lt.mp (by obtain ⟨h1, -⟩ := this; omega)
      | diff => rcases this with h | ⟨h, -⟩ <;> omega
      | other => cases this
    have hi : inspectBackground none n = .error .valueError := by simp [inspectBackground, hpos]
    have hw : normalizeWeighted ops data none var n "corr" scale w = .error .valueError := by
      unfold normalizeWeighted; rw [hi]; rfl
    have hp : normalizePlain ops data none var n "corr" scale = .error .valueError := by
      unfold normalizePlain; rw [hi]; rfl
    dsimp only [bind, Except.bind]
    rw [hw, hp]
    cases scale with
    | false => simp
    | true =>
      cases var with
      | none => simp [scaleFactor, Except.map]
      | some v => cases v <;> simp [scaleFactor, Except.map]

/-- **C91: no background.**  Without background both viewers raise ValueError at every pixel, whatever the data, the norm
and `fold`: that a missing background makes it impossible to tell whether to fold is never found out. -/
theorem C91_no_background (ops : ViewOps C) (cfg : ViewConfig) (hb : cfg.bg = .missing) :
    (∀ c, corrCurve ops cfg c = .error .valueError) ∧ (∀ c, multiCurve ops cfg c = .error .valueError) := by
  constructor
  · intro c
    have : viewNormalize ops.norm c.data none (cfg.var.variance c) cfg.norm cfg.scale = .error .valueError := by
      unfold viewNormalize
      cases cfg.norm with
      | num z => dsimp only; rw [normalize_no_background]; rfl
      | str s =>
        dsimp only [normalizeStr]
        have hm : inspectMode "corr" = .ok "corr" := by simp [inspectMode]
        rw [hm]
        cases hs : normFromString s with
        | error e =>
          rw [normFromString_error hs]
          cases c.data <;> rfl
        | ok x =>
          dsimp only [bind, Except.bind]
          rw [normalize_no_background]
          cases c.data <;> rfl
    unfold corrCurve
    rw [hb]
    simp only [ViewArg.background, this]
    rfl
  · intro c
    unfold multiCurve normalizeMulti
    rw [hb]
    simp only [ViewArg.background, normalize_no_background]
    cases hn : multiNorm c.data.1 cfg.norm "corr" with
    | ok n => rfl
    | error e =>
      have : e = .valueError := by
        cases hc : cfg.norm with
        | num z =>
          rw [hc, multiNorm_num _ _ _ (Or.inl rfl)] at hn
          exact normOf_error hn
        | str s =>
          cases hs : normFromString s with
          | error e' =>
            rw [hc, multiNorm_bad _ _ _ (Or.inr ⟨s, e', rfl, hs⟩)] at hn
            exact (Except.error.inj hn).symm
          | ok x =>
            rw [hc, multiNorm_str _ _ x hs _ (Or.inl rfl)] at hn
            exact normOf_error hn
      rw [this]
      rfl

/-- **C91: errors.**  If no pixel of the selection can be treated, all for the same reason, the viewer raises that
exception; without data or selection it raises ValueError. -/
theorem C91_errors {shape : Option (Nat × Nat)} {computed : Option (Arr2 Bool)} {flat : Bool} {h w : Nat} {D : Type}
    (hh : 1 ≤ h) (hw : 1 ≤ w) (hs : ShapeFits shape h w)
    (hcomp : ∀ c, computed = some c → c.h = h ∧ c.w = w / 2 + 1) (hflat : flat = true → computed ≠ none)
    (F0 : Arr2 (Option (ViewCell D))) (hF0 : F0.h = h ∧ F0.w = w)
    (rs : List (ViewReq (ViewCell D))) (hrs : ∀ r ∈ rs, r.Valid h w) (conj : C → C)
    (curve : ViewCell D → Py (List Nat × List (Option C))) :
    (shownCurve conj curve (DataView.new shape computed) = .error .valueError) ∧
    ∃ v, (DataView.new shape computed).run
        (.data (storedData computed flat F0) :: rs.map (ViewReq.op computed flat)) = .ok v ∧
      (lastSelect none rs = none → shownCurve conj curve v = .error .valueError) ∧
      ∀ (k : Nat) (angle sector kstep : ℝ), lastSelect none rs = some (k, angle, sector, kstep) →
        NoNyquist h w shape angle sector kstep k → ∀ S : Finset (Nat × Nat),
        ViewCells h w shape computed angle sector kstep k S → S.Nonempty → ∀ e : PyErr,
        (∀ p ∈ S, ∀ i j : Nat, (i, j) = halfPlace h w p.1 p.2 →
          ∃ c, (lastData F0 rs).get i j = some c ∧ curve c = .error e) →
        shownCurve conj curve v = .error e := by
  refine ⟨rfl, ?_⟩
  obtain ⟨v0, e0, i0⟩ := view_new (shape := shape) hcomp hflat F0 hF0
  obtain ⟨v, e, i⟩ := view_run hh hw hs hcomp hflat rs i0 hrs
  refine ⟨v, by simp only [DataView.run, DataView.step, e0, bind, Except.bind, e], ?_, ?_⟩
  · intro hn
    unfold shownCurve
    rw [i.data_eq, i.none_eq hn]
  · intro k angle sector kstep hsel hny S hS hne err herr
    rw [hsel] at i
    classical
    obtain ⟨c0⟩ : Nonempty (ViewCell D) := by
      obtain ⟨p, hp⟩ := hne
      obtain ⟨c, -, -⟩ := herr p hp _ _ rfl
      exact ⟨c⟩
    have hget : ∀ p ∈ S, ∀ i j : Nat, (i, j) = halfPlace h w p.1 p.2 →
        (lastData F0 rs).get i j = some (((lastData F0 rs).get i j).getD c0) ∧
          curve (((lastData F0 rs).get i j).getD c0) = .error err := by
      intro p hp i j he
      obtain ⟨c, hc, hcc⟩ := herr p hp i j he
      rw [hc]
      exact ⟨rfl, hcc⟩
    exact (shown_average hh hw hs hcomp hflat i S hS hne hny conj curve
      (fun i j => ((lastData F0 rs).get i j).getD c0) (fun p hp i j he => (hget p hp i j he).1)).2 err
      (fun p hp i j he => (hget p hp i j he).2)

end

/-! ### Folding -/

/-- `fold=False` is not different from `fold=True`. -/
theorem C91_fold_false_refuted (cfg : ViewConfig) :
    (∀ c, corrCurve viewOpsC { cfg with fold := some false } c = corrCurve viewOpsC { cfg with fold := some true } c) ∧
    (∀ c, multiCurve viewOpsC { cfg with fold := some false } c = multiCurve viewOpsC { cfg with fold := some true } c) :=
  ⟨fun _ => rfl, fun _ => rfl⟩

end Cddm
