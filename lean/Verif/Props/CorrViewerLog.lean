import Verif.Props.CorrViewerCases
import Verif.Props.LogAvg
import Verif.Props.NormMulti

/-!
# What the viewers of raw correlation data show with log-averaging and for multi-tau data (C91)
-/

namespace Cddm
open Spec

section
variable {V : Type} {K : Type} [Field K] [AddCommGroup V] [Module K V]

theorem doublings_unique {size N L M : Nat} (hL : IsDoublings size N L) (hM : IsDoublings size N M) : L = M := by
  rcases Nat.lt_trichotomy L M with h | h | h
  · exact absurd (hM.2 L h) (by have := hL.1; omega)
  · exact h
  · exact absurd (hL.2 M h) (by have := hM.1; omega)

theorem increasing_ext {x y : List Nat} (hx : x.Pairwise (· < ·)) (hy : y.Pairwise (· < ·))
    (h : ∀ t, t ∈ x ↔ t ∈ y) : x = y := by
  have hp : x.Perm y := (List.perm_ext_iff_of_nodup (hx.imp fun h => Nat.ne_of_lt h) (hy.imp fun h => Nat.ne_of_lt h)).mpr h
  exact hp.eq_of_pairwise (fun a b _ _ h1 h2 => by omega) hx hy

theorem logTimes_unique {N size : Nat} {x y : List Nat} (hx : IsLogTimes N size x) (hy : IsLogTimes N size y) : x = y := by
  obtain ⟨h1, L, hL, h2⟩ := hx
  obtain ⟨h3, M, hM, h4⟩ := hy
  cases doublings_unique hL hM
  exact increasing_ext h1 h3 fun t => (h2 t).trans (h4 t).symm

variable (K)

theorem multilevel_merge_isLogAverage (data : List V) (size : Nat) (hs : 1 ≤ size) :
    ∃ rows x y, multilevel K data ((2 * size : Nat) : Int) 1 (fun _ => false) = .ok rows ∧
      mergeMultilevel rows (2 * size) "full" = .ok (x, y) ∧ IsLogAverage K data size x y := by
  obtain ⟨L, rows, hL, e, hl, hr⟩ := C42_mean K data (2 * size) (by omega) (fun _ => false)
  obtain ⟨x, y, e2, h1, h2, h3⟩ := C43_merge_full rows (2 * size) (by omega)
    (by rintro rfl; simp at hl) (by
      intro r hr'
      obtain ⟨l, hl'⟩ := List.mem_iff_getElem?.mp hr'
      exact (hr l r hl').1)
  have hzip : ∀ t, t ∈ x ↔ ∃ v, (t, v) ∈ x.zip y := by
    intro t
    constructor
    · intro ht
      obtain ⟨k, hk, rfl⟩ := List.mem_iff_getElem.mp ht
      exact ⟨y[k]'(by omega), List.mem_iff_getElem?.mpr
        ⟨k, by rw [List.getElem?_zip_eq_some]; exact ⟨List.getElem?_eq_getElem hk, List.getElem?_eq_getElem (by omega)⟩⟩⟩
    · rintro ⟨v, hv⟩
      exact (List.of_mem_zip hv).1
  refine ⟨rows, x, y, e, e2, ⟨h2, L, hL, fun t => ?_⟩, h1, ?_⟩
  · rw [hzip]
    constructor
    · rintro ⟨v, hv⟩
      obtain ⟨l, row, j, g1, g2, rfl, g4⟩ := (h3 t v).mp hv
      have hlL : l < rows.length := by
        by_contra hc
        rw [List.getElem?_eq_none (by omega)] at g1; cases g1
      have hj : j < 2 * size := by
        rw [← (hr l row g1).1]; by_contra hc
        rw [List.getElem?_eq_none (by omega)] at g2; cases g2
      by_cases h0 : l = 0
      · subst h0
        exact Or.inl (by simpa using hj)
      · exact Or.inr ⟨l, j, by omega, by omega, by omega, hj, rfl⟩
    · have mk : ∀ l j, l ≤ L → j < 2 * size → (l = 0 ∨ size ≤ j) → ∃ v, (j * 2 ^ l, v) ∈ x.zip y := by
        intro l j h1 h2 h4
        have hl' : l < rows.length := by omega
        obtain ⟨q1, q2⟩ := hr l rows[l] (List.getElem?_eq_getElem hl')
        obtain ⟨c, k1, _⟩ := q2 j h2
        exact ⟨c, (h3 _ _).mpr ⟨l, _, j, List.getElem?_eq_getElem hl', k1, rfl, h4.imp_right fun h => by omega⟩⟩
      rintro (h | ⟨l, j, a1, a2, a3, a4, rfl⟩)
      · simpa using mk 0 t (by omega) h (Or.inl rfl)
      · exact mk l j a2 a4 (Or.inr a3)
  · intro t v htv
    obtain ⟨l, row, j, g1, g2, rfl, g4⟩ := (h3 t v).mp htv
    obtain ⟨hrl, hrj⟩ := hr l row g1
    have hj : j < 2 * size := by
      rw [← hrl]; by_contra hc
      rw [List.getElem?_eq_none (by omega)] at g2; cases g2
    obtain ⟨x', y', e', -, -, hv, -⟩ := C43_log_average K data size hs
    have he : logAverage K data size = .ok (x, y) := by
      unfold logAverage
      rw [if_neg (by omega), show (size : Int) * 2 = ((2 * size : Nat) : Int) by push_cast; ring, e]
      exact e2
    rw [he, Except.ok.injEq, Prod.mk.injEq] at e'
    obtain ⟨rfl, rfl⟩ := e'
    exact hv _ v htv

/-- What `log_average` returns. -/
theorem logAverage_isLogAverage (data : List V) (size : Nat) (hs : 1 ≤ size) :
    ∃ x y, logAverage K data size = .ok (x, y) ∧ IsLogAverage K data size x y := by
  obtain ⟨rows, x, y, e, e2, h⟩ := multilevel_merge_isLogAverage K data size hs
  refine ⟨x, y, ?_, h⟩
  unfold logAverage
  rw [if_neg (by omega), show (size : Int) * 2 = ((2 * size : Nat) : Int) by push_cast; ring, e]
  exact e2

/-- What `log_merge` returns. -/
theorem logMerge_isLogMerge (lin : List V) (multi : List (List V)) (period n : Nat) (hp : 1 ≤ period)
    (hn : 2 ≤ n) (he : n % 2 = 0) (hlin : lin.length = period * n) (hm : ∀ r ∈ multi, r.length = n) :
    ∃ x y, logMerge K lin multi n 1 (fun _ => false) = .ok (x, y) ∧ IsLogMerge K lin multi period n x y := by
  obtain ⟨L, rows, xf, yf, xs, ys, -, e, -, e2, e3, h1, h2, h3, h4, h5, -⟩ :=
    C44_log_merge K lin multi period n hn he hlin hm 1 (by decide) (fun _ => false)
  obtain ⟨rows', x', y', a1, a2, a3⟩ := multilevel_merge_isLogAverage K lin (n / 2) (by omega)
  rw [show 2 * (n / 2) = n by omega] at a1 a2
  rw [e, Except.ok.injEq] at a1
  subst a1
  rw [e2, Except.ok.injEq, Prod.mk.injEq] at a2
  obtain ⟨rfl, rfl⟩ := a2
  exact ⟨_, _, e3, xf, yf, xs, ys, rfl, rfl, a3, h5 hp, h2, h3⟩

variable {K}

theorem zip_times {α : Type} (x : List Nat) (y : List α) (h : x.length = y.length) (t : Nat) :
    t ∈ x ↔ ∃ v, (t, v) ∈ x.zip y := by
  constructor
  · intro ht
    obtain ⟨k, hk, rfl⟩ := List.mem_iff_getElem.mp ht
    exact ⟨y[k]'(by omega), List.mem_iff_getElem?.mpr
      ⟨k, by rw [List.getElem?_zip_eq_some]; exact ⟨List.getElem?_eq_getElem hk, List.getElem?_eq_getElem (by omega)⟩⟩⟩
  · rintro ⟨v, hv⟩
    exact (List.of_mem_zip hv).1

/-- The times of merged data depend on the shape of the data only. -/
theorem logMerge_times {lin lin' : List V} {multi multi' : List (List V)} {period n : Nat} {x x' : List Nat}
    {y y' : List (Option V)} (h : IsLogMerge K lin multi period n x y) (h' : IsLogMerge K lin' multi' period n x' y')
    (hl : lin.length = lin'.length) (hm : multi.length = multi'.length) (hr : ∀ r ∈ multi, r.length = n)
    (hr' : ∀ r ∈ multi', r.length = n) : x = x' := by
  have times : ∀ {m : List (List V)} {xs : List Nat} {ys : List (Option V)}, (∀ r ∈ m, r.length = n) →
      xs.length = ys.length → (∀ t v, (t, v) ∈ xs.zip ys ↔ ∃ l row j w, m[l]? = some row ∧ row[j]? = some w ∧
        v = some w ∧ n / 2 ≤ j ∧ t = 2 * period * (j * 2 ^ l)) →
      ∀ t, t ∈ xs ↔ ∃ l j, l < m.length ∧ n / 2 ≤ j ∧ j < n ∧ t = 2 * period * (j * 2 ^ l) := by
    intro m xs ys hr hlen hz t
    rw [zip_times xs ys hlen]
    constructor
    · rintro ⟨v, hv⟩
      obtain ⟨l, row, j, w, g1, g2, -, g4, g5⟩ := (hz t v).mp hv
      have hl : l < m.length := by
        by_contra hc
        rw [List.getElem?_eq_none (by omega)] at g1; cases g1
      have hj : j < n := by
        rw [← hr row (List.mem_of_getElem? g1)]; by_contra hc
        rw [List.getElem?_eq_none (by omega)] at g2; cases g2
      exact ⟨l, j, hl, g4, hj, g5⟩
    · rintro ⟨l, j, hl, g4, hj, g5⟩
      have hrow := hr m[l] (List.getElem_mem hl)
      exact ⟨some (m[l][j]'(by omega)), (hz _ _).mpr ⟨l, m[l], j, _, List.getElem?_eq_getElem hl,
        List.getElem?_eq_getElem (by omega), rfl, g4, g5⟩⟩
  obtain ⟨xf, yf, xs, ys, rfl, rfl, a1, a2, a3, a4⟩ := h
  obtain ⟨xf', yf', xs', ys', rfl, rfl, b1, b2, b3, b4⟩ := h'
  rw [logTimes_unique a1.1 (hl ▸ b1.1), increasing_ext a2 b2 fun t =>
    (times hr a3 a4 t).trans (by rw [hm]; exact (times hr' b3 b4 t).symm)]

theorem logMerge_length {lin : List V} {multi : List (List V)} {period n : Nat} {x : List Nat}
    {y : List (Option V)} (h : IsLogMerge K lin multi period n x y) : x.length = y.length := by
  obtain ⟨xf, yf, xs, ys, rfl, rfl, a1, -, a3, -⟩ := h
  rw [List.length_append, List.length_append, a1.2.1, a3]

end

/-! ### One pixel -/

section
variable {C : Type} [AddCommGroup C] [Module ℝ C]

theorem viewNormalize_eq (ops : NormOps C) (data : NormData C) (bg : Option Background) (var : Option Variance)
    (norm : NormArg) (scale : Bool) :
    viewNormalize ops data bg var norm scale = normalizeArg ops data bg var norm "corr" scale := by
  unfold viewNormalize normalizeArg
  rfl

/-- A pixel of real data, or of complex data that are not folded. -/
theorem corrCurve_of (ops : ViewOps C) (cfg : ViewConfig) (c : ViewCell (NormData C)) {r r' : List (Option C)}
    {f : Option (List C → Py (List C))} (hr : normalizeArg ops.norm c.data (cfg.bg.background c) (cfg.var.variance c) cfg.norm "corr" cfg.scale = .ok r)
    (hf : cfg.foldFun ops 0 = .ok f) (hr' : foldCurve f r = .ok r') :
    (cfg.size = none → corrCurve ops cfg c = .ok (List.range r'.length, r')) ∧
    ∀ (size : Int) (x : List C), cfg.size = some size → r' = x.map some → corrCurve ops cfg c = ops.logAverage x size := by
  constructor
  · intro hs
    unfold corrCurve
    rw [viewNormalize_eq, hr]
    dsimp only [bind, Except.bind]
    rw [hf]
    dsimp only
    rw [hr']
    dsimp only
    rw [hs]
  · intro size x hs hx
    subst hx
    unfold corrCurve
    rw [viewNormalize_eq, hr]
    dsimp only [bind, Except.bind]
    rw [hf]
    dsimp only
    rw [hr']
    dsimp only
    rw [hs]
    dsimp only
    rw [allFinite_some]

theorem multiCurve_of (ops : ViewOps C) (cfg : ViewConfig) (c : ViewCell (NormData C × List (NormData C)))
    {r : List (Option C) × List (List (Option C))} {fast : List (Option C)} {slow : List (List (Option C))}
    {f : Option (List C → Py (List C))}
    (hr : normalizeMulti ops.norm c.data.1 c.data.2 (cfg.bg.background c) (cfg.var.variance c) cfg.norm "corr" cfg.scale = .ok r)
    (hf : cfg.foldFun ops 1 = .ok f) (hfast : foldCurve f r.1 = .ok fast) (hslow : r.2.mapM (foldCurve f) = .ok slow) :
    (cfg.semilogx = false → multiCurve ops cfg c = .ok (List.range fast.length, fast)) ∧
    ∀ (lin : List C) (multi : List (List C)) (n : Nat), cfg.semilogx = true → fast = lin.map some →
      slow = multi.map (List.map some) → multi ≠ [] → (∀ row ∈ multi, row.length = n) →
      multiCurve ops cfg c = ops.logMerge lin multi n := by
  constructor
  · intro hs
    unfold multiCurve
    rw [hr]
    dsimp only [bind, Except.bind]
    rw [hf]
    dsimp only
    rw [hfast]
    dsimp only
    rw [hslow, hs]
    rfl
  · intro lin multi n hs h1 h2 hne hrow
    have hall : slow.mapM allFinite = .ok multi := by
      rw [h2, List.mapM_map]
      have := mapM_ok multi (fun r => allFinite (r.map some)) id fun r _ => allFinite_some r
      rw [List.map_id] at this
      exact this
    unfold multiCurve
    rw [hr]
    dsimp only [bind, Except.bind]
    rw [hf]
    dsimp only
    rw [hfast]
    dsimp only
    rw [hslow, hs]
    dsimp only
    rw [if_pos rfl, h1, allFinite_some]
    dsimp only
    rw [hall]
    cases multi with
    | nil => exact absurd rfl hne
    | cons row rest =>
      dsimp only
      rw [hrow row (by simp)]

end

/-! ### The viewers -/

theorem mapM_fold_some {α β : Type} (f : α → Py (List β)) (l : List α) (m : List (List β)) (h : l.mapM f = .ok m) :
    l.mapM (fun a => Except.bind (f a) fun y => Except.ok (y.map some)) = .ok (m.map (List.map some)) := by
  induction l generalizing m with
  | nil =>
    rw [List.mapM_nil] at h
    cases h
    rfl
  | cons a l ih =>
    rw [List.mapM_cons] at h
    cases ha : f a with
    | error e => rw [ha] at h; cases h
    | ok y =>
      cases hl : l.mapM f with
      | error e => rw [ha, hl] at h; cases h
      | ok ys =>
        rw [ha, hl] at h
        cases h
        rw [List.mapM_cons, ih ys hl, ha]
        rfl

section
variable {shape : Option (Nat × Nat)} {computed : Option (Arr2 Bool)} {flat : Bool} {h w : Nat}

section
variable {C : Type} [AddCommGroup C] [Module ℝ C]

theorem inside_of_selected (hh : 1 ≤ h) {angle sector kstep : ℝ} {k : Nat} {S : Finset (Nat × Nat)}
    (hS : ViewCells h w shape computed angle sector kstep k S) (hny : NoNyquist h w shape angle sector kstep k) :
    ∀ p ∈ S, ∀ i j : Nat, (i, j) = halfPlace h w p.1 p.2 → i < h ∧ 2 * j < w := by
  intro p hp i j he
  obtain ⟨p1, p2, p3, -⟩ := (hS p.1 p.2).mp hp
  exact halfPlace_inside hh p2 p1 (hny _ _ p1 p2 p3).2 he

theorem log_core (ops : ViewOps C) (hops : ops.logAverage = fun x s => logAverage ℝ x s) (cfg : ViewConfig)
    (hh : 1 ≤ h) (hw : 1 ≤ w) (hs : ShapeFits shape h w)
    (hcomp : ∀ c, computed = some c → c.h = h ∧ c.w = w / 2 + 1) (hflat : flat = true → computed ≠ none)
    (F0 : Arr2 (Option (ViewCell (NormData C)))) (hF0 : F0.h = h ∧ F0.w = w)
    (rs : List (ViewReq (ViewCell (NormData C)))) (hrs : ∀ r ∈ rs, r.Valid h w) (k : Nat) (angle sector kstep : ℝ)
    (hsel : lastSelect none rs = some (k, angle, sector, kstep)) (S : Finset (Nat × Nat))
    (hS : ViewCells h w shape computed angle sector kstep k S) (hne : S.Nonempty)
    (hny : NoNyquist h w shape angle sector kstep k) (cell : Nat → Nat → ViewCell (NormData C))
    (hcell : ∀ i j : Nat, i < h → 2 * j < w → (lastData F0 rs).get i j = some (cell i j))
    (size N : Nat) (hsize : 1 ≤ size) (x : Nat → Nat → List C) (hN : ∀ i j, (x i j).length = N)
    (hx : ∀ i j : Nat, i < h → 2 * j < w → corrCurve ops cfg (cell i j) = ops.logAverage (x i j) size) :
    ∃ v, (DataView.new shape computed).run
        (.data (storedData computed flat F0) :: rs.map (ViewReq.op computed flat)) = .ok v ∧
      ∃ (t : List Nat) (y : Nat → Nat → List (Option C)), (∀ i j, IsLogAverage ℝ (x i j) size t (y i j)) ∧
        corrShown ops cfg v = .ok (t, averageCurve S t.length fun n =>
          fullSpace ops.conj h w fun i j => (y i j).getD n none) := by
  choose t y e hl using fun i j => logAverage_isLogAverage ℝ (x i j) size hsize
  have ht : ∀ i j, t i j = t 0 0 := by
    intro i j
    have h1 := (hl i j).1
    have h2 := (hl 0 0).1
    rw [hN] at h1 h2
    exact logTimes_unique h1 h2
  obtain ⟨v, e1, e2⟩ := C91_corr_partial ops cfg hh hw hs hcomp hflat F0 hF0 rs hrs k angle sector kstep hsel S hS
    hne hny cell (fun p hp i j he => hcell i j (inside_of_selected hh hS hny p hp i j he).1
      (inside_of_selected hh hS hny p hp i j he).2) (t 0 0) (t 0 0).length y
    (fun p hp i j he => by
      obtain ⟨q1, q2⟩ := inside_of_selected hh hS hny p hp i j he
      rw [hx i j q1 q2, hops]
      dsimp only
      rw [e, ht]
      exact ⟨rfl, by rw [← (hl i j).2.1, ht]⟩)
  exact ⟨v, e1, t 0 0, y, fun i j => by rw [← ht i j]; exact hl i j, e2⟩

theorem merge_core (ops : ViewOps C) (hops : ops.logMerge = fun l m n => logMerge ℝ l m n 1 fun _ => false)
    (cfg : ViewConfig)
    (hh : 1 ≤ h) (hw : 1 ≤ w) (hs : ShapeFits shape h w)
    (hcomp : ∀ c, computed = some c → c.h = h ∧ c.w = w / 2 + 1) (hflat : flat = true → computed ≠ none)
    (F0 : Arr2 (Option (ViewCell (NormData C × List (NormData C))))) (hF0 : F0.h = h ∧ F0.w = w)
    (rs : List (ViewReq (ViewCell (NormData C × List (NormData C))))) (hrs : ∀ r ∈ rs, r.Valid h w) (k : Nat) (angle sector kstep : ℝ)
    (hsel : lastSelect none rs = some (k, angle, sector, kstep)) (S : Finset (Nat × Nat))
    (hS : ViewCells h w shape computed angle sector kstep k S) (hne : S.Nonempty)
    (hny : NoNyquist h w shape angle sector kstep k) (cell : Nat → Nat → ViewCell (NormData C × List (NormData C)))
    (hcell : ∀ i j : Nat, i < h → 2 * j < w → (lastData F0 rs).get i j = some (cell i j))
    (period n M : Nat) (hper : 1 ≤ period) (hn : 2 ≤ n) (hev : n % 2 = 0) (lin : Nat → Nat → List C)
    (multi : Nat → Nat → List (List C)) (hlin : ∀ i j, (lin i j).length = period * n)
    (hmulti : ∀ i j, (multi i j).length = M ∧ ∀ row ∈ multi i j, row.length = n)
    (hx : ∀ i j : Nat, i < h → 2 * j < w → multiCurve ops cfg (cell i j) = ops.logMerge (lin i j) (multi i j) n) :
    ∃ v, (DataView.new shape computed).run
        (.data (storedData computed flat F0) :: rs.map (ViewReq.op computed flat)) = .ok v ∧
      ∃ (t : List Nat) (y : Nat → Nat → List (Option C)), (∀ i j, IsLogMerge ℝ (lin i j) (multi i j) period n t (y i j)) ∧
        multiShown ops cfg v = .ok (t, averageCurve S t.length fun d =>
          fullSpace ops.conj h w fun i j => (y i j).getD d none) := by
  choose t y e hl using fun i j => logMerge_isLogMerge ℝ (lin i j) (multi i j) period n hper hn hev (hlin i j)
    (hmulti i j).2
  have ht : ∀ i j, t i j = t 0 0 := fun i j => logMerge_times (hl i j) (hl 0 0) (by rw [hlin, hlin])
    (by rw [(hmulti i j).1, (hmulti 0 0).1]) (hmulti i j).2 (hmulti 0 0).2
  obtain ⟨v, e1, e2⟩ := C91_multi_partial ops cfg hh hw hs hcomp hflat F0 hF0 rs hrs k angle sector kstep hsel S hS
    hne hny cell (fun p hp i j he => hcell i j (inside_of_selected hh hS hny p hp i j he).1
      (inside_of_selected hh hS hny p hp i j he).2) (t 0 0) (t 0 0).length y
    (fun p hp i j he => by
      obtain ⟨q1, q2⟩ := inside_of_selected hh hS hny p hp i j he
      rw [hx i j q1 q2, hops]
      dsimp only
      rw [e, ht]
      exact ⟨rfl, by rw [← logMerge_length (hl i j), ht]⟩)
  exact ⟨v, e1, t 0 0, y, fun i j => by rw [← ht i j]; exact hl i j, e2⟩

end

/-- **C91, log-averaging (partial: rings and sectors without Nyquist wave vectors; finite curves).**  A `CorrViewer` with
`size` shows for real data the mean over the selected wave vectors of the log-averages, with that `size`, of the data
normalised with the given `norm` and `scale`. -/
theorem C91_log_partial (cfg : ViewConfig) (size N : Nat) (hsize : 1 ≤ size) (hcs : cfg.size = some (size : Int))
    (hh : 1 ≤ h) (hw : 1 ≤ w) (hs : ShapeFits shape h w)
    (hcomp : ∀ c, computed = some c → c.h = h ∧ c.w = w / 2 + 1) (hflat : flat = true → computed ≠ none)
    (F0 : Arr2 (Option (ViewCell (NormData ℝ)))) (hF0 : F0.h = h ∧ F0.w = w)
    (rs : List (ViewReq (ViewCell (NormData ℝ)))) (hrs : ∀ r ∈ rs, r.Valid h w) (k : Nat) (angle sector kstep : ℝ)
    (hsel : lastSelect none rs = some (k, angle, sector, kstep)) (S : Finset (Nat × Nat))
    (hS : ViewCells h w shape computed angle sector kstep k S) (hne : S.Nonempty)
    (hny : NoNyquist h w shape angle sector kstep k) (cell : Nat → Nat → ViewCell (NormData ℝ))
    (hcell : ∀ i j : Nat, i < h → 2 * j < w → (lastData F0 rs).get i j = some (cell i j))
    (x : Nat → Nat → List ℝ) (hN : ∀ i j, (x i j).length = N)
    (hx : ∀ i j : Nat, i < h → 2 * j < w → normalizeArg normOpsR (cell i j).data (cfg.bg.background (cell i j))
      (cfg.var.variance (cell i j)) cfg.norm "corr" cfg.scale = .ok ((x i j).map some)) :
    ∃ v, (DataView.new shape computed).run
        (.data (storedData computed flat F0) :: rs.map (ViewReq.op computed flat)) = .ok v ∧
      ∃ (t : List Nat) (y : Nat → Nat → List (Option ℝ)), (∀ i j, IsLogAverage ℝ (x i j) size t (y i j)) ∧
        corrShown viewOpsR cfg v = .ok (t, averageCurve S t.length fun n =>
          fullSpace id h w fun i j => (y i j).getD n none) :=
  log_core viewOpsR rfl cfg hh hw hs hcomp hflat F0 hF0 rs hrs k angle sector kstep hsel S hS
    hne hny cell hcell size N hsize x hN fun i j hi hj =>
    (corrCurve_of viewOpsR cfg (cell i j) (f := none) (hx i j hi hj) rfl rfl).2 size (x i j) hcs rfl

/-- **C91, log-averaging of complex data (partial: rings and sectors without Nyquist wave vectors; finite curves).**  The
same for complex data with two backgrounds: the normalised data are folded first. -/
theorem C91_log_complex_partial (cfg : ViewConfig) (hbg : cfg.bg = .tuple) (size N : Nat) (hsize : 1 ≤ size)
    (hcs : cfg.size = some (size : Int))
    (hh : 1 ≤ h) (hw : 1 ≤ w) (hs : ShapeFits shape h w)
    (hcomp : ∀ c, computed = some c → c.h = h ∧ c.w = w / 2 + 1) (hflat : flat = true → computed ≠ none)
    (F0 : Arr2 (Option (ViewCell (NormData (Cx ℝ))))) (hF0 : F0.h = h ∧ F0.w = w)
    (rs : List (ViewReq (ViewCell (NormData (Cx ℝ))))) (hrs : ∀ r ∈ rs, r.Valid h w) (k : Nat) (angle sector kstep : ℝ)
    (hsel : lastSelect none rs = some (k, angle, sector, kstep)) (S : Finset (Nat × Nat))
    (hS : ViewCells h w shape computed angle sector kstep k S) (hne : S.Nonempty)
    (hny : NoNyquist h w shape angle sector kstep k) (cell : Nat → Nat → ViewCell (NormData (Cx ℝ)))
    (hcell : ∀ i j : Nat, i < h → 2 * j < w → (lastData F0 rs).get i j = some (cell i j))
    (x z : Nat → Nat → List (Cx ℝ)) (hN : ∀ i j, (x i j).length = N)
    (hz : ∀ i j : Nat, i < h → 2 * j < w → normalizeArg normOpsC (cell i j).data (cfg.bg.background (cell i j))
      (cfg.var.variance (cell i j)) cfg.norm "corr" cfg.scale = .ok ((z i j).map some))
    (hx : ∀ i j : Nat, i < h → 2 * j < w → foldData (.cplx (z i j)) 0 = .ok (x i j)) :
    ∃ v, (DataView.new shape computed).run
        (.data (storedData computed flat F0) :: rs.map (ViewReq.op computed flat)) = .ok v ∧
      ∃ (t : List Nat) (y : Nat → Nat → List (Option (Cx ℝ))), (∀ i j, IsLogAverage ℝ (x i j) size t (y i j)) ∧
        corrShown viewOpsC cfg v = .ok (t, averageCurve S t.length fun n =>
          fullSpace Cx.conj h w fun i j => (y i j).getD n none) := by
  have hla : viewOpsC.logAverage = fun x s => logAverage ℝ x s := by
    funext x s
    by_cases hs1 : s < 1
    · simp [viewOpsC, logAverageComplex, logAverage, hs1]
    · obtain ⟨m, rfl⟩ : ∃ m : Nat, s = m := ⟨s.toNat, by omega⟩
      exact (C43_log_average_complex x m (by omega)).2.1
  refine log_core viewOpsC hla cfg hh hw hs hcomp hflat F0 hF0 rs hrs k angle sector kstep hsel S hS
    hne hny cell hcell size N hsize x hN fun i j hi hj =>
    (corrCurve_of viewOpsC cfg (cell i j) (f := some (fun y => foldData (.cplx y) 0)) (r' := (x i j).map some)
      (hz i j hi hj) ?_ ?_).2 size (x i j) hcs rfl
  · simp [ViewConfig.foldFun, viewOpsC, hbg]
  · simp only [foldCurve, allFinite_some, bind, Except.bind, hx i j hi hj]

/-- **C91, multi-tau data, semilogarithmic plot (partial: rings and sectors without Nyquist wave vectors; finite curves).**
A `MultitauViewer` shows for real data the mean over the selected wave vectors of the merged curves of the data normalised
with the given `norm` and `scale`. -/
theorem C91_merge_partial (cfg : ViewConfig) (hsl : cfg.semilogx = true)
    (period n M : Nat) (hper : 1 ≤ period) (hn : 2 ≤ n) (hev : n % 2 = 0) (hM : 1 ≤ M)
    (hh : 1 ≤ h) (hw : 1 ≤ w) (hs : ShapeFits shape h w)
    (hcomp : ∀ c, computed = some c → c.h = h ∧ c.w = w / 2 + 1) (hflat : flat = true → computed ≠ none)
    (F0 : Arr2 (Option (ViewCell (NormData ℝ × List (NormData ℝ))))) (hF0 : F0.h = h ∧ F0.w = w)
    (rs : List (ViewReq (ViewCell (NormData ℝ × List (NormData ℝ))))) (hrs : ∀ r ∈ rs, r.Valid h w) (k : Nat) (angle sector kstep : ℝ)
    (hsel : lastSelect none rs = some (k, angle, sector, kstep)) (S : Finset (Nat × Nat))
    (hS : ViewCells h w shape computed angle sector kstep k S) (hne : S.Nonempty)
    (hny : NoNyquist h w shape angle sector kstep k) (cell : Nat → Nat → ViewCell (NormData ℝ × List (NormData ℝ)))
    (hcell : ∀ i j : Nat, i < h → 2 * j < w → (lastData F0 rs).get i j = some (cell i j))
    (lin : Nat → Nat → List ℝ) (multi : Nat → Nat → List (List ℝ)) (hlin : ∀ i j, (lin i j).length = period * n)
    (hmulti : ∀ i j, (multi i j).length = M ∧ ∀ row ∈ multi i j, row.length = n)
    (hform : ∀ i j : Nat, i < h → 2 * j < w → ∀ d ∈ (cell i j).data.2, SameForm d (cell i j).data.1)
    (hx : ∀ i j : Nat, i < h → 2 * j < w → normalizeArg normOpsR (cell i j).data.1 (cfg.bg.background (cell i j))
      (cfg.var.variance (cell i j)) cfg.norm "corr" cfg.scale = .ok ((lin i j).map some))
    (hy : ∀ i j : Nat, i < h → 2 * j < w → (cell i j).data.2.mapM (fun d => normalizeArg normOpsR d
      (cfg.bg.background (cell i j)) (cfg.var.variance (cell i j)) cfg.norm "corr" cfg.scale) =
        .ok ((multi i j).map (List.map some))) :
    ∃ v, (DataView.new shape computed).run
        (.data (storedData computed flat F0) :: rs.map (ViewReq.op computed flat)) = .ok v ∧
      ∃ (t : List Nat) (y : Nat → Nat → List (Option ℝ)), (∀ i j, IsLogMerge ℝ (lin i j) (multi i j) period n t (y i j)) ∧
        multiShown viewOpsR cfg v = .ok (t, averageCurve S t.length fun d =>
          fullSpace id h w fun i j => (y i j).getD d none) := by
  refine merge_core viewOpsR rfl cfg hh hw hs hcomp hflat F0 hF0 rs hrs k angle sector kstep hsel S hS
    hne hny cell hcell period n M hper hn hev lin multi hlin hmulti fun i j hi hj =>
    (multiCurve_of viewOpsR cfg (cell i j) (f := none) (r := ((lin i j).map some, (multi i j).map (List.map some)))
      (fast := (lin i j).map some) (slow := (multi i j).map (List.map some)) ?_ rfl rfl ?_).2 (lin i j) (multi i j) n hsl
      rfl rfl ?_ (hmulti i j).2
  · change normalizeMulti normOpsR _ _ _ _ _ _ _ = _
    rw [C79_parts _ _ _ _ _ _ _ (hform i j hi hj), hx i j hi hj]
    dsimp only [bind, Except.bind]
    rw [hy i j hi hj]
  · have := mapM_ok ((multi i j).map (List.map some)) (foldCurve (C := ℝ) none) id fun _ _ => rfl
    rw [List.map_id] at this
    exact this
  · intro h0
    have := (hmulti i j).1
    rw [h0] at this
    simp at this
    omega

/-- **C91, multi-tau data, linear plot (partial: rings and sectors without Nyquist wave vectors).**  Without `semilogx` a
`MultitauViewer` shows the linear part of the data alone. -/
theorem C91_linear_partial (cfg : ViewConfig) (hsl : cfg.semilogx = false) (N : Nat)
    (hh : 1 ≤ h) (hw : 1 ≤ w) (hs : ShapeFits shape h w)
    (hcomp : ∀ c, computed = some c → c.h = h ∧ c.w = w / 2 + 1) (hflat : flat = true → computed ≠ none)
    (F0 : Arr2 (Option (ViewCell (NormData ℝ × List (NormData ℝ))))) (hF0 : F0.h = h ∧ F0.w = w)
    (rs : List (ViewReq (ViewCell (NormData ℝ × List (NormData ℝ))))) (hrs : ∀ r ∈ rs, r.Valid h w) (k : Nat) (angle sector kstep : ℝ)
    (hsel : lastSelect none rs = some (k, angle, sector, kstep)) (S : Finset (Nat × Nat))
    (hS : ViewCells h w shape computed angle sector kstep k S) (hne : S.Nonempty)
    (hny : NoNyquist h w shape angle sector kstep k) (cell : Nat → Nat → ViewCell (NormData ℝ × List (NormData ℝ)))
    (hcell : ∀ i j : Nat, i < h → 2 * j < w → (lastData F0 rs).get i j = some (cell i j))
    (lin : Nat → Nat → List (Option ℝ)) (multi : Nat → Nat → List (List (Option ℝ))) (hlin : ∀ i j, (lin i j).length = N)
    (hform : ∀ i j : Nat, i < h → 2 * j < w → ∀ d ∈ (cell i j).data.2, SameForm d (cell i j).data.1)
    (hx : ∀ i j : Nat, i < h → 2 * j < w → normalizeArg normOpsR (cell i j).data.1 (cfg.bg.background (cell i j))
      (cfg.var.variance (cell i j)) cfg.norm "corr" cfg.scale = .ok (lin i j))
    (hy : ∀ i j : Nat, i < h → 2 * j < w → (cell i j).data.2.mapM (fun d => normalizeArg normOpsR d
      (cfg.bg.background (cell i j)) (cfg.var.variance (cell i j)) cfg.norm "corr" cfg.scale) = .ok (multi i j)) :
    ∃ v, (DataView.new shape computed).run
        (.data (storedData computed flat F0) :: rs.map (ViewReq.op computed flat)) = .ok v ∧
      multiShown viewOpsR cfg v = .ok (List.range N, averageCurve S N fun d =>
        fullSpace id h w fun i j => (lin i j).getD d none) := by
  refine C91_multi_partial viewOpsR cfg hh hw hs hcomp hflat F0 hF0 rs hrs k angle sector kstep hsel S hS
    hne hny cell (fun p hp i j he => hcell i j (inside_of_selected hh hS hny p hp i j he).1
      (inside_of_selected hh hS hny p hp i j he).2) (List.range N) N lin fun p hp i j he => ⟨?_, hlin i j⟩
  obtain ⟨hi, hj⟩ := inside_of_selected hh hS hny p hp i j he
  rw [← hlin i j]
  refine (multiCurve_of viewOpsR cfg (cell i j) (f := none) (r := (lin i j, multi i j)) (fast := lin i j)
    (slow := multi i j) ?_ rfl rfl ?_).1 hsl
  · change normalizeMulti normOpsR _ _ _ _ _ _ _ = _
    rw [C79_parts _ _ _ _ _ _ _ (hform i j hi hj), hx i j hi hj]
    dsimp only [bind, Except.bind]
    rw [hy i j hi hj]
  · have := mapM_ok (multi i j) (foldCurve (C := ℝ) none) id fun _ _ => rfl
    rw [List.map_id] at this
    exact this

/-- **C91, complex multi-tau data, semilogarithmic plot (partial: rings and sectors without Nyquist wave vectors; finite
curves; norm given by number).**  The same for complex data with two backgrounds: the non-negative delays only
(C91_multi_one_sided_refuted). -/
theorem C91_merge_complex_partial (cfg : ViewConfig) (hsl : cfg.semilogx = true) (hbg : cfg.bg = .tuple)
    (q : Option Int) (hq : cfg.norm = .num q) (period n M : Nat) (hper : 1 ≤ period) (hn : 2 ≤ n) (hev : n % 2 = 0)
    (hM : 1 ≤ M)
    (hh : 1 ≤ h) (hw : 1 ≤ w) (hs : ShapeFits shape h w)
    (hcomp : ∀ c, computed = some c → c.h = h ∧ c.w = w / 2 + 1) (hflat : flat = true → computed ≠ none)
    (F0 : Arr2 (Option (ViewCell (NormData (Cx ℝ) × List (NormData (Cx ℝ)))))) (hF0 : F0.h = h ∧ F0.w = w)
    (rs : List (ViewReq (ViewCell (NormData (Cx ℝ) × List (NormData (Cx ℝ)))))) (hrs : ∀ r ∈ rs, r.Valid h w) (k : Nat) (angle sector kstep : ℝ)
    (hsel : lastSelect none rs = some (k, angle, sector, kstep)) (S : Finset (Nat × Nat))
    (hS : ViewCells h w shape computed angle sector kstep k S) (hne : S.Nonempty)
    (hny : NoNyquist h w shape angle sector kstep k) (cell : Nat → Nat → ViewCell (NormData (Cx ℝ) × List (NormData (Cx ℝ))))
    (hcell : ∀ i j : Nat, i < h → 2 * j < w → (lastData F0 rs).get i j = some (cell i j))
    (lin lin' : Nat → Nat → List (Cx ℝ)) (multi multi' : Nat → Nat → List (List (Cx ℝ)))
    (hlin : ∀ i j, (lin i j).length = period * n)
    (hmulti : ∀ i j, (multi i j).length = M ∧ ∀ row ∈ multi i j, row.length = n)
    (hform : ∀ i j : Nat, i < h → 2 * j < w → ∀ d ∈ (cell i j).data.2, SameForm d (cell i j).data.1)
    (hx : ∀ i j : Nat, i < h → 2 * j < w → normalizeArg normOpsC (cell i j).data.1 (cfg.bg.background (cell i j))
      (cfg.var.variance (cell i j)) cfg.norm "corr" cfg.scale = .ok ((lin' i j).map some))
    (hy : ∀ i j : Nat, i < h → 2 * j < w → (cell i j).data.2.mapM (fun d => normalizeArg normOpsC d
      (cfg.bg.background (cell i j)) (cfg.var.variance (cell i j)) cfg.norm "corr" cfg.scale) =
        .ok ((multi' i j).map (List.map some)))
    (hfx : ∀ i j : Nat, i < h → 2 * j < w → foldData (.cplx (lin' i j)) 1 = .ok (lin i j))
    (hfy : ∀ i j : Nat, i < h → 2 * j < w → (multi' i j).mapM (fun r => foldData (.cplx r) 1) = .ok (multi i j)) :
    ∃ v, (DataView.new shape computed).run
        (.data (storedData computed flat F0) :: rs.map (ViewReq.op computed flat)) = .ok v ∧
      ∃ (t : List Nat) (y : Nat → Nat → List (Option (Cx ℝ))), (∀ i j, IsLogMerge ℝ (lin i j) (multi i j) period n t (y i j)) ∧
        multiShown viewOpsC cfg v = .ok (t, averageCurve S t.length fun d =>
          fullSpace Cx.conj h w fun i j => (y i j).getD d none) := by
  have hlm : viewOpsC.logMerge = fun l m n => logMerge ℝ l m n 1 fun _ => false := by
    funext l m n
    simp only [viewOpsC, logMergeComplex, logMerge, foldIfAsked]
    have := mapM_ok m (fun row => (Except.ok row : Py (List (Cx ℝ)))) id fun _ _ => rfl
    rw [List.map_id] at this
    simp [bind, Except.bind, this]
  refine merge_core viewOpsC hlm cfg hh hw hs hcomp hflat F0 hF0 rs hrs k angle sector kstep hsel S hS
    hne hny cell hcell period n M hper hn hev lin multi hlin hmulti fun i j hi hj =>
    (multiCurve_of viewOpsC cfg (cell i j) (f := some (fun y => foldData (.cplx y) 1))
      (r := ((lin' i j).map some, (multi' i j).map (List.map some)))
      (fast := (lin i j).map some) (slow := (multi i j).map (List.map some)) ?_ ?_ ?_ ?_).2 (lin i j) (multi i j) n hsl
      rfl rfl ?_ (hmulti i j).2
  · change normalizeMulti normOpsC _ _ _ _ _ _ _ = _
    rw [hq] at hx hy ⊢
    rw [parts_num normOpsC _ _ _ _ q "corr" (Or.inl rfl) cfg.scale (.num q) (hform i j hi hj)
      (multiNorm_num _ _ _ (Or.inl rfl)) (fun d => rfl), hx i j hi hj]
    dsimp only [bind, Except.bind]
    rw [hy i j hi hj]
  · simp [ViewConfig.foldFun, viewOpsC, hbg]
  · simp only [foldCurve, allFinite_some, bind, Except.bind, hfx i j hi hj]
  · have e := hfy i j hi hj
    rw [List.mapM_map]
    have e' := mapM_fold_some _ _ _ e
    rw [← e']
    refine mapM_congr _ _ _ fun r _ => ?_
    simp only [foldCurve, Function.comp, allFinite_some, bind, Except.bind]
  · intro h0
    have := (hmulti i j).1
    rw [h0] at this
    simp at this
    omega

end

end Cddm
