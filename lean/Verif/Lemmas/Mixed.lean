import Verif.Lemmas.Kernels
import Verif.Model.Mixed
import Verif.Spec.Mixed

/-! # The tables of times of `auto_tau_times` and `cross_tau_times` -/

namespace Cddm
open Spec

/-- A row with its first entries replaced. -/
def filed (o row : List Int) : List Int := o.take row.length ++ row.drop o.length

theorem filed_length (o row : List Int) : (filed o row).length = row.length := by
  simp only [filed, List.length_append, List.length_take, List.length_drop]; omega

theorem filed_rowOf (o row : List Int) : RowOf o row (filed o row) := by
  refine ⟨filed_length o row, fun i hi => ?_⟩
  unfold filed
  rw [List.getElem?_append, List.length_take]
  split_ifs with h1 h2 h2
  · rw [List.getElem?_take_of_lt hi]
  · omega
  · omega
  · rw [List.getElem?_drop]; congr 1; omega

theorem filed_snoc (o row : List Int) (v : Int) :
    filed (o ++ [v]) row = if o.length < row.length then (filed o row).set o.length v else filed o row := by
  apply List.ext_getElem?
  intro i
  split_ifs with h
  · rw [List.getElem?_set, filed_length]
    by_cases hi : i < row.length
    · rw [(filed_rowOf _ row).2 i hi, (filed_rowOf o row).2 i hi, List.getElem?_append]
      simp only [List.length_append, List.length_singleton]
      by_cases e : o.length = i
      · subst e; simp [h]
      · by_cases h2 : i < o.length
        · rw [if_pos (by omega), if_pos h2, if_neg e, if_pos h2]
        · rw [if_neg (by omega), if_neg e, if_neg h2]
    · rw [List.getElem?_eq_none (by rw [filed_length]; omega), if_neg (by omega),
        List.getElem?_eq_none (by rw [filed_length]; omega)]
  · by_cases hi : i < row.length
    · rw [(filed_rowOf _ row).2 i hi, (filed_rowOf o row).2 i hi, if_pos (by simp; omega), if_pos (by omega),
        List.getElem?_append_left (by omega)]
    · rw [List.getElem?_eq_none (by rw [filed_length]; omega), List.getElem?_eq_none (by rw [filed_length]; omega)]

/-- The times filed in row `m`. -/
def rowTimes (E : List (Nat × Int)) (m : Nat) : List Int := (E.filter fun e => e.1 = m).map Prod.snd

theorem rowTimes_snoc (E : List (Nat × Int)) (e : Nat × Int) (m : Nat) :
    rowTimes (E ++ [e]) m = if e.1 = m then rowTimes E m ++ [e.2] else rowTimes E m := by
  unfold rowTimes
  by_cases h : e.1 = m <;> simp [List.filter_append, h]

/-- The table and its counts after the filings `E`. -/
def tableOf (tab : List (List Int)) (E : List (Nat × Int)) : List (List Int) × List Nat :=
  (tab.mapIdx fun m r => filed (rowTimes E m) r, tab.mapIdx fun m r => min (rowTimes E m).length r.length)

theorem tableOf_nil (tab : List (List Int)) : tableOf tab [] = (tab, List.replicate tab.length 0) := by
  unfold tableOf
  congr 1
  · apply List.ext_getElem <;> simp [rowTimes, filed]
  · apply List.ext_getElem <;> simp [rowTimes]

theorem fileTime_table (tab : List (List Int)) (E : List (Nat × Int)) (m : Nat) (v : Int) (h : m < tab.length) :
    fileTime (tableOf tab E) m v = some (tableOf tab (E ++ [(m, v)])) := by
  have e1 : (tableOf tab E).2[m]? = some (min (rowTimes E m).length tab[m].length) := by simp [tableOf, h]
  have e2 : (tableOf tab E).1[m]? = some (filed (rowTimes E m) tab[m]) := by simp [tableOf, h]
  unfold fileTime
  rw [e1, e2]
  simp only [Option.bind_eq_bind, Option.bind_some, filed_length]
  by_cases hl : (rowTimes E m).length < tab[m].length
  · rw [if_pos (by omega), min_eq_left hl.le]
    refine congrArg some (Prod.ext ?_ ?_)
    · apply List.ext_getElem
      · simp [tableOf]
      · intro i h1 h2
        have hi : i < tab.length := by simpa [tableOf] using h2
        simp only [tableOf, List.getElem_set, List.getElem_mapIdx, rowTimes_snoc]
        by_cases e : m = i
        · subst e; rw [if_pos rfl, if_pos rfl, filed_snoc, if_pos hl]
        · rw [if_neg e, if_neg e]
    · apply List.ext_getElem
      · simp [tableOf]
      · intro i h1 h2
        have hi : i < tab.length := by simpa [tableOf] using h2
        simp only [tableOf, List.getElem_set, List.getElem_mapIdx, rowTimes_snoc]
        by_cases e : m = i
        · subst e; rw [if_pos rfl, if_pos rfl, List.length_append, List.length_singleton]; omega
        · rw [if_neg e, if_neg e]
  · rw [if_neg (by omega)]
    refine congrArg some (Prod.ext ?_ ?_)
    · apply List.ext_getElem
      · simp [tableOf]
      · intro i h1 h2
        have hi : i < tab.length := by simpa [tableOf] using h2
        simp only [tableOf, List.getElem_mapIdx, rowTimes_snoc]
        by_cases e : m = i
        · subst e; rw [if_pos rfl, filed_snoc, if_neg hl]
        · rw [if_neg e]
    · apply List.ext_getElem
      · simp [tableOf]
      · intro i h1 h2
        have hi : i < tab.length := by simpa [tableOf] using h2
        simp only [tableOf, List.getElem_mapIdx, rowTimes_snoc]
        by_cases e : m = i
        · subst e; rw [if_pos rfl, List.length_append, List.length_singleton]; omega
        · rw [if_neg e]

section loops
variable {σ α β : Type}

theorem foldlM_congr_py (l : List α) (f g : σ → α → Py σ) (h : ∀ s, ∀ a ∈ l, f s a = g s a) (s : σ) :
    l.foldlM f s = l.foldlM g s := by
  induction l generalizing s with
  | nil => rfl
  | cons a l ih =>
    rw [List.foldlM_cons, List.foldlM_cons, h s a (by simp)]
    congr 1
    funext s'
    exact ih (fun s a ha => h s a (by simp [ha])) s'

theorem foldlM_flat (l : List α) (g : α → List β) (f : σ → β → Py σ) (s : σ) :
    l.foldlM (fun s a => (g a).foldlM f s) s = (l.flatMap g).foldlM f s := by
  induction l generalizing s with
  | nil => rfl
  | cons a l ih =>
    rw [List.foldlM_cons, List.flatMap_cons, List.foldlM_append]
    congr 1
    funext s'
    exact ih s'

theorem foldlM_mapped (l : List α) (g : α → β) (f : σ → β → Py σ) (s : σ) :
    (l.map g).foldlM f s = l.foldlM (fun s a => f s (g a)) s := by
  induction l generalizing s with
  | nil => rfl
  | cons a l ih =>
    rw [List.map_cons, List.foldlM_cons, List.foldlM_cons]
    congr 1
    funext s'
    exact ih s'

theorem drop_eq_range' (t : List Int) (i : Nat) : t.drop i = (List.range' i (t.length - i)).map fun j => t.getD j 0 := by
  apply List.ext_getElem
  · simp
  · intro k h1 h2
    simp only [List.length_drop] at h1
    simp [List.getElem_range', List.getD, List.getElem?_eq_getElem (show i + k < t.length by omega)]

theorem selfPairs_flat (t : List Int) :
    selfPairs t = (List.range t.length).flatMap fun i => (t.drop i).map fun b => (t.getD i 0, b) := by
  induction t with
  | nil => rfl
  | cons a t ih =>
    rw [selfPairs, ih, List.length_cons, List.range_succ_eq_map, List.flatMap_cons, List.flatMap_map]
    rfl

theorem nested_self (t : List Int) (F : σ → Int × Int → Py σ) (s : σ) :
    (List.range t.length).foldlM (fun st ii =>
      (List.range' ii (t.length - ii)).foldlM (fun st jj => do
        let b ← orUB t[jj]?
        let a ← orUB t[ii]?
        F st (a, b)) st) s = (selfPairs t).foldlM F s := by
  rw [selfPairs_flat, ← foldlM_flat]
  apply foldlM_congr_py
  intro st i hi
  rw [List.mem_range] at hi
  rw [drop_eq_range', List.map_map, foldlM_mapped]
  apply foldlM_congr_py
  intro st j hj
  rw [List.mem_range'_1] at hj
  rw [List.getElem?_eq_getElem hi, List.getElem?_eq_getElem (show j < t.length by omega)]
  simp only [orUB, bind, Except.bind, Function.comp_apply, List.getD, List.getElem?_eq_getElem hi,
    List.getElem?_eq_getElem (show j < t.length by omega), Option.getD_some]

theorem product_flat (t1 t2 : List Int) :
    t1 ×ˢ t2 = (List.range t1.length).flatMap fun i => t2.map fun b => (t1.getD i 0, b) := by
  have e : t1 = (List.range t1.length).map fun i => t1.getD i 0 := by
    apply List.ext_getElem
    · simp
    · intro k h1 h2; simp [List.getD, h1]
  have : t1 ×ˢ t2 = t1.flatMap fun a => t2.map fun b => (a, b) := rfl
  rw [this]
  conv_lhs => rw [e]
  rw [List.flatMap_map]

theorem nested_cross (t1 t2 : List Int) (F : σ → Int × Int → Py σ) (s : σ) :
    (List.range t1.length).foldlM (fun st ii =>
      (List.range t2.length).foldlM (fun st jj => do
        let a ← orUB t1[ii]?
        let b ← orUB t2[jj]?
        F st (a, b)) st) s = (t1 ×ˢ t2).foldlM F s := by
  rw [product_flat, ← foldlM_flat]
  apply foldlM_congr_py
  intro st i hi
  rw [List.mem_range] at hi
  have e : t2 = (List.range t2.length).map fun i => t2.getD i 0 := by
    apply List.ext_getElem
    · simp
    · intro k h1 h2; simp [List.getD, h1]
  conv_rhs => rw [e, List.map_map, foldlM_mapped]
  apply foldlM_congr_py
  intro st j hj
  rw [List.mem_range] at hj
  rw [List.getElem?_eq_getElem hi, List.getElem?_eq_getElem hj]
  simp only [orUB, bind, Except.bind, Function.comp_apply, List.getD, List.getElem?_eq_getElem hi,
    List.getElem?_eq_getElem hj, Option.getD_some]

end loops

/-- What `auto_tau_times` does with a pair of times. -/
def autoFiling (n : Nat) (p : Int × Int) : Option (Nat × Int) :=
  if p.2 - p.1 < n then some ((p.2 - p.1).toNat, p.1) else none

theorem auto_fold (tab : List (List Int)) (L : List (Int × Int)) (h : ∀ p ∈ L, p.1 ≤ p.2) (E : List (Nat × Int)) :
    L.foldlM (m := Py) (fun st (p : Int × Int) => if p.2 - p.1 < 0 then .error .assertionError
      else if p.2 - p.1 < tab.length then orUB (fileTime st (p.2 - p.1).toNat p.1) else .ok st) (tableOf tab E)
      = .ok (tableOf tab (E ++ L.filterMap (autoFiling tab.length))) := by
  induction L generalizing E with
  | nil => simp [pure, Except.pure]
  | cons p L ih =>
    have hp := h p (by simp)
    rw [List.foldlM_cons, if_neg (by omega)]
    by_cases hb : p.2 - p.1 < tab.length
    · rw [if_pos hb, fileTime_table _ _ _ _ (by omega)]
      refine (ih (fun q hq => h q (by simp [hq])) _).trans ?_
      rw [
        List.filterMap_cons_some (show autoFiling tab.length p = some ((p.2 - p.1).toNat, p.1) by simp [autoFiling, hb])]
      simp
    · rw [if_neg hb]
      simp only [bind, Except.bind]
      rw [ih (fun q hq => h q (by simp [hq])), List.filterMap_cons_none (by simp [autoFiling, hb])]

theorem rowTimes_auto (n : Nat) (L : List (Int × Int)) (h : ∀ p ∈ L, p.1 ≤ p.2) (m : Nat) (hm : m < n) :
    rowTimes (L.filterMap (autoFiling n)) m = (L.filter fun p => p.2 - p.1 = (m : Int)).map Prod.fst := by
  unfold rowTimes
  induction L with
  | nil => rfl
  | cons p L ih =>
    have hp := h p (by simp)
    have ih := ih fun q hq => h q (by simp [hq])
    by_cases hb : p.2 - p.1 < n
    · rw [List.filterMap_cons_some (show autoFiling n p = some ((p.2 - p.1).toNat, p.1) by simp [autoFiling, hb])]
      by_cases e : p.2 - p.1 = m
      · rw [List.filter_cons_of_pos (by simp [e]), List.filter_cons_of_pos (by simp [e]), List.map_cons, List.map_cons, ih]
      · rw [List.filter_cons_of_neg (by simp; omega), List.filter_cons_of_neg (by simp [e]), ih]
    · rw [List.filterMap_cons_none (by simp [autoFiling, hb]), List.filter_cons_of_neg (by simp; omega), ih]

theorem selfPairs_le {t : List Int} (h : t.Pairwise (· ≤ ·)) : ∀ p ∈ selfPairs t, p.1 ≤ p.2 := by
  induction t with
  | nil => simp [selfPairs]
  | cons a t ih =>
    rw [List.pairwise_cons] at h
    intro p hp
    rw [selfPairs, List.mem_append, List.mem_map] at hp
    rcases hp with ⟨b, hb, rfl⟩ | hp
    · rcases List.mem_cons.1 hb with rfl | hb
      · exact le_refl _
      · exact h.1 b hb
    · exact ih h.2 p hp

theorem autoTauTimes_ok (t : List Int) (tab : List (List Int)) (h : t.Pairwise (· ≤ ·)) :
    autoTauTimes t tab = .ok (tab.mapIdx fun m r => filed (pairStarts t m) r) := by
  unfold autoTauTimes
  have e := nested_self t (fun (st : List (List Int) × List Nat) (p : Int × Int) => if p.2 - p.1 < 0 then .error .assertionError
      else if p.2 - p.1 < tab.length then orUB (fileTime st (p.2 - p.1).toNat p.1) else .ok st)
      (tab, List.replicate tab.length 0)
  simp only at e ⊢
  rw [e, ← tableOf_nil, auto_fold _ _ (selfPairs_le h)]
  simp only [bind, Except.bind, List.nil_append, tableOf]
  congr 1
  apply List.ext_getElem
  · simp
  · intro m h1 h2
    simp only [List.getElem_mapIdx]
    rw [rowTimes_auto _ _ (selfPairs_le h) m (by simpa using h1)]
    rfl

theorem selfPairs_gt {t : List Int} (h : ¬ t.Pairwise (· ≤ ·)) : ∃ p ∈ selfPairs t, p.2 < p.1 := by
  by_contra hn
  push Not at hn
  apply h
  induction t with
  | nil => exact List.Pairwise.nil
  | cons a t ih =>
    rw [List.pairwise_cons]
    refine ⟨fun b hb => hn (a, b) (by simp [selfPairs, hb]), ?_⟩
    by_cases hp : t.Pairwise (· ≤ ·)
    · exact hp
    · exact ih hp fun p hp => hn p (by rw [selfPairs]; simp [hp])

theorem auto_fold_error (tab : List (List Int)) (L : List (Int × Int)) (h : ∃ p ∈ L, p.2 < p.1) (E : List (Nat × Int)) :
    L.foldlM (m := Py) (fun st (p : Int × Int) => if p.2 - p.1 < 0 then .error .assertionError
      else if p.2 - p.1 < tab.length then orUB (fileTime st (p.2 - p.1).toNat p.1) else .ok st) (tableOf tab E)
      = .error .assertionError := by
  induction L generalizing E with
  | nil => simp at h
  | cons p L ih =>
    rw [List.foldlM_cons]
    by_cases hp : p.2 - p.1 < 0
    · rw [if_pos hp]; rfl
    · have h' : ∃ p ∈ L, p.2 < p.1 := by
        obtain ⟨q, hq, hl⟩ := h
        rcases List.mem_cons.1 hq with rfl | hq
        · omega
        · exact ⟨q, hq, hl⟩
      rw [if_neg hp]
      by_cases hb : p.2 - p.1 < tab.length
      · rw [if_pos hb, fileTime_table _ _ _ _ (by omega)]
        exact ih h' _
      · rw [if_neg hb]
        simp only [bind, Except.bind]
        exact ih h' _

theorem autoTauTimes_error (t : List Int) (tab : List (List Int)) (h : ¬ t.Pairwise (· ≤ ·)) :
    autoTauTimes t tab = .error .assertionError := by
  unfold autoTauTimes
  have e := nested_self t (fun (st : List (List Int) × List Nat) (p : Int × Int) => if p.2 - p.1 < 0 then .error .assertionError
      else if p.2 - p.1 < tab.length then orUB (fileTime st (p.2 - p.1).toNat p.1) else .ok st)
      (tab, List.replicate tab.length 0)
  simp only at e ⊢
  rw [e, ← tableOf_nil, auto_fold_error _ _ (selfPairs_gt h)]
  rfl

/-- What `cross_tau_times` files in the first table. -/
def posFiling (n : Nat) (p : Int × Int) : Option (Nat × Int) :=
  if |p.1 - p.2| < n ∧ 0 ≤ p.1 - p.2 then some ((p.1 - p.2).toNat, p.1) else none

/-- What `cross_tau_times` files in the second table. -/
def negFiling (n : Nat) (p : Int × Int) : Option (Nat × Int) :=
  if |p.1 - p.2| < n ∧ p.1 - p.2 < 0 then some ((-(p.1 - p.2)).toNat, p.1) else none

theorem cross_fold (tab tab' : List (List Int)) (hl : tab.length ≤ tab'.length) (L : List (Int × Int)) (E E' : List (Nat × Int)) :
    L.foldlM (m := Py) (fun (st : (List (List Int) × List Nat) × (List (List Int) × List Nat)) (p : Int × Int) =>
      if |p.1 - p.2| < tab.length then
          if 0 ≤ p.1 - p.2 then do
            let q ← orUB (fileTime st.1 (p.1 - p.2).toNat p.1)
            .ok (q, st.2)
          else do
            let q ← orUB (fileTime st.2 (-(p.1 - p.2)).toNat p.1)
            .ok (st.1, q)
        else .ok st) (tableOf tab E, tableOf tab' E')
      = .ok (tableOf tab (E ++ L.filterMap (posFiling tab.length)), tableOf tab' (E' ++ L.filterMap (negFiling tab.length))) := by
  induction L generalizing E E' with
  | nil => simp [pure, Except.pure]
  | cons p L ih =>
    rw [List.foldlM_cons]
    by_cases hb : |p.1 - p.2| < tab.length
    · rw [if_pos hb]
      have hb' := abs_lt.1 hb
      by_cases h0 : 0 ≤ p.1 - p.2
      · rw [if_pos h0, fileTime_table _ _ _ _ (by omega)]
        refine (ih _ _).trans ?_
        rw [List.filterMap_cons_some (show posFiling tab.length p = some ((p.1 - p.2).toNat, p.1) from if_pos ⟨hb, h0⟩),
          List.filterMap_cons_none (show negFiling tab.length p = none from if_neg (by omega))]
        simp
      · rw [if_neg h0, fileTime_table _ _ _ _ (by omega)]
        refine (ih _ _).trans ?_
        rw [List.filterMap_cons_none (show posFiling tab.length p = none from if_neg (by omega)),
          List.filterMap_cons_some (show negFiling tab.length p = some ((-(p.1 - p.2)).toNat, p.1) from if_pos ⟨hb, by omega⟩)]
        simp
    · rw [if_neg hb]
      refine (ih _ _).trans ?_
      rw [List.filterMap_cons_none (show posFiling tab.length p = none from if_neg fun h => hb h.1),
        List.filterMap_cons_none (show negFiling tab.length p = none from if_neg fun h => hb h.1)]

theorem rowTimes_filing (f : Int × Int → Option (Nat × Int)) (L : List (Int × Int)) (m : Nat) (q : Int × Int → Prop)
    [DecidablePred q] (h1 : ∀ p, q p → f p = some (m, p.1)) (h2 : ∀ p, ¬ q p → ∀ e, f p = some e → e.1 ≠ m) :
    rowTimes (L.filterMap f) m = (L.filter fun p => q p).map Prod.fst := by
  unfold rowTimes
  induction L with
  | nil => rfl
  | cons p L ih =>
    by_cases e : q p
    · rw [List.filterMap_cons_some (h1 p e), List.filter_cons_of_pos (by simp), List.filter_cons_of_pos (by simp [e]),
        List.map_cons, List.map_cons, ih]
    · rw [List.filter_cons_of_neg (by simp [e]), ← ih]
      cases hf : f p with
      | none => rw [List.filterMap_cons_none hf]
      | some v => rw [List.filterMap_cons_some hf, List.filter_cons_of_neg (by simpa using h2 p e v hf)]

theorem crossTauTimes_ok (t1 t2 : List Int) (tab tab' : List (List Int)) (h : t1.length = t2.length)
    (hl : tab.length ≤ tab'.length) :
    crossTauTimes t1 t2 tab tab' = .ok (tab.mapIdx fun m r => filed (crossStarts t1 t2 m) r,
      tab'.mapIdx fun m r => if 0 < m ∧ m < tab.length then filed (crossStarts t1 t2 (-m)) r else r) := by
  unfold crossTauTimes
  rw [if_neg (by simpa using h)]
  have e := nested_cross t1 t2 (fun (st : (List (List Int) × List Nat) × (List (List Int) × List Nat)) (p : Int × Int) =>
      if |p.1 - p.2| < tab.length then
          if 0 ≤ p.1 - p.2 then do
            let q ← orUB (fileTime st.1 (p.1 - p.2).toNat p.1)
            .ok (q, st.2)
          else do
            let q ← orUB (fileTime st.2 (-(p.1 - p.2)).toNat p.1)
            .ok (st.1, q)
        else .ok st) ((tab, List.replicate tab.length 0), (tab', List.replicate tab'.length 0))
  simp only at e ⊢
  rw [e, ← tableOf_nil, ← tableOf_nil, cross_fold _ _ hl]
  simp only [bind, Except.bind, List.nil_append, tableOf]
  congr 1
  refine Prod.ext ?_ ?_
  · apply List.ext_getElem
    · simp
    · intro m h1 h2
      have hm : m < tab.length := by simpa using h1
      simp only [List.getElem_mapIdx]
      rw [rowTimes_filing (posFiling tab.length) _ m (fun p => p.1 - p.2 = (m : Int))]
      · rfl
      · intro p hp
        unfold posFiling
        rw [if_pos (by rw [hp]; simp [hm])]
        simp [hp]
      · intro p hp v hv
        unfold posFiling at hv
        split_ifs at hv with hc
        rw [Option.some.injEq] at hv
        subst hv
        simp only; omega
  · apply List.ext_getElem
    · simp
    · intro m h1 h2
      have hm : m < tab'.length := by simpa using h1
      simp only [List.getElem_mapIdx]
      by_cases hc : 0 < m ∧ m < tab.length
      · rw [if_pos hc, rowTimes_filing (negFiling tab.length) _ m (fun p => p.1 - p.2 = -(m : Int))]
        · rfl
        · intro p hp
          unfold negFiling
          rw [if_pos (by rw [hp, abs_neg, Nat.abs_cast]; omega)]
          simp [hp]
        · intro p hp v hv
          unfold negFiling at hv
          split_ifs at hv with hc
          rw [Option.some.injEq] at hv
          subst hv
          simp only; omega
      · rw [if_neg hc, rowTimes_filing (negFiling tab.length) _ m (fun _ => False)]
        · simp [filed]
        · simp
        · intro p _ v hv
          unfold negFiling at hv
          split_ifs at hv with hd
          rw [Option.some.injEq] at hv
          subst hv
          have := abs_lt.1 hd.1
          simp only; omega

theorem apart_pairSum (a b : List Int) (k : Nat) : pairSum (fun _ _ => 1) (stamps a) (stamps b) k = apart a b k := by
  unfold apart pairSum stamps
  have e : (a.map fun v => (v, ())) ×ˢ (b.map fun v => (v, ())) = (a ×ˢ b).map fun p => ((p.1, ()), (p.2, ())) := by
    induction a with
    | nil => simp
    | cons x a ih => simp only [List.map_cons, List.product_cons, List.map_append, List.map_map, ih]; rfl
  rw [e, List.filter_map, List.map_map]
  simp [delay, Function.comp_def]
  rfl

end Cddm
