import Verif.Model.KSelect
import Verif.Spec.KSelect
import Verif.Lemmas.Sector
import Mathlib.Algebra.BigOperators.Fin
import Mathlib.Tactic.Ring

/-!
# Lemmas about k-selection
-/

namespace Cddm
open Spec

theorem pyRound_nearest (k : ℝ) : Nearest k (pyRound k) := by
  have h0 := Int.floor_le k
  have h1 := Int.lt_floor_add_one k
  unfold Nearest pyRound
  split
  · left; rw [abs_of_nonneg (by linarith)]; assumption
  · split
    · left; push_cast; rw [abs_of_neg (by linarith)]; linarith
    · have e : k - ⌊k⌋ = 1 / 2 := by linarith
      split
      · right; rw [e]; exact ⟨by norm_num, by assumption⟩
      · right; push_cast
        rw [show k - ((⌊k⌋ : ℝ) + 1) = -(1 / 2) by linarith]
        exact ⟨by norm_num, by omega⟩

theorem Nearest.unique {k : ℝ} {p q : Int} (hp : Nearest k p) (hq : Nearest k q) : p = q := by
  have a : |k - p| ≤ 1 / 2 := by rcases hp with h | h; exacts [h.le, h.1.le]
  have b : |k - q| ≤ 1 / 2 := by rcases hq with h | h; exacts [h.le, h.1.le]
  rw [abs_le] at a b
  have u : (p : ℝ) ≤ q + 1 := by linarith [a.1, b.2]
  have v : (q : ℝ) ≤ p + 1 := by linarith [a.2, b.1]
  have u : p ≤ q + 1 := by exact_mod_cast u
  have v : q ≤ p + 1 := by exact_mod_cast v
  by_contra hne
  have : p = q + 1 ∨ q = p + 1 := by omega
  rcases this with rfl | rfl
  · push_cast at *
    have e : k = q + 1 / 2 := by linarith [a.1, b.2]
    rcases hp with h | ⟨_, h⟩
    · push_cast at h; rw [e, abs_lt] at h; linarith [h.1]
    · rcases hq with h' | ⟨_, h'⟩
      · rw [e, abs_lt] at h'; linarith [h'.2]
      · omega
  · push_cast at *
    have e : k = p + 1 / 2 := by linarith [a.2, b.1]
    rcases hq with h | ⟨_, h⟩
    · push_cast at h; rw [e, abs_lt] at h; linarith [h.1]
    · rcases hp with h' | ⟨_, h'⟩
      · rw [e, abs_lt] at h'; linarith [h'.2]
      · omega

theorem nearest_cast (n : Nat) : Nearest (n : ℝ) (n : Int) := by
  left; push_cast; simp

theorem range_product_nodup (h w : Nat) : (List.range h ×ˢ List.range w).Nodup :=
  List.nodup_range.product List.nodup_range

theorem whereTrue_nodup (m : Arr2 Bool) : (whereTrue m).Nodup :=
  (range_product_nodup _ _).filter _

theorem mem_whereTrue (m : Arr2 Bool) (p : Nat × Nat) :
    p ∈ whereTrue m ↔ p.1 < m.h ∧ p.2 < m.w ∧ m.get p.1 p.2 = true := by
  obtain ⟨i, j⟩ := p
  simp [whereTrue, and_assoc]

/-- Sum over a list without repetitions. -/
theorem nodup_sum {M : Type} [AddCommMonoid M] (l : List (Nat × Nat)) (h : l.Nodup)
    (f : Nat × Nat → M) : (l.map f).sum = ∑ p ∈ l.toFinset, f p :=
  (List.sum_toFinset f h).symm

theorem filterMap_id_map {V : Type} [AddCommGroup V] (l : List (Nat × Nat))
    (f : Nat × Nat → Option V) :
    (l.map f).filterMap id = (l.filter fun p => (f p).isSome).map fun p => (f p).getD 0 := by
  induction l with
  | nil => rfl
  | cons a l ih =>
    cases h : f a with
    | none => rw [List.map_cons, h, List.filterMap_cons_none rfl, ih]; simp [h]
    | some v => rw [List.map_cons, h, List.filterMap_cons, ih]; simp [h]

theorem nanMean_eq {V : Type} [AddCommGroup V] [Module ℝ V] (l : List (Nat × Nat)) (h : l.Nodup)
    (f : Nat → Nat → Option V) :
    nanMean (l.map fun p => f p.1 p.2) = meanOver l.toFinset f := by
  unfold nanMean meanOver
  rw [filterMap_id_map l fun p => f p.1 p.2]
  have e : (l.filter fun p => (f p.1 p.2).isSome).toFinset =
      l.toFinset.filter fun p => (f p.1 p.2).isSome := by
    ext p; simp
  have hn : (l.filter fun p => (f p.1 p.2).isSome).Nodup := h.filter _
  dsimp only
  rw [nodup_sum _ hn, e, List.length_map, ← List.toFinset_card_of_nodup hn, e]

theorem toFinset_whereTrue {imap : Arr2 Int} {cm : Option (Arr2 Bool)} {q : Int} {m : Arr2 Bool}
    (hh : m.h = imap.h) (hw : m.w = imap.w)
    (hg : ∀ i j : Nat, i < imap.h → j < imap.w →
      (m.get i j = true ↔ imap.get i j = q ∧ cm.all fun c => c.get i j)) :
    (whereTrue m).toFinset = binCells imap cm q := by
  ext ⟨i, j⟩
  rw [List.mem_toFinset, mem_whereTrue]
  simp only [binCells, Finset.mem_filter, Finset.mem_product, Finset.mem_range]
  constructor
  · rintro ⟨h1, h2, h3⟩
    exact ⟨⟨by omega, by omega⟩, (hg i j (by omega) (by omega)).mp h3⟩
  · rintro ⟨⟨h1, h2⟩, h3⟩
    exact ⟨by omega, by omega, (hg i j h1 h2).mpr h3⟩

theorem maskedCells_eq {α : Type} (a : Arr2 α) (m : Arr2 Bool) (hh : m.h = a.h) (hw : m.w = a.w) :
    maskedCells a m = (whereTrue m).map fun p => a.get p.1 p.2 := by
  unfold maskedCells whereTrue
  rw [hh, hw]
  generalize List.range a.h = r
  induction r with
  | nil => rfl
  | cons i r ih =>
    rw [List.flatMap_cons, ih]
    rw [show ((i :: r) ×ˢ List.range a.w) = (List.range a.w).map (fun j => (i, j)) ++ (r ×ˢ List.range a.w) from
      List.product_cons ..]
    rw [List.filter_append, List.map_append]
    congr 1
    generalize List.range a.w = s
    induction s with
    | nil => rfl
    | cons j s ih2 =>
      by_cases h : m.get i j = true
      · simp [h] at ih2 ⊢
        exact ih2
      · simp [h] at ih2 ⊢
        exact ih2

/-- The mask of a bin restricted to the cells inside a mask. -/
theorem andMaskOpt_bin (imap : Arr2 Int) (k : ℝ) (cm : Option (Arr2 Bool))
    (hcm : ∀ c, cm = some c → c.h = imap.h ∧ c.w = imap.w) :
    ∃ m, andMaskOpt (binMask imap k) cm = .ok m ∧ m.h = imap.h ∧ m.w = imap.w ∧
      ∀ i j : Nat, i < imap.h → j < imap.w →
        (m.get i j = true ↔ imap.get i j = pyRound k ∧ cm.all fun c => c.get i j) := by
  cases cm with
  | none =>
    refine ⟨_, rfl, rfl, rfl, ?_⟩
    intro i j _ _
    simp [binMask]
  | some c =>
    obtain ⟨h1, h2⟩ := hcm c rfl
    refine ⟨⟨imap.h, imap.w, fun i j => (binMask imap k).get (if imap.h = 1 then 0 else i)
        (if imap.w = 1 then 0 else j) && c.get (if imap.h = 1 then 0 else i)
        (if imap.w = 1 then 0 else j)⟩, ?_, rfl, rfl, ?_⟩
    · simp only [andMaskOpt, andMask, broadcastDim, h1, h2, binMask, if_true, bind, Except.bind]
      rfl
    · intro i j hi hj
      have e1 : (if imap.h = 1 then 0 else i) = i := by split <;> omega
      have e2 : (if imap.w = 1 then 0 else j) = j := by split <;> omega
      simp [e1, e2, binMask]

theorem zip_filterMap {α : Type} (l : List (Nat × Nat)) (f : Nat × Nat → α) (g : Nat × Nat → Bool) :
    ((l.map f).zip (l.map g)).filterMap (fun p => if p.2 then some p.1 else none) =
      (l.filter g).map f := by
  induction l with
  | nil => rfl
  | cons a l ih =>
    rw [List.map_cons, List.map_cons, List.zip_cons_cons, List.filterMap_cons, ih, List.filter_cons]
    by_cases h : g a = true
    · simp [h]
    · simp [h]

theorem whereTrue_filter {c m : Arr2 Bool} (hh : c.h = m.h) (hw : c.w = m.w)
    (hle : ∀ i j : Nat, i < m.h → j < m.w → m.get i j = true → c.get i j = true) :
    (whereTrue c).filter (fun p => m.get p.1 p.2) = whereTrue m := by
  unfold whereTrue
  rw [hh, hw, List.filter_filter]
  apply List.filter_congr
  rintro ⟨i, j⟩ hp
  simp only [List.mem_product, List.mem_range] at hp
  by_cases h : m.get i j = true
  · simp [h, hle i j hp.1 hp.2 h]
  · simp [h]

/-- One bin, full-space data: frames, or what is left of them after masking. -/
theorem kSelectComplex_eq {V : Type} [AddCommGroup V] [Module ℝ V] (full : Arr2 (Option V))
    (data : KData V) (k : ℝ) (imap : Arr2 Int) (kmap : Arr2 ℝ) (cm : Option (Arr2 Bool)) (masked : Bool)
    (hih : imap.h = full.h) (hiw : imap.w = full.w) (hkh : kmap.h = full.h) (hkw : kmap.w = full.w)
    (hcm : ∀ c, cm = some c → c.h = full.h ∧ c.w = full.w)
    (hdata : (data = .grid full ∧ masked = false) ∨
      ∃ c, cm = some c ∧ masked = true ∧ data = .flat (maskedCells full c)) :
    kSelectComplex data k imap kmap cm masked =
      .ok (averages kmap.get full.get (binCells imap cm (pyRound k))) := by
  obtain ⟨m, hm, mh, mw, mg⟩ := andMaskOpt_bin imap k cm (fun c h => by
    obtain ⟨a, b⟩ := hcm c h; exact ⟨by omega, by omega⟩)
  have hS := toFinset_whereTrue mh mw mg
  have hnd := whereTrue_nodup m
  have hks : boolIndex kmap m = .ok ((whereTrue m).map fun p => kmap.get p.1 p.2) := by
    unfold boolIndex; rw [if_pos ⟨by omega, by omega⟩]
  have hsel : ∃ km, reduceMask m cm masked = .ok km ∧
      selectData data km = .ok ((whereTrue m).map fun p => full.get p.1 p.2) := by
    rcases hdata with ⟨rfl, rfl⟩ | ⟨c, rfl, rfl, rfl⟩
    · refine ⟨_, rfl, ?_⟩
      unfold selectData boolIndex
      simp only
      rw [if_pos ⟨by omega, by omega⟩]
    · obtain ⟨c1, c2⟩ := hcm c rfl
      refine ⟨.flat ((whereTrue c).map fun p => m.get p.1 p.2), ?_, ?_⟩
      · unfold reduceMask boolIndex
        simp only [bind, Except.bind]
        rw [if_pos ⟨by omega, by omega⟩]
      · unfold selectData boolIndex1
        simp only
        rw [maskedCells_eq full c c1 c2, if_pos (by simp), zip_filterMap,
          whereTrue_filter (m := m) (by omega) (by omega)]
        intro i j hi hj h
        have := ((mg i j (by omega) (by omega)).mp h).2
        simpa using this
  obtain ⟨km, hr, hd⟩ := hsel
  unfold kSelectComplex
  simp only [hm, hks, hr, hd, bind, Except.bind]
  unfold averages
  rw [← hS, List.toFinset_card_of_nodup hnd, List.length_map]
  by_cases h0 : (whereTrue m).length = 0
  · rw [if_neg (by omega), if_pos h0]
  · rw [if_pos (by omega), if_neg h0, nodup_sum _ hnd, nanMean_eq _ hnd]

theorem collectSome_ok {α β : Type} (l : List β) (f : β → Option α) :
    collectSome (l.map fun b => (.ok (f b) : Py (Option α))) = .ok (l.filterMap f) := by
  induction l with
  | nil => rfl
  | cons b l ih =>
    rw [List.map_cons, collectSome, ih]
    cases h : f b with
    | none => simp [h, bind, Except.bind]
    | some a => simp [h, bind, Except.bind]

theorem collectSome_error {α : Type} (l : List (Py (Option α))) (e : PyErr) (i : Nat)
    (hi : l[i]? = some (.error e)) (hbefore : ∀ j < i, ∃ a, l[j]? = some (.ok a)) :
    collectSome l = .error e := by
  induction l generalizing i with
  | nil => simp at hi
  | cons x l ih =>
    cases i with
    | zero =>
      simp at hi
      rw [collectSome, hi]; rfl
    | succ i =>
      obtain ⟨a, ha⟩ := hbefore 0 (by omega)
      simp at ha hi
      rw [collectSome, ha, ih i hi (fun j hj => by
        obtain ⟨b, hb⟩ := hbefore (j + 1) (by omega)
        exact ⟨b, by simpa using hb⟩)]
      rfl

end Cddm
