import Verif.Spec.ParallelKernel
import Mathlib.Tactic.Linarith

/-! # Kernels in parallel: lemmas -/

namespace Cddm
open Spec

section
variable {V : Type} [Add V]

theorem addAt_len {out : List V} {m : Int} {v : V} {r : List V} (h : addAt out m v = some r) : r.length = out.length := by
  unfold addAt at h
  rcases hk : pyIdx out.length m with _ | k
  · simp [hk] at h
  · simp [hk] at h
    subst h
    simp

theorem runUpdates_nil (out : List V) : runUpdates [] out = some out := rfl

theorem runUpdates_cons (u : Int × V) (ups : List (Int × V)) (out : List V) :
    runUpdates (u :: ups) out = (addAt out u.1 u.2).bind (runUpdates ups) := by
  simp [runUpdates, List.foldlM_cons]
  rfl

theorem runUpdates_one (u : Int × V) (out : List V) : runUpdates [u] out = addAt out u.1 u.2 := by
  rw [runUpdates_cons]
  cases addAt out u.1 u.2 <;> rfl

theorem runUpdates_append (a b : List (Int × V)) (out : List V) :
    runUpdates (a ++ b) out = (runUpdates a out).bind (runUpdates b) := by
  simp [runUpdates, List.foldlM_append]
  rfl

theorem runUpdates_len {ups : List (Int × V)} {out r : List V} (h : runUpdates ups out = some r) : r.length = out.length := by
  induction ups generalizing out with
  | nil => cases h; rfl
  | cons u ups ih =>
    rw [runUpdates_cons] at h
    rcases hc : addAt out u.1 u.2 with _ | o
    · simp [hc] at h
    · rw [hc] at h
      rw [ih h, addAt_len hc]

/-- A loop whose passes are runs of updates is a run of updates. -/
theorem foldlM_updates {L : Nat} {l : List Nat} {body : List V → Nat → Option (List V)} {ups : Nat → List (Int × V)}
    (h : ∀ i ∈ l, ∀ out : List V, out.length = L → body out i = runUpdates (ups i) out) (out : List V) (ho : out.length = L) :
    l.foldlM body out = runUpdates (l.flatMap ups) out := by
  induction l generalizing out with
  | nil => rfl
  | cons i l ih =>
    rw [List.foldlM_cons, List.flatMap_cons, runUpdates_append, h i (by simp) out ho]
    rcases hc : runUpdates (ups i) out with _ | o
    · rfl
    · exact ih (fun j hj => h j (by simp [hj])) o (by rw [runUpdates_len hc, ho])

end

/-! ### Any interleaving -/

section
variable {A V : Type} [DecidableEq A] [Add V] {P T : Nat} {addr : Fin P → Nat → A} {L : Nat}

theorem cellsOf_length (mem : A → V) (p : Fin P) : (cellsOf addr L mem p).length = L := by simp [cellsOf]

theorem pyIdx_lt_upd {L : Nat} {m : Int} {k : Nat} (h : pyIdx L m = some k) : k < L := by
  unfold pyIdx at h
  split_ifs at h <;> · cases h; omega

/-- Proof device: the invariant of the workers. -/
structure KernInv (addr : Fin P → Nat → A) (L : Nat) (share : Fin P → Fin T) (mem0 : A → V) (ups0 : Fin P → List (Int × V))
    (s : KernState A V P T) : Prop where
  run : ∀ p, runUpdates (s.todo p) (cellsOf addr L s.mem p) = runUpdates (ups0 p) (cellsOf addr L mem0 p)
  own : ∀ t, ∀ p ∈ s.queue t, share p = t
  nodup : ∀ t, (s.queue t).Nodup
  left : ∀ p, s.todo p ≠ [] → p ∈ s.queue (share p)
  reg : ∀ t a, s.reg t = some a → ∃ p rest m v ups k, s.queue t = p :: rest ∧ s.todo p = (m, v) :: ups ∧ pyIdx L m = some k
    ∧ a = s.mem (addr p k)
  other : ∀ b, (∀ p k, k < L → b ≠ addr p k) → s.mem b = mem0 b

theorem kernInv_start (mem : A → V) (ups : Fin P → List (Int × V)) (share : Fin P → Fin T) :
    KernInv addr L share mem ups (kernStart mem ups share) where
  run := fun _ => rfl
  own := by simp [kernStart]
  nodup := fun t => (List.nodup_finRange P).filter _
  left := by simp [kernStart]
  reg := by simp [kernStart]
  other := fun _ _ => rfl

theorem cellsOf_update (hinj : SeparateCells addr L) (mem : A → V) (p q : Fin P) {k : Nat}
    (hk : k < L) (a : V) : cellsOf addr L (Function.update mem (addr p k) a) q
      = if q = p then (cellsOf addr L mem p).set k a else cellsOf addr L mem q := by
  split_ifs with h
  · subst h
    apply List.ext_getElem (by simp [cellsOf])
    intro i h1 h2
    simp only [cellsOf, List.length_map, List.length_range] at h1
    simp only [cellsOf, List.getElem_map, List.getElem_range, List.getElem_set]
    by_cases e : k = i
    · subst e; simp
    · rw [if_neg e, Function.update_of_ne]
      intro he
      exact e (hinj _ _ _ _ h1 hk he).2.symm
  · apply List.map_congr_left
    intro i hi
    rw [Function.update_of_ne]
    intro he
    exact h (hinj _ _ _ _ (by simpa using hi) hk he).1

theorem addAt_cells (mem : A → V) (p : Fin P) {m : Int} {k : Nat} (hk : pyIdx L m = some k) (v : V) :
    addAt (cellsOf addr L mem p) m v = some ((cellsOf addr L mem p).set k (mem (addr p k) + v)) := by
  have hk' := pyIdx_lt_upd hk
  unfold addAt
  rw [cellsOf_length, hk]
  simp only [Option.bind_some, Option.some.injEq]
  rw [List.modify_eq_set_getElem?]
  simp [cellsOf, List.getElem?_range hk']

theorem kernInv_step (hinj : SeparateCells addr L) {share : Fin P → Fin T}
    {mem0 : A → V} {ups0 : Fin P → List (Int × V)} {s : KernState A V P T} (I : KernInv addr L share mem0 ups0 s) (t : Fin T) :
    KernInv addr L share mem0 ups0 (kernStep addr L s t) := by
  unfold kernStep
  split
  · exact I
  rename_i p rest hq
  have hsh : share p = t := I.own t p (by simp [hq])
  split
  · rename_i ht
    refine ⟨I.run, ?_, ?_, ?_, ?_, I.other⟩
    · intro t' q hq'
      by_cases e : t' = t
      · subst e
        simp only [Function.update_self] at hq'
        exact I.own t' q (by simp [hq, hq'])
      · simp only [Function.update_of_ne e] at hq'
        exact I.own t' q hq'
    · intro t'
      by_cases e : t' = t
      · subst e
        have := I.nodup t'
        rw [hq] at this
        simp only [Function.update_self]
        exact this.of_cons
      · simpa [Function.update_of_ne e] using I.nodup t'
    · intro q hq'
      have h := I.left q hq'
      by_cases e : share q = t
      · rw [e] at h ⊢
        simp only [Function.update_self]
        rw [hq] at h
        rcases List.mem_cons.mp h with rfl | h
        · exact absurd ht hq'
        · exact h
      · simpa [Function.update_of_ne e] using h
    · intro t' a ha
      obtain ⟨p', rest', m, v, ups, k, g1, g2, g3, g4⟩ := I.reg t' a ha
      have e : t' ≠ t := by
        rintro rfl
        rw [hq] at g1
        cases g1
        rw [ht] at g2
        cases g2
      exact ⟨p', rest', m, v, ups, k, by simpa [Function.update_of_ne e] using g1, g2, g3, g4⟩
  rename_i m v ups ht
  split
  · exact I
  rename_i k hk
  split
  · rename_i hr
    refine ⟨I.run, I.own, I.nodup, I.left, ?_, I.other⟩
    intro t' a ha
    by_cases e : t' = t
    · subst e
      simp only [Function.update_self, Option.some.injEq] at ha
      exact ⟨p, rest, m, v, ups, k, hq, ht, hk, ha.symm⟩
    · exact I.reg t' a (by simpa [Function.update_of_ne e] using ha)
  · rename_i a hr
    have hk' := pyIdx_lt_upd hk
    have ha : a = s.mem (addr p k) := by
      obtain ⟨p', rest', m', v', ups', k', g1, g2, g3, g4⟩ := I.reg t a hr
      rw [hq] at g1
      cases g1
      rw [ht] at g2
      cases g2
      rw [hk] at g3
      cases g3
      exact g4
    refine ⟨?_, I.own, I.nodup, ?_, ?_, ?_⟩
    · intro q
      have hrun := I.run q
      simp only [cellsOf_update hinj s.mem p q hk' (a + v)]
      by_cases e : q = p
      · subst e
        simp only [Function.update_self, if_true]
        rw [← hrun, ht, runUpdates_cons, addAt_cells s.mem q hk, ← ha]
        rfl
      · simp only [Function.update_of_ne e, if_neg e]
        exact hrun
    · intro q hq'
      by_cases e : q = p
      · subst e
        exact I.left q (by rw [ht]; simp)
      · exact I.left q (by simpa [Function.update_of_ne e] using hq')
    · intro t' b hb
      by_cases e : t' = t
      · subst e
        simp at hb
      · simp only [Function.update_of_ne e] at hb
        obtain ⟨p', rest', m', v', ups', k', g1, g2, g3, g4⟩ := I.reg t' b hb
        have hpp : p' ≠ p := by
          rintro rfl
          have := I.own t' p' (by simp [g1])
          exact e (this.symm.trans hsh)
        refine ⟨p', rest', m', v', ups', k', g1, by simpa [Function.update_of_ne hpp] using g2, g3, ?_⟩
        show b = Function.update s.mem (addr p k) (a + v) (addr p' k')
        rw [Function.update_of_ne]
        · exact g4
        · intro he
          exact hpp (hinj _ _ _ _ (pyIdx_lt_upd g3) hk' he).1
    · intro b hb
      have : b ≠ addr p k := hb p k hk'
      simp only [Function.update_of_ne this]
      exact I.other b hb

theorem kernInv_run (hinj : SeparateCells addr L) {share : Fin P → Fin T}
    {mem0 : A → V} {ups0 : Fin P → List (Int × V)} (sched : List (Fin T)) {s : KernState A V P T}
    (I : KernInv addr L share mem0 ups0 s) : KernInv addr L share mem0 ups0 (kernRun addr L sched s) := by
  induction sched generalizing s with
  | nil => exact I
  | cons t sched ih => exact ih (kernInv_step hinj I t)

/-! ### The workers come to an end -/

/-- Proof device: the steps that worker `t` needs. -/
def kernWork (s : KernState A V P T) (t : Fin T) : Nat :=
  ((s.queue t).map fun p => 2 * (s.todo p).length + 1).sum - (if (s.reg t).isSome then 1 else 0)

/-- Proof device: all accesses are inside. -/
def KernInside (L : Nat) (s : KernState A V P T) : Prop := ∀ p, ∀ u ∈ s.todo p, ∃ k, pyIdx L u.1 = some k

theorem kernInside_step {s : KernState A V P T} (h : KernInside L s) (t : Fin T) : KernInside L (kernStep addr L s t) := by
  unfold kernStep
  split
  · exact h
  rename_i p rest hq
  split
  · exact h
  rename_i m v ups ht
  split
  · exact h
  split
  · exact h
  · intro q u hu
    by_cases e : q = p
    · subst e
      simp only [Function.update_self] at hu
      exact h q u (by simp [ht, hu])
    · exact h q u (by simpa [Function.update_of_ne e] using hu)

theorem sum_map_update {l : List (Fin P)} (hl : l.Nodup) (p : Fin P) (hp : p ∉ l) (f : Fin P → List (Int × V)) (b : List (Int × V)) :
    (l.map fun q => 2 * (Function.update f p b q).length + 1).sum = (l.map fun q => 2 * (f q).length + 1).sum := by
  congr 1
  apply List.map_congr_left
  intro q hq
  rw [Function.update_of_ne]
  rintro rfl
  exact hp hq

theorem kernWork_step (hinj : SeparateCells addr L) {share : Fin P → Fin T}
    {mem0 : A → V} {ups0 : Fin P → List (Int × V)} {s : KernState A V P T} (I : KernInv addr L share mem0 ups0 s)
    (hin : KernInside L s) (t t' : Fin T) :
    kernWork (kernStep addr L s t) t' = kernWork s t' - (if t' = t then 1 else 0) := by
  have hlast : ∀ t'' : Fin T, s.queue t'' = [] → s.reg t'' = none := by
    intro t'' hq
    rcases hr : s.reg t'' with _ | a
    · rfl
    · obtain ⟨p', rest', m', v', ups', k', g1, -⟩ := I.reg t'' a hr
      rw [hq] at g1
      cases g1
  unfold kernStep
  split
  · rename_i hq
    split_ifs with e
    · subst e
      simp [kernWork, hq]
    · rfl
  rename_i p rest hq
  split
  · rename_i ht
    split_ifs with e
    · subst e
      have hr : s.reg t' = none := by
        rcases hr : s.reg t' with _ | a
        · rfl
        · obtain ⟨p', rest', m', v', ups', k', g1, g2, -⟩ := I.reg t' a hr
          rw [hq] at g1
          cases g1
          rw [ht] at g2
          cases g2
      simp [kernWork, hq, ht, hr]
    · simp [kernWork, Function.update_of_ne e]
  rename_i m v ups ht
  split
  · rename_i hk
    obtain ⟨k, hk'⟩ := hin p (m, v) (by simp [ht])
    rw [hk] at hk'
    cases hk'
  split
  · rename_i hr
    split_ifs with e
    · subst e
      simp [kernWork, hr]
    · simp [kernWork, Function.update_of_ne e]
  · rename_i a hr
    have hp : p ∉ rest := by
      have := I.nodup t
      rw [hq] at this
      exact (List.nodup_cons.mp this).1
    split_ifs with e
    · subst e
      simp only [kernWork, hq, List.map_cons, List.sum_cons, Function.update_self, ht, hr, Option.isSome_some, Option.isSome_none,
        if_true, Bool.false_eq_true, if_false, List.length_cons]
      have hn : rest.Nodup := by
        have := I.nodup t'
        rw [hq] at this
        exact this.of_cons
      rw [sum_map_update hn p hp]
      omega
    · have hpq : p ∉ s.queue t' := by
        intro h
        exact e ((I.own t' p h).symm.trans (I.own t p (by simp [hq])))
      simp only [kernWork, Function.update_of_ne e]
      rw [sum_map_update (I.nodup t') p hpq]
      rfl

theorem kernWork_run (hinj : SeparateCells addr L) {share : Fin P → Fin T}
    {mem0 : A → V} {ups0 : Fin P → List (Int × V)} (sched : List (Fin T)) {s : KernState A V P T}
    (I : KernInv addr L share mem0 ups0 s) (hin : KernInside L s) (t : Fin T) :
    kernWork (kernRun addr L sched s) t = kernWork s t - sched.count t := by
  induction sched generalizing s with
  | nil => simp [kernRun]
  | cons t' sched ih =>
    have := ih (kernInv_step hinj I t') (kernInside_step hin t')
    rw [show kernRun addr L (t' :: sched) s = kernRun addr L sched (kernStep addr L s t') from rfl, this, kernWork_step hinj I hin,
      List.count_cons]
    by_cases e : t' = t
    · subst e; simp; omega
    · simp [e, Ne.symm e]

theorem kernWork_zero {share : Fin P → Fin T} {mem0 : A → V} {ups0 : Fin P → List (Int × V)} {s : KernState A V P T}
    (I : KernInv addr L share mem0 ups0 s) (t : Fin T) (h : kernWork s t = 0) : s.queue t = [] := by
  rcases hq : s.queue t with _ | ⟨p, rest⟩
  · rfl
  exfalso
  unfold kernWork at h
  rw [hq] at h
  simp only [List.map_cons, List.sum_cons] at h
  split_ifs at h with hr
  · obtain ⟨a, ha⟩ := Option.isSome_iff_exists.mp hr
    obtain ⟨p', rest', m', v', ups', k', g1, g2, -⟩ := I.reg t a ha
    rw [hq] at g1
    cases g1
    rw [g2] at h
    simp at h
  · omega

theorem runUpdates_inside {ups : List (Int × V)} {out r : List V} (h : runUpdates ups out = some r) :
    ∀ u ∈ ups, ∃ k, pyIdx out.length u.1 = some k := by
  induction ups generalizing out with
  | nil => simp
  | cons u ups ih =>
    rw [runUpdates_cons] at h
    rcases hc : addAt out u.1 u.2 with _ | o
    · simp [hc] at h
    · rw [hc] at h
      intro w hw
      rcases List.mem_cons.mp hw with rfl | hw
      · unfold addAt at hc
        rcases hk : pyIdx out.length w.1 with _ | k
        · simp [hk] at hc
        · exact ⟨k, rfl⟩
      · rw [← addAt_len hc]
        exact ih h w hw

end

/-! ### The kernels are runs of updates -/

section
variable {R : Type} [Add R] [Sub R] [Neg R] [Mul R]

theorem crossCorr_updates (x y : List (Cx R)) (t1 t2 : List Int) (out : List R) (h1 : t1.length = x.length) (h2 : t2.length = y.length) :
    crossCorr x y t1 t2 out = runUpdates (crossCorrUpdates out.length x y t1 t2) out := by
  refine foldlM_updates (L := out.length) (fun i hi o ho => ?_) out rfl
  refine foldlM_updates (L := out.length) (fun j hj o' ho' => ?_) o ho
  simp only [List.mem_range] at hi hj
  simp only [List.getElem?_eq_getElem (h1 ▸ hi : i < t1.length), List.getElem?_eq_getElem (h2 ▸ hj : j < t2.length),
    List.getElem?_eq_getElem hi, List.getElem?_eq_getElem hj, ho', Option.bind_eq_bind, Option.bind_some, Option.getD_some]
  split_ifs
  all_goals first | rw [runUpdates_one] | rfl

theorem crossCorrComplex_updates (x y : List (Cx R)) (t1 t2 : List Int) (out : List (Cx R)) (h1 : t1.length = x.length) (h2 : t2.length = y.length) :
    crossCorrComplex x y t1 t2 out = runUpdates (crossCorrComplexUpdates out.length x y t1 t2) out := by
  refine foldlM_updates (L := out.length) (fun i hi o ho => ?_) out rfl
  refine foldlM_updates (L := out.length) (fun j hj o' ho' => ?_) o ho
  simp only [List.mem_range] at hi hj
  simp only [List.getElem?_eq_getElem (h1 ▸ hi : i < t1.length), List.getElem?_eq_getElem (h2 ▸ hj : j < t2.length),
    List.getElem?_eq_getElem hi, List.getElem?_eq_getElem hj, ho', Option.bind_eq_bind, Option.bind_some, Option.getD_some]
  split_ifs
  all_goals first | rw [runUpdates_one] | rfl

theorem crossDiff_updates (x y : List (Cx R)) (t1 t2 : List Int) (out : List R) (h1 : t1.length = x.length) (h2 : t2.length = y.length) :
    crossDiff x y t1 t2 out = runUpdates (crossDiffUpdates out.length x y t1 t2) out := by
  refine foldlM_updates (L := out.length) (fun i hi o ho => ?_) out rfl
  refine foldlM_updates (L := out.length) (fun j hj o' ho' => ?_) o ho
  simp only [List.mem_range] at hi hj
  simp only [List.getElem?_eq_getElem (h1 ▸ hi : i < t1.length), List.getElem?_eq_getElem (h2 ▸ hj : j < t2.length),
    List.getElem?_eq_getElem hi, List.getElem?_eq_getElem hj, ho', Option.bind_eq_bind, Option.bind_some, Option.getD_some]
  split_ifs
  all_goals first | rw [runUpdates_one] | rfl

theorem autoCorr_updates (f : List (Cx R)) (t : List Int) (out : List R) (h1 : t.length = f.length) :
    autoCorr f t out = runUpdates (autoCorrUpdates out.length f t) out := by
  refine foldlM_updates (L := out.length) (fun i hi o ho => ?_) out rfl
  refine foldlM_updates (L := out.length) (fun j hj o' ho' => ?_) o ho
  simp only [List.mem_range, List.mem_range'_1] at hi hj
  have hj' : j < f.length := by omega
  simp only [List.getElem?_eq_getElem (h1 ▸ hi : i < t.length), List.getElem?_eq_getElem (h1 ▸ hj' : j < t.length),
    List.getElem?_eq_getElem hi, List.getElem?_eq_getElem hj', ho', Option.bind_eq_bind, Option.bind_some, Option.getD_some]
  split_ifs
  all_goals first | rw [runUpdates_one] | rfl

theorem autoCorrComplex_updates (f : List (Cx R)) (t : List Int) (out : List (Cx R)) (h1 : t.length = f.length) :
    autoCorrComplex f t out = runUpdates (autoCorrComplexUpdates out.length f t) out := by
  refine foldlM_updates (L := out.length) (fun i hi o ho => ?_) out rfl
  refine foldlM_updates (L := out.length) (fun j hj o' ho' => ?_) o ho
  simp only [List.mem_range, List.mem_range'_1] at hi hj
  have hj' : j < f.length := by omega
  simp only [List.getElem?_eq_getElem (h1 ▸ hi : i < t.length), List.getElem?_eq_getElem (h1 ▸ hj' : j < t.length),
    List.getElem?_eq_getElem hi, List.getElem?_eq_getElem hj', ho', Option.bind_eq_bind, Option.bind_some, Option.getD_some]
  split_ifs
  all_goals first | rw [runUpdates_one] | rfl

theorem autoDiff_updates (f : List (Cx R)) (t : List Int) (out : List R) (h1 : t.length = f.length) :
    autoDiff f t out = runUpdates (autoDiffUpdates out.length f t) out := by
  refine foldlM_updates (L := out.length) (fun i hi o ho => ?_) out rfl
  refine foldlM_updates (L := out.length) (fun j hj o' ho' => ?_) o ho
  simp only [List.mem_range, List.mem_range'_1] at hi hj
  have hj' : j < f.length := by omega
  simp only [List.getElem?_eq_getElem (h1 ▸ hi : i < t.length), List.getElem?_eq_getElem (h1 ▸ hj' : j < t.length),
    List.getElem?_eq_getElem hi, List.getElem?_eq_getElem hj', ho', Option.bind_eq_bind, Option.bind_some, Option.getD_some]
  split_ifs
  all_goals first | rw [runUpdates_one] | rfl

theorem crossSum_updates {M : Type} [Add M] (f : List M) (t1 t2 : List Int) (out : List M) (h1 : t1.length = f.length) :
    crossSum f t1 t2 out = runUpdates (crossSumUpdates out.length f t1 t2) out := by
  refine foldlM_updates (L := out.length) (fun i hi o ho => ?_) out rfl
  refine foldlM_updates (L := out.length) (fun j hj o' ho' => ?_) o ho
  simp only [List.mem_range] at hi hj
  simp only [List.getElem?_eq_getElem hi, List.getElem?_eq_getElem hj, List.getElem?_eq_getElem (h1 ▸ hi : i < f.length), ho', Option.bind_eq_bind, Option.bind_some, Option.getD_some]
  split_ifs
  all_goals first | rw [runUpdates_one] | rfl

theorem crossSumComplex_updates {M : Type} [Add M] (f : List M) (t1 t2 : List Int) (out : List M) (h1 : t1.length = f.length) :
    crossSumComplex f t1 t2 out = runUpdates (crossSumComplexUpdates out.length f t1 t2) out := by
  refine foldlM_updates (L := out.length) (fun i hi o ho => ?_) out rfl
  refine foldlM_updates (L := out.length) (fun j hj o' ho' => ?_) o ho
  simp only [List.mem_range] at hi hj
  simp only [List.getElem?_eq_getElem hi, List.getElem?_eq_getElem hj, List.getElem?_eq_getElem (h1 ▸ hi : i < f.length), ho', Option.bind_eq_bind, Option.bind_some, Option.getD_some]
  split_ifs
  all_goals first | rw [runUpdates_one] | rfl

theorem crossCorrAdd_updates (xv yv : List (Cx R)) (out : List R) (c : Nat) (h : xv.length ≤ yv.length) :
    crossCorrAdd xv yv out c = runUpdates (crossCorrAddUpdates xv yv c) out := by
  refine foldlM_updates (L := out.length) (fun j hj o ho => ?_) out rfl
  simp only [List.mem_range] at hj
  simp only [List.getElem?_eq_getElem hj, List.getElem?_eq_getElem (hj.trans_le h), Option.bind_eq_bind, Option.bind_some,
    Option.getD_some]
  rw [runUpdates_one]

theorem crossCorrComplexAdd_updates (xv yv : List (Cx R)) (out : List (Cx R)) (c : Nat) (h : xv.length ≤ yv.length) :
    crossCorrComplexAdd xv yv out c = runUpdates (crossCorrComplexAddUpdates xv yv c) out := by
  refine foldlM_updates (L := out.length) (fun j hj o ho => ?_) out rfl
  simp only [List.mem_range] at hj
  simp only [List.getElem?_eq_getElem hj, List.getElem?_eq_getElem (hj.trans_le h), Option.bind_eq_bind, Option.bind_some,
    Option.getD_some]
  rw [runUpdates_one]

theorem crossDiffAdd_updates (xv yv : List (Cx R)) (out : List R) (c : Nat) (h : xv.length ≤ yv.length) :
    crossDiffAdd xv yv out c = runUpdates (crossDiffAddUpdates xv yv c) out := by
  refine foldlM_updates (L := out.length) (fun j hj o ho => ?_) out rfl
  simp only [List.mem_range] at hj
  simp only [List.getElem?_eq_getElem hj, List.getElem?_eq_getElem (hj.trans_le h), Option.bind_eq_bind, Option.bind_some,
    Option.getD_some]
  rw [runUpdates_one]

theorem pyTake_len (x : List (Cx R)) (i : Nat) (h : i ≤ x.length) : (pyTake x ((x.length : Int) - i)).length = x.length - i := by
  unfold pyTake
  rw [if_pos (by omega)]
  simp

theorem crossCorrRegular_updates (x y : List (Cx R)) (out : List R) (h : y.length = x.length) (hL : out.length ≤ x.length + 1) :
    crossCorrRegular x y out = runUpdates (crossCorrRegularUpdates out.length x y) out := by
  refine foldlM_updates (L := out.length) (fun i hi o ho => ?_) out rfl
  simp only [List.mem_range] at hi
  have hx := pyTake_len x i (by omega)
  have hy := pyTake_len y i (by omega)
  rw [h] at hy
  dsimp only
  rw [runUpdates_append, crossCorrAdd_updates _ _ _ _ (by simp [pyDrop, hx]; try omega)]
  simp only [bind]
  congr 1
  funext o'
  split_ifs
  · rw [crossCorrAdd_updates _ _ _ _ (by simp [pyDrop, hy])]
  · rfl

theorem crossDiffRegular_updates (x y : List (Cx R)) (out : List R) (h : y.length = x.length) (hL : out.length ≤ x.length + 1) :
    crossDiffRegular x y out = runUpdates (crossDiffRegularUpdates out.length x y) out := by
  refine foldlM_updates (L := out.length) (fun i hi o ho => ?_) out rfl
  simp only [List.mem_range] at hi
  have hx := pyTake_len x i (by omega)
  have hy := pyTake_len y i (by omega)
  rw [h] at hy
  dsimp only
  rw [runUpdates_append, crossDiffAdd_updates _ _ _ _ (by simp [pyDrop, hx]; try omega)]
  simp only [bind]
  congr 1
  funext o'
  split_ifs
  · rw [crossDiffAdd_updates _ _ _ _ (by simp [pyDrop, hy])]
  · rfl

theorem crossCorrComplexRegular_updates (x y : List (Cx R)) (out : List (Cx R)) (h : y.length = x.length)
    (hL : (out.length + 1) / 2 ≤ x.length + 1) :
    crossCorrComplexRegular x y out = runUpdates (crossCorrComplexRegularUpdates out.length x y) out := by
  refine foldlM_updates (L := out.length) (fun i hi o ho => ?_) out rfl
  simp only [List.mem_range] at hi
  have hx := pyTake_len x i (by omega)
  have hy := pyTake_len y i (by omega)
  rw [h] at hy
  dsimp only
  rw [runUpdates_append, crossCorrComplexAdd_updates _ _ _ _ (by simp [pyDrop, hx, h])]
  simp only [bind]
  rcases hc : runUpdates (crossCorrComplexAddUpdates (pyTake x ((x.length : Int) - i)) (pyDrop y i) i) o with _ | o'
  · rfl
  · simp only [Option.bind_some]
    have hl : o'.length = out.length := by rw [runUpdates_len hc, ho]
    split_ifs
    · rw [crossCorrComplexAdd_updates _ _ _ _ (by simp [pyDrop, hy]), hl]
    · rfl

theorem autoCorrRegular_updates (x : List (Cx R)) (out : List R) (hL : out.length ≤ x.length + 1) :
    autoCorrRegular x out = runUpdates (autoCorrRegularUpdates out.length x) out := by
  refine foldlM_updates (L := out.length) (fun i hi o ho => ?_) out rfl
  simp only [List.mem_range] at hi
  have hx := pyTake_len x i (by omega)
  exact crossCorrAdd_updates _ _ _ _ (by simp [pyDrop, hx])

theorem autoCorrComplexRegular_updates (x : List (Cx R)) (out : List (Cx R)) (hL : out.length ≤ x.length + 1) :
    autoCorrComplexRegular x out = runUpdates (autoCorrComplexRegularUpdates out.length x) out := by
  refine foldlM_updates (L := out.length) (fun i hi o ho => ?_) out rfl
  simp only [List.mem_range] at hi
  have hx := pyTake_len x i (by omega)
  exact crossCorrComplexAdd_updates _ _ _ _ (by simp [pyDrop, hx])

theorem autoDiffRegular_updates (x : List (Cx R)) (out : List R) (hL : out.length ≤ x.length + 1) :
    autoDiffRegular x out = runUpdates (autoDiffRegularUpdates out.length x) out := by
  refine foldlM_updates (L := out.length) (fun i hi o ho => ?_) out rfl
  simp only [List.mem_range] at hi
  have hx := pyTake_len x i (by omega)
  exact crossDiffAdd_updates _ _ _ _ (by simp [pyDrop, hx])

end

section
variable {V σ : Type} [Add V]

theorem foldlM_updSim {L : Nat} {l : List Nat} {stepK : List V × σ → Nat → Option (List V × σ)}
    {stepU : List (Int × V) × σ → Nat → Option (List (Int × V) × σ)}
    (h : ∀ i ∈ l, ∀ s, ∃ us s', (∀ ups, stepU (ups, s) i = some (ups ++ us, s')) ∧
      ∀ out : List V, out.length = L → stepK (out, s) i = (runUpdates us out).map fun o => (o, s'))
    (ups : List (Int × V)) (s : σ) : ∃ us s', l.foldlM stepU (ups, s) = some (ups ++ us, s') ∧
      ∀ out : List V, out.length = L → l.foldlM stepK (out, s) = (runUpdates us out).map fun o => (o, s') := by
  induction l generalizing ups s with
  | nil => exact ⟨[], s, by simp, fun out _ => by simp [runUpdates_nil]⟩
  | cons i l ih =>
    obtain ⟨us, s', h1, h2⟩ := h i (by simp) s
    obtain ⟨us', s'', h3, h4⟩ := ih (fun j hj => h j (by simp [hj])) (ups ++ us) s'
    refine ⟨us ++ us', s'', ?_, fun out ho => ?_⟩
    · rw [List.foldlM_cons, h1]
      simpa using h3
    · rw [List.foldlM_cons, h2 out ho, runUpdates_append]
      rcases hc : runUpdates us out with _ | o
      · rfl
      · exact h4 o (by rw [runUpdates_len hc, ho])

end

section
variable {M : Type} [Zero M] [Add M] [Sub M]

theorem plainSum_ok (x : List M) : ∃ s, plainSum x = some s := by
  have key : ∀ (l : List Nat) (s : M), (∀ j ∈ l, j < x.length) →
      ∃ r, l.foldlM (fun tmp j => do let xj ← x[j]?; some (tmp + xj)) s = some r := by
    intro l
    induction l with
    | nil => exact fun s _ => ⟨s, rfl⟩
    | cons j l ih =>
      intro s hl
      rw [List.foldlM_cons, List.getElem?_eq_getElem (hl j (by simp))]
      exact ih _ fun i hi => hl i (by simp [hi])
  exact key _ _ fun j hj => by simpa using hj

omit [Zero M] [Add M] [Sub M] in
theorem pyGet_ok (x : List M) (m : Int) (h0 : 0 ≤ m) (h1 : m < x.length) : ∃ a, pyGet x m = some a := by
  unfold pyGet pyIdx
  rw [if_pos h0, if_pos h1]
  exact ⟨x[m.toNat]'(by omega), by simp⟩

theorem crossSumRegular_updates (x out : List M) (hL : out.length ≤ x.length + 1) :
    crossSumRegular x out = runUpdates (crossSumRegularUpdates out.length x) out := by
  obtain ⟨tmp, htmp⟩ := plainSum_ok x
  obtain ⟨us, s', h1, h2⟩ := foldlM_updSim (L := out.length) (l := List.range out.length)
    (stepK := fun (q : List M × M) i => do
      let n : Int := (x.length : Int) - i
      if i = 0 then
        let tmp ← plainSum x
        let out ← addAt q.1 0 tmp
        some (out, tmp + tmp)
      else
        let a ← pyGet x ((i : Int) - 1)
        let b ← pyGet x n
        let prev := q.2 - a - b
        let out ← addAt q.1 i prev
        some (out, prev))
    (stepU := fun (q : List (Int × M) × M) i => do
      let n : Int := (x.length : Int) - i
      if i = 0 then
        let tmp ← plainSum x
        some (q.1 ++ [(0, tmp)], tmp + tmp)
      else
        let a ← pyGet x ((i : Int) - 1)
        let b ← pyGet x n
        let prev := q.2 - a - b
        some (q.1 ++ [((i : Int), prev)], prev))
    (fun i hi s => by
      simp only [List.mem_range] at hi
      by_cases e : i = 0
      · subst e
        exact ⟨[(0, tmp)], tmp + tmp, fun ups => by simp [htmp], fun o ho => by
          rw [runUpdates_one]; simp only [if_true, htmp, Option.bind_eq_bind, Option.bind_some]; cases addAt o 0 tmp <;> rfl⟩
      · obtain ⟨a, ha⟩ := pyGet_ok x ((i : Int) - 1) (by omega) (by omega)
        obtain ⟨b, hb⟩ := pyGet_ok x ((x.length : Int) - i) (by omega) (by omega)
        exact ⟨[((i : Int), s - a - b)], s - a - b, fun ups => by simp [e, ha, hb], fun o ho => by
          rw [runUpdates_one]
          simp only [if_neg e, ha, hb, Option.bind_eq_bind, Option.bind_some]
          cases addAt o i (s - a - b) <;> rfl⟩) [] 0
  unfold crossSumRegular crossSumRegularUpdates forRange
  rw [show (List.range out.length).foldlM _ (([] : List (Int × M)), (0 : M)) = _ from h1]
  rw [show (List.range out.length).foldlM _ (out, (0 : M)) = _ from h2 out rfl]
  simp only [List.nil_append, Option.map_some, Option.getD_some, bind]
  cases runUpdates us out <;> rfl

theorem crossSumComplexRegularInverted_updates (x out : List M) (hL : (out.length + 1) / 2 ≤ x.length + 1) :
    crossSumComplexRegularInverted x out = runUpdates (crossSumComplexRegularInvertedUpdates out.length x) out := by
  obtain ⟨tmp, htmp⟩ := plainSum_ok x
  obtain ⟨us, s', h1, h2⟩ := foldlM_updSim (L := out.length) (l := List.range ((out.length + 1) / 2))
    (stepK := fun (q : List M × M × M) i => do
      let n : Int := (x.length : Int) - i
      if i = 0 then
        let tmp ← plainSum x
        let out ← addAt q.1 0 tmp
        some (out, tmp, tmp)
      else
        let a ← pyGet x ((i : Int) - 1)
        let b ← pyGet x n
        let out ← addAt q.1 i (q.2.1 - a)
        let out ← addAt out (-(i : Int)) (q.2.2 - b)
        some (out, q.2.1 - a, q.2.2 - b))
    (stepU := fun (q : List (Int × M) × M × M) i => do
      let n : Int := (x.length : Int) - i
      if i = 0 then
        let tmp ← plainSum x
        some (q.1 ++ [(0, tmp)], tmp, tmp)
      else
        let a ← pyGet x ((i : Int) - 1)
        let b ← pyGet x n
        some (q.1 ++ [((i : Int), q.2.1 - a), (-(i : Int), q.2.2 - b)], q.2.1 - a, q.2.2 - b))
    (fun i hi s => by
      simp only [List.mem_range] at hi
      by_cases e : i = 0
      · subst e
        exact ⟨[(0, tmp)], (tmp, tmp), fun ups => by simp [htmp], fun o ho => by
          rw [runUpdates_one]; simp only [if_true, htmp, Option.bind_eq_bind, Option.bind_some]; cases addAt o 0 tmp <;> rfl⟩
      · obtain ⟨a, ha⟩ := pyGet_ok x ((i : Int) - 1) (by omega) (by omega)
        obtain ⟨b, hb⟩ := pyGet_ok x ((x.length : Int) - i) (by omega) (by omega)
        exact ⟨[((i : Int), s.1 - a), (-(i : Int), s.2 - b)], (s.1 - a, s.2 - b), fun ups => by simp [e, ha, hb],
          fun o ho => by
            rw [runUpdates_cons]
            simp only [if_neg e, ha, hb, Option.bind_eq_bind, Option.bind_some]
            cases addAt o i (s.1 - a) with
            | none => rfl
            | some o' =>
              simp only [Option.bind_some, runUpdates_one]
              cases addAt o' (-(i : Int)) (s.2 - b) <;> rfl⟩) [] (0, 0)
  unfold crossSumComplexRegularInverted crossSumComplexRegularInvertedUpdates forRange
  rw [show (List.range ((out.length + 1) / 2)).foldlM _ (([] : List (Int × M)), (0 : M), (0 : M)) = _ from h1]
  rw [show (List.range ((out.length + 1) / 2)).foldlM _ (out, (0 : M), (0 : M)) = _ from h2 out rfl]
  simp only [List.nil_append, Option.map_some, Option.getD_some, bind]
  cases runUpdates us out <;> rfl

theorem crossSumComplexRegular_updates (x out : List M) (hL : (out.length + 1) / 2 ≤ x.length + 1) :
    crossSumComplexRegular x out = runUpdates (crossSumComplexRegularUpdates out.length x) out := by
  obtain ⟨tmp, htmp⟩ := plainSum_ok x
  obtain ⟨us, s', h1, h2⟩ := foldlM_updSim (L := out.length) (l := List.range ((out.length + 1) / 2))
    (stepK := fun (q : List M × M × M) i => do
      let n : Int := (x.length : Int) - i
      if i = 0 then
        let tmp ← plainSum x
        let out ← addAt q.1 0 tmp
        some (out, tmp, tmp)
      else
        let a ← pyGet x ((i : Int) - 1)
        let b ← pyGet x n
        let out ← addAt q.1 i (q.2.2 - b)
        let out ← addAt out (-(i : Int)) (q.2.1 - a)
        some (out, q.2.1 - a, q.2.2 - b))
    (stepU := fun (q : List (Int × M) × M × M) i => do
      let n : Int := (x.length : Int) - i
      if i = 0 then
        let tmp ← plainSum x
        some (q.1 ++ [(0, tmp)], tmp, tmp)
      else
        let a ← pyGet x ((i : Int) - 1)
        let b ← pyGet x n
        some (q.1 ++ [((i : Int), q.2.2 - b), (-(i : Int), q.2.1 - a)], q.2.1 - a, q.2.2 - b))
    (fun i hi s => by
      simp only [List.mem_range] at hi
      by_cases e : i = 0
      · subst e
        exact ⟨[(0, tmp)], (tmp, tmp), fun ups => by simp [htmp], fun o ho => by
          rw [runUpdates_one]; simp only [if_true, htmp, Option.bind_eq_bind, Option.bind_some]; cases addAt o 0 tmp <;> rfl⟩
      · obtain ⟨a, ha⟩ := pyGet_ok x ((i : Int) - 1) (by omega) (by omega)
        obtain ⟨b, hb⟩ := pyGet_ok x ((x.length : Int) - i) (by omega) (by omega)
        exact ⟨[((i : Int), s.2 - b), (-(i : Int), s.1 - a)], (s.1 - a, s.2 - b), fun ups => by simp [e, ha, hb],
          fun o ho => by
            rw [runUpdates_cons]
            simp only [if_neg e, ha, hb, Option.bind_eq_bind, Option.bind_some]
            cases addAt o i (s.2 - b) with
            | none => rfl
            | some o' =>
              simp only [Option.bind_some, runUpdates_one]
              cases addAt o' (-(i : Int)) (s.1 - a) <;> rfl⟩) [] (0, 0)
  unfold crossSumComplexRegular crossSumComplexRegularUpdates forRange
  rw [show (List.range ((out.length + 1) / 2)).foldlM _ (([] : List (Int × M)), (0 : M), (0 : M)) = _ from h1]
  rw [show (List.range ((out.length + 1) / 2)).foldlM _ (out, (0 : M), (0 : M)) = _ from h2 out rfl]
  simp only [List.nil_append, Option.map_some, Option.getD_some, bind]
  cases runUpdates us out <;> rfl

end

end Cddm
