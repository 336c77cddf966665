import Verif.Model.DrawParallel
import Verif.Spec.DrawParallel
import Verif.Lemmas.Draw
import Mathlib.Algebra.BigOperators.Fin

/-!
# Lemmas about drawing in parallel
-/

namespace Cddm
open Spec

/-- What a list of updates adds to pixel `q`. -/
def pixelSum (q : Nat × Nat) (l : List PixelUpdate) : Nat := (l.map fun u => if u.1 = q then u.2 else 0).sum

theorem pixelSum_cons (q : Nat × Nat) (u : PixelUpdate) (l : List PixelUpdate) :
    pixelSum q (u :: l) = (if u.1 = q then u.2 else 0) + pixelSum q l := rfl

theorem pixelSum_flatten (q : Nat × Nat) (L : List (List PixelUpdate)) :
    pixelSum q L.flatten = (L.map (pixelSum q)).sum := by
  induction L with
  | nil => rfl
  | cons l L ih => simp only [pixelSum, List.flatten_cons, List.map_append, List.sum_append, List.map_cons, List.sum_cons] at ih ⊢
                   rw [ih]

theorem pixelSum_eq_zero {q : Nat × Nat} {l : List PixelUpdate} (h : ∀ u ∈ l, u.1 ≠ q) : pixelSum q l = 0 := by
  unfold pixelSum
  rw [List.sum_eq_zero]
  intro x hx
  obtain ⟨u, hu, rfl⟩ := List.mem_map.mp hx
  exact if_neg (h u hu)

variable {T bits : Nat}

/-- What is left to add to pixel `q`. -/
def leftAt (q : Nat × Nat) (s : DrawState T) : Nat := ∑ t, pixelSum q (s.worker t).todo

theorem leftAt_update (q : Nat × Nat) (s : DrawState T) (im : Arr2 Nat) (t : Fin T) (l : List PixelUpdate) (r : Option Nat) :
    leftAt q ⟨im, Function.update s.worker t ⟨l, r⟩⟩ + pixelSum q (s.worker t).todo = leftAt q s + pixelSum q l := by
  unfold leftAt
  rw [← Finset.add_sum_erase _ _ (Finset.mem_univ t), ← Finset.add_sum_erase Finset.univ (fun t => pixelSum q (s.worker t).todo) (Finset.mem_univ t)]
  have : ∑ x ∈ Finset.univ.erase t, pixelSum q (Function.update s.worker t ⟨l, r⟩ x).todo =
      ∑ x ∈ Finset.univ.erase t, pixelSum q (s.worker x).todo :=
    Finset.sum_congr rfl fun x hx => by rw [Function.update_of_ne (Finset.ne_of_mem_erase hx)]
  simp only [Function.update_self, this]
  omega

/-- The three kinds of steps. -/
theorem drawStep_cases (bits : Nat) (s : DrawState T) (t : Fin T) :
    ((s.worker t).todo = [] ∧ drawStep bits s t = s) ∨
    (∃ q p rest, (s.worker t).todo = (q, p) :: rest ∧ (s.worker t).reg = none ∧
      drawStep bits s t = { s with worker := Function.update s.worker t ⟨(q, p) :: rest, some (s.im.get q.1 q.2)⟩ }) ∨
    (∃ q p rest v, (s.worker t).todo = (q, p) :: rest ∧ (s.worker t).reg = some v ∧
      drawStep bits s t =
        { im := { s.im with get := fun r c => if r = q.1 ∧ c = q.2 then (v + p) % 2 ^ bits else s.im.get r c },
          worker := Function.update s.worker t ⟨rest, none⟩ }) := by
  unfold drawStep
  rcases h : (s.worker t).todo with _ | ⟨⟨q, p⟩, rest⟩
  · left; simp
  · rcases h' : (s.worker t).reg with _ | v
    · right; left; exact ⟨q, p, rest, rfl, rfl, rfl⟩
    · right; right; exact ⟨q, p, rest, v, rfl, rfl, rfl⟩

theorem drawStep_shape (s : DrawState T) (t : Fin T) : (drawStep bits s t).im.h = s.im.h ∧ (drawStep bits s t).im.w = s.im.w := by
  rcases drawStep_cases bits s t with ⟨_, e⟩ | ⟨_, _, _, _, _, e⟩ | ⟨_, _, _, _, _, _, e⟩ <;> rw [e] <;> exact ⟨rfl, rfl⟩

theorem drawRun_inv (P : DrawState T → Prop) (hP : ∀ s t, P s → P (drawStep bits s t)) (sched : List (Fin T)) (s : DrawState T)
    (h : P s) : P (drawRun bits sched s) := by
  unfold drawRun
  induction sched generalizing s with
  | nil => exact h
  | cons t l ih => exact ih _ (hP s t h)

theorem drawRun_shape (sched : List (Fin T)) (s : DrawState T) :
    (drawRun bits sched s).im.h = s.im.h ∧ (drawRun bits sched s).im.w = s.im.w :=
  drawRun_inv (fun s' => s'.im.h = s.im.h ∧ s'.im.w = s.im.w)
    (fun s' t h => ⟨(drawStep_shape s' t).1.trans h.1, (drawStep_shape s' t).2.trans h.2⟩) sched s ⟨rfl, rfl⟩

/-- Nothing is lost below what was there and nothing is added twice. -/
def Within (q : Nat × Nat) (base tot : Nat) (s : DrawState T) : Prop :=
  base ≤ s.im.get q.1 q.2 ∧ s.im.get q.1 q.2 + leftAt q s ≤ tot ∧
    ∀ t p rest v, (s.worker t).todo = (q, p) :: rest → (s.worker t).reg = some v → base ≤ v ∧ v + leftAt q s ≤ tot

theorem within_step {q : Nat × Nat} {base tot : Nat} (htot : tot < 2 ^ bits) (s : DrawState T) (t : Fin T)
    (h : Within q base tot s) : Within q base tot (drawStep bits s t) := by
  obtain ⟨h1, h2, h3⟩ := h
  rcases drawStep_cases bits s t with ⟨_, e⟩ | ⟨q', p, rest, ht, hr, e⟩ | ⟨q', p, rest, v, ht, hr, e⟩
  · rw [e]; exact ⟨h1, h2, h3⟩
  · have hl := leftAt_update q s s.im t ((q', p) :: rest) (some (s.im.get q'.1 q'.2))
    rw [ht] at hl
    have hl : leftAt q (drawStep bits s t) = leftAt q s := by rw [e]; omega
    refine ⟨by rw [e]; exact h1, by rw [hl, e]; exact h2, fun t' p' rest' v' ht' hr' => ?_⟩
    rw [hl]
    rw [e] at ht' hr'
    dsimp only at ht' hr'
    by_cases htt : t' = t
    · subst htt
      rw [Function.update_self] at ht' hr'
      cases ht'
      cases hr'
      exact ⟨h1, h2⟩
    · rw [Function.update_of_ne htt] at ht' hr'
      exact h3 t' p' rest' v' ht' hr'
  · have hl := leftAt_update q s (drawStep bits s t).im t rest none
    rw [ht, pixelSum_cons] at hl
    have hl' : leftAt q (drawStep bits s t) = leftAt q ⟨(drawStep bits s t).im, Function.update s.worker t ⟨rest, none⟩⟩ := by
      rw [e]
    rw [← hl'] at hl
    have hle : leftAt q (drawStep bits s t) ≤ leftAt q s := by omega
    refine ⟨?_, ?_, fun t' p' rest' v' ht' hr' => ?_⟩
    · rw [e]
      dsimp only
      split
      · rename_i hq
        have hq' : q' = q := by ext <;> simp [hq]
        subst hq'
        have := h3 t p rest v ht hr
        simp only [if_true] at hl
        rw [Nat.mod_eq_of_lt (by omega)]
        omega
      · exact h1
    · by_cases hq : q' = q
      · subst hq
        have := h3 t p rest v ht hr
        simp only [if_true] at hl
        have hv : (drawStep bits s t).im.get q'.1 q'.2 = v + p := by
          rw [e]
          dsimp only
          rw [if_pos ⟨rfl, rfl⟩, Nat.mod_eq_of_lt (by omega)]
        rw [hv]
        omega
      · have hv : (drawStep bits s t).im.get q.1 q.2 = s.im.get q.1 q.2 := by
          rw [e]
          dsimp only
          rw [if_neg (fun hh => hq (by ext <;> simp [hh]))]
        rw [hv]
        omega
    · rw [e] at ht' hr'
      dsimp only at ht' hr'
      by_cases htt : t' = t
      · subst htt
        rw [Function.update_self] at hr'
        cases hr'
      · rw [Function.update_of_ne htt] at ht' hr'
        have := h3 t' p' rest' v' ht' hr'
        omega

/-- Only worker `t` has updates of pixel `q`: what it has read is what is there, and nothing is lost. -/
def Sole (bits : Nat) (q : Nat × Nat) (t : Fin T) (tot : Nat) (s : DrawState T) : Prop :=
  (∀ t', t' ≠ t → ∀ u ∈ (s.worker t').todo, u.1 ≠ q) ∧
  (∀ p rest v, (s.worker t).todo = (q, p) :: rest → (s.worker t).reg = some v → v = s.im.get q.1 q.2) ∧
  s.im.get q.1 q.2 < 2 ^ bits ∧ (s.im.get q.1 q.2 + pixelSum q (s.worker t).todo) % 2 ^ bits = tot % 2 ^ bits

theorem sole_step {q : Nat × Nat} {t0 : Fin T} {tot : Nat} (s : DrawState T) (t : Fin T) (h : Sole bits q t0 tot s) :
    Sole bits q t0 tot (drawStep bits s t) := by
  obtain ⟨h1, h2, h3, h4⟩ := h
  rcases drawStep_cases bits s t with ⟨_, e⟩ | ⟨q', p, rest, ht, hr, e⟩ | ⟨q', p, rest, v, ht, hr, e⟩
  · rw [e]; exact ⟨h1, h2, h3, h4⟩
  · rw [e]
    have hw : ∀ t', (Function.update s.worker t ⟨(q', p) :: rest, some (s.im.get q'.1 q'.2)⟩ t').todo = (s.worker t').todo := by
      intro t'
      by_cases htt : t' = t
      · subst htt; rw [Function.update_self, ht]
      · rw [Function.update_of_ne htt]
    refine ⟨fun t' ht' => ?_, fun p' rest' v' hp' hv' => ?_, h3, ?_⟩
    · dsimp only; rw [hw]; exact h1 t' ht'
    · dsimp only at hp' hv' ⊢
      by_cases htt : t0 = t
      · subst htt
        rw [Function.update_self] at hp' hv'
        cases hp'
        cases hv'
        rfl
      · rw [Function.update_of_ne htt] at hp' hv'
        exact h2 p' rest' v' hp' hv'
    · dsimp only; rw [hw]; exact h4
  · by_cases htt : t = t0
    · subst htt
      by_cases hq : q' = q
      · subst hq
        have hv := h2 p rest v ht hr
        rw [ht, pixelSum_cons, if_pos rfl] at h4
        rw [e]
        refine ⟨fun t' ht' => ?_, fun p' rest' v' hp' hv' => ?_, ?_, ?_⟩
        · dsimp only; rw [Function.update_of_ne ht']; exact h1 t' ht'
        · dsimp only at hv'; rw [Function.update_self] at hv'; cases hv'
        · dsimp only; rw [if_pos ⟨rfl, rfl⟩]; exact Nat.mod_lt _ (by positivity)
        · dsimp only
          rw [if_pos ⟨rfl, rfl⟩, Function.update_self, Nat.mod_add_mod, hv, ← h4]
          dsimp only
          rw [Nat.add_assoc]
      · rw [ht, pixelSum_cons, if_neg hq, Nat.zero_add] at h4
        have hg : (drawStep bits s t).im.get q.1 q.2 = s.im.get q.1 q.2 := by
          rw [e]
          dsimp only
          rw [if_neg (fun hh => hq (by ext <;> simp [hh]))]
        refine ⟨fun t' ht' => ?_, fun p' rest' v' hp' hv' => ?_, by rw [hg]; exact h3, ?_⟩
        · rw [e]; dsimp only; rw [Function.update_of_ne ht']; exact h1 t' ht'
        · rw [e] at hv'; dsimp only at hv'; rw [Function.update_self] at hv'; cases hv'
        · rw [hg, e]; dsimp only; rw [Function.update_self]; exact h4
    · have hq : q' ≠ q := h1 t htt (q', p) (by rw [ht]; exact List.mem_cons_self)
      have hg : (drawStep bits s t).im.get q.1 q.2 = s.im.get q.1 q.2 := by
        rw [e]
        dsimp only
        rw [if_neg (fun hh => hq (by ext <;> simp [hh]))]
      have ht0 : (drawStep bits s t).worker t0 = s.worker t0 := by
        rw [e]; dsimp only; rw [Function.update_of_ne (Ne.symm htt)]
      refine ⟨fun t' ht' => ?_, fun p' rest' v' hp' hv' => ?_, by rw [hg]; exact h3, by rw [hg, ht0]; exact h4⟩
      · rw [e]
        dsimp only
        by_cases h5 : t' = t
        · subst h5
          rw [Function.update_self]
          intro u hu
          exact h1 t' htt u (by rw [ht]; exact List.mem_cons_of_mem _ hu)
        · rw [Function.update_of_ne h5]; exact h1 t' ht'
      · rw [ht0] at hp' hv'
        rw [hg]
        exact h2 p' rest' v' hp' hv'

/-- Steps a worker has to do. -/
def stepsLeft (w : DrawWorker) : Nat := 2 * w.todo.length - (if w.reg.isSome then 1 else 0)

theorem drawRun_done (t : Fin T) (sched : List (Fin T)) (s : DrawState T) (h : stepsLeft (s.worker t) ≤ sched.count t) :
    ((drawRun bits sched s).worker t).todo = [] := by
  induction sched generalizing s with
  | nil =>
    simp only [List.count_nil, stepsLeft] at h
    simp only [drawRun, List.foldl_nil]
    rcases hw : (s.worker t).todo with _ | ⟨u, l⟩
    · rfl
    · rw [hw] at h
      simp only [List.length_cons] at h
      split at h <;> omega
  | cons t' l ih =>
    refine ih (drawStep bits s t') ?_
    by_cases htt : t' = t
    · subst htt
      rw [List.count_cons_self] at h
      rcases drawStep_cases bits s t' with ⟨h0, e⟩ | ⟨q', p, rest, ht, hr, e⟩ | ⟨q', p, rest, v, ht, hr, e⟩
      · rw [e]
        simp [stepsLeft, h0]
      · have e' : (drawStep bits s t').worker t' = ⟨(q', p) :: rest, some (s.im.get q'.1 q'.2)⟩ := by
          rw [e]; exact Function.update_self ..
        rw [e']
        simp only [stepsLeft, ht, hr, List.length_cons, Option.isSome_none, Option.isSome_some, if_true, Bool.false_eq_true,
          if_false] at h ⊢
        omega
      · have e' : (drawStep bits s t').worker t' = ⟨rest, none⟩ := by
          rw [e]; exact Function.update_self ..
        rw [e']
        simp only [stepsLeft, ht, hr, List.length_cons, Option.isSome_none, Option.isSome_some, if_true, Bool.false_eq_true,
          if_false] at h ⊢
        omega
    · rw [List.count_cons_of_ne (by simpa using htt)] at h
      have : (drawStep bits s t').worker t = s.worker t := by
        rcases drawStep_cases bits s t' with ⟨h0, e⟩ | ⟨q', p, rest, ht, hr, e⟩ | ⟨q', p, rest, v, ht, hr, e⟩ <;> rw [e]
        · dsimp only; rw [Function.update_of_ne (Ne.symm htt)]
        · dsimp only; rw [Function.update_of_ne (Ne.symm htt)]
      rw [this]
      exact h

/-! ### The updates of particles -/

/-- The updates of a particle in the box. -/
noncomputable def boxUpdates (H W : Nat) (size : Int) (pt : ℝ × ℝ) (light : Nat) (sigma : ℝ) : List PixelUpdate :=
  (psfRange ⌊pt.1⌋ size ×ˢ psfRange ⌊pt.2⌋ size).map fun (q : Int × Int) =>
    (((q.1 % H).toNat, (q.2 % W).toNat), psfGauss (q.1 - pt.1) (q.2 - pt.2) sigma light)

theorem mapM_option_some {α β : Type} (f : α → Option β) (g : α → β) (l : List α) (h : ∀ a ∈ l, f a = some (g a)) :
    l.mapM f = some (l.map g) := by
  induction l with
  | nil => rfl
  | cons a l ih =>
    rw [List.mapM_cons, h a List.mem_cons_self, ih fun b hb => h b (List.mem_cons_of_mem _ hb)]
    rfl

theorem psfUpdates_eq {H W : Nat} {size : Int} {pt : ℝ × ℝ} (hp : InBox (H, W) pt) (light : Nat) (sigma : ℝ) (hH : size ≤ H)
    (hW : size ≤ W) : psfUpdates H W size pt light sigma = some (boxUpdates H W size pt light sigma) := by
  obtain ⟨⟨y0, y1⟩, x0, x1⟩ := hp
  dsimp only at y1 x1
  have fy0 : 0 ≤ ⌊pt.1⌋ := Int.floor_nonneg.mpr y0
  have fy1 : ⌊pt.1⌋ < (H : Int) := Int.floor_lt.mpr (by exact_mod_cast y1)
  have fx0 : 0 ≤ ⌊pt.2⌋ := Int.floor_nonneg.mpr x0
  have fx1 : ⌊pt.2⌋ < (W : Int) := Int.floor_lt.mpr (by exact_mod_cast x1)
  have H0 : 0 < H := by omega
  have W0 : 0 < W := by omega
  unfold psfUpdates boxUpdates
  rw [truncInt_of_nonneg y0, truncInt_of_nonneg x0]
  refine mapM_option_some _ _ _ ?_
  rintro ⟨a, b⟩ hq
  have hq := List.pair_mem_product.mp hq
  rw [mem_psfRange, mem_psfRange] at hq
  dsimp only
  rw [wrapOnce_eq (by omega) (by omega), wrapOnce_eq (by omega) (by omega), ← emod_toNat_cast H0, ← emod_toNat_cast W0,
    resolveIdx_nat (emod_toNat_lt H0), resolveIdx_nat (emod_toNat_lt W0)]
  rfl

theorem pixelSum_box {H W : Nat} (size : Int) (pt : ℝ × ℝ) (light : Nat) (sigma : ℝ) {i j : Nat} (hi : i < H) (hj : j < W) :
    pixelSum (i, j) (boxUpdates H W size pt light sigma) = lightAt (H, W) size light sigma pt.1 pt.2 i j := by
  unfold pixelSum boxUpdates
  rw [List.map_map]
  unfold Function.comp
  rw [sum_psfRange]
  unfold lightAt
  refine Finset.sum_congr rfl fun a _ => Finset.sum_congr rfl fun b _ => ?_
  have e : (((a % (H : Int)).toNat, (b % (W : Int)).toNat) = (i, j)) ↔ (a ≡ i [ZMOD H]) ∧ b ≡ j [ZMOD W] := by
    rw [Prod.mk.injEq, eq_comm, eq_emod_toNat hi, eq_comm, eq_emod_toNat hj]
  simp only [e, psfGauss_eq]

theorem mem_box {H W : Nat} {size : Int} {pt : ℝ × ℝ} {light : Nat} {sigma : ℝ} {i j : Nat} (hi : i < H) (hj : j < W)
    {u : PixelUpdate} (hu : u ∈ boxUpdates H W size pt light sigma) (hq : u.1 = (i, j)) : DrawnOn (H, W) size pt i j := by
  unfold boxUpdates at hu
  obtain ⟨⟨a, b⟩, hab, rfl⟩ := List.mem_map.mp hu
  have hab := List.pair_mem_product.mp hab
  rw [mem_psfRange, mem_psfRange] at hab
  simp only [Prod.mk.injEq] at hq
  refine ⟨a, b, abs_le.mpr ⟨by omega, by omega⟩, abs_le.mpr ⟨by omega, by omega⟩, ?_, ?_⟩
  · exact (eq_emod_toNat hi).mp hq.1.symm
  · exact (eq_emod_toNat hj).mp hq.2.symm

theorem boxUpdates_length (H W : Nat) (r : Nat) (pt : ℝ × ℝ) (light : Nat) (sigma : ℝ) :
    (boxUpdates H W r pt light sigma).length = (2 * r + 1) ^ 2 := by
  have hr : ∀ h : Int, (psfRange h (r : Int)).length = 2 * r + 1 := by
    intro h
    simp only [psfRange, List.length_map, List.length_range]
    omega
  unfold boxUpdates
  rw [List.length_map, List.length_product, hr, hr, sq]

theorem mem_workerParticles {α : Type} {share : Nat → Fin T} {l : List α} {t : Fin T} {x : α}
    (h : x ∈ workerParticles share l t) : ∃ k, l[k]? = some x ∧ share k = t := by
  unfold workerParticles at h
  obtain ⟨⟨y, k⟩, hy, rfl⟩ := List.mem_map.mp h
  rw [List.mem_filter] at hy
  refine ⟨k, ?_, by simpa using hy.2⟩
  exact List.mem_zipIdx_iff_getElem?.mp hy.1

theorem sum_workers {α : Type} (share : Nat → Fin T) (l : List α) (f : α → Nat) :
    ∑ t, ((workerParticles share l t).map f).sum = (l.map f).sum := by
  have key : ∀ L : List (α × Nat), ∑ t, (((L.filter fun q => decide (share q.2 = t)).map (·.1)).map f).sum = (L.map fun q => f q.1).sum := by
    intro L
    induction L with
    | nil => simp
    | cons a L ih =>
      have : ∀ t, ((((a :: L).filter fun q => decide (share q.2 = t)).map (·.1)).map f).sum =
          (if share a.2 = t then f a.1 else 0) + (((L.filter fun q => decide (share q.2 = t)).map (·.1)).map f).sum := by
        intro t
        rw [List.filter_cons]
        by_cases h : share a.2 = t <;> simp [h]
      simp only [this, Finset.sum_add_distrib, ih, List.map_cons, List.sum_cons]
      simp
  unfold workerParticles
  rw [key, ← List.zipIdx_map_fst 0 l, List.map_map]
  simp [Function.comp_def]

end Cddm
