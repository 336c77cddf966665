import Verif.Spec.SimWalk
import Verif.Lemmas.Mirror

/-!
# Lemmas: simulated particles
-/

namespace Cddm
open Spec
open scoped BigOperators

theorem gives_times {n : Nat} {a : StepArr} {f : Nat → ℝ × ℝ} (h : Gives n a f) (c : ℝ) :
    Gives n (a.times c) fun p => ((f p).1 * c, (f p).2 * c) := by
  cases a with
  | scalar b =>
    intro p hp
    show ((f p).1 * c, (f p).2 * c) = _
    rw [h p hp]
  | vec k g =>
    refine ⟨h.1, fun p hp => ?_⟩
    show ((f p).1 * c, (f p).2 * c) = _
    rw [h.2 p hp]
  | mat r k g =>
    obtain ⟨e, h | h⟩ := h
    · refine ⟨e, Or.inl ⟨h.1, fun p hp => ?_⟩⟩
      show ((f p).1 * c, (f p).2 * c) = _
      rw [h.2 p hp]
    · refine ⟨e, Or.inr ⟨h.1, fun p hp => ?_⟩⟩
      show ((f p).1 * c, (f p).2 * c) = _
      rw [h.2 p hp]

theorem gives_pairs {n : Nat} {a : StepArr} {f : Nat → ℝ × ℝ} (h : Gives n a f) :
    ∃ f', a.pairs n = some f' ∧ ∀ p < n, f' p = f p := by
  cases a with
  | scalar b => exact ⟨_, rfl, fun p hp => (h p hp).symm⟩
  | vec k g =>
    refine ⟨fun _ => (g 0, g 1), ?_, fun p hp => (h.2 p hp).symm⟩
    unfold StepArr.pairs
    dsimp only
    rw [if_pos h.1]
  | mat r k g =>
    obtain ⟨rfl, h⟩ := h
    have hi : ∀ p < r, (if r = 1 then 0 else p) = p := by
      intro p hp
      split <;> omega
    obtain ⟨hk, h⟩ | ⟨hk, h⟩ := h
    · refine ⟨fun p => (g (if r = 1 then 0 else p) 0, g (if r = 1 then 0 else p) 1), ?_, ?_⟩
      · unfold StepArr.pairs
        dsimp only
        rw [if_pos (Or.inl rfl), if_pos hk]
      · intro p hp
        show (g (if r = 1 then 0 else p) 0, g (if r = 1 then 0 else p) 1) = _
        rw [hi p hp, h p hp]
    · refine ⟨fun p => (g (if r = 1 then 0 else p) 0, g (if r = 1 then 0 else p) 0), ?_, ?_⟩
      · unfold StepArr.pairs
        dsimp only
        rw [if_pos (Or.inl rfl), if_neg (by omega), if_pos hk]
      · intro p hp
        show (g (if r = 1 then 0 else p) 0, g (if r = 1 then 0 else p) 0) = _
        rw [hi p hp, h p hp]

theorem gives_forStep {n : Nat} {a : StepArr} {f : Nat → ℝ × ℝ} (h : Gives n a f) :
    ∃ f', a.forStep n = .ok f' ∧ ∀ p < n, f' p = f p := by
  obtain ⟨f', e, h'⟩ := gives_pairs h
  refine ⟨f', ?_, h'⟩
  unfold StepArr.forStep
  rw [e]

theorem moved_congr (x : List (ℝ × ℝ)) (f f' : Nat → ℝ × ℝ) (h : ∀ p < x.length, f p = f' p) : moved x f = moved x f' := by
  unfold moved
  apply List.ext_getElem
  · simp
  · intro i h1 h2
    simp only [List.length_mapIdx] at h1
    simp only [List.getElem_mapIdx, h i h1]

/-- A step with given scale and velocity. -/
theorem walkStep_spec {shape : Nat × Nat} (h1 : 0 < shape.1) (h2 : 0 < shape.2) (delta : WalkArg) (dt : ℝ)
    (velocity : WalkArg) (g : Nat → ℝ × ℝ) (x : List (ℝ × ℝ)) (s v : Nat → ℝ × ℝ)
    (hs : Gives x.length (scaleOf dt delta x) s) (hv : Gives x.length (velocityOf dt velocity x) v) :
    ∃ y, walkStep shape delta dt velocity g x = .ok y ∧
      BroughtBack shape y (moved x fun p => ((g p).1 * (s p).1 + (v p).1, (g p).2 * (s p).2 + (v p).2)) := by
  obtain ⟨s', es, hs⟩ := gives_forStep hs
  obtain ⟨v', ev, hv⟩ := gives_forStep hv
  obtain ⟨y, ey, hy⟩ := mirrorAll_spec h1 h2
    (moved x fun p => ((g p).1 * (s' p).1 + (v' p).1, (g p).2 * (s' p).2 + (v' p).2))
  refine ⟨y, ?_, ?_⟩
  · unfold walkStep
    simp only [es, ev, bind, Except.bind]
    unfold makeStep
    unfold moved at ey
    rw [ey]
    rfl
  · rwa [moved_congr x _ (fun p => ((g p).1 * (s p).1 + (v p).1, (g p).2 * (s p).2 + (v p).2))] at hy
    intro p hp
    rw [hs p hp, hv p hp]

theorem broughtBack_trans {shape : Nat × Nat} {z y u : List (ℝ × ℝ)} (inc : Nat → ℝ × ℝ)
    (hz : BroughtBack shape z (moved y inc)) (hy : BroughtBack shape y u) : BroughtBack shape z (moved u inc) := by
  unfold BroughtBack at *
  rw [List.forall₂_iff_get] at *
  obtain ⟨l1, a⟩ := hz
  obtain ⟨l2, b⟩ := hy
  rw [moved_length] at l1
  refine ⟨by rw [moved_length]; omega, fun i hi hu => ?_⟩
  rw [moved_length] at hu
  have c := a i hi (by rw [moved_length]; omega)
  have d := b i (by omega) hu
  refine ⟨c.1, ?_⟩
  obtain ⟨⟨k1, e1⟩, k2, e2⟩ := c.2
  obtain ⟨⟨m1, f1⟩, m2, f2⟩ := d.2
  simp only [List.get_eq_getElem, moved, List.getElem_mapIdx] at e1 e2 f1 f2 ⊢
  refine ⟨⟨k1 + m1, ?_⟩, k2 + m2, ?_⟩
  · rw [e1, f1]; push_cast; ring
  · rw [e2, f2]; push_cast; ring

/-- The loop with given scale and velocity. -/
theorem walkGen_spec {shape : Nat × Nat} (h1 : 0 < shape.1) (h2 : 0 < shape.2) (delta : WalkArg) (dt : ℝ)
    (velocity : WalkArg) (g : Nat → Nat → ℝ × ℝ) (s v : List (ℝ × ℝ) → Nat → ℝ × ℝ) (n i : Nat) (x : List (ℝ × ℝ))
    (hs : ∀ y : List (ℝ × ℝ), y.length = x.length → Gives x.length (scaleOf dt delta y) (s y))
    (hv : ∀ y : List (ℝ × ℝ), y.length = x.length → Gives x.length (velocityOf dt velocity y) (v y)) :
    ∃ xs, walkGen shape delta dt velocity g n i x = (xs, .ok ()) ∧ xs.length = n ∧ (0 < n → xs[0]? = some x) ∧
      (∀ y ∈ xs, y.length = x.length) ∧
      ∀ (k : Nat) (y z : List (ℝ × ℝ)), xs[k]? = some y → xs[k + 1]? = some z →
        BroughtBack shape z (moved y fun p =>
          ((g (i + k) p).1 * (s y p).1 + (v y p).1, (g (i + k) p).2 * (s y p).2 + (v y p).2)) := by
  induction n generalizing i x with
  | zero => exact ⟨[], rfl, rfl, by simp, by simp, by simp⟩
  | succ n ih =>
    obtain ⟨y, e, b⟩ := walkStep_spec h1 h2 delta dt velocity (g i) x (s x) (v x) (hs x rfl) (hv x rfl)
    have hl : y.length = x.length := by rw [b.length_eq, moved_length]
    obtain ⟨xs, e', l, f, a, c⟩ := ih (i + 1) y (fun z hz => by rw [hl] at hz ⊢; exact hs z hz)
      (fun z hz => by rw [hl] at hz ⊢; exact hv z hz)
    refine ⟨x :: xs, ?_, by simp [l], by simp, ?_, ?_⟩
    · unfold walkGen
      simp only [e, e']
    · intro z hz
      rcases List.mem_cons.mp hz with rfl | hz
      · rfl
      · rw [a z hz, hl]
    · intro k z u hz hu
      cases k with
      | zero =>
        simp only [List.getElem?_cons_zero, Option.some.injEq] at hz
        subst hz
        rw [List.getElem?_cons_succ] at hu
        have hn : 0 < n := by
          rw [← l]
          exact (List.getElem?_eq_some_iff.mp hu).1
        rw [f hn] at hu
        cases hu
        exact b
      | succ k =>
        rw [List.getElem?_cons_succ] at hz hu
        have := c k z u hz hu
        rwa [show i + 1 + k = i + (k + 1) by omega] at this

theorem freeWalk_zero (dt : ℝ) (δ v : Nat → ℝ × ℝ) (g : Nat → Nat → ℝ × ℝ) (p : Nat) (x0 : ℝ × ℝ) :
    freeWalk dt δ v g 0 p x0 = x0 := by
  simp [freeWalk]

theorem moved_freeWalk (dt : ℝ) (δ v : Nat → ℝ × ℝ) (g : Nat → Nat → ℝ × ℝ) (i : Nat) (x0 : List (ℝ × ℝ)) :
    moved (x0.mapIdx (freeWalk dt δ v g i)) (displacement dt δ v (g i)) = x0.mapIdx (freeWalk dt δ v g (i + 1)) := by
  unfold moved
  rw [List.mapIdx_mapIdx]
  congr 1
  funext p q
  simp only [Function.comp_apply, freeWalk, displacement, Finset.sum_range_succ]
  push_cast
  ext <;> simp <;> ring

/-- The walk with given scale and velocity is the free walk, brought back into the box. -/
theorem broughtBack_free {shape : Nat × Nat} (dt : ℝ) (δ v : Nat → ℝ × ℝ) (g : Nat → Nat → ℝ × ℝ)
    (x0 : List (ℝ × ℝ)) (xs : List (List (ℝ × ℝ))) (h0 : ∀ x, xs[0]? = some x → BroughtBack shape x x0)
    (hs : ∀ (k : Nat) (y z : List (ℝ × ℝ)), xs[k]? = some y → xs[k + 1]? = some z →
        BroughtBack shape z (moved y (displacement dt δ v (g k)))) (i : Nat) (x : List (ℝ × ℝ)) (hx : xs[i]? = some x) :
    BroughtBack shape x (x0.mapIdx (freeWalk dt δ v g i)) := by
  induction i generalizing x with
  | zero =>
    have : x0.mapIdx (freeWalk dt δ v g 0) = x0 := by
      apply List.ext_getElem
      · simp
      · intro j _ _
        simp [freeWalk_zero]
    rw [this]
    exact h0 x hx
  | succ i ih =>
    have hi : i < xs.length := by
      have := (List.getElem?_eq_some_iff.mp hx).1
      omega
    have hy : xs[i]? = some xs[i] := List.getElem?_eq_getElem hi
    rw [← moved_freeWalk]
    exact broughtBack_trans _ (hs i _ _ hy hx) (ih _ hy)

end Cddm
