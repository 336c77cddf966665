import Verif.Lemmas.Mirror

/-!
# The simulation box (C53)
-/

namespace Cddm
open Spec

/-- C53: for `x0 < x1` the loop ends with a point of `[x0, x1)` congruent to `x`. -/
theorem C53_mirror {x0 x1 : ℝ} (hx : x0 < x1) (x : ℝ) :
    ∃ y, mirror x x0 x1 = some y ∧ x0 ≤ y ∧ y < x1 ∧ ∃ k : ℤ, y = x + k * (x1 - x0) :=
  mirror_spec hx x

/-- C53: there is only one such point, so the result is it. -/
theorem C53_mirror_unique {x0 x1 : ℝ} (hx : x0 < x1) (x y : ℝ) (h1 : x0 ≤ y) (h2 : y < x1)
    (hk : ∃ k : ℤ, y = x + k * (x1 - x0)) : mirror x x0 x1 = some y := by
  obtain ⟨z, hz, z1, z2, l, hl⟩ := mirror_spec hx x
  obtain ⟨k, hk⟩ := hk
  rw [hz]
  have hL : 0 < x1 - x0 := by linarith
  have a : k < l + 1 := by
    by_contra hc
    have : (l : ℝ) + 1 ≤ k := by exact_mod_cast not_lt.mp hc
    nlinarith
  have b : l < k + 1 := by
    by_contra hc
    have : (k : ℝ) + 1 ≤ l := by exact_mod_cast not_lt.mp hc
    nlinarith
  obtain rfl : k = l := by omega
  rw [hl, ← hk]

/-- C53: a box turned over (`x1 < x0`) makes `mirror` hang; an empty one leaves `x` as it is. -/
theorem C53_mirror_hangs {x0 x1 : ℝ} (hx : x1 < x0) (x : ℝ) : mirror x x0 x1 = none := by
  unfold mirror
  rw [if_neg hx.ne', dif_neg]
  rintro ⟨n, y, h⟩
  rw [mirrorLoop_none hx] at h
  cases h

theorem C53_mirror_empty (x x0 : ℝ) : mirror x x0 x0 = some x := by
  unfold mirror
  rw [if_pos rfl]

/-- C53: for all starting points and all random increments, which may depend on the coordinates,
every coordinate yielded by `brownian_walk` lies in the box; the first ones are the starting points
and the next ones the previous ones plus their increments, brought back into the box. -/
theorem C53_brownian_walk (x0 : List (ℝ × ℝ)) (count : Nat) (shape : Nat × Nat)
    (inc : Nat → List (ℝ × ℝ) → Nat → ℝ × ℝ) (h1 : 0 < shape.1) (h2 : 0 < shape.2) :
    ∃ xs, brownianWalk x0 count shape inc = some xs ∧ xs.length = count ∧
      (∀ x ∈ xs, x.length = x0.length ∧ ∀ p ∈ x, InBox shape p) ∧
      (∀ x, xs[0]? = some x → BroughtBack shape x x0) ∧
      ∀ (k : Nat) (y z : List (ℝ × ℝ)), xs[k]? = some y → xs[k + 1]? = some z →
        BroughtBack shape z (moved y (inc k y)) := by
  obtain ⟨x, hx, hb⟩ := mirrorAll_spec h1 h2 x0
  have hin : ∀ p ∈ x, InBox shape p := by
    intro p hp
    obtain ⟨j, hj, rfl⟩ := List.mem_iff_getElem.mp hp
    have h := List.forall₂_iff_get.mp hb
    exact (h.2 j hj (h.1 ▸ hj)).1
  obtain ⟨xs, e, l, f, a, c⟩ := walkLoop_spec h1 h2 inc count 0 x hin
  refine ⟨xs, ?_, l, ?_, ?_, ?_⟩
  · unfold brownianWalk
    simp [hx, e]
  · intro y hy
    obtain ⟨b1, b2⟩ := a y hy
    exact ⟨b1.trans hb.length_eq, b2⟩
  · intro y hy
    have hn : 0 < count := by
      rcases Nat.eq_zero_or_pos count with rfl | h
      · rw [List.length_eq_zero_iff.mp l] at hy; simp at hy
      · exact h
    have := f hn
    rw [hy] at this
    cases this
    exact hb
  · intro k y z hy hz
    have := c k y z hy hz
    rwa [Nat.zero_add] at this

/-- C53: also the coordinates of the camera that is shifted and rotated stay in the box; without
offset and rotation they are unchanged. -/
theorem C53_coordinate_transform (data : List (ℝ × ℝ)) (shape : Nat × Nat) (offset : Option (ℝ × ℝ))
    (rotation : Option ℝ) (h1 : 0 < shape.1) (h2 : 0 < shape.2) :
    (∃ out, coordinateTransform data shape offset rotation = some out ∧ out.length = data.length ∧
      ∀ p ∈ out, InBox shape p) ∧
    ((∀ p ∈ data, InBox shape p) → coordinateTransform data shape none none = some data) := by
  constructor
  · unfold coordinateTransform
    dsimp only
    generalize hd : (data.map _ : List (ℝ × ℝ)) = d
    obtain ⟨out, ho, hb⟩ := mirrorAll_spec h1 h2 d
    refine ⟨out, ho, ?_, ?_⟩
    · rw [hb.length_eq, ← hd, List.length_map]
    · intro p hp
      obtain ⟨j, hj, rfl⟩ := List.mem_iff_getElem.mp hp
      have h := List.forall₂_iff_get.mp hb
      exact (h.2 j hj (h.1 ▸ hj)).1
  · intro hin
    have e1 : (0 : ℝ) < shape.1 := by exact_mod_cast h1
    have e2 : (0 : ℝ) < shape.2 := by exact_mod_cast h2
    unfold coordinateTransform
    simp only [coordinateRotate, sub_self, add_zero, Prod.mk.eta, List.map_id']
    induction data with
    | nil => rfl
    | cons p x ih =>
      have ih := ih fun q hq => hin q (List.mem_cons_of_mem _ hq)
      obtain ⟨⟨a1, a2⟩, b1, b2⟩ := hin p List.mem_cons_self
      unfold mirrorAll at ih ⊢
      rw [List.mapM_cons, ih, C53_mirror_unique e1 p.1 p.1 a1 a2 ⟨0, by simp⟩,
        C53_mirror_unique e2 p.2 p.2 b1 b2 ⟨0, by simp⟩]
      rfl

/-- C53: the transform turns the coordinates about the middle of the frame, shifts them, and brings them back into the
box; an absent rotation or offset counts as zero. -/
theorem C53_turned (data : List (ℝ × ℝ)) (shape : Nat × Nat) (offset : Option (ℝ × ℝ)) (rotation : Option ℝ)
    (h1 : 0 < shape.1) (h2 : 0 < shape.2) :
    ∃ out, coordinateTransform data shape offset rotation = some out ∧
      BroughtBack shape out (data.map (turned shape (offset.getD (0, 0)) (rotation.getD 0))) := by
  unfold coordinateTransform
  dsimp only
  obtain ⟨out, ho, hb⟩ := mirrorAll_spec h1 h2
    (data.map (turned shape (offset.getD (0, 0)) (rotation.getD 0)))
  refine ⟨out, ?_, hb⟩
  rw [← ho]
  congr 1
  apply List.map_congr_left
  intro p _
  cases offset <;> cases rotation <;> simp only [coordinateRotate, turned, Option.getD] <;> ext <;> simp <;> ring

/-- The turned points have the distances of the original ones, and the middle of the frame moves by the offset. -/
theorem C53_rigid (shape : Nat × Nat) (o : ℝ × ℝ) (θ : ℝ) (p q : ℝ × ℝ) :
    ((turned shape o θ p).1 - (turned shape o θ q).1) ^ 2 + ((turned shape o θ p).2 - (turned shape o θ q).2) ^ 2
      = (p.1 - q.1) ^ 2 + (p.2 - q.2) ^ 2 ∧
    turned shape o θ ((shape.1 : ℝ) / 2, (shape.2 : ℝ) / 2) = ((shape.1 : ℝ) / 2 + o.1, (shape.2 : ℝ) / 2 + o.2) := by
  constructor
  · have := Real.sin_sq_add_cos_sq θ
    simp only [turned]
    linear_combination ((p.1 - q.1) ^ 2 + (p.2 - q.2) ^ 2) * this
  · simp [turned]

/-- The hypotheses can be met: -3 is brought to 7 in the box [0, 10). -/
example : mirror (-3) 0 10 = some 7 :=
  C53_mirror_unique (by norm_num) _ _ (by norm_num) (by norm_num) ⟨1, by norm_num⟩

example : ∃ xs, brownianWalk [(3, 4), (-1, 12)] 5 (8, 8) (fun i x p => ((i : ℝ) * p, x.length)) = some xs ∧
    xs.length = 5 := by
  obtain ⟨xs, h, l, _⟩ := C53_brownian_walk [(3, 4), (-1, 12)] 5 (8, 8)
    (fun i x p => ((i : ℝ) * p, x.length)) (by norm_num) (by norm_num)
  exact ⟨xs, h, l⟩

end Cddm
