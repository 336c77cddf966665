import Verif.Lemmas.Density
import Mathlib.Probability.Independence.InfinitePi

/-!
# Properties C86 and C87: the simulated particles are Brownian
-/

namespace Cddm
open Spec
open scoped BigOperators
open MeasureTheory ProbabilityTheory

/-! ### C86 -/

/-- The walk with arguments that fit. -/
theorem brownianWalkGen_spec (x0 : List (ℝ × ℝ)) (count h w : Nat) (delta : WalkArg) (dt : ℝ) (velocity : WalkArg)
    (g : Nat → Nat → ℝ × ℝ) (s v : List (ℝ × ℝ) → Nat → ℝ × ℝ) (hh : 0 < h) (hw : 0 < w) (hdt : 0 ≤ dt)
    (hs : ∀ y : List (ℝ × ℝ), y.length = x0.length → Gives x0.length (scaleOf dt delta y) (s y))
    (hv : ∀ y : List (ℝ × ℝ), y.length = x0.length → Gives x0.length (velocityOf dt velocity y) (v y)) :
    ∃ xs, brownianWalkGen (.points x0) count [h, w] delta dt velocity g = (xs, .ok ()) ∧ xs.length = count ∧
      (∀ x ∈ xs, x.length = x0.length) ∧ (∀ x, xs[0]? = some x → BroughtBack (h, w) x x0) ∧
      ∀ (k : Nat) (y z : List (ℝ × ℝ)), xs[k]? = some y → xs[k + 1]? = some z →
        BroughtBack (h, w) z (moved y fun p =>
          ((g k p).1 * (s y p).1 + (v y p).1, (g k p).2 * (s y p).2 + (v y p).2)) := by
  obtain ⟨x, hx, hb⟩ := mirrorAll_spec (shape := (h, w)) hh hw x0
  have hl : x.length = x0.length := hb.length_eq
  obtain ⟨xs, e, l, f, a, c⟩ := walkGen_spec (shape := (h, w)) hh hw delta dt velocity g s v count 0 x
    (fun y hy => by rw [hl] at hy ⊢; exact hs y hy) (fun y hy => by rw [hl] at hy ⊢; exact hv y hy)
  refine ⟨xs, ?_, l, fun y hy => (a y hy).trans hl, ?_, ?_⟩
  · unfold brownianWalkGen
    simp only [hx, orUB, if_neg (not_lt.mpr hdt), e]
  · intro y hy
    have hn : 0 < count := by
      rw [← l]
      exact (List.getElem?_eq_some_iff.mp hy).1
    rw [f hn] at hy
    cases hy
    exact hb
  · intro k y z hy hz
    have := c k y z hy hz
    rwa [Nat.zero_add] at this

/-- C86: with given step size and velocity, `brownian_walk` yields `count` arrays; the one after `i` steps holds,
brought back into the box, the starting points plus velocity times time plus `delta √dt` times the sum of the random
numbers of the `i` steps, for every particle and both coordinates. -/
theorem C86_walk (x0 : List (ℝ × ℝ)) (count h w : Nat) (delta velocity : StepArr) (dt : ℝ) (g : Nat → Nat → ℝ × ℝ)
    (δ v : Nat → ℝ × ℝ) (hh : 0 < h) (hw : 0 < w) (hdt : 0 ≤ dt) (hδ : Gives x0.length delta δ)
    (hv : Gives x0.length velocity v) :
    ∃ xs, brownianWalkGen (.points x0) count [h, w] (.const delta) dt (.const velocity) g = (xs, .ok ()) ∧
      xs.length = count ∧ ∀ (i : Nat) (x : List (ℝ × ℝ)), xs[i]? = some x →
        BroughtBack (h, w) x (x0.mapIdx (freeWalk dt δ v g i)) := by
  obtain ⟨xs, e, l, _, b, c⟩ := brownianWalkGen_spec x0 count h w (.const delta) dt (.const velocity) g
    (fun _ p => ((δ p).1 * Real.sqrt dt, (δ p).2 * Real.sqrt dt)) (fun _ p => ((v p).1 * dt, (v p).2 * dt)) hh hw hdt
    (fun _ _ => gives_times hδ _) (fun _ _ => gives_times hv _)
  refine ⟨xs, e, l, broughtBack_free dt δ v g x0 xs b fun k y z hy hz => ?_⟩
  have := c k y z hy hz
  rwa [moved_congr y _ (displacement dt δ v (g k))] at this
  intro p _
  simp only [displacement]
  ext
  · show _ + _ = _ + _
    congr 1
    show _ = (δ p).1 * Real.sqrt dt * _
    ring
  · show _ + _ = _ + _
    congr 1
    show _ = (δ p).2 * Real.sqrt dt * _
    ring

/-- The hypotheses can be met: three particles, a step size for all, a velocity for all. -/
example : Gives 3 (.scalar 2) (fun _ => (2, 2)) ∧ Gives 3 (.vec 2 fun c => if c = 0 then 1 else -1) (fun _ => (1, -1)) ∧
    Gives 3 (.mat 3 1 fun p _ => p) (fun p => (p, p)) := by
  simp [Gives]

/-- C86, partial: with functions of the coordinates, each step is `delta(x) √dt` times the random numbers plus
`velocity(x) dt`.  Missing: a function as velocity with `dt ≠ 1` (refuted below) and the documented shape `(len(x0),)`
of the value of a function `delta` (refuted below). -/
theorem C86_steps_partial (x0 : List (ℝ × ℝ)) (count h w : Nat) (delta velocity : WalkArg) (dt : ℝ)
    (g : Nat → Nat → ℝ × ℝ) (δ v : List (ℝ × ℝ) → Nat → ℝ × ℝ) (hh : 0 < h) (hw : 0 < w) (hdt : 0 ≤ dt)
    (hδ : WalkGives x0.length delta δ) (hv : WalkGives x0.length velocity v)
    (hc : dt = 1 ∨ ∃ a, velocity = .const a) :
    ∃ xs, brownianWalkGen (.points x0) count [h, w] delta dt velocity g = (xs, .ok ()) ∧
      xs.length = count ∧ (∀ x ∈ xs, x.length = x0.length) ∧ (∀ x, xs[0]? = some x → BroughtBack (h, w) x x0) ∧
      ∀ (k : Nat) (y z : List (ℝ × ℝ)), xs[k]? = some y → xs[k + 1]? = some z →
        BroughtBack (h, w) z (moved y (displacement dt (δ y) (v y) (g k))) := by
  obtain ⟨xs, e, l, a, b, c⟩ := brownianWalkGen_spec x0 count h w delta dt velocity g
    (fun y p => ((δ y p).1 * Real.sqrt dt, (δ y p).2 * Real.sqrt dt)) (fun y p => ((v y p).1 * dt, (v y p).2 * dt))
    hh hw hdt
    (fun y hy => by
      cases delta with
      | const a => exact gives_times (hδ y) _
      | call f => exact gives_times (hδ y hy) _)
    (fun y hy => by
      cases velocity with
      | const a => exact gives_times (hv y) _
      | call f =>
        rcases hc with rfl | ⟨a, ha⟩
        · simp only [mul_one]
          exact hv y hy
        · cases ha)
  refine ⟨xs, e, l, a, b, fun k y z hy hz => ?_⟩
  have := c k y z hy hz
  rwa [moved_congr y _ (displacement dt (δ y) (v y) (g k))] at this
  intro p _
  simp only [displacement]
  ext
  · show _ + _ = _ + _
    congr 1
    show _ = (δ y p).1 * Real.sqrt dt * _
    ring
  · show _ + _ = _ + _
    congr 1
    show _ = (δ y p).2 * Real.sqrt dt * _
    ring

/-- The hypotheses can be met: particles that rotate about the origin, faster steps far from it. -/
example : WalkGives 3 (.call fun x => .mat x.length 1 fun p _ => ((x.getD p (0, 0)).1) ^ 2)
      (fun x p => ((x.getD p (0, 0)).1 ^ 2, (x.getD p (0, 0)).1 ^ 2)) ∧
    WalkGives 3 (.call fun x => .mat x.length 2 fun p c => if c = 0 then -(x.getD p (0, 0)).2 else (x.getD p (0, 0)).1)
      (fun x p => (-(x.getD p (0, 0)).2, (x.getD p (0, 0)).1)) := by
  constructor
  · intro x hx
    exact ⟨hx, Or.inr ⟨rfl, fun _ _ => rfl⟩⟩
  · intro x hx
    exact ⟨hx, Or.inl ⟨rfl, fun _ _ => rfl⟩⟩

/-- C86 refuted for functions as velocity: a constant function and the constant itself give different walks if the
time step is not 1; the value of the function is not multiplied by `dt`. -/
theorem C86_velocity_refuted :
    ∃ xs ys : List (List (ℝ × ℝ)),
      brownianWalkGen (.points [(0, 0)]) 2 [8, 8] (.const (.scalar 0)) 2 (.const (.mat 1 2 fun _ _ => 1)) (fun _ _ => (0, 0)) =
        (xs, .ok ()) ∧
      brownianWalkGen (.points [(0, 0)]) 2 [8, 8] (.const (.scalar 0)) 2 (.call fun _ => .mat 1 2 fun _ _ => 1)
        (fun _ _ => (0, 0)) = (ys, .ok ()) ∧
      coordAt xs 1 0 = (2, 2) ∧ coordAt ys 1 0 = (1, 1) := by
  have box : ∀ (c : ℝ) (x : List (ℝ × ℝ)), 0 ≤ c → c < 8 → BroughtBack (8, 8) x [(c, c)] → x = [(c, c)] := by
    intro c x h0 h8 hb
    unfold BroughtBack at hb
    rw [List.forall₂_cons_right_iff] at hb
    obtain ⟨p, t, ⟨⟨⟨i1, i2⟩, i3, i4⟩, ⟨m, e1⟩, n, e2⟩, ht, rfl⟩ := hb
    rw [List.forall₂_nil_right_iff] at ht
    subst ht
    simp only at i1 i2 i3 i4 e1 e2
    push_cast at i2 i4 e1 e2
    have hm : m = 0 := by
      have a1 : (m : ℝ) < 1 := by linarith
      have a2 : (-1 : ℝ) < m := by linarith
      have b1 : m < 1 := by exact_mod_cast a1
      have b2 : -1 < m := by exact_mod_cast a2
      omega
    have hn : n = 0 := by
      have a1 : (n : ℝ) < 1 := by linarith
      have a2 : (-1 : ℝ) < n := by linarith
      have b1 : n < 1 := by exact_mod_cast a1
      have b2 : -1 < n := by exact_mod_cast a2
      omega
    subst hm hn
    rw [show p = (c, c) from Prod.ext (by simpa using e1) (by simpa using e2)]
  have at1 : ∀ (xs : List (List (ℝ × ℝ))) (c : ℝ), xs.length = 2 → 0 ≤ c → c < 8 →
      (∀ x, xs[0]? = some x → BroughtBack (8, 8) x [(0, 0)]) →
      (∀ (k : Nat) (y z : List (ℝ × ℝ)), xs[k]? = some y → xs[k + 1]? = some z →
        BroughtBack (8, 8) z (moved y fun _ => (c, c))) → coordAt xs 1 0 = (c, c) := by
    intro xs c hl h0 h8 a b
    match xs, hl with
    | [x, y], _ =>
      have hx := box 0 x (le_refl _) (by norm_num) (a x rfl)
      subst hx
      have hy := b 0 [(0, 0)] y rfl rfl
      have hy := box c y h0 h8 (by simpa [moved] using hy)
      subst hy
      rfl
  obtain ⟨xs, ex, lx, _, bx, cx⟩ := brownianWalkGen_spec [(0, 0)] 2 8 8 (.const (.scalar 0)) 2
    (.const (.mat 1 2 fun _ _ => 1)) (fun _ _ => (0, 0)) (fun _ _ => (0, 0)) (fun _ _ => (2, 2)) (by norm_num) (by norm_num)
    (by norm_num) (by intro y _; simp [scaleOf, StepArr.times, Gives])
    (by intro y _; simp [velocityOf, StepArr.times, Gives])
  obtain ⟨ys, ey, ly, _, by', cy⟩ := brownianWalkGen_spec [(0, 0)] 2 8 8 (.const (.scalar 0)) 2
    (.call fun _ => .mat 1 2 fun _ _ => 1) (fun _ _ => (0, 0)) (fun _ _ => (0, 0)) (fun _ _ => (1, 1)) (by norm_num)
    (by norm_num) (by norm_num) (by intro y _; simp [scaleOf, StepArr.times, Gives])
    (by intro y _; simp [velocityOf, Gives])
  refine ⟨xs, ys, ex, ey, at1 xs 2 lx (by norm_num) (by norm_num) bx ?_, at1 ys 1 ly (by norm_num) (by norm_num) by' ?_⟩
  · intro k y z hy hz
    simpa using cx k y z hy hz
  · intro k y z hy hz
    simpa using cy k y z hy hz

/-- C86 refuted for functions `delta` whose values have the documented shape `(len(x0),)`: with more than two
particles only the starting points are yielded, then ValueError is raised. -/
theorem C86_delta_refuted (x0 : List (ℝ × ℝ)) (count h w : Nat) (f : List (ℝ × ℝ) → Nat → ℝ) (dt : ℝ)
    (velocity : WalkArg) (g : Nat → Nat → ℝ × ℝ) (hh : 0 < h) (hw : 0 < w) (hdt : 0 ≤ dt) (hn : 3 ≤ x0.length)
    (hcount : 0 < count) :
    ∃ x, brownianWalkGen (.points x0) count [h, w] (.call fun x => .vec x.length (f x)) dt velocity g =
      ([x], .error .valueError) ∧ BroughtBack (h, w) x x0 := by
  obtain ⟨x, hx, hb⟩ := mirrorAll_spec (shape := (h, w)) hh hw x0
  have hl : x.length = x0.length := hb.length_eq
  refine ⟨x, ?_, hb⟩
  obtain ⟨n, rfl⟩ : ∃ n, count = n + 1 := ⟨count - 1, by omega⟩
  unfold brownianWalkGen
  simp only [hx, orUB, if_neg (not_lt.mpr hdt)]
  unfold walkGen
  have : walkStep (h, w) (.call fun x => .vec x.length (f x)) dt velocity (g 0) x = .error .valueError := by
    unfold walkStep scaleOf
    dsimp only [StepArr.times]
    have e : StepArr.forStep x.length (.vec x.length fun i => f x i * Real.sqrt dt) = .error .valueError := by
      have e' : StepArr.pairs x.length (.vec x.length fun i => f x i * Real.sqrt dt) = none := by
        unfold StepArr.pairs
        dsimp only
        rw [if_neg (by omega), if_neg (by omega)]
      unfold StepArr.forStep
      rw [e']
    rw [e]
    rfl
  rw [this]

/-- C86 refuted for two particles and functions `delta` of the documented shape: the two values are used for the two
coordinates of both particles, not for the two particles. -/
theorem C86_delta_two_refuted (x0 : List (ℝ × ℝ)) (count h w : Nat) (a b dt : ℝ) (velocity : StepArr) (v : Nat → ℝ × ℝ)
    (g : Nat → Nat → ℝ × ℝ) (hh : 0 < h) (hw : 0 < w) (hdt : 0 ≤ dt) (hn : x0.length = 2)
    (hv : Gives x0.length velocity v) :
    ∃ xs, brownianWalkGen (.points x0) count [h, w] (.call fun x => .vec x.length fun p => if p = 0 then a else b) dt
        (.const velocity) g = (xs, .ok ()) ∧
      xs.length = count ∧ ∀ (i : Nat) (x : List (ℝ × ℝ)), xs[i]? = some x →
        BroughtBack (h, w) x (x0.mapIdx (freeWalk dt (fun _ => (a, b)) v g i)) := by
  obtain ⟨xs, e, l, _, c, d⟩ := C86_steps_partial x0 count h w (.call fun x => .vec x.length fun p => if p = 0 then a else b)
    (.const velocity) dt g (fun _ _ => (a, b)) (fun _ => v) hh hw hdt
    (fun x hx => ⟨hx.trans hn, fun p _ => by simp⟩) (fun _ => hv) (Or.inr ⟨_, rfl⟩)
  exact ⟨xs, e, l, broughtBack_free dt _ v g x0 xs c d⟩

/-- C86: wrong shapes are rejected with ValueError before anything is yielded. -/
theorem C86_rejected (count : Nat) (delta velocity : WalkArg) (dt : ℝ) (g : Nat → Nat → ℝ × ℝ) :
    (∀ n shape, brownianWalkGen (.flat n) count shape delta dt velocity g = ([], .error .valueError)) ∧
    ∀ x0 shape, shape.length ≠ 2 → brownianWalkGen (.points x0) count shape delta dt velocity g = ([], .error .valueError) := by
  refine ⟨fun n shape => rfl, fun x0 shape h => ?_⟩
  match shape, h with
  | [], _ => rfl
  | [_], _ => rfl
  | [_, _], h => exact absurd rfl h
  | _ :: _ :: _ :: _, _ => rfl

theorem broughtBack_coordAt {shape : Nat × Nat} {x0 : List (ℝ × ℝ)} {xs : List (List (ℝ × ℝ))} {f : Nat → ℝ × ℝ → ℝ × ℝ}
    {i p : Nat} (hi : i < xs.length) (hp : p < x0.length)
    (h : ∀ x, xs[i]? = some x → BroughtBack shape x (x0.mapIdx f)) :
    InBox shape (coordAt xs i p) ∧ SamePlace shape (coordAt xs i p) (f p (x0.getD p (0, 0))) := by
  have b := h xs[i] (List.getElem?_eq_getElem hi)
  unfold BroughtBack at b
  rw [List.forall₂_iff_get] at b
  obtain ⟨l, b⟩ := b
  rw [List.length_mapIdx] at l
  have b := b p (by omega) (by rw [List.length_mapIdx]; omega)
  have e1 : coordAt xs i p = xs[i][p]'(by omega) := by
    unfold coordAt
    rw [List.getD_eq_getElem?_getD, List.getD_eq_getElem?_getD, List.getElem?_eq_getElem hi, Option.getD_some,
      List.getElem?_eq_getElem (by omega), Option.getD_some]
  rw [e1, List.getD_eq_getElem?_getD, List.getElem?_eq_getElem hp, Option.getD_some]
  simpa using b

/-- C86: if the random numbers are normal and independent, then the free walk of which `brownian_walk` yields the
places in the box has displacements in `m` steps that are normally distributed with mean `v m dt` and variance
`delta² m dt`, for every particle and coordinate. -/
theorem C86_normal {Ω : Type} [MeasurableSpace Ω] (μ : Measure Ω) (g : Ω → Nat → Nat → ℝ × ℝ) (hg : NormalNumbers μ g)
    (x0 : List (ℝ × ℝ)) (count h w : Nat) (delta velocity : StepArr) (dt : ℝ) (δ v : Nat → ℝ × ℝ) (hh : 0 < h)
    (hw : 0 < w) (hdt : 0 ≤ dt) (hδ : Gives x0.length delta δ) (hv : Gives x0.length velocity v) :
    ∃ (xs : Ω → List (List (ℝ × ℝ))) (u : Ω → Nat → Nat → ℝ × ℝ),
      (∀ ω, brownianWalkGen (.points x0) count [h, w] (.const delta) dt (.const velocity) (g ω) = (xs ω, .ok ())) ∧
      (∀ ω i p, i < count → p < x0.length →
        InBox (h, w) (coordAt (xs ω) i p) ∧ SamePlace (h, w) (coordAt (xs ω) i p) (u ω i p)) ∧
      ∀ (j m p : Nat) (a : Bool), p < x0.length →
        μ.map (fun ω => axis a (u ω (j + m) p) - axis a (u ω j p)) =
          gaussianReal (axis a (v p) * (m * dt)) (Real.toNNReal (axis a (δ p) ^ 2 * (m * dt))) := by
  choose xs e l b using fun ω => C86_walk x0 count h w delta velocity dt (g ω) δ v hh hw hdt hδ hv
  refine ⟨xs, fun ω i p => freeWalk dt δ v (g ω) i p (x0.getD p (0, 0)), e, fun ω i p hi hp => ?_, ?_⟩
  · exact broughtBack_coordAt (by rw [l ω]; exact hi) hp (b ω i)
  · intro j m p a _
    have hprob : IsProbabilityMeasure μ := hg.independent.isProbabilityMeasure
    have e : ∀ ω, axis a (freeWalk dt δ v (g ω) (j + m) p (x0.getD p (0, 0))) -
        axis a (freeWalk dt δ v (g ω) j p (x0.getD p (0, 0))) =
        axis a (v p) * (m * dt) + axis a (δ p) * Real.sqrt dt * ∑ s ∈ Finset.Ico j (j + m), axis a (g ω s p) := by
      intro ω
      have s1 := Finset.sum_range_add_sum_Ico (fun s => axis a (g ω s p)) (show j ≤ j + m by omega)
      cases a
      · simp only [axis, freeWalk, Bool.false_eq_true, if_false] at s1 ⊢
        rw [← s1]
        push_cast
        ring
      · simp only [axis, freeWalk, if_true] at s1 ⊢
        rw [← s1]
        push_cast
        ring
    simp only [e]
    have hm : Measurable fun ω => axis a (v p) * (m * dt) +
        axis a (δ p) * Real.sqrt dt * ∑ s ∈ Finset.Ico j (j + m), axis a (g ω s p) :=
      ((Finset.measurable_sum _ fun s _ => hg.measurable s p a).const_mul _).const_add _
    have : IsProbabilityMeasure (μ.map fun ω => axis a (v p) * (m * dt) +
        axis a (δ p) * Real.sqrt dt * ∑ s ∈ Finset.Ico j (j + m), axis a (g ω s p)) :=
      Measure.isProbabilityMeasure_map hm.aemeasurable
    refine Measure.ext_of_charFun ?_
    funext t
    rw [charFun_apply_real, integral_map hm.aemeasurable
      (Measurable.aestronglyMeasurable (by fun_prop)), charFun_gaussianReal]
    have e2 : ∀ ω, Complex.exp ((t : ℂ) * ((axis a (v p) * (m * dt) +
        axis a (δ p) * Real.sqrt dt * ∑ s ∈ Finset.Ico j (j + m), axis a (g ω s p) : ℝ) : ℂ) * Complex.I) =
        Complex.exp (Complex.I * ((t * (axis a (v p) * (m * dt)) : ℝ) : ℂ)) * Complex.exp (Complex.I *
          (((if a then 0 else t * (axis a (δ p) * Real.sqrt dt)) * ∑ s ∈ Finset.Ico j (j + m), (g ω s p).1 +
            (if a then t * (axis a (δ p) * Real.sqrt dt) else 0) * ∑ s ∈ Finset.Ico j (j + m), (g ω s p).2 : ℝ) : ℂ)) := by
      intro ω
      rw [← Complex.exp_add]
      congr 1
      cases a
      · simp only [axis, Bool.false_eq_true, if_false]
        push_cast
        ring
      · simp only [axis, if_true]
        push_cast
        ring
    simp only [e2]
    rw [integral_const_mul, normal_phase hg, ← Complex.exp_add]
    congr 1
    rw [Real.coe_toNNReal _ (by positivity), Nat.card_Ico]
    have hs : Real.sqrt dt ^ 2 = dt := Real.sq_sqrt hdt
    have e3 : (-(((j + m - j : ℕ) : ℝ) * ((if a then 0 else t * (axis a (δ p) * Real.sqrt dt)) ^ 2 +
        (if a then t * (axis a (δ p) * Real.sqrt dt) else 0) ^ 2) / 2)) = -(axis a (δ p) ^ 2 * (m * dt) * t ^ 2 / 2) := by
      rw [Nat.add_sub_cancel_left]
      cases a
      · simp only [Bool.false_eq_true, if_false, mul_pow, hs]
        ring
      · simp only [if_true, mul_pow, hs]
        ring
    rw [e3]
    push_cast
    ring

/-- C86: for every wave vector of the box the mean product of the fields scattered by a particle, computed from the
coordinates yielded at two times, is the intermediate scattering function of Brownian motion with diffusion constant
`delta² / 2`. -/
theorem C86_scattering {Ω : Type} [MeasurableSpace Ω] (μ : Measure Ω) (g : Ω → Nat → Nat → ℝ × ℝ)
    (hg : NormalNumbers μ g) (x0 : List (ℝ × ℝ)) (count h w : Nat) (δ dt : ℝ) (velocity : StepArr) (v : Nat → ℝ × ℝ)
    (hh : 0 < h) (hw : 0 < w) (hdt : 0 ≤ dt) (hv : Gives x0.length velocity v) :
    ∃ xs : Ω → List (List (ℝ × ℝ)),
      (∀ ω, brownianWalkGen (.points x0) count [h, w] (.const (.scalar δ)) dt (.const velocity) (g ω) = (xs ω, .ok ())) ∧
      ∀ (j m p : Nat) (k l : ℤ), j + m < count → p < x0.length →
        ∫ ω, scattered (waveVector (h, w) k l) (coordAt (xs ω) (j + m) p) *
          (starRingEnd ℂ) (scattered (waveVector (h, w) k l) (coordAt (xs ω) j p)) ∂μ =
        brownianF (waveVector (h, w) k l) (v p) (δ ^ 2 / 2) (m * dt) := by
  choose xs e len b using fun ω => C86_walk x0 count h w (.scalar δ) velocity dt (g ω) (fun _ => (δ, δ)) v hh hw hdt
    (fun _ _ => rfl) hv
  refine ⟨xs, e, fun j m p k l hj hp => ?_⟩
  rw [← integral_scattered hg (waveVector (h, w) k l) dt hdt δ v p j m (fun _ => x0.getD p (0, 0))]
  refine integral_congr_ae (Filter.Eventually.of_forall fun ω => ?_)
  have h1 := (broughtBack_coordAt (by rw [len ω]; exact hj) hp (b ω (j + m))).2
  have h2 := (broughtBack_coordAt (by rw [len ω]; omega) hp (b ω j)).2
  show _ * _ = _ * _
  rw [scattered_samePlace (shape := (h, w)) hh hw k l h1, scattered_samePlace (shape := (h, w)) hh hw k l h2]

/-- The laws of the random numbers: uniform for the start, normal for the steps. -/
noncomputable def drawLaw : (Nat × Bool) ⊕ (Nat × Nat × Bool) → Measure ℝ
  | .inl _ => volume.restrict (Set.Ico 0 1)
  | .inr _ => gaussianReal 0 1

instance : ∀ d, IsProbabilityMeasure (drawLaw d)
  | .inl _ => ⟨by simp [drawLaw]⟩
  | .inr _ => inferInstanceAs (IsProbabilityMeasure (gaussianReal 0 1))

/-- There are such random numbers: the hypotheses `RandomNumbers` and `NormalNumbers` can be met. -/
theorem randomNumbers_exist : ∃ (Ω : Type) (_ : MeasurableSpace Ω) (μ : Measure Ω) (r : Ω → Nat → ℝ × ℝ)
    (g : Ω → Nat → Nat → ℝ × ℝ), RandomNumbers μ r g ∧ NormalNumbers μ g := by
  have key : RandomNumbers (Measure.infinitePi drawLaw)
      (fun ω p => (ω (.inl (p, false)), ω (.inl (p, true))))
      (fun ω i p => (ω (.inr (i, p, false)), ω (.inr (i, p, true)))) := by
    have e : ∀ (d : (Nat × Bool) ⊕ (Nat × Nat × Bool)) (ω : (Nat × Bool) ⊕ (Nat × Nat × Bool) → ℝ),
        drawn (fun p => (ω (.inl (p, false)), ω (.inl (p, true))))
          (fun i p => (ω (.inr (i, p, false)), ω (.inr (i, p, true)))) d = ω d := by
      intro d ω
      rcases d with ⟨p, a⟩ | ⟨i, p, a⟩ <;> cases a <;> rfl
    refine ⟨?_, ?_, ?_, ?_⟩
    · intro d
      simp only [e]
      exact measurable_pi_apply d
    · simp only [e]
      exact iIndepFun_infinitePi (X := fun _ x => x) (fun _ => measurable_id)
    · intro p a
      have := Measure.infinitePi_map_eval drawLaw (.inl (p, a))
      rw [show (fun ω : (Nat × Bool) ⊕ (Nat × Nat × Bool) → ℝ =>
        axis a (ω (.inl (p, false)), ω (.inl (p, true)))) = fun ω => ω (.inl (p, a)) by
          funext ω; cases a <;> rfl]
      exact this
    · intro i p a
      have := Measure.infinitePi_map_eval drawLaw (.inr (i, p, a))
      rw [show (fun ω : (Nat × Bool) ⊕ (Nat × Nat × Bool) → ℝ =>
        axis a (ω (.inr (i, p, false)), ω (.inr (i, p, true)))) = fun ω => ω (.inr (i, p, a)) by
          funext ω; cases a <;> rfl]
      exact this
  exact ⟨_, _, _, _, _, key, randomNumbers_normal key⟩

/-- The hypotheses can be met and the conclusion is not trivial: steps of size 1 in a box of 8 x 8. -/
example : brownianF (waveVector (8, 8) 1 0) (0, 0) (1 / 2) 1 = Complex.exp (((-(Real.pi ^ 2 / 32) : ℝ)) : ℂ) := by
  unfold brownianF waveVector
  congr 1
  push_cast
  ring

/-! ### C87 -/

theorem startVelocity_spec {x : List (ℝ × ℝ)} {velocity : StepArr} {v : Nat → ℝ × ℝ} (hv : Gives x.length velocity v) :
    ∃ v0, startVelocity (.points x) (.const velocity) = .ok (.const v0) ∧ Gives x.length v0 v := by
  obtain ⟨v', e, h⟩ := gives_pairs hv
  refine ⟨.mat x.length 2 fun p c => if c = 0 then (v' p).1 else (v' p).2, ?_, rfl, Or.inl ⟨rfl, ?_⟩⟩
  · unfold startVelocity
    simp only [e]
  · intro p hp
    simp [h p hp]

/-- C87: with given initial coordinates `brownian_particles` yields `count` arrays of `num_particles` points, the free
walks from these coordinates brought back into the box; the velocity may be a number, a pair, or one pair for each
particle. -/
theorem C87_given (x0 : List (ℝ × ℝ)) (count h w num : Nat) (delta velocity : StepArr) (dt : ℝ) (r : Nat → ℝ × ℝ)
    (g : Nat → Nat → ℝ × ℝ) (δ v : Nat → ℝ × ℝ) (hh : 0 < h) (hw : 0 < w) (hdt : 0 ≤ dt) (hnum : x0.length = num)
    (hδ : Gives num delta δ) (hv : Gives num velocity v) :
    ∃ xs, brownianParticles count [h, w] num (.const delta) dt (.const velocity) (some (.points x0)) r g = (xs, .ok ()) ∧
      xs.length = count ∧ (∀ x ∈ xs, x.length = num) ∧ ∀ (i : Nat) (x : List (ℝ × ℝ)), xs[i]? = some x →
        BroughtBack (h, w) x (x0.mapIdx (freeWalk dt δ v g i)) := by
  subst hnum
  obtain ⟨v0, e0, hv0⟩ := startVelocity_spec hv
  obtain ⟨xs, e, l, b⟩ := C86_walk x0 count h w delta v0 dt g δ v hh hw hdt hδ hv0
  refine ⟨xs, ?_, l, ?_, b⟩
  · unfold brownianParticles startCoords
    simp only [ne_eq, not_true, if_false, e0, e]
  · intro x hx
    obtain ⟨i, hi, rfl⟩ := List.mem_iff_getElem.mp hx
    rw [(b i _ (List.getElem?_eq_getElem hi)).length_eq, List.length_mapIdx]

/-- C87: without initial coordinates the particles start at the random points of the box that are drawn, and walk from
there. -/
theorem C87_random (count h w num : Nat) (delta velocity : StepArr) (dt : ℝ) (r : Nat → ℝ × ℝ) (g : Nat → Nat → ℝ × ℝ)
    (δ v : Nat → ℝ × ℝ) (hh : 0 < h) (hw : 0 < w) (hdt : 0 ≤ dt) (hδ : Gives num delta δ) (hv : Gives num velocity v) :
    ∃ xs, brownianParticles count [h, w] num (.const delta) dt (.const velocity) none r g = (xs, .ok ()) ∧
      xs.length = count ∧ (∀ x ∈ xs, x.length = num) ∧
      (∀ i p, i < count → p < num → InBox (h, w) (coordAt xs i p) ∧
        SamePlace (h, w) (coordAt xs i p) (freeWalk dt δ v g i p ((r p).1 * h, (r p).2 * w))) ∧
      ((∀ p, (0 ≤ (r p).1 ∧ (r p).1 < 1) ∧ 0 ≤ (r p).2 ∧ (r p).2 < 1) → ∀ p, 0 < count → p < num →
        coordAt xs 0 p = ((r p).1 * h, (r p).2 * w)) := by
  obtain ⟨xs, e, l, n, b⟩ := C87_given ((List.range num).map fun (p : Nat) => ((r p).1 * h, (r p).2 * w)) count h w num
    delta velocity dt r g δ v hh hw hdt (by simp) hδ hv
  have key : ∀ i p, i < count → p < num → InBox (h, w) (coordAt xs i p) ∧
      SamePlace (h, w) (coordAt xs i p) (freeWalk dt δ v g i p ((r p).1 * h, (r p).2 * w)) := by
    intro i p hi hp
    have := broughtBack_coordAt (by rw [l]; exact hi) (by simpa using hp) (b i)
    simpa [List.getD_eq_getElem?_getD, List.getElem?_range hp] using this
  refine ⟨xs, ?_, l, n, key, ?_⟩
  · rw [← e]
    unfold brownianParticles startCoords
    simp
  · intro hr p hc hp
    obtain ⟨⟨i1, i2⟩, s1, s2⟩ := key 0 p hc hp
    rw [freeWalk_zero] at s1 s2
    obtain ⟨⟨a1, a2⟩, a3, a4⟩ := hr p
    have h1 : (0 : ℝ) < h := by exact_mod_cast hh
    have h2 : (0 : ℝ) < w := by exact_mod_cast hw
    have aux : ∀ (n : ℝ) (x u : ℝ) (k : ℤ), 0 < n → 0 ≤ x → x < n → 0 ≤ u → u < 1 → x = u * n + k * n → x = u * n := by
      intro n x u k hn x0 x1 u0 u1 e
      have b1 : (k : ℝ) < 1 := by
        by_contra hc
        have : (1 : ℝ) ≤ k := not_lt.mp hc
        nlinarith [mul_nonneg u0 hn.le]
      have b2 : (-1 : ℝ) < k := by
        by_contra hc
        have : (k : ℝ) ≤ -1 := not_lt.mp hc
        nlinarith [mul_lt_mul_of_pos_right u1 hn]
      have c1 : k < 1 := by exact_mod_cast b1
      have c2 : -1 < k := by exact_mod_cast b2
      have : k = 0 := by omega
      simpa [this] using e
    obtain ⟨k1, s1⟩ := s1
    obtain ⟨k2, s2⟩ := s2
    exact Prod.ext (aux h _ _ k1 h1 i1.1 i1.2 a1 a2 s1) (aux w _ _ k2 h2 i2.1 i2.2 a3 a4 s2)

/-- The field scattered by the simulated particles is that of the free walks. -/
theorem scatteredAll_walker {Ω : Type} (r : Ω → Nat → ℝ × ℝ)
    (g : Ω → Nat → Nat → ℝ × ℝ) (count h w num : Nat) (δ dt : ℝ) (velocity : StepArr)
    (v : ℝ × ℝ) (hh : 0 < h) (hw : 0 < w) (hdt : 0 ≤ dt) (hv : Gives num velocity fun _ => v) :
    ∃ xs : Ω → List (List (ℝ × ℝ)),
      (∀ ω, brownianParticles count [h, w] num (.const (.scalar δ)) dt (.const velocity) none (r ω) (g ω) =
        (xs ω, .ok ())) ∧
      ∀ ω i, i < count → ∀ k l : ℤ, scatteredAll (waveVector (h, w) k l) ((xs ω).getD i []) =
        ∑ p ∈ Finset.range num, scattered (waveVector (h, w) k l) (walker (h, w) dt δ v (r ω) (g ω) i p) := by
  choose xs e len n b _ using fun ω => C87_random count h w num (.scalar δ) velocity dt (r ω) (g ω) (fun _ => (δ, δ))
    (fun _ => v) hh hw hdt (fun _ _ => rfl) hv
  refine ⟨xs, e, ?_⟩
  · intro ω i hi k l
    have hi' : i < (xs ω).length := by rw [len ω]; exact hi
    have hx : (xs ω).getD i [] = (xs ω)[i] := by
      rw [List.getD_eq_getElem?_getD, List.getElem?_eq_getElem hi', Option.getD_some]
    have hlen : (xs ω)[i].length = num := n ω _ (List.getElem_mem hi')
    unfold scatteredAll
    have e1 : ((xs ω).getD i []).map (scattered (waveVector (h, w) k l)) =
        (List.range num).map fun p => scattered (waveVector (h, w) k l) (walker (h, w) dt δ v (r ω) (g ω) i p) := by
      apply List.ext_getElem
      · rw [hx]; simp [hlen]
      · intro p h1 h2
        simp only [List.length_map, List.length_range] at h2
        have s := (b ω i p hi h2).2
        rw [List.getElem_map, List.getElem_map, List.getElem_range]
        have e2 : ((xs ω).getD i [])[p]'(by rw [hx, hlen]; exact h2) = coordAt (xs ω) i p := by
          unfold coordAt
          rw [List.getD_eq_getElem?_getD (l := (xs ω).getD i []), List.getElem?_eq_getElem (by rw [hx, hlen]; exact h2),
            Option.getD_some]
        rw [e2, scattered_samePlace (shape := (h, w)) hh hw k l s]
        rfl
    rw [e1]
    simp [Finset.sum, Finset.range, Multiset.range]

/-- C87: the fields scattered by all the simulated particles, computed from the yielded coordinates, have for every
wave vector of the box other than zero the mean zero and the correlation `N exp(-D q² t - i q v t)` with
`D = delta² / 2`: the intermediate scattering function that a DDM analysis of the simulation must find. -/
theorem C87_scattering {Ω : Type} [MeasurableSpace Ω] (μ : Measure Ω) (r : Ω → Nat → ℝ × ℝ)
    (g : Ω → Nat → Nat → ℝ × ℝ) (hg : RandomNumbers μ r g) (count h w num : Nat) (δ dt : ℝ) (velocity : StepArr)
    (v : ℝ × ℝ) (hh : 0 < h) (hw : 0 < w) (hdt : 0 ≤ dt) (hv : Gives num velocity fun _ => v) :
    ∃ xs : Ω → List (List (ℝ × ℝ)),
      (∀ ω, brownianParticles count [h, w] num (.const (.scalar δ)) dt (.const velocity) none (r ω) (g ω) =
        (xs ω, .ok ())) ∧
      ∀ (k l : ℤ), (k ≠ 0 ∨ l ≠ 0) →
        (∀ i < count, ∫ ω, scatteredAll (waveVector (h, w) k l) ((xs ω).getD i []) ∂μ = 0) ∧
        ∀ j m : Nat, j + m < count →
          ∫ ω, scatteredAll (waveVector (h, w) k l) ((xs ω).getD (j + m) []) *
            (starRingEnd ℂ) (scatteredAll (waveVector (h, w) k l) ((xs ω).getD j [])) ∂μ =
          num * brownianF (waveVector (h, w) k l) v (δ ^ 2 / 2) (m * dt) := by
  obtain ⟨xs, e, sum_eq⟩ := scatteredAll_walker r g count h w num δ dt velocity v hh hw hdt hv
  refine ⟨xs, e, fun k l hkl => ⟨fun i hi => ?_, fun j m hj => ?_⟩⟩
  · have hprob : IsProbabilityMeasure μ := hg.independent.isProbabilityMeasure
    simp only [fun ω => sum_eq ω i hi k l]
    rw [integral_finsetSum]
    · exact Finset.sum_eq_zero fun p _ => integral_walker hg (shape := (h, w)) hh hw k l hkl dt δ v i p
    · intro p _
      refine Integrable.of_bound (C := 1) (measurable_walker hg (shape := (h, w)) hh hw k l dt δ v i p).aestronglyMeasurable ?_
      exact Filter.Eventually.of_forall fun ω => by rw [norm_scattered]
  · simp only [fun ω => sum_eq ω (j + m) hj k l, fun ω => sum_eq ω j (by omega) k l]
    exact integral_density hg (shape := (h, w)) hh hw k l hkl dt δ hdt v num j m

/-- C87: a function as velocity is passed on unchanged. -/
theorem C87_callable (x0 : List (ℝ × ℝ)) (count : Nat) (shape : List Nat) (num : Nat) (delta : WalkArg) (dt : ℝ)
    (f : List (ℝ × ℝ) → StepArr) (r : Nat → ℝ × ℝ) (g : Nat → Nat → ℝ × ℝ) (hnum : x0.length = num) :
    brownianParticles count shape num delta dt (.call f) (some (.points x0)) r g =
      brownianWalkGen (.points x0) count shape delta dt (.call f) g := by
  unfold brownianParticles startCoords startVelocity
  simp [hnum]

/-- C87: a wrong number of initial coordinates, a velocity whose shape does not fit and a shape that is not a pair
are rejected with ValueError before anything is yielded. -/
theorem C87_rejected (count : Nat) (shape : List Nat) (num : Nat) (delta : WalkArg) (dt : ℝ) (r : Nat → ℝ × ℝ)
    (g : Nat → Nat → ℝ × ℝ) :
    (∀ x0 velocity, x0.length ≠ num →
      brownianParticles count shape num delta dt velocity (some (.points x0)) r g = ([], .error .valueError)) ∧
    (∀ x0 n f, x0.length = num → 3 ≤ n →
      brownianParticles count shape num delta dt (.const (.vec n f)) (some (.points x0)) r g = ([], .error .valueError)) ∧
    (∀ velocity, shape.length ≠ 2 → brownianParticles count shape num delta dt velocity none r g = ([], .error .valueError)) ∧
    ∀ n a, n = num → brownianParticles count shape num delta dt (.const a) (some (.flat n)) r g = ([], .error .indexError) := by
  refine ⟨fun x0 velocity h => ?_, fun x0 n f h hn => ?_, fun velocity h => ?_, fun n a h => ?_⟩
  · unfold brownianParticles startCoords
    simp [h]
  · unfold brownianParticles startCoords startVelocity StepArr.pairs
    simp [h, show n ≠ 2 by omega, show n ≠ 1 by omega]
  · unfold brownianParticles startCoords
    match shape, h with
    | [], _ => rfl
    | [_], _ => rfl
    | [_, _], h => exact absurd rfl h
    | _ :: _ :: _ :: _, _ => rfl
  · unfold brownianParticles startCoords startVelocity
    simp [h]

/-- The hypotheses can be met: two particles in a box of 4 x 4 that move one pixel per step. -/
example : ∃ xs, brownianParticles 3 [4, 4] 2 (.const (.scalar 0)) 1 (.const (.scalar 1)) (some (.points [(0, 0), (3, 1)]))
    (fun _ => (0, 0)) (fun _ _ => (0, 0)) = (xs, .ok ()) ∧ xs.length = 3 ∧ ∀ x ∈ xs, x.length = 2 := by
  obtain ⟨xs, e, l, n, _⟩ := C87_given [(0, 0), (3, 1)] 3 4 4 2 (.scalar 0) (.scalar 1) 1 (fun _ => (0, 0))
    (fun _ _ => (0, 0)) (fun _ => (0, 0)) (fun _ => (1, 1)) (by norm_num) (by norm_num) (by norm_num) rfl
    (fun _ _ => rfl) (fun _ _ => rfl)
  exact ⟨xs, e, l, n⟩

end Cddm
