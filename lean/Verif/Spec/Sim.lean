import Mathlib.Data.Real.Basic
import Mathlib.Analysis.SpecialFunctions.Exp
import Mathlib.Analysis.Complex.Trigonometric
import Mathlib.Order.Interval.Finset.Basic
import Mathlib.Data.Int.Interval
import Mathlib.Data.Int.ModEq
import Mathlib.Algebra.BigOperators.Group.Finset.Basic

/-!
# Specification vocabulary: the simulator
-/

namespace Cddm
namespace Spec

/-- A point of the simulation box. -/
def InBox (shape : Nat × Nat) (p : ℝ × ℝ) : Prop :=
  (0 ≤ p.1 ∧ p.1 < shape.1) ∧ 0 ≤ p.2 ∧ p.2 < shape.2

/-- Two points that differ by whole boxes. -/
def SamePlace (shape : Nat × Nat) (p q : ℝ × ℝ) : Prop :=
  (∃ k : ℤ, p.1 = q.1 + k * shape.1) ∧ ∃ k : ℤ, p.2 = q.2 + k * shape.2

/-- `new` holds, for every point of `old`, the same place inside the box. -/
def BroughtBack (shape : Nat × Nat) (new old : List (ℝ × ℝ)) : Prop :=
  List.Forall₂ (fun q p => InBox shape q ∧ SamePlace shape q p) new old

/-- The point `p` turned by the angle `θ` about the middle of the frame and shifted by `o`. -/
noncomputable def turned (shape : Nat × Nat) (o : ℝ × ℝ) (θ : ℝ) (p : ℝ × ℝ) : ℝ × ℝ :=
  let y := p.1 - (shape.1 : ℝ) / 2
  let x := p.2 - (shape.2 : ℝ) / 2
  ((shape.1 : ℝ) / 2 + (y * Real.cos θ - x * Real.sin θ) + o.1,
    (shape.2 : ℝ) / 2 + (y * Real.sin θ + x * Real.cos θ) + o.2)

/-- Every particle moved by its increment. -/
def moved (x : List (ℝ × ℝ)) (inc : Nat → ℝ × ℝ) : List (ℝ × ℝ) :=
  x.mapIdx fun p q => (q.1 + (inc p).1, q.2 + (inc p).2)

/-- The whole number of grey levels that a particle at `(y, x)` of peak intensity `light` gives to pixel
`(a, b)`, whose centre is at `(a + 1/2, b + 1/2)`. -/
noncomputable def pixelLight (light : Nat) (sigma y x : ℝ) (a b : ℤ) : Nat :=
  ⌊(light : ℝ) * Real.exp (-(((a + 1 / 2 - y) ^ 2 + (b + 1 / 2 - x) ^ 2) / (2 * sigma ^ 2)))⌋₊

/-- What the particle gives to pixel `(i, j)` of an image that continues periodically: the sum over
the pixels `(a, b)` of the square of half-width `r` around it that are the same pixel modulo the image. -/
noncomputable def lightAt (shape : Nat × Nat) (r : ℤ) (light : Nat) (sigma y x : ℝ) (i j : Nat) : Nat :=
  ∑ a ∈ Finset.Icc (⌊y⌋ - r) (⌊y⌋ + r), ∑ b ∈ Finset.Icc (⌊x⌋ - r) (⌊x⌋ + r),
    if (a ≡ i [ZMOD shape.1]) ∧ (b ≡ j [ZMOD shape.2]) then pixelLight light sigma y x a b else 0

/-- All the light of the particle. -/
noncomputable def totalLight (r : ℤ) (light : Nat) (sigma y x : ℝ) : Nat :=
  ∑ a ∈ Finset.Icc (⌊y⌋ - r) (⌊y⌋ + r), ∑ b ∈ Finset.Icc (⌊x⌋ - r) (⌊x⌋ + r), pixelLight light sigma y x a b

end Spec
end Cddm
