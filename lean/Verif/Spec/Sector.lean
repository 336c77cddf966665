import Mathlib.Analysis.SpecialFunctions.Complex.Arg

/-!
# Specification vocabulary: sectors and rings of wave vectors
-/

namespace Cddm
namespace Spec

/-- Degrees in radians. -/
noncomputable def rad (d : ℝ) : ℝ := Real.pi / 180 * d

/-- The direction `a` (radians) lies strictly inside the sector of full opening `width` around
`centre`; directions that differ by `period` are the same (all in degrees). -/
def Inside (period centre width a : ℝ) : Prop :=
  ∃ n : ℤ, rad (centre - width / 2) < a + n * rad period ∧ a + n * rad period < rad (centre + width / 2)

/-- The direction lies on the edge where the sector begins. -/
def LowerEdge (period centre width a : ℝ) : Prop :=
  ∃ n : ℤ, a + n * rad period = rad (centre - width / 2)

/-- The direction lies on the edge where the sector ends. -/
def UpperEdge (period centre width a : ℝ) : Prop :=
  ∃ n : ℤ, a + n * rad period = rad (centre + width / 2)

/-- The sector extends beyond plus or minus half a period. -/
def Crosses (period centre width : ℝ) : Prop :=
  centre + width / 2 > period / 2 ∨ centre - width / 2 < -(period / 2)

/-- The sector with one of its two edges: the upper one if it crosses, the lower one otherwise. -/
def InSector (period centre width a : ℝ) : Prop :=
  Inside period centre width a ∨
    (Crosses period centre width ∧ UpperEdge period centre width a) ∨
    (¬ Crosses period centre width ∧ LowerEdge period centre width a)

/-- A wave number in the ring number `i`, of width `kstep` around `i * kstep`. -/
def InRing (kstep : ℝ) (i : Nat) (k : ℝ) : Prop :=
  (i - 1 / 2) * kstep < k ∧ k ≤ (i + 1 / 2) * kstep

/-- Polar coordinates of the wave vector with components `ki` (down) and `kj` (right); the angle is
measured counter-clockwise, between -pi and pi. -/
def Polar (ki kj k a : ℝ) : Prop :=
  0 ≤ k ∧ kj = k * Real.cos a ∧ -ki = k * Real.sin a ∧ -Real.pi ≤ a ∧ a < Real.pi

/-- The frequency at place `i` of an axis of length `n`: the one congruent to `i` between `-n/2`
(included) and `n/2`. -/
def IsFreq (n i : Nat) (d : Int) : Prop := -(n : Int) ≤ 2 * d ∧ 2 * d < n ∧ (n : Int) ∣ (i - d)

/-- An index map at a cell with wave number `k` and direction `a`: the number of the ring for wave
vectors in the sector, -1 for all others. -/
def SectorIndex (period centre width kstep k a : ℝ) (idx : Int) : Prop :=
  (∀ i : Nat, idx = i ↔ InSector period centre width a ∧ InRing kstep i k) ∧
    (idx = -1 ↔ ¬ (InSector period centre width a ∧ ∃ i : Nat, InRing kstep i k))

/-- Size of the frequency steps along the two axes of a transformed `H x W` image, in units of the
smallest one; equal if the size is not given. -/
noncomputable def freqStep (shape : Option (Nat × Nat)) : ℝ × ℝ :=
  match shape with
  | none => (1, 1)
  | some (H, W) => (max (H : ℝ) W / H, max (H : ℝ) W / W)

end Spec
end Cddm
