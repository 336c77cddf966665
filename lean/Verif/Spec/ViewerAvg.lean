import Verif.Spec.Freq
import Verif.Spec.Sector
import Mathlib.Data.Finset.Basic

/-!
# Specification vocabulary: the wave vectors that a viewer shows
-/

namespace Cddm
namespace Spec

/-- The wave vector of the cell `(i, j)` of full-space data of size `h x w` lies in the ring `k` and in
the sector; the zero wave vector has no direction and belongs to ring 0. -/
def InSelection (h w : Nat) (shape : Option (Nat × Nat)) (angle sector kstep : ℝ) (k : Nat)
    (i j : Nat) : Prop :=
  (i = 0 ∧ j = 0 ∧ k = 0) ∨
    (¬ (i = 0 ∧ j = 0) ∧ ∃ (di dj : Int) (q a : ℝ), IsFreq h i di ∧ IsFreq w j dj ∧
      Polar (di * (freqStep shape).1) (dj * (freqStep shape).2) q a ∧
      InSector 360 angle sector a ∧ InRing kstep k q)

/-- The cell of half-space data that holds the wave vector `(i, j)` or its opposite. -/
def halfPlace (h w : Nat) (i j : Nat) : Nat × Nat :=
  if 2 * j < w then (i, j) else (wrap h (-(i : Int)), wrap w (-(j : Int)))

/-- The wave vector was computed: it, or its opposite, lies in the half-space mask. -/
def Computed (h w : Nat) (computed : Option (Arr2 Bool)) (i j : Nat) : Prop :=
  ∀ c, computed = some c → c.get (halfPlace h w i j).1 (halfPlace h w i j).2 = true

/-- `S` are the computed wave vectors in the ring and the sector. -/
def ViewCells (h w : Nat) (shape : Option (Nat × Nat)) (computed : Option (Arr2 Bool))
    (angle sector kstep : ℝ) (k : Nat) (S : Finset (Nat × Nat)) : Prop :=
  ∀ i j : Nat, (i, j) ∈ S ↔ i < h ∧ j < w ∧ InSelection h w shape angle sector kstep k i j ∧
    Computed h w computed i j

/-- No Nyquist wave vector, of which only one of the two opposite ones is present in the data, lies in
the ring and the sector. -/
def NoNyquist (h w : Nat) (shape : Option (Nat × Nat)) (angle sector kstep : ℝ) (k : Nat) : Prop :=
  ∀ i j : Nat, i < h → j < w → InSelection h w shape angle sector kstep k i j →
    2 * i ≠ h ∧ 2 * j ≠ w

end Spec
end Cddm
