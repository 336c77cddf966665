import Verif.Spec.Sim

/-!
# Which pixels a particle is drawn on
-/

namespace Cddm
namespace Spec

/-- The particle at `(y, x)`, drawn as a square of half-width `r` in an image that continues periodically, is drawn on pixel
`(i, j)`. -/
def DrawnOn (shape : Nat × Nat) (r : ℤ) (p : ℝ × ℝ) (i j : Nat) : Prop :=
  ∃ a b : ℤ, |a - ⌊p.1⌋| ≤ r ∧ |b - ⌊p.2⌋| ≤ r ∧ a ≡ i [ZMOD shape.1] ∧ b ≡ j [ZMOD shape.2]

end Spec
end Cddm
