import Verif.Spec.SimWalk
import Verif.Spec.ProcessM

/-!
# Specification vocabulary: correlation of simulated fields
-/

namespace Cddm
namespace Spec

/-- The field scattered with wave vector `q` at time `s` by the particles whose coordinates are yielded. -/
noncomputable def fieldAt (q : ℝ × ℝ) (xs : List (List (ℝ × ℝ))) (s : Int) : Cx ℝ :=
  ⟨(scatteredAll q (xs.getD s.toNat [])).re, (scatteredAll q (xs.getD s.toNat [])).im⟩

/-- Decay with the rate of diffusion, `exp(-D q² |t|)`. -/
noncomputable def diffusion (q : ℝ × ℝ) (D t : ℝ) : ℝ := Real.exp (-(D * (q.1 ^ 2 + q.2 ^ 2) * |t|))

/-- The phase of a drift, `q v t`. -/
def drift (q v : ℝ × ℝ) (t : ℝ) : ℝ := (q.1 * v.1 + q.2 * v.2) * t

end Spec
end Cddm
