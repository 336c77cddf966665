import Verif.Spec.TimeCount
import Verif.Spec.ProcessM

/-!
# Specification vocabulary: recordings at random times
-/

namespace Cddm
namespace Spec
open MeasureTheory ProbabilityTheory

/-- The random numbers of the two-camera scheme: for each frame a uniform number below `n` and a fair coin, independent of each
other; the frames are independent. -/
structure FrameDraws {Θ : Type} [MeasurableSpace Θ] (ν : Measure Θ) (n : Nat) (r1 r2 : Nat → Θ → Nat) : Prop where
  first : ∀ i, UniformDraw ν n (r1 i)
  second : ∀ i, UniformDraw ν 2 (r2 i)
  within : ∀ i, IndepFun (r1 i) (r2 i) ν
  frames : iIndepFun (fun i θ => (r1 i θ, r2 i θ)) ν

/-- In every case the call succeeds; the value it returns for delay `k` is a number with probability `p` and NaN otherwise; the
mean over the cases where it is a number is `y`. -/
def MeanWhenFinite {Ω : Type} [MeasurableSpace Ω] (κ : Measure Ω) (call : Ω → Py (List (Option ℝ))) (k : Nat) (p y : ℝ) : Prop :=
  ∃ r : Ω → Option ℝ, (∀ ω, ∃ out, call ω = .ok out ∧ out[k]? = some (r ω)) ∧ κ.real {ω | r ω ≠ none} = p ∧
    Integrable (fun ω => (r ω).getD 0) κ ∧ ∫ ω, (r ω).getD 0 ∂κ = p * y

/-- The same for complex values. -/
def MeanWhenFiniteC {Ω : Type} [MeasurableSpace Ω] (κ : Measure Ω) (call : Ω → Py (List (Option (Cx ℝ)))) (k : Nat) (p : ℝ)
    (y : Cx ℝ) : Prop :=
  ∃ r : Ω → Option (Cx ℝ), (∀ ω, ∃ out, call ω = .ok out ∧ out[k]? = some (r ω)) ∧ κ.real {ω | r ω ≠ none} = p ∧
    Integrable (fun ω => ((r ω).getD 0).re) κ ∧ Integrable (fun ω => ((r ω).getD 0).im) κ ∧
    integralC κ (fun ω => (r ω).getD 0) = ⟨p * y.re, p * y.im⟩

end Spec
end Cddm
