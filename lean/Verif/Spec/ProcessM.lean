import Verif.Spec.Process
import Mathlib.MeasureTheory.Function.L2Space
import Mathlib.MeasureTheory.Integral.Bochner.Basic

/-!
# Specification vocabulary: random signals on any probability space

As in `Spec/Process.lean`, but the cases need not be finitely many, and the signals need only be stationary at the times
at which frames are taken.
-/

namespace Cddm
namespace Spec
open MeasureTheory

/-- The mean of a random complex quantity. -/
noncomputable def integralC {Ω : Type} [MeasurableSpace Ω] (μ : Measure Ω) (x : Ω → Cx ℝ) : Cx ℝ :=
  ⟨∫ ω, (x ω).re ∂μ, ∫ ω, (x ω).im ∂μ⟩

/-- Signals with finite second moments that are jointly stationary at the times `T1` of the first and `T2` of the second
camera: constant means `m1`, `m2` and variances `v1`, `v2`; the covariance depends on the delay only and is `G`. -/
structure StationaryAt {Ω : Type} [MeasurableSpace Ω] (μ : Measure Ω) (T1 T2 : Int → Prop) (x1 x2 : Ω → Int → Cx ℝ)
    (m1 m2 : Cx ℝ) (v1 v2 : ℝ) (G : Int → Cx ℝ) : Prop where
  prob : IsProbabilityMeasure μ
  finite1 : ∀ s, T1 s → MemLp (fun ω => (x1 ω s).re) 2 μ ∧ MemLp (fun ω => (x1 ω s).im) 2 μ
  finite2 : ∀ s, T2 s → MemLp (fun ω => (x2 ω s).re) 2 μ ∧ MemLp (fun ω => (x2 ω s).im) 2 μ
  mean1 : ∀ s, T1 s → integralC μ (fun ω => x1 ω s) = m1
  mean2 : ∀ s, T2 s → integralC μ (fun ω => x2 ω s) = m2
  var1 : ∀ s, T1 s → ∫ ω, (x1 ω s - m1).abs2 ∂μ = v1
  var2 : ∀ s, T2 s → ∫ ω, (x2 ω s - m2).abs2 ∂μ = v2
  cov : ∀ s d, T1 s → T2 (s + d) → integralC μ (fun ω => cxProd (x1 ω s - m1) (x2 ω (s + d) - m2)) = G d

/-- In every case the call succeeds; the value it returns for delay `k` is integrable and has the mean `y`. -/
def ExpectedIn {Ω : Type} [MeasurableSpace Ω] (μ : Measure Ω) (call : Ω → Py (List (Option ℝ))) (k : Nat) (y : ℝ) : Prop :=
  ∃ r : Ω → ℝ, (∀ ω, ∃ out, call ω = .ok out ∧ out[k]? = some (some (r ω))) ∧ Integrable r μ ∧ ∫ ω, r ω ∂μ = y

/-- The same for complex values. -/
def ExpectedInC {Ω : Type} [MeasurableSpace Ω] (μ : Measure Ω) (call : Ω → Py (List (Option (Cx ℝ)))) (k : Nat)
    (y : Cx ℝ) : Prop :=
  ∃ r : Ω → Cx ℝ, (∀ ω, ∃ out, call ω = .ok out ∧ out[k]? = some (some (r ω))) ∧
    Integrable (fun ω => (r ω).re) μ ∧ Integrable (fun ω => (r ω).im) μ ∧ integralC μ r = y

end Spec
end Cddm
