import Verif.Spec.ProcessM
import Verif.Spec.NormCall
import Mathlib.Probability.Distributions.Gaussian.HasGaussianLaw.Def
import Mathlib.Probability.Independence.Basic
import Mathlib.Probability.Moments.Variance
import Mathlib.Data.Fin.VecNotation

/-!
# Specification vocabulary: Gaussian signals and the spread of estimates
-/

namespace Cddm
namespace Spec
open MeasureTheory ProbabilityTheory

/-- The four real numbers of two complex ones. -/
def parts (a b : Cx ℝ) : Fin 4 → ℝ := ![a.re, a.im, b.re, b.im]

/-- Two complex random numbers with means `m1`, `m2`, variances `v1`, `v2` and covariance `c` (of the product with the
conjugate of the first), jointly Gaussian, and circular: turning the phase of the deviations changes nothing, that is,
the means of their plain products vanish. -/
structure CircularPair {Ω : Type} [MeasurableSpace Ω] (μ : Measure Ω) (a b : Ω → Cx ℝ) (m1 m2 : Cx ℝ) (v1 v2 : ℝ)
    (c : Cx ℝ) : Prop where
  gauss : HasGaussianLaw (fun ω => parts (a ω) (b ω)) μ
  mean1 : integralC μ a = m1
  mean2 : integralC μ b = m2
  var1 : ∫ ω, (a ω - m1).abs2 ∂μ = v1
  var2 : ∫ ω, (b ω - m2).abs2 ∂μ = v2
  cov : integralC μ (fun ω => cxProd (a ω - m1) (b ω - m2)) = c
  circ1 : integralC μ (fun ω => (a ω - m1) * (a ω - m1)) = 0
  circ2 : integralC μ (fun ω => (b ω - m2) * (b ω - m2)) = 0
  circ12 : integralC μ (fun ω => (a ω - m1) * (b ω - m2)) = 0

/-- Different pairs of samples are independent of each other: the samples at `p.1` and `p.2` of those at `q.1`, `q.2`. -/
def IndependentPairs {Ω : Type} [MeasurableSpace Ω] (μ : Measure Ω) (x1 x2 : Ω → Int → Cx ℝ) (P : List (Int × Int)) : Prop :=
  P.Pairwise fun p q => IndepFun (fun ω => parts (x1 ω p.1) (x2 ω p.2)) (fun ω => parts (x1 ω q.1) (x2 ω q.2)) μ

/-- In every case the call succeeds; the value it returns for delay `k` has the mean `y` and the finite variance `s`. -/
def SpreadIn {Ω : Type} [MeasurableSpace Ω] (μ : Measure Ω) (call : Ω → Py (List (Option ℝ))) (k : Nat) (y s : ℝ) : Prop :=
  ∃ r : Ω → ℝ, (∀ ω, ∃ out, call ω = .ok out ∧ out[k]? = some (some (r ω))) ∧ MemLp r 2 μ ∧ ∫ ω, r ω ∂μ = y ∧ Var[r; μ] = s

end Spec
open Spec

/-- `normalize(ccorr(f1, f2, ...), ..., weight = weight)`. -/
noncomputable def ccorrWeighted (f1 f2 : List (Cx ℝ)) (t1 t2 : Option (List Int))
    (n : Option Nat) (norm : Option Int) (method : Option String) (aligned : Bool)
    (bg : Background) (var : Option Variance) (z : Int) (mode : String) (scale : Bool) (weight : List ℝ) :
    Py (List (Option ℝ)) := do
  let r ← ccorr f1 f2 t1 t2 n norm method aligned none none {}
  let out ← normalize normOpsR (r.toData (effMethod method n)) (some bg) var (some z) mode scale (some weight)
  .ok out.1

end Cddm
