import Verif.Spec.Noise
import Verif.Spec.NormCall
import Verif.Spec.LogAvg

/-!
# Specification vocabulary: random signals

Two signals that depend on chance and are defined at every time.  The frames are taken at given times.
-/

namespace Cddm
namespace Spec
open scoped BigOperators

/-- The mean of a random complex quantity. -/
def expectC {Ω : Type} [Fintype Ω] (p : Ω → ℝ) (x : Ω → Cx ℝ) : Cx ℝ :=
  ⟨expect p fun ω => (x ω).re, expect p fun ω => (x ω).im⟩

/-- Jointly stationary signals: the means `m1`, `m2` and variances `v1`, `v2` are the same at all times, and the
covariance of the first signal at one time with the second at a time `d` later is `G d`. -/
structure Stationary {Ω : Type} [Fintype Ω] (p : Ω → ℝ) (x1 x2 : Ω → Int → Cx ℝ) (m1 m2 : Cx ℝ) (v1 v2 : ℝ)
    (G : Int → Cx ℝ) : Prop where
  prob : ∑ ω, p ω = 1
  mean1 : ∀ s, expectC p (fun ω => x1 ω s) = m1
  mean2 : ∀ s, expectC p (fun ω => x2 ω s) = m2
  var1 : ∀ s, expect p (fun ω => (x1 ω s - m1).abs2) = v1
  var2 : ∀ s, expect p (fun ω => (x2 ω s - m2).abs2) = v2
  cov : ∀ s d, expectC p (fun ω => cxProd (x1 ω s - m1) (x2 ω (s + d) - m2)) = G d

/-- The times of `N` frames: given, or regular. -/
def frameTimes (N : Nat) : Option (List Int) → List Int
  | none => (List.range N).map fun (i : Nat) => (i : Int)
  | some t => t

/-- The norms that use backgrounds and variances from outside, not estimates from the data. -/
def GivenNorm (z : Int) : Prop := z ∈ [1, 2, 5, 13, 6, 14]

/-- In every case the call succeeds, and the value it returns for delay `k` has the mean `y` over all cases. -/
def ExpectedAt {Ω M : Type} [Fintype Ω] (E : (Ω → M) → M) (call : Ω → Py (List (Option M))) (k : Nat) (y : M) : Prop :=
  ∃ r : Ω → M, (∀ ω, ∃ out, call ω = .ok out ∧ out[k]? = some (some (r ω))) ∧ E r = y

/-- The curve smeared by averaging both signals over blocks of `M` frames: weights `(M - |d|) / M²` around delay `k M`. -/
noncomputable def smeared (g : Int → ℝ) (M k : Nat) : ℝ :=
  ∑ d ∈ Finset.Ioo (-(M : Int)) M, (((M : ℝ) - (|d| : Int)) / (M : ℝ) ^ 2) * g ((k : Int) * M + d)

end Spec
end Cddm
