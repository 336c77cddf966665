import Mathlib.Probability.Independence.Basic

/-!
# Specification vocabulary: random draws
-/

namespace Cddm
namespace Spec
open MeasureTheory ProbabilityTheory

variable {Ω : Type} [MeasurableSpace Ω]

/-- `r` is one of the numbers `0, ..., n-1`, all with the same probability. -/
structure UniformDraw (μ : Measure Ω) (n : Nat) (r : Ω → Nat) : Prop where
  measurable : Measurable r
  range : ∀ ω, r ω < n
  uniform : ∀ a < n, μ.real {ω | r ω = a} = 1 / n

/-- The random numbers of the two-camera scheme: for each frame a uniform number below `n` and a fair coin; each number is
independent of each coin. -/
structure TwoCameraDraws (μ : Measure Ω) (n : Nat) (r1 r2 : Nat → Ω → Nat) : Prop where
  first : ∀ i, UniformDraw μ n (r1 i)
  second : ∀ i, UniformDraw μ 2 (r2 i)
  indep : ∀ i j, IndepFun (r1 i) (r2 j) μ

/-- The random numbers of the scheme with some simultaneous frames: a further uniform number below `2n` for each frame,
all independent. -/
structure ThreeDraws (μ : Measure Ω) (n : Nat) (r1 r2 r3 : Nat → Ω → Nat) : Prop where
  first : ∀ i, UniformDraw μ n (r1 i)
  second : ∀ i, UniformDraw μ 2 (r2 i)
  third : ∀ i, UniformDraw μ (2 * n) (r3 i)
  indep : iIndepFun (fun (q : Fin 3 × Nat) => (![r1, r2, r3] q.1) q.2) μ

end Spec
end Cddm
