import Verif.Model.SimWalk
import Verif.Spec.Sim
import Verif.Spec.KSelect
import Mathlib.Probability.Distributions.Gaussian.Real
import Mathlib.Probability.Independence.Basic

/-!
# Specification vocabulary: simulated particles
-/

namespace Cddm
namespace Spec
open scoped BigOperators
open MeasureTheory ProbabilityTheory

/-- The argument `a` gives the pair `f p` to particle `p` of `n`: a number is used for both coordinates of all
particles, two numbers for the coordinates of all particles, `n` rows of two (or one) numbers are the particles'
own. -/
def Gives (n : Nat) (a : StepArr) (f : Nat → ℝ × ℝ) : Prop :=
  match a with
  | .scalar c => ∀ p < n, f p = (c, c)
  | .vec k g => k = 2 ∧ ∀ p < n, f p = (g 0, g 1)
  | .mat r k g => r = n ∧ ((k = 2 ∧ ∀ p < n, f p = (g p 0, g p 1)) ∨ (k = 1 ∧ ∀ p < n, f p = (g p 0, g p 0)))

/-- The same for an argument that may be a function of the coordinates `x`. -/
def WalkGives (n : Nat) (a : WalkArg) (f : List (ℝ × ℝ) → Nat → ℝ × ℝ) : Prop :=
  match a with
  | .const a => ∀ x, Gives n a (f x)
  | .call F => ∀ x, x.length = n → Gives n (F x) (f x)

/-- The displacement of a particle in a time step: `δ √dt` times normal random numbers, plus `v dt`. -/
noncomputable def displacement (dt : ℝ) (δ v g : Nat → ℝ × ℝ) (p : Nat) : ℝ × ℝ :=
  ((δ p).1 * Real.sqrt dt * (g p).1 + (v p).1 * dt, (δ p).2 * Real.sqrt dt * (g p).2 + (v p).2 * dt)

/-- The random walk without walls: `x0 + v t + δ √dt` times the sum of the random numbers, after `i` steps. -/
noncomputable def freeWalk (dt : ℝ) (δ v : Nat → ℝ × ℝ) (g : Nat → Nat → ℝ × ℝ) (i : Nat) (p : Nat) (x0 : ℝ × ℝ) :
    ℝ × ℝ :=
  (x0.1 + (v p).1 * (i * dt) + (δ p).1 * Real.sqrt dt * ∑ s ∈ Finset.range i, (g s p).1,
    x0.2 + (v p).2 * (i * dt) + (δ p).2 * Real.sqrt dt * ∑ s ∈ Finset.range i, (g s p).2)

/-- The coordinates of particle `p` at step `i`. -/
def coordAt (xs : List (List (ℝ × ℝ))) (i p : Nat) : ℝ × ℝ := (xs.getD i []).getD p (0, 0)

/-! ### Random numbers -/

/-- One of the two numbers of a pair. -/
def axis (a : Bool) (x : ℝ × ℝ) : ℝ := if a then x.2 else x.1

/-- Independent normal random numbers (mean 0, variance 1) for all steps, particles and coordinates. -/
structure NormalNumbers {Ω : Type} [MeasurableSpace Ω] (μ : Measure Ω) (g : Ω → Nat → Nat → ℝ × ℝ) : Prop where
  measurable : ∀ i p a, Measurable fun ω => axis a (g ω i p)
  independent : iIndepFun (fun (d : Nat × Nat × Bool) ω => axis d.2.2 (g ω d.1 d.2.1)) μ
  normal : ∀ i p a, μ.map (fun ω => axis a (g ω i p)) = gaussianReal 0 1

/-- The random numbers of a simulation: those drawn for the start, `r`, and those of the steps, `g`. -/
def drawn (r : Nat → ℝ × ℝ) (g : Nat → Nat → ℝ × ℝ) : (Nat × Bool) ⊕ (Nat × Nat × Bool) → ℝ
  | .inl d => axis d.2 (r d.1)
  | .inr d => axis d.2.2 (g d.1 d.2.1)

/-- All random numbers are independent, those of the start uniform in `[0, 1)`, those of the steps normal. -/
structure RandomNumbers {Ω : Type} [MeasurableSpace Ω] (μ : Measure Ω) (r : Ω → Nat → ℝ × ℝ)
    (g : Ω → Nat → Nat → ℝ × ℝ) : Prop where
  measurable : ∀ d, Measurable fun ω => drawn (r ω) (g ω) d
  independent : iIndepFun (fun d ω => drawn (r ω) (g ω) d) μ
  uniform : ∀ p a, μ.map (fun ω => axis a (r ω p)) = volume.restrict (Set.Ico 0 1)
  normal : ∀ i p a, μ.map (fun ω => axis a (g ω i p)) = gaussianReal 0 1

/-- The wave vector with `k` and `l` waves in the box. -/
noncomputable def waveVector (shape : Nat × Nat) (k l : ℤ) : ℝ × ℝ :=
  (2 * Real.pi * k / shape.1, 2 * Real.pi * l / shape.2)

/-- The field scattered by a particle at `x`. -/
noncomputable def scattered (q x : ℝ × ℝ) : ℂ := Complex.exp (-(Complex.I * ((q.1 * x.1 + q.2 * x.2 : ℝ) : ℂ)))

/-- The field scattered by all particles. -/
noncomputable def scatteredAll (q : ℝ × ℝ) (x : List (ℝ × ℝ)) : ℂ := (x.map (scattered q)).sum

/-- The intermediate scattering function of Brownian motion with diffusion constant `D` and velocity `v` at time
`t`: `exp(-D q² t - i q v t)`. -/
noncomputable def brownianF (q v : ℝ × ℝ) (D t : ℝ) : ℂ :=
  Complex.exp (((-(D * (q.1 ^ 2 + q.2 ^ 2) * t) : ℝ) : ℂ) - Complex.I * (((q.1 * v.1 + q.2 * v.2) * t : ℝ) : ℂ))

/-! ### Videos -/

/-- The picture of particles at `x`: every pixel is the background plus the light of all particles (modulo the range
of the dtype); with a point spread function cut at distance `R`, or without, when a particle lights the pixel that
contains it. -/
def Picture (c : CameraArgs) (R : ℤ) (x : List (ℝ × ℝ)) (im : Arr2 Nat) : Prop :=
  im.h = c.shape.1 ∧ im.w = c.shape.2 ∧ ∀ i j : Nat, i < c.shape.1 → j < c.shape.2 →
    (im.get i j : ℤ) = (c.background + (x.map fun p =>
      match c.sigma with
      | none => if ⌊p.1⌋ = (i : ℤ) ∧ ⌊p.2⌋ = (j : ℤ) then c.intensity else 0
      | some s => (lightAt c.shape R c.intensity.toNat s p.1 p.2 i j : ℤ)).sum) % 2 ^ c.dtype.bits

/-- What the arguments of a video must satisfy: the numbers fit in the dtype, and the point spread function in the
frame. -/
structure GoodCamera (c : CameraArgs) (R : ℤ) (num : Nat) : Prop where
  dtype : c.dtype = .uint8 ∨ c.dtype = .uint16
  background : 0 ≤ c.background ∧ c.background < 2 ^ c.dtype.bits
  intensity : 0 ≤ c.intensity ∧ c.intensity < 2 ^ c.dtype.bits
  height : 0 < c.shape.1
  width : 0 < c.shape.2
  psf : ∀ s, c.sigma = some s → Nearest (3 * s) R ∧ R ≤ c.shape.1 ∧ R ≤ c.shape.2 ∧ 0 < num

/-- The starting points: those given, or the random ones. -/
noncomputable def startPoints (shape : Nat × Nat) (num : Nat) (x0 : Option (List (ℝ × ℝ))) (r : Nat → ℝ × ℝ) : List (ℝ × ℝ) :=
  x0.getD ((List.range num).map fun (p : Nat) => ((r p).1 * shape.1, (r p).2 * shape.2))

end Spec
end Cddm
