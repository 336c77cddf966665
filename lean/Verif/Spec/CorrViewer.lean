import Verif.Spec.ViewerAvg
import Verif.Spec.KSelect
import Verif.Spec.Norm
import Mathlib.Data.Real.Basic

/-!
# Specification vocabulary: full-space values of half-space data
-/

namespace Cddm
namespace Spec

/-- The value at the wave vector `(i, j)` of the `h x w` space that the half-space values `g` stand for: the stored one,
or the conjugate of the one stored for the opposite wave vector. -/
def fullSpace {V : Type} (conj : V → V) (h w : Nat) (g : Nat → Nat → Option V) (i j : Nat) : Option V :=
  if 2 * j < w then g i j
  else (g (halfPlace h w i j).1 (halfPlace h w i j).2).map conj

/-- The curve of averages over the wave vectors `S`: entry `n` is the mean of the values at time `n`. -/
noncomputable def averageCurve {V : Type} [AddCommGroup V] [Module ℝ V] (S : Finset (Nat × Nat)) (N : Nat)
    (f : Nat → Nat → Nat → Option V) : List (Option V) :=
  (List.range N).map fun n => meanOver S (f n)

/-- The pairs of samples of two signals at the signed delay `d`. -/
def signedPairs {α β : Type} (s1 : Stream α) (s2 : Stream β) (d : Int) : List (α × β) :=
  ((s1 ×ˢ s2).filter fun p => delay p = d).map fun p => (p.1.2, p.2.2)

/-- Complex covariance estimates for the norms with given background that use no squares. -/
noncomputable def crossFormulaC (b1 b2 : Cx ℝ) (z : Int) (P : List (Cx ℝ × Cx ℝ)) : Cx ℝ :=
  if z = 1 then mean cxProd P - cxProd b1 b2
  else mean (fun a b => cxProd (a - b1) (b - b2)) P

end Spec
end Cddm
