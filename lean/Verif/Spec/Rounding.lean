import Verif.Spec.Api
import Verif.Model.Rounding
import Mathlib.Data.Int.Log
import Mathlib.Algebra.Order.Round
import Mathlib.Data.Real.Archimedean

/-!
# Specification vocabulary: rounding
-/

namespace Cddm
namespace Spec

/-- Rounding with relative error at most `u` (half a unit in the last place: 2⁻⁵³ in double, 2⁻²⁴ in single precision). -/
def Rounds (rnd : ℝ → ℝ) (u : ℝ) : Prop := 0 ≤ u ∧ ∀ x, |rnd x - x| ≤ u * |x|

/-- Whole numbers up to `B` (2⁵³ in double, 2²⁴ in single precision) are not changed by rounding. -/
def KeepsIntegers (rnd : ℝ → ℝ) (B : ℝ) : Prop := ∀ z : ℤ, |(z : ℝ)| ≤ B → rnd z = z

/-- Rounding to the nearest number with `p` binary digits: 53 in double, 24 in single precision.  Ties go up (IEEE: to the even
number), there is no largest or smallest exponent. -/
noncomputable def flRound (p : ℕ) (x : ℝ) : ℝ :=
  (round (x / (2 : ℝ) ^ (Int.log 2 |x| + 1 - p)) : ℝ) * (2 : ℝ) ^ (Int.log 2 |x| + 1 - p)

/-- The number that a pair of machine numbers stands for. -/
def exact {rnd : ℝ → ℝ} (z : Cx (Fl rnd)) : Cx ℝ := ⟨z.re.val, z.im.val⟩

/-- The moduli of the products that make up `Re(conj(a) b)`. -/
noncomputable def absProd (a b : Cx ℝ) : ℝ := |a.re * b.re| + |a.im * b.im|

/-- The moduli of the products that make up `Im(conj(a) b)`. -/
noncomputable def absProdIm (a b : Cx ℝ) : ℝ := |a.re * b.im| + |a.im * b.re|

/-- One for each pair. -/
def one (_ _ : Cx ℝ) : ℕ := 1

/-- `p` reads off a machine number of the samples: a real sample, or the real or imaginary part of a complex one. -/
structure Part {M : Type} [Zero M] [Add M] [Sub M] (rnd : ℝ → ℝ) (p : M → ℝ) : Prop where
  zero : p 0 = 0
  add : ∀ a b, p (a + b) = rnd (p a + p b)
  sub : ∀ a b, p (a - b) = rnd (p a - p b)

/-- The modulus of the first of two. -/
noncomputable def absFst (a : ℝ) (_ : Unit) : ℝ := |a|

/-- One for each pair of a sample and a time. -/
def oneFst (_ : ℝ) (_ : Unit) : ℕ := 1

/-- Whole and half numbers up to `B` (2⁵² in double, 2²³ in single precision) are not changed by rounding. -/
def KeepsHalves (rnd : ℝ → ℝ) (B : ℝ) : Prop := ∀ m : ℤ, |(m : ℝ) / 2| ≤ B → rnd ((m : ℝ) / 2) = (m : ℝ) / 2

/-- The mean of two. -/
noncomputable def mean2 (a b : ℝ) : ℝ := (a + b) / 2

/-- The mean of the moduli of two. -/
noncomputable def meanAbs (a b : ℝ) : ℝ := (|a| + |b|) / 2

/-- Both components are whole numbers. -/
def Whole (z : Cx ℝ) : Prop := (∃ m : ℤ, z.re = m) ∧ ∃ m : ℤ, z.im = m

end Spec
end Cddm
