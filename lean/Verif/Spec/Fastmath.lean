import Verif.Model.Fastmath
import Verif.Spec.Rounding

/-! # Specification vocabulary: `fastmath` -/

namespace Cddm
namespace Spec

/-- The product of the components of `b - a` by themselves, with the moduli of all parts added up. -/
noncomputable def absDist (a b : Cx ℝ) : ℝ := (|b.re| + |a.re|) * (|b.re| + |a.re|) + (|b.im| + |a.im|) * (|b.im| + |a.im|)

/-- The exact value of an expression. -/
def Exact : Expr → ℝ
  | .val x => x
  | .add a b => Exact a + Exact b
  | .sub a b => Exact a - Exact b
  | .mul a b => Exact a * Exact b
  | .neg a => -Exact a
  | .fma a b c => Exact a * Exact b + Exact c

/-- The value with all numbers and signs replaced by their moduli. -/
def Modulus : Expr → ℝ
  | .val x => |x|
  | .add a b => Modulus a + Modulus b
  | .sub a b => Modulus a + Modulus b
  | .mul a b => Modulus a * Modulus b
  | .neg a => Modulus a
  | .fma a b c => Modulus a * Modulus b + Modulus c

/-- The number of additions and subtractions. -/
def adds : Expr → Nat
  | .val _ => 0
  | .add a b => adds a + adds b + 1
  | .sub a b => adds a + adds b + 1
  | .mul a b => adds a + adds b
  | .neg a => adds a
  | .fma a b c => adds a + adds b + adds c + 1

/-- The largest number of multiplications in one product. -/
def mults : Expr → Nat
  | .val _ => 0
  | .add a b => max (mults a) (mults b)
  | .sub a b => max (mults a) (mults b)
  | .mul a b => mults a + mults b + 1
  | .neg a => mults a
  | .fma a b c => max (mults a + mults b + 1) (mults c)

end Spec
end Cddm
