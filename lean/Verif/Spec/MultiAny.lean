import Verif.Model.MultiAny
import Verif.Spec.AnyAxisCcorr

/-! # What it means that `ccorr_multi` and `acorr_multi` act on each pixel alone -/

namespace Cddm
namespace Spec
variable {C : Type}

/-- The function raises what it raises for any one pixel, or its arrays, linear and of each level, have the given frame shape and one more
axis, and hold for each pixel what it returns for that pixel. -/
def PixelWiseMulti (frame : List Nat) (res : Py (CorrAoutAny C × List (CorrAoutAny C)))
    (one : List Nat → Py (CorrAout C × List (CorrAout C))) : Prop :=
  match res with
  | .error e => ∀ p, InShape p frame → one p = .error e
  | .ok r => AoutFits frame r.1 ∧ (∀ l ∈ r.2, AoutFits frame l) ∧
      ∀ p, InShape p frame → one p = .ok (aoutAt frame r.1 p, r.2.map fun l => aoutAt frame l p)

/-- The frames and divisors for which the reshaping is undone at the end: frames of any number of axes but one, without a divisor; and
frames of two axes with a divisor, the computation axis being the first or the last. -/
def DivisorFits (shape : List Nat) (ax : Nat) (divisor : Option Int) : Prop :=
  (divisor = none ∧ (frameShape shape ax).length ≠ 1) ∨
  ∃ d : Nat, 0 < d ∧ divisor = some (d : Int) ∧ d ∣ (frameShape shape ax).prod ∧ shape.length = 3 ∧ (ax = 0 ∨ ax = 2)

end Spec
end Cddm
