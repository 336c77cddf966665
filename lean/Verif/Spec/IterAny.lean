import Verif.Model.IterAny
import Verif.Spec.AnyAxisCcorr

/-! # What it means that the iterative functions act on each pixel alone -/

namespace Cddm
namespace Spec
variable {C : Type}

/-- The mean and the variance of one signal at pixel `p`. -/
def statAt (p : List Nat) (s : Option (Tensor (Cx ℝ) × Tensor ℝ)) : Option (Cx ℝ × ℝ) := s.map fun s => (s.1.get p, s.2.get p)

/-- The function raises what it raises for any one pixel; or it takes as many items as for any one pixel, the statistics have the shape of
the frame and hold those of each pixel, the arrays have the shape `arrays` and one more axis, and hold for each pixel `p` of the frame at
`place p` what it returns for that pixel. -/
def PixelWiseIterIn (frame arrays : List Nat) (place : List Nat → List Nat) (res : Py (Nat × IterOutAny C))
    (one : List Nat → Py (Nat × IterOut C)) : Prop :=
  match res with
  | .error e => ∀ p, InShape p frame → one p = .error e
  | .ok r => AoutFits arrays r.2.fast ∧ (∀ l ∈ r.2.slow, AoutFits arrays l) ∧
      (∀ m v, some (m, v) ∈ r.2.stats → m.shape = frame ∧ v.shape = frame) ∧
      ∀ p, InShape p frame → one p = .ok (r.1, ⟨aoutAt arrays r.2.fast (place p), r.2.slow.map fun l => aoutAt arrays l (place p),
        r.2.stats.map (statAt p)⟩)

/-- The same where the arrays have the shape of the frame and one more axis. -/
def PixelWiseIter (frame : List Nat) (res : Py (Nat × IterOutAny C)) (one : List Nat → Py (Nat × IterOut C)) : Prop :=
  PixelWiseIterIn frame frame id res one

/-- The same for the functions that return the linear data only. -/
def PixelWiseLinear (frame : List Nat) (res : Py (Nat × CorrAoutAny C × List (Option (Tensor (Cx ℝ) × Tensor ℝ))))
    (one : List Nat → Py (Nat × CorrAout C × List (Option (Cx ℝ × ℝ)))) : Prop :=
  match res with
  | .error e => ∀ p, InShape p frame → one p = .error e
  | .ok r => AoutFits frame r.2.1 ∧ (∀ m v, some (m, v) ∈ r.2.2 → m.shape = frame ∧ v.shape = frame) ∧
      ∀ p, InShape p frame → one p = .ok (r.1, aoutAt frame r.2.1 p, r.2.2.map (statAt p))

/-- The shapes of frames and the divisors for which the reshaping is undone at the end: frames of two or more axes without a divisor; and
frames of two axes with a divisor of the number of pixels. -/
def IterDivisorFits (shape : List Nat) (divisor : Option Int) : Prop :=
  (divisor = none ∧ 2 ≤ shape.length) ∨ ∃ d : Nat, 0 < d ∧ divisor = some (d : Int) ∧ d ∣ shape.prod ∧ shape.length = 2

end Spec
end Cddm
