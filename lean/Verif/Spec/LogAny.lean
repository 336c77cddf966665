import Verif.Spec.NormAny
import Verif.Spec.LogAvg

/-! # What it means that log averaging and merging act on every wave vector by itself -/

namespace Cddm
namespace Spec
variable {α : Type}

/-- The levels of multilevel data at position `p` of the frame; the levels are the first axis. -/
def levelsAt (x : Tensor α) (p : List Nat) : List (List α) :=
  (List.range (x.shape.headD 0)).map fun l => curveAt x (l :: p)

/-- Multilevel data of all wave vectors hold at each position the levels of that position alone; an exception is that of every
position alone. -/
def LevelWise (frame : List Nat) (size : Nat) (res : Py (Tensor α)) (one : List Nat → Py (List (List α))) : Prop :=
  match res with
  | .error e => ∀ p, InShape p frame → one p = .error e
  | .ok r => (∃ L, r.shape = L :: frame ++ [size]) ∧ ∀ p, InShape p frame → one p = .ok (levelsAt r p)

/-- Times and values: the times are those of every position alone, the values hold at each position the curve of that position
alone; an exception is that of every position alone. -/
def TimeCurveWise (frame : List Nat) (res : Py (List Nat × Tensor α)) (one : List Nat → Py (List Nat × List α)) : Prop :=
  match res with
  | .error e => ∀ p, InShape p frame → one p = .error e
  | .ok (x, y) => y.shape = frame ++ [x.length] ∧ ∀ p, InShape p frame → one p = .ok (x, curveAt y p)

end Spec
end Cddm
