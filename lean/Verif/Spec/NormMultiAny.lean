import Verif.Model.NormMultiAny
import Verif.Spec.LogAny

/-! # What it means that `normalize_multi` acts on every wave vector by itself -/

namespace Cddm
namespace Spec
variable {C : Type}

/-- The multilevel data of wave vector `p`: the tuples of its levels. -/
def levelDataAt (data : DataAny C) (L : Nat) (p : List Nat) : List (NormData C) :=
  (List.range L).map fun l => dataAt data [l] p

/-- The linear and the multilevel result hold, for each of the wave vectors (numbered by the positions in `frame`), the curve and
the levels of that wave vector alone; if there is an exception, there is one for some wave vector alone. -/
def MultiWise (frame : List Nat) (n L m : Nat) (res : Py (Tensor (Option C) × Tensor (Option C)))
    (one : List Nat → Py (List (Option C) × List (List (Option C)))) : Prop :=
  match res with
  | .error _ => ∃ q e, InShape q frame ∧ one q = .error e
  | .ok (a, b) => a.shape = frame ++ [n] ∧ b.shape = L :: frame ++ [m] ∧
      ∀ q, InShape q frame → one q = .ok (curveAt a q, levelsAt b q)

end Spec
end Cddm
