import Verif.Model.AnyAxis
import Verif.Spec.NormMulti

/-! # Arrays without NaN, curves by their formula -/

namespace Cddm
namespace Spec

/-- The numbers of an array of which no entry is NaN. -/
def numbers {C : Type} [Zero C] (x : Tensor (Option C)) : Tensor C := ⟨x.shape, fun p => (x.get p).getD 0⟩

/-- No entry is NaN. -/
def NoNan {C : Type} (x : Tensor (Option C)) : Prop := ∀ p, List.Forall₂ (· < ·) p x.shape → x.get p ≠ none

/-- The linear curve over all pairs of samples of one pixel. -/
noncomputable def linearCurve (bg : Background) (c : ℝ) (z : Int) (y1 y2 : List (Cx ℝ)) (L : Nat) : List ℝ :=
  (List.range L).map fun k => crossFormula bg c z (pairsAt false (regular y1) (regular y2) L k)

/-- The curves of the levels, over all pairs of samples out of two blocks. -/
noncomputable def levelCurves (bg : Background) (c : ℝ) (z : Int) (y1 y2 : List (Cx ℝ)) (nl n : Nat) : List (List ℝ) :=
  (List.range nl).map fun j => (List.range n).map fun k => crossFormula bg c z (finePairs (2 ^ (j + 1)) y1 y2 n k)

/-- What is shown of a value `x` of a correlation function that starts at `c`: mode 'diff' shows the structure function `2 (c - x)`, `scale` divides
by `c`. -/
noncomputable def shownAs (mode : String) (scale : Bool) (c x : ℝ) : ℝ :=
  (if mode = "diff" then 2 * (c - x) else x) / (if scale then c else 1)

end Spec
end Cddm
