import Verif.Model.AnyAxisCcorr
import Verif.Spec.AnyAxis

/-! # What it means that `ccorr` and `acorr` act on each pixel alone -/

namespace Cddm
namespace Spec
variable {C : Type}

/-- What belongs to pixel `p` of the arrays given. -/
def aoutAt (frame : List Nat) (a : CorrAoutAny C) (p : List Nat) : CorrAout C :=
  ⟨outAt frame a.cor p, a.count, outAt frame a.sq p, outAt frame a.ds1 p, outAt frame a.ds2 p⟩

/-- What belongs to pixel `p` of the arrays returned. -/
def tupleAt (frame : List Nat) (r : CorrTupleAny C) (p : List Nat) : CorrTuple C :=
  ⟨along r.cor frame.length p, r.count, outAt frame r.sq p, outAt frame r.ds1 p, outAt frame r.ds2 p⟩

/-- The arrays given have the shape of the frame and one more axis, the last. -/
def AoutFits (frame : List Nat) (a : CorrAoutAny C) : Prop :=
  OutFits frame a.cor ∧ OutFits frame a.sq ∧ OutFits frame a.ds1 ∧ OutFits frame a.ds2

/-- The function raises what it raises for any one pixel, or its arrays have the shape of the frame and one more axis, and
hold for each pixel what it returns for that pixel. -/
def PixelWiseTuple (frame : List Nat) (res : Py (CorrTupleAny C)) (one : List Nat → Py (CorrTuple C)) : Prop :=
  match res with
  | .error e => ∀ p, InShape p frame → one p = .error e
  | .ok r => OutFits frame (some r.cor) ∧ OutFits frame r.sq ∧ OutFits frame r.ds1 ∧ OutFits frame r.ds2 ∧
      ∀ p, InShape p frame → one p = .ok (tupleAt frame r p)

/-- An output row of length `L` is not longer than the kernels of regular data allow for `N` samples: at most one delay more
than there are samples; with negative delays, an odd length. -/
def NotTooLong (N : Nat) (complex : Bool) (L : Nat) : Prop :=
  if complex = true then L % 2 = 1 ∧ (L + 1) / 2 ≤ N + 1 else L ≤ N + 1

/-- All of the rows given, and `n`. -/
def AoutNotTooLong (N : Nat) (complex : Bool) (n : Option Nat) (a : CorrAoutAny C) : Prop :=
  (∀ k, n = some k → k ≤ N + 1) ∧ (∀ o, a.cor = some o → NotTooLong N complex (o.shape.getLastD 0)) ∧
  (∀ o, a.sq = some o → NotTooLong N complex (o.shape.getLastD 0)) ∧
  (∀ o, a.ds1 = some o → NotTooLong N complex (o.shape.getLastD 0)) ∧
  ∀ o, a.ds2 = some o → NotTooLong N complex (o.shape.getLastD 0)

end Spec
end Cddm
