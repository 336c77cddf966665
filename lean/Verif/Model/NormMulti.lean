import Verif.Model.Norm
import Verif.Model.Multitau

/-!
# Normalization of multiple tau data (cddm/multitau.py)

The multilevel arrays have one row for each level.  All formulas of `normalize` are elementwise, and the smoothing of
the weight acts along the last axis, so that each row is normalised on its own.
-/

namespace Cddm

/-- The argument `norm`: a number (or None), or a string (cddm/multitau.py:1673-1676). -/
inductive NormArg
  | num (z : Option Int)
  | str (s : List Char)

/-- The first lines of `normalize_multi` (cddm/multitau.py:1667-1676): the norm is determined from the linear data. -/
def multiNorm {C : Type} (lin : NormData C) (norm : NormArg) (mode : String) : Py Nat := do
  let _ ← (match lin with
    | .other => .error .valueError
    | _ => .ok () : Py Unit)
  let _ ← inspectMode mode
  let z ← (match norm with
    | .num z => .ok z
    | .str s => (normFromString s).map fun x => some (x : Int) : Py (Option Int))
  normOf lin z

/-- `normalize_multi` (cddm/multitau.py:1656-1738).  `multi` is the list of the rows (levels) of the multilevel data.
The switching of messages is not modelled. -/
noncomputable def normalizeMulti {C : Type} [AddCommGroup C] [Module ℝ C] (ops : NormOps C) (lin : NormData C)
    (multi : List (NormData C)) (background : Option Background) (variance : Option Variance) (norm : NormArg)
    (mode : String) (scale : Bool) : Py (List (Option C) × List (List (Option C))) := do
  let norm ← multiNorm lin norm mode
  let lin ← normalize ops lin background variance (some (norm : Int)) mode scale none
  let multi ← multi.mapM fun d => do
    let r ← normalize ops d background variance (some (norm : Int)) mode scale none
    .ok r.1
  .ok (lin.1, multi)

/-- The tuple of arrays of one level as seen by `normalize` (cddm/multitau.py:257-260): 5 or, for method 'diff', 4
entries. -/
def CorrAout.toData {C : Type} (method : String) (d : CorrAout C) : NormData C :=
  match d.cor, d.count with
  | some cor, some count =>
    if method = "diff" then .diff cor count d.ds1 d.ds2 else .corr cor count d.sq d.ds1 d.ds2
  | _, _ => .other

end Cddm
