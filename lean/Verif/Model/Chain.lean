import Verif.Model.NormMultiAny
import Verif.Model.IterAny

/-!
# From the correlation functions to `normalize_multi` (`cddm/multitau.py`)

The data of `ccorr_multi`, `acorr_multi`, `iccorr_multi` and `iacorr_multi` handed over to `normalize_multi`.  The model keeps the levels of the
slow data as a list of arrays; in the code they are the first axis of one array.
-/

namespace Cddm

/-- Arrays of the levels as one array with the levels as its first axis (cddm/multitau.py:257-260, 804). -/
def stackArr {α : Type} (x : Tensor α) (xs : List (Tensor α)) : Tensor α :=
  ⟨(xs.length + 1) :: x.shape, fun p => ((x :: xs).getD (p.headD 0) x).get p.tail⟩

/-- The same for an array that is there for all levels or for none (cddm/multitau.py:257-260, 804).  Data without levels are not
modelled. -/
def stackOpt {α : Type} (xs : List (Option (Tensor α))) : Option (Tensor α) :=
  match xs.mapM id with
  | some (x :: xs) => some (stackArr x xs)
  | _ => none

/-- The tuple of the linear data, as seen by `normalize` (cddm/multitau.py:1732-1735), see `CorrAout.toData`. -/
def CorrAoutAny.toData {C : Type} (method : String) (d : CorrAoutAny C) : DataAny C :=
  match d.cor, d.count with
  | some cor, some count =>
    if method = "diff" then .diff cor (countArray count) d.ds1 d.ds2 else .corr cor (countArray count) d.sq d.ds1 d.ds2
  | _, _ => .other

/-- The tuple of the multilevel data, as seen by `normalize` (cddm/multitau.py:1732-1735). -/
def levelsToData {C : Type} (method : String) (ds : List (CorrAoutAny C)) : DataAny C :=
  match stackOpt (ds.map (·.cor)), stackOpt (ds.map fun d => d.count.map countArray) with
  | some cor, some count =>
    if method = "diff" then .diff cor count (stackOpt (ds.map (·.ds1))) (stackOpt (ds.map (·.ds2)))
    else .corr cor count (stackOpt (ds.map (·.sq))) (stackOpt (ds.map (·.ds1))) (stackOpt (ds.map (·.ds2)))
  | _, _ => .other

/-- `normalize_multi(data, background, variance, norm, mode, scale)` of what `ccorr_multi`, `acorr_multi` and the iterative functions return
(cddm/multitau.py:1656-1738). -/
noncomputable def normalizeLevels {C : Type} [AddCommGroup C] [Module ℝ C] (ops : NormOps C) (method : Option String)
    (d : CorrAoutAny C × List (CorrAoutAny C)) (background : Option (FrameArg (Cx ℝ))) (variance : Option (FrameArg ℝ)) (norm : NormArg)
    (mode : String) (scale : Bool) (mask : Option (Tensor Bool)) : Py (Tensor (Option C) × Tensor (Option C)) :=
  normalizeMultiAny ops (d.1.toData (method.getD "corr")) (levelsToData (method.getD "corr") d.2) background variance norm mode scale mask

end Cddm
