import Verif.Model.NormAny
import Verif.Model.NormMulti

/-! # `normalize_multi` on arrays of many wave vectors (cddm/multitau.py) -/

namespace Cddm

/-- `normalize_multi` (cddm/multitau.py:1656-1738) on arrays: the norm is determined from the linear data, then both parts are
normalised with the same arguments.  The switching of messages is not modelled. -/
noncomputable def normalizeMultiAny {C : Type} [AddCommGroup C] [Module ℝ C] (ops : NormOps C) (lin multi : DataAny C)
    (background : Option (FrameArg (Cx ℝ))) (variance : Option (FrameArg ℝ)) (norm : NormArg) (mode : String) (scale : Bool)
    (mask : Option (Tensor Bool)) : Py (Tensor (Option C) × Tensor (Option C)) := do
  let norm ← multiNorm (dataRow lin 0 []) norm mode
  let lin ← normalizeAny ops lin background variance (some (norm : Int)) mode scale mask none
  let multi ← normalizeAny ops multi background variance (some (norm : Int)) mode scale mask none
  .ok (lin.1, multi.1)

end Cddm
