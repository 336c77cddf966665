import Verif.Model.Fft2

/-!
# Background and statistics of whole data sets (cddm/core.py)

The data are a two-dimensional array: samples along one axis, pixels along the other (further pixel axes act
elsewhere in the same way).  Exact arithmetic; a mean over nothing is not a number (`none`).
-/

namespace Cddm

/-- The argument `axis` of a two-dimensional array: is it the first one (cddm/core.py:969, 970, 996, 999)?  numpy's
AxisError is a ValueError. -/
def firstAxis (axis : Int) : Py Bool :=
  if axis = 0 ∨ axis = -2 then .ok true
  else if axis = 1 ∨ axis = -1 then .ok false
  else .error .valueError

/-- The samples of each pixel, the first (`true`) or second axis being that of the samples
(cddm/core.py:969, 996, 999). -/
def signals {α : Type} (x : Arr2 α) (first : Bool) : List (List α) :=
  if first then (List.range x.w).map fun j => (List.range x.h).map fun i => x.get i j
  else (List.range x.h).map fun i => (List.range x.w).map fun j => x.get i j

/-- `np.mean` (cddm/core.py:969, 996, 999) of one signal. -/
noncomputable def npMean (y : List (Cx ℝ)) : Option (Cx ℝ) :=
  if y = [] then none else some ((1 / (y.length : ℝ)) • y.sum)

/-- `np.var` (cddm/core.py:996, 999) of one signal: `mean(abs(x - x.mean())**2)`. -/
noncomputable def npVar (y : List (Cx ℝ)) : Option ℝ := do
  let m ← npMean y
  some ((y.map fun a => (a - m).abs2).sum / y.length)

/-- The answer of `stats`: mean and variance, or a pair of each (cddm/core.py:996, 999). -/
inductive StatsOut
  | one (mean : List (Option (Cx ℝ))) (var : List (Option ℝ))
  | two (mean1 mean2 : List (Option (Cx ℝ))) (var1 var2 : List (Option ℝ))

/-- `stats` (cddm/core.py:976-999). -/
noncomputable def stats (f1 : Arr2 (Cx ℝ)) (f2 : Option (Arr2 (Cx ℝ))) (axis : Int) : Py StatsOut := do
  let first ← firstAxis axis
  match f2 with
  | none => .ok (.one ((signals f1 first).map npMean) ((signals f1 first).map npVar))
  | some f2 => .ok (.two ((signals f1 first).map npMean) ((signals f2 first).map npMean)
      ((signals f1 first).map npVar) ((signals f2 first).map npVar))

/-- `np.expand_dims(bg, axis)` (cddm/core.py:970). -/
def expandBg (bg : List (Option (Cx ℝ))) (first : Bool) : Arr2 (Option (Cx ℝ)) :=
  if first then ⟨1, bg.length, fun _ j => bg.getD j none⟩ else ⟨bg.length, 1, fun i _ => bg.getD i none⟩

/-- `np.subtract` (cddm/core.py:970) with broadcasting. -/
noncomputable def npSub2 (a : Arr2 (Cx ℝ)) (b : Arr2 (Option (Cx ℝ))) : Py (Arr2 (Option (Cx ℝ))) :=
  match broadcastLen a.h b.h, broadcastLen a.w b.w with
  | some h, some w => .ok ⟨h, w, fun i j =>
      (b.get (if b.h = 1 then 0 else i) (if b.w = 1 then 0 else j)).map fun y =>
        a.get (if a.h = 1 then 0 else i) (if a.w = 1 then 0 else j) - y⟩
  | _, _ => .error .valueError

/-- `subtract_background` (cddm/core.py:960-974): the data without background, and the background (returned only if
`return_bg`).  Without the argument `out`; a given background is finite. -/
noncomputable def subtractBackground (data : Arr2 (Cx ℝ)) (axis : Int) (bg : Option (List (Cx ℝ))) :
    Py (Arr2 (Option (Cx ℝ)) × List (Option (Cx ℝ))) := do
  let first ← firstAxis axis
  let bg := match bg with
    | none => (signals data first).map npMean
    | some bg => bg.map some
  let r ← npSub2 data (expandBg bg first)
  .ok (r, bg)

end Cddm
