import Verif.Model.Norm

/-!
# Specification: which normalizations the data support, and what they need
-/

namespace Cddm.Spec
variable {C : Type}

/-- The norm `z` (a sum of 1 standard, 2 structured, 4 subtracted, 8 compensated) can be computed
from the entries present in the data tuple. -/
def Supports (data : NormData C) (z : Int) : Prop :=
  match data with
  | .corr _ _ sq s1 _ =>
    -- 1 or 2 or both, and any of 4 and 8
    1 ≤ z ∧ z ≤ 15 ∧ z % 4 ≠ 0 ∧
    -- the structured part needs the sums of squares
    (z % 4 ≥ 2 → sq.isSome) ∧
    -- subtraction and compensation need the sums of the signals
    (z ≥ 4 → s1.isSome)
  | .diff _ _ s1 s2 => z = 2 ∨ (z = 6 ∧ s1.isSome ∧ s2.isSome)
  | .other => False

/-- The result depends on the variance. -/
def NeedsVariance (data : NormData C) (z : Int) (mode : String) (scale : Bool) : Prop :=
  scale = true ∨
    match data with
    | .corr _ _ _ _ _ => mode = "diff" ∨ z % 4 ≥ 2
    | .diff _ _ _ _ => mode = "corr"
    | .other => False

/-- Everything needed for the norm `z` is there. -/
def Complete (data : NormData C) (bg : Option Background) (var : Option Variance) (z : Int)
    (mode : String) (scale : Bool) : Prop :=
  (mode = "corr" ∨ mode = "diff") ∧ Supports data z ∧ bg.isSome ∧
    (NeedsVariance data z mode scale → var.isSome)

/-- All arrays of the tuple have the same length. -/
def SameLengths (data : NormData C) : Prop :=
  match data with
  | .corr cor count sq s1 s2 => count.length = cor.length ∧ (∀ q, sq = some q → q.length = cor.length) ∧
      (∀ s, s1 = some s → s.length = cor.length) ∧ (∀ s, s2 = some s → s.length = cor.length)
  | .diff dif count s1 s2 => count.length = dif.length ∧
      (∀ s, s1 = some s → s.length = dif.length) ∧ (∀ s, s2 = some s → s.length = dif.length)
  | .other => True

/-- The default norm: everything the data support, except compensation. -/
def richestNorm (data : NormData C) : Int :=
  match data with
  | .corr _ _ sq s1 _ => 1 + (if sq.isSome then 2 else 0) + (if s1.isSome then 4 else 0)
  | .diff _ _ s1 s2 => 2 + (if s1.isSome ∧ s2.isSome then 4 else 0)
  | .other => 0

end Cddm.Spec
