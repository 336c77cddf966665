import Verif.Model.ArrViewer
import Mathlib.Algebra.BigOperators.Group.Finset.Basic

/-!
# Specification vocabulary: pixels of an array at chosen indices
-/

namespace Cddm
namespace Spec
open scoped BigOperators

/-- `p` is a position in an array of this shape, with the chosen index `vals[i]` on the axis `axes[i]`, counted from the
end if negative. -/
def Chosen (shape axes : List Nat) (vals : List Int) (p : List Nat) : Prop :=
  p.length = shape.length ∧ (∀ (k n x : Nat), shape[k]? = some n → p[k]? = some x → x < n) ∧
  ∀ (i ax n x : Nat) (v : Int), axes[i]? = some ax → vals[i]? = some v → shape[ax]? = some n → p[ax]? = some x →
    (x : Int) = if v < 0 then v + n else v

/-- The chosen indices exist. -/
def InRange (shape axes : List Nat) (vals : List Int) : Prop :=
  ∀ (i ax n : Nat) (v : Int), axes[i]? = some ax → vals[i]? = some v → shape[ax]? = some n → -(n : Int) ≤ v ∧ v < n

open Classical in
/-- The mean over `S` of values all of which have to be numbers. -/
noncomputable def strictMean {C ι : Type} [AddCommGroup C] [Module ℝ C] (S : Finset ι) (f : ι → Option C) : Option C :=
  if S.Nonempty ∧ ∀ p ∈ S, (f p).isSome then some ((1 / (S.card : ℝ)) • ∑ p ∈ S, (f p).getD 0) else none

/-- The indices set last by a call that was given enough of them. -/
def lastVals {α : Type} (axes : List Nat) (ops : List (ArrOp α)) : List Int :=
  ops.foldl (fun vals op => match op with
    | .indices v => if axes.length ≤ v.length then v else vals
    | .data _ _ => vals) (List.replicate axes.length 0)

/-- The array has all the axes (the last one of an array, that of the time, counts as well). -/
def HasAxes {α : Type} (axes : List Nat) (a : PixArr α) : Prop := ∀ ax ∈ axes, ax ≤ a.lead.length

open Classical in
/-- The data set last, of those that have the axes. -/
noncomputable def lastArr {α : Type} (axes : List Nat) (ops : List (ArrOp α)) : Option (PixArr α) :=
  ops.foldl (fun d op => match op with
    | .indices _ => d
    | .data a _ => if HasAxes axes a then some a else d) none

/-- The data set last. -/
def lastAny {α : Type} (ops : List (ArrOp α)) : Option (PixArr α) :=
  ops.foldl (fun d op => match op with
    | .indices _ => d
    | .data a _ => some a) none

/-- The times given with data, by default the numbers of the values. -/
noncomputable def timesOf {α : Type} (a : PixArr α) (t : Option (List ℝ)) : List ℝ :=
  t.getD ((List.range a.len).map fun (k : Nat) => (k : ℝ))

open Classical in
/-- The times set last, of those that fit the data they were given with. -/
noncomputable def lastTimes {α : Type} (axes : List Nat) (ops : List (ArrOp α)) : List ℝ :=
  ops.foldl (fun s op => match op with
    | .indices _ => s
    | .data a t => if HasAxes axes a ∧ (timesOf a t).length = a.len then timesOf a t else s) []

end Spec
end Cddm
