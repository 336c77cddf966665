import Verif.Spec.IterApi
import Verif.Model.Arr2

/-!
# Specification vocabulary: samples and pixels of a data set
-/

namespace Cddm
namespace Spec

/-- `axis` denotes the first (`true`) or the second axis (`false`) of a two-dimensional array. -/
def AxisIs (axis : Int) : Bool → Prop
  | true => axis = 0 ∨ axis = -2
  | false => axis = 1 ∨ axis = -1

/-- Number of pixels if the samples run along the first (`true`) or second axis. -/
def pixels {α : Type} (x : Arr2 α) : Bool → Nat
  | true => x.w
  | false => x.h

/-- Number of samples. -/
def samples {α : Type} (x : Arr2 α) : Bool → Nat
  | true => x.h
  | false => x.w

/-- The samples of pixel `k`. -/
def samplesAt {α : Type} (x : Arr2 α) (first : Bool) (k : Nat) : List α :=
  match first with
  | true => (List.range x.h).map fun i => x.get i k
  | false => (List.range x.w).map fun j => x.get k j

/-- Mean square distance of the samples from `c`. -/
noncomputable def spread (y : List (Cx ℝ)) (c : Cx ℝ) : ℝ := (y.map fun a => (a - c).abs2).sum / y.length

/-- A list of means and one of variances are those of the pixels of `x`; not a number if there are no samples. -/
def IsStats (x : Arr2 (Cx ℝ)) (first : Bool) (m : List (Option (Cx ℝ))) (v : List (Option ℝ)) : Prop :=
  m.length = pixels x first ∧ v.length = pixels x first ∧ ∀ k < pixels x first,
    (samples x first = 0 → m[k]? = some none ∧ v[k]? = some none) ∧
    (0 < samples x first → m[k]? = some (some (meanOf (samplesAt x first k))) ∧
      v[k]? = some (some (varianceOf (samplesAt x first k))))

/-- `r` consists of the numbers of `y`. -/
def SameNumbers (r : Arr2 (Option (Cx ℝ))) (y : Arr2 (Cx ℝ)) : Prop :=
  r.h = y.h ∧ r.w = y.w ∧ ∀ i < y.h, ∀ j < y.w, r.get i j = some (y.get i j)

end Spec
end Cddm
