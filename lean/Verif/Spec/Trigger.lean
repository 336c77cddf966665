import Mathlib.Data.List.Basic
import Mathlib.Order.Lattice

/-!
# Specification vocabulary: trigger times
-/

namespace Cddm
namespace Spec

/-- The items of `data` whose positions are requested, in the order of the data. -/
def requested {α : Type} (data : List α) (indices : List Int) : List α :=
  (data.zipIdx.filter fun p => (p.2 : Int) ∈ indices).map (·.1)

/-- The item of `data` at time `t`, if there is one. -/
def itemAt {α : Type} (data : List α) (t : Int) : Option α :=
  if 0 ≤ t then data[t.toNat]? else none

/-- The pairs of frames taken at the pairs of times, as far as the data reach. -/
def framesAt {D F : Type} (f1 f2 : D → F) (data : List D) (times : List (Int × Int)) : List (F × F) :=
  times.filterMap fun t =>
    match itemAt data t.1, itemAt data t.2 with
    | some x, some y => some (f1 x, f2 y)
    | _, _ => none

/-- Every pair of times is over before the next one begins. -/
def OneAfterAnother (t1 t2 : List Int) : Prop :=
  ∀ (k : Nat) (a b a' b' : Int), t1[k]? = some a → t2[k]? = some b → t1[k + 1]? = some a' →
    t2[k + 1]? = some b' → max a b < min a' b'

end Spec
end Cddm
