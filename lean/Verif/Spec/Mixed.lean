import Verif.Spec.Pairs

/-! # Specification: frame pairs with the same delay, and how far apart they are -/

namespace Cddm.Spec

/-- The times of the first frames of the pairs of frames with delay `k`, in the order in which the pairs occur. -/
def pairStarts (t : List Int) (k : Int) : List Int :=
  ((selfPairs t).filter fun p => p.2 - p.1 = k).map Prod.fst

/-- The times of the frames of the first camera that follow a frame of the second camera by `d`. -/
def crossStarts (t1 t2 : List Int) (d : Int) : List Int :=
  ((t1 ×ˢ t2).filter fun p => p.1 - p.2 = d).map Prod.fst

/-- How many pairs (a time of the first list, a time of the second list) are `k` apart. -/
def apart (a b : List Int) (k : Nat) : Nat := ((a ×ˢ b).filter fun p => |p.2 - p.1| = (k : Int)).length

/-- The row with its first entries replaced by the times of `o`, as many as fit. -/
def RowOf (o row out : List Int) : Prop :=
  out.length = row.length ∧ ∀ i, i < row.length → out[i]? = if i < o.length then o[i]? else row[i]?

end Cddm.Spec
