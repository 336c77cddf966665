import Verif.Model.Py
import Verif.Model.Err

/-!
# Python slices with steps 1 and -1

`x[a:b]` and `x[a:b:-1]` as lists of indices, reading through them and assigning through them.
-/

namespace Cddm

/-- Indices of `x[a:b]` for an array of length `len`: negative bounds count from the end, bounds
outside the array are clipped (used in cddm/norm.py:779, 807, 849; cddm/multitau.py:97-108;
cddm/fft.py:126-186). -/
def sliceUp (len : Nat) (a b : Int) : List Nat :=
  let fix (v : Int) : Nat := (if v < 0 then max (v + len) 0 else min v len).toNat
  List.range' (fix a) (fix b - fix a)

/-- Indices of `x[a:b:-1]`: from `a` downwards, `b` excluded (used in cddm/norm.py:780, 808, 852,
856). -/
def sliceDown (len : Nat) (a b : Int) : List Nat :=
  let fix (v : Int) : Int := if v < 0 then max (v + len) (-1) else min v (len - 1)
  (List.range (fix a - fix b).toNat).map fun (i : Nat) => (fix a - i).toNat

/-- `x[idx]` for indices inside the array (cddm/norm.py:780-856). -/
def takeIdx {α : Type} (x : List α) (idx : List Nat) : List α := idx.filterMap fun i => x[i]?

/-- `out[idx] = vals` (cddm/norm.py:780-856); different lengths: ValueError (broadcasting a single value is not
modelled). -/
def assignIdx {α : Type} (out : List α) (idx : List Nat) (vals : List α) : Py (List α) :=
  if idx.length = vals.length then
    .ok ((idx.zip vals).foldl (fun o p => o.set p.1 p.2) out)
  else .error .valueError

end Cddm
