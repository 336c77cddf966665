import Verif.Model.Arr2

/-!
# What a slice of an axis selects
-/

namespace Cddm
namespace Spec

/-- A negative number counts from the end of an axis of length `n`. -/
def fromEnd (n : Nat) (a : Int) : Int := if a < 0 then a + n else a

/-- Position `i` of an axis of length `n` is selected by `start:stop:step` with a positive step: it lies between start and stop, at a
multiple of the step from the first position selected. -/
def UpSelected (start stop : Option Int) (step : Int) (n i : Nat) : Prop :=
  i < n ∧ (∀ a ∈ start, fromEnd n a ≤ i) ∧ (∀ b ∈ stop, (i : Int) < fromEnd n b) ∧
    step ∣ i - max 0 ((start.map (fromEnd n)).getD 0)

/-- The same with a negative step, from start down to but without stop. -/
def DownSelected (start stop : Option Int) (step : Int) (n i : Nat) : Prop :=
  i < n ∧ (∀ a ∈ start, (i : Int) ≤ fromEnd n a) ∧ (∀ b ∈ stop, fromEnd n b < i) ∧
    step ∣ min ((n : Int) - 1) ((start.map (fromEnd n)).getD (n - 1)) - i

/-- `ps` are the positions selected by `start:stop:step`, in their order. -/
def SliceOf (start stop : Option Int) (step : Int) (n : Nat) (ps : List Nat) : Prop :=
  (0 < step → ps.Pairwise (· < ·) ∧ ∀ i, i ∈ ps ↔ UpSelected start stop step n i) ∧
  (step < 0 → ps.Pairwise (· > ·) ∧ ∀ i, i ∈ ps ↔ DownSelected start stop step n i)

/-- The part of a frame in the rows and columns given. -/
def IsSubframe {α : Type} (frame : Arr2 α) (rows cols : List Nat) (out : Arr2 α) : Prop :=
  out.h = rows.length ∧ out.w = cols.length ∧
    ∀ (i j : Nat) (hi : i < rows.length) (hj : j < cols.length), out.get i j = frame.get rows[i] cols[j]

/-- Rows `a` to `b` and columns `c` to `d` of a frame, as far as it has them. -/
def BoxPart {α : Type} (a b c d : Nat) (frame out : Arr2 α) : Prop :=
  out.h = min b frame.h - a ∧ out.w = min d frame.w - c ∧
    ∀ i j : Nat, i < out.h → j < out.w → out.get i j = frame.get (a + i) (c + j)

/-- Two frames are the same picture. -/
def SamePicture {α : Type} (x y : Arr2 α) : Prop :=
  x.h = y.h ∧ x.w = y.w ∧ ∀ i j : Nat, i < x.h → j < x.w → x.get i j = y.get i j

end Spec
end Cddm
