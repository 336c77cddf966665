import Verif.Model.Arr2
import Mathlib.Algebra.BigOperators.Group.Finset.Basic
import Mathlib.Data.Finset.Prod
import Mathlib.Data.Real.Basic
import Mathlib.Algebra.Module.Defs

/-!
# Specification vocabulary: averages over wave vectors
-/

namespace Cddm
namespace Spec

/-- `q` is the integer next to `k`; of two at the same distance, the even one. -/
def Nearest (k : ℝ) (q : Int) : Prop := |k - q| < 1 / 2 ∨ (|k - q| = 1 / 2 ∧ q % 2 = 0)

/-- The cells of bin `q` that were computed, i.e. lie in the mask if there is one. -/
def binCells (imap : Arr2 Int) (mask : Option (Arr2 Bool)) (q : Int) : Finset (Nat × Nat) :=
  (Finset.range imap.h ×ˢ Finset.range imap.w).filter fun p =>
    imap.get p.1 p.2 = q ∧ mask.all fun m => m.get p.1 p.2

/-- Mean over the cells whose value is a number. -/
noncomputable def meanOver {V : Type} [AddCommGroup V] [Module ℝ V] (S : Finset (Nat × Nat))
    (f : Nat → Nat → Option V) : Option V :=
  let T := S.filter fun p => (f p.1 p.2).isSome
  if T.card = 0 then none
  else some ((1 / (T.card : ℝ)) • ∑ p ∈ T, (f p.1 p.2).getD 0)

/-- Mean wave number and mean data of the cells `S`; nothing if there are none. -/
noncomputable def averages {V : Type} [AddCommGroup V] [Module ℝ V] (kval : Nat → Nat → ℝ)
    (f : Nat → Nat → Option V) (S : Finset (Nat × Nat)) : Option (ℝ × Option V) :=
  if S.card = 0 then none else some ((∑ p ∈ S, kval p.1 p.2) / S.card, meanOver S f)

/-- The cells inside a mask, row by row: what is left of a frame after masking. -/
def maskedCells {α : Type} (a : Arr2 α) (m : Arr2 Bool) : List α :=
  (List.range a.h).flatMap fun i =>
    (List.range a.w).filterMap fun j => if m.get i j then some (a.get i j) else none

end Spec
end Cddm
