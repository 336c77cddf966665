import Verif.Model.KSelect
import Verif.Spec.AnyAxis

/-!
# Specification vocabulary: k-selection of arrays

`p` is a position on the leading axes and on that of the delays.
-/

namespace Cddm
namespace Spec
variable {V : Type}

/-- The frame at `p` of data of shape `(..., h, w, n)`. -/
def gridAt (data : Tensor (Option V)) (h w : Nat) (p : List Nat) : Arr2 (Option V) :=
  ⟨h, w, fun i j => data.get (p.dropLast ++ [i, j, p.getLastD 0])⟩

/-- The pixels at `p` of data of shape `(..., count, n)`. -/
def pixelsAt (data : Tensor (Option V)) (count : Nat) (p : List Nat) : List (Option V) :=
  (List.range count).map fun i => data.get (p.dropLast ++ [i, p.getLastD 0])

/-- The selection acts on every frame by itself: it raises what it raises for any one frame, or the same bins are found for all,
with the same wave numbers, and the averages at `p` are those of the frame at `p`. -/
def FrameWise (frames : List Nat) (res : Py (List (ℝ × Tensor (Option V)))) (one : List Nat → Py (KResult V)) : Prop :=
  match res with
  | .error e => ∀ p, InShape p frames → one p = .error e
  | .ok r => (∀ x ∈ r, x.2.shape = frames) ∧
    ∀ p, InShape p frames → one p = .ok (.pairs (r.map fun x => (x.1, x.2.get p)))

end Spec
end Cddm
