import Verif.Model.Viewer

/-!
# Specification vocabulary for the viewers
-/

namespace Cddm
namespace Spec

/-- Dragging gives values on the slider, which goes from 0 to `count - 1`. -/
def OnSlider (count : Nat) : ViewEvent → Prop
  | .drag v => 0 ≤ v ∧ v ≤ (count : Rat) - 1
  | _ => True

/-- The frame number selected by a slider value. -/
def frameNo (v : Rat) : Nat := ⌊v⌋.toNat

/-- The largest frame number selected so far (0 at the start). -/
def furthest (vals : List Rat) : Nat := (vals.map frameNo).foldl max 0

/-- The state after a history. -/
def finalView {F β : Type} (s : VideoView F β) (h : List (VideoView F β × Option PyErr)) : VideoView F β :=
  (h.map Prod.fst).getLastD s

end Spec
end Cddm
