import Mathlib.Data.List.Basic
import Verif.Model.Err

/-!
# Specification vocabulary: videos
-/

namespace Cddm
namespace Spec

/-- The frames of camera `c` of a video. -/
def camera {F : Type} (video : List (List F)) (c : Nat) : List F := video.filterMap fun fs => fs[c]?

/-- Every multi-frame has `n` frames. -/
def HasCameras {F : Type} (video : List (List F)) (n : Nat) : Prop := ∀ fs ∈ video, fs.length = n

/-- Two videos with the same number of cameras in corresponding multi-frames, as far as both go. -/
def SameCameras {F : Type} (x y : List (List F)) : Prop := ∀ p ∈ x.zip y, p.1.length = p.2.length

/-- Corresponding frames combined with `f`. -/
def frameWise {F : Type} (f : F → F → F) (x y : List (List F)) : List (List F) :=
  List.zipWith (List.zipWith f) x y

/-- Every frame of a camera can be assigned unchanged to an array made for another frame of it (`put t f` is the
assignment of `f` to an array made for `t`). -/
def FramesFit {F : Type} (put : F → F → Py F) (video : List (List F)) : Prop :=
  ∀ (c : Nat) (f g : F), f ∈ camera video c → g ∈ camera video c → put f g = .ok g

/-- Both threads are scheduled again and again. -/
def Fair (sched : Nat → Bool) : Prop := ∀ (b : Bool) (n : Nat), ∃ m, n ≤ m ∧ sched m = b

end Spec
end Cddm
