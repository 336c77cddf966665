import Verif.Model.Video
import Mathlib.Data.Rat.Floor

/-!
# `random_video`

Random numbers are a sequence of fractions, arithmetic is exact.
-/

namespace Cddm

/-- The `dtype` of the frames (cddm/video.py:750): floating-point or unsigned integers. -/
inductive PixDtype where
  | float
  | uint (bits : Nat)
deriving DecidableEq, Repr

/-- A frame: its shape and its pixels in the order of memory. -/
structure RandFrame where
  shape : List Nat
  pixels : List Rat
deriving DecidableEq, Repr

/-- `np.asarray(x, dtype)` of one pixel (cddm/video.py:755): integers drop the digits after the point.  What does not fit the
integer type is not modelled (C leaves it open), nor is rounding to the floating-point type. -/
def toPixDtype (dtype : PixDtype) (x : Rat) : Py Rat :=
  match dtype with
  | .float => .ok x
  | .uint bits =>
    let n : Int := if 0 ≤ x then ⌊x⌋ else ⌈x⌉
    if 0 ≤ n ∧ n < 2 ^ bits then .ok n else .error .notModelled

/-- `np.asarray(np.random.rand(*shape)*max_value, dtype)` (cddm/video.py:755), with the number of random numbers used before and
after; negative sizes raise ValueError. -/
def randomFrame (u : Nat → Rat) (shape : List Int) (dtype : PixDtype) (maxValue : Rat) (used : Nat) : Py (RandFrame × Nat) :=
  if shape.any (· < 0) then .error .valueError
  else do
    let shape := shape.map Int.toNat
    let pixels ← (List.range shape.prod).mapM fun p => toPixDtype dtype (u (used + p) * maxValue)
    .ok (⟨shape, pixels⟩, used + shape.prod)

/-- One multi-frame, `tuple(... for i in range(nframes))` (cddm/video.py:755). -/
def randomMultiFrame (u : Nat → Rat) (shape : List Int) (dtype : PixDtype) (maxValue : Rat) : Nat → Nat → Py (List RandFrame × Nat)
  | 0, used => .ok ([], used)
  | n + 1, used => do
    let (f, used) ← randomFrame u shape dtype maxValue used
    let (fs, used) ← randomMultiFrame u shape dtype maxValue n used
    .ok (f :: fs, used)

/-- The loop of `random_video` (cddm/video.py:753-755), consumed to the end; the pauses are not modelled. -/
def randomLoop (u : Nat → Rat) (shape : List Int) (dtype : PixDtype) (maxValue : Rat) (nframes : Nat) : Nat → Nat → Py (List (List RandFrame))
  | 0, _ => .ok []
  | n + 1, used => do
    let (fs, used) ← randomMultiFrame u shape dtype maxValue nframes used
    let rest ← randomLoop u shape dtype maxValue nframes n used
    .ok (fs :: rest)

/-- `random_video` (cddm/video.py:750-755).  `dual` is a number (`True` is 1, `False` 0); other objects are not modelled. -/
def randomVideo (u : Nat → Rat) (shape : List Int) (count : Int) (dtype : PixDtype) (maxValue : Rat) (dual : Rat) :
    Py (List (List RandFrame)) :=
  let nframes := if dual = 1 then 2 else 1
  randomLoop u shape dtype maxValue nframes count.toNat 0

end Cddm
