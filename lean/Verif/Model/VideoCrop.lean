import Verif.Model.Arr2
import Verif.Model.Video

/-!
# Cropping and masking frames

`crop` (cddm/video.py:166-204) and `mask` (cddm/video.py:206-223).
-/

namespace Cddm

/-- A builtin slice object (cddm/video.py:166, 195-202) whose attributes are whole numbers or None. -/
structure PySlice where
  start : Option Int
  stop : Option Int
  step : Option Int

/-- The start of the slice brought into the range of an axis of length `n`, as in `slice.indices`
(CPython; used by `frame[hslice,wslice]`, cddm/video.py:204). -/
def PySlice.first (s : PySlice) (step : Int) (n : Nat) : Int :=
  match s.start with
  | none => if step < 0 then (n : Int) - 1 else 0
  | some a =>
    if a < 0 then (if a + n < 0 then (if step < 0 then -1 else 0) else a + n)
    else if a ≥ n then (if step < 0 then (n : Int) - 1 else n) else a

/-- The stop of the slice brought into the range of an axis of length `n`, as in `slice.indices`
(CPython; used by `frame[hslice,wslice]`, cddm/video.py:204). -/
def PySlice.last (s : PySlice) (step : Int) (n : Nat) : Int :=
  match s.stop with
  | none => if step < 0 then -1 else n
  | some a =>
    if a < 0 then (if a + n < 0 then (if step < 0 then -1 else 0) else a + n)
    else if a ≥ n then (if step < 0 then (n : Int) - 1 else n) else a

/-- The number of elements from `first` to `last`, as in `slice.indices`
(CPython; used by `frame[hslice,wslice]`, cddm/video.py:204). -/
def sliceLength (first last step : Int) : Nat :=
  if step < 0 then (if last < first then ((first - last - 1) / (-step) + 1).toNat else 0)
  else if first < last then ((last - first - 1) / step + 1).toNat else 0

/-- The positions of an axis of length `n` that the slice selects (cddm/video.py:204); a zero step is a ValueError. -/
def PySlice.positions (s : PySlice) (n : Nat) : Py (List Nat) :=
  let step := s.step.getD 1
  if step = 0 then .error .valueError
  else .ok ((List.range (sliceLength (s.first step n) (s.last step n) step)).map fun k : Nat => (s.first step n + k * step).toNat)

/-- `frame[hslice,wslice]` (cddm/video.py:204). -/
def cropFrame {α : Type} (hs ws : PySlice) (frame : Arr2 α) : Py (Arr2 α) := do
  let hp ← hs.positions frame.h
  let wp ← ws.positions frame.w
  .ok (take2 frame hp wp)

/-- A member of the argument `roi` (cddm/video.py:195-202): a slice, a tuple of arguments of `slice` or something else, that cannot be unpacked.
Tuples of other things than whole numbers and None are not modelled. -/
inductive RoiPart
  | ofSlice (s : PySlice)
  | args (xs : List (Option Int))
  | other

/-- `slice(*hslice)` (cddm/video.py:197-200): one argument is the stop. -/
def RoiPart.toSlice : RoiPart → Py PySlice
  | .ofSlice s => .ok s
  | .args [b] => .ok ⟨none, b, none⟩
  | .args [a, b] => .ok ⟨a, b, none⟩
  | .args [a, b, c] => .ok ⟨a, b, c⟩
  | .args _ => .error .typeError
  | .other => .error .typeError

/-- The slices of the argument `roi`, cddm/video.py:195-202: every exception becomes a ValueError.  `none` is a `roi` that is not
iterable. -/
def parseRoi (roi : Option (List RoiPart)) : Py (PySlice × PySlice) :=
  match roi with
  | some [a, b] =>
    match a.toSlice, b.toSlice with
    | .ok hs, .ok ws => .ok (hs, ws)
    | _, _ => .error .valueError
  | _ => .error .valueError

/-- A generator that applies `f` to all frames of the video (cddm/video.py:203-204, 222-223): what is yielded and the exception. -/
def mapFrames {F G : Type} (f : F → Py G) : List (List F) → List (List G) × Option PyErr
  | [] => ([], none)
  | fs :: rest =>
    match fs.mapM f with
    | .error e => ([], some e)
    | .ok gs => (gs :: (mapFrames f rest).1, (mapFrames f rest).2)

/-- `crop` read to the end (cddm/video.py:166-204).  Frames with more than two axes are not modelled. -/
def cropVideo {α : Type} (roi : Option (List RoiPart)) (video : List (List (Arr2 α))) : List (List (Arr2 α)) × Option PyErr :=
  match parseRoi roi with
  | .error e => ([], some e)
  | .ok (hs, ws) => mapFrames (cropFrame hs ws) video

/-- `frame[mask]` with a boolean array of two axes (cddm/video.py:223): the pixels in row order; a mask of another shape is an
IndexError. -/
def maskFrame {α : Type} (mask : Arr2 Bool) (frame : Arr2 α) : Py (List α) :=
  if mask.h = frame.h ∧ mask.w = frame.w then
    .ok (((List.range frame.h ×ˢ List.range frame.w).filter fun p => mask.get p.1 p.2).map fun p => frame.get p.1 p.2)
  else .error .indexError

/-- `mask` read to the end (cddm/video.py:206-223).  Only masks that are boolean arrays of two axes are modelled. -/
def maskVideo {α : Type} (mask : Arr2 Bool) (video : List (List (Arr2 α))) : List (List (List α)) × Option PyErr :=
  mapFrames (maskFrame mask) video

end Cddm
