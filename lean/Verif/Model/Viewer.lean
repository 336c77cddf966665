import Verif.Model.Norm
import Verif.Model.Sim
import Mathlib.Data.Rat.Floor

/-!
# The viewers (cddm/viewer.py)

The state behind the widgets and what the callbacks do to it.  Drawing itself is not modelled.
-/

namespace Cddm

/-! ## `VideoViewer` -/

/-- A frame of a video: an array, or a tuple or list of arrays, one for each camera (cddm/viewer.py:177-181). -/
inductive VFrame (α : Type)
  | single (im : α)
  | multi (ims : List α)

/-- `VideoViewer._prepare_image` (cddm/viewer.py:177-181). -/
def prepareImage {α β : Type} (norm : α → Py β) (id : Int) : VFrame α → Py β
  | .single im => norm im
  | .multi ims =>
    match resolveIdx ims.length id with
    | none => .error .indexError
    | some k =>
      match ims[k]? with
      | none => .error .indexError
      | some im => norm im

/-- The video given to the viewer (cddm/viewer.py:30-32): list-like, or a generator of which `rest` is still to come. -/
inductive ViewSource (F : Type)
  | list (frames : List F)
  | gen (rest : List F)

/-- The state of a `VideoViewer` (cddm/viewer.py:75-115): `index`, `video`, the image shown, the value of the slider,
`playing` and `step`. -/
structure VideoView (F β : Type) where
  index : Int
  video : ViewSource F
  image : β
  val : Rat
  playing : Bool
  step : Rat

/-- `VideoViewer.__init__` (cddm/viewer.py:65-115), as far as the state: the first frame is taken from the iterator of
the video and shown.  `count` is used by the callbacks only. -/
def VideoView.start {F β : Type} (prepare : F → Py β) (video : ViewSource F) : Py (VideoView F β) :=
  match video with
  | .list [] => .error .stopIteration
  | .gen [] => .error .stopIteration
  | .list (f :: fs) => (prepare f).map fun im => ⟨0, .list (f :: fs), im, 0, false, 1⟩
  | .gen (f :: fs) => (prepare f).map fun im => ⟨0, .gen fs, im, 0, false, 1⟩

/-- The `for` loop of `update` (cddm/viewer.py:157-161): frames are taken from the generator until the index is
reached.  Returns the index, the last frame taken (`cur` if none) and what is left. -/
def advance {F : Type} (i : Int) : Int → Option F → List F → Int × Option F × List F
  | index, cur, [] => (index, cur, [])
  | index, _, f :: rest =>
    if index + 1 ≥ i then (index + 1, some f, rest) else advance i (index + 1) (some f) rest

/-- `int(x)` (cddm/viewer.py:150). -/
def pyTrunc (x : Rat) : Int := if x < 0 then ⌈x⌉ else ⌊x⌋

/-- The end of `update` (cddm/viewer.py:162-165): the frame, if there is one, is shown. -/
def VideoView.draw {F β : Type} (prepare : F → Py β) (s : VideoView F β) (frame : Option F) :
    VideoView F β × Option PyErr :=
  match frame with
  | none => (s, none)
  | some f =>
    match prepare f with
    | .error e => (s, some e)
    | .ok im => ({ s with image := im }, none)

/-- `sframe.set_val(v)`: the value is stored as it is and `update` is called (cddm/viewer.py:149-167).  Returns the
exception raised in `update`, if any. -/
def VideoView.setVal {F β : Type} (prepare : F → Py β) (v : Rat) (s : VideoView F β) : VideoView F β × Option PyErr :=
  let s := { s with val := v }
  let i := pyTrunc v
  match s.video with
  | .list frames =>
    match resolveIdx frames.length i with
    | none => (s, some .indexError)
    | some k => VideoView.draw prepare { s with index := i } frames[k]?
  | .gen rest =>
    if i > s.index then
      let r := advance i s.index none rest
      VideoView.draw prepare { s with index := r.1, video := .gen r.2.2 } r.2.1
    else (s, none)

/-- What can happen to the viewer (cddm/viewer.py:112-147, 167-175): the slider is dragged, a button is pressed, or the play loop takes its next step
(between its pauses other events are processed). -/
inductive ViewEvent
  | drag (v : Rat)
  | next
  | nextFast
  | prev
  | prevFast
  | play
  | playFast
  | stop
  | tick

/-- The callbacks (cddm/viewer.py:112-147): `next_frame`, `next_fast`, `prev_frame`, `prev_fast`, `play`, `play_fast`,
`stop` and one turn of `_play`. -/
def VideoView.handle {F β : Type} (prepare : F → Py β) (count : Nat) (s : VideoView F β) (e : ViewEvent) :
    VideoView F β × Option PyErr :=
  match e with
  | .drag v => s.setVal prepare v
  | .next => s.setVal prepare (min (s.val + 1) ((count : Rat) - 1))
  | .nextFast => s.setVal prepare (min (s.val + s.step) ((count : Rat) - 1))
  | .prev => s.setVal prepare (max (s.val - 1) 0)
  | .prevFast => s.setVal prepare (max (s.val - s.step) 0)
  | .play => ({ s with playing := true, step := 1 }, none)
  | .playFast => ({ s with playing := true, step := (count : Rat) / 100 }, none)
  | .stop => ({ s with playing := false }, none)
  | .tick =>
    if s.playing then
      if s.val + s.step ≥ (count : Rat) then ({ s with playing := false }, none)
      else s.setVal prepare (s.val + s.step)
    else (s, none)

/-- A history of events (cddm/viewer.py:112-175): the states after each of them, with the exceptions raised. -/
def VideoView.history {F β : Type} (prepare : F → Py β) (count : Nat) (s : VideoView F β) :
    List ViewEvent → List (VideoView F β × Option PyErr)
  | [] => []
  | e :: es => s.handle prepare count e :: VideoView.history prepare count (s.handle prepare count e).1 es

/-! ## `CorrViewer` -/

/-- The check boxes (cddm/viewer.py:856-858). -/
structure Checks where
  structured : Bool
  subtracted : Bool
  weighted : Bool
  compensated : Bool
deriving DecidableEq

/-- The boxes that can be clicked (cddm/viewer.py:858). -/
inductive CheckBox
  | structured
  | subtracted
  | weighted
  | compensated

/-- The value of a box is inverted (`CheckButtons.set_active`, cddm/viewer.py:877, and a click). -/
def Checks.toggle (c : Checks) : CheckBox → Checks
  | .structured => { c with structured := !c.structured }
  | .subtracted => { c with subtracted := !c.subtracted }
  | .weighted => { c with weighted := !c.weighted }
  | .compensated => { c with compensated := !c.compensated }

/-- `self.active` (cddm/viewer.py:856). -/
def Checks.ofNorm (norm : Nat) : Checks :=
  ⟨decide (norm &&& 2 ≠ 0), decide (norm &&& 4 ≠ 0), decide (norm &&& 3 = 3), decide (norm &&& 8 = 8)⟩

/-- The norm of the boxes (cddm/viewer.py:864-873). -/
def Checks.norm (c : Checks) : Nat :=
  let n := if c.structured then 2 else 1
  let n := if c.subtracted then n ||| 4 else n
  let n := if c.weighted then n ||| 3 else n
  if c.compensated then n ||| 8 else n

/-- The state of a `CorrViewer` (cddm/viewer.py:832-882): the data, `norm` and the check boxes. -/
structure CorrView (C : Type) where
  data : NormData C
  norm : Nat
  checks : Checks

/-- `CorrViewer.set_norm` (cddm/viewer.py:843-846); the same in `CorrArrayViewer` (438-441) and, with the first part of
the data, in the multiple tau viewers (537-540, 972-975). -/
def CorrView.setNorm {C : Type} (s : CorrView C) (value : Option Int) : Py (CorrView C) :=
  match normOf s.data value with
  | .error e => .error e
  | .ok n => .ok { s with norm := n }

/-- `CorrViewer._init_fig` (cddm/viewer.py:848-858) after `set_data`, with the norm given to the constructor. -/
def CorrView.start {C : Type} (data : NormData C) (norm : Option Int) : Py (CorrView C) :=
  match normOf data norm with
  | .error e => .error e
  | .ok n => .ok ⟨data, n, Checks.ofNorm n⟩

/-- The callback `update` (cddm/viewer.py:862-879; 457-473 in `CorrArrayViewer`) up to the plotting, after the box was
inverted.  When the norm is refused `set_active` inverts the box again, which calls the callback again.  Python ends
the calls at its recursion limit `fuel` with `RecursionError`, a `RuntimeError`. -/
def CorrView.update {C : Type} (box : CheckBox) : Nat → CorrView C → Py (CorrView C)
  | 0, _ => .error .runtimeError
  | fuel + 1, s =>
    match s.setNorm (some (s.checks.norm : Int)) with
    | .ok s' => .ok s'
    | .error .valueError => CorrView.update box fuel { s with checks := s.checks.toggle box }
    | .error e => .error e

/-- A click on a box (cddm/viewer.py:862-882). -/
def CorrView.click {C : Type} (fuel : Nat) (s : CorrView C) (box : CheckBox) : Py (CorrView C) :=
  CorrView.update box fuel { s with checks := s.checks.toggle box }

/-- Clicks one after the other (cddm/viewer.py:862-882). -/
def CorrView.clicks {C : Type} (fuel : Nat) (s : CorrView C) : List CheckBox → Py (CorrView C)
  | [] => .ok s
  | b :: bs =>
    match s.click fuel b with
    | .error e => .error e
    | .ok s' => CorrView.clicks fuel s' bs

end Cddm
