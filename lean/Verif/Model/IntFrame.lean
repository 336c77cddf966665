import Verif.Model.CamFrame
import Verif.Model.Fft2

/-!
# Frames of signed and unsigned integers of any shapes

`subtract`, `add` and `multiply` of `cddm/video.py` on two-dimensional frames whose pixels are integers, signed or not,
and whose shapes may differ.  Frames of floating-point numbers are in `Verif.Model.CamFrame`.
-/

namespace Cddm

/-- The integer types of numpy, the type of `frame` and `w` in cddm/video.py:243-250. -/
structure IntPix where
  signed : Bool
  bits : Nat
  deriving DecidableEq, Repr

/-- The type numpy computes in for operands of two integer types (cddm/video.py:248-250, 275-277, 326-328): of the same
kind the wider one; of an unsigned and a signed one the signed type that holds both, which is `none`, floating-point
numbers, for unsigned integers of 64 bits. -/
def commonInt (a b : IntPix) : Option IntPix :=
  if a.signed = b.signed then some ⟨a.signed, max a.bits b.bits⟩
  else
    let u := if a.signed then b.bits else a.bits
    let s := if a.signed then a.bits else b.bits
    if u < s then some ⟨true, s⟩ else if u < 64 then some ⟨true, 2 * u⟩ else none

/-- Conversion of an integer to a type (cddm/video.py:248-250, 275-277, 326-328): the low bits are kept. -/
def toIntPix (t : IntPix) (v : Int) : Int :=
  if t.signed then Int.bmod v (2 ^ t.bits) else v % 2 ^ t.bits

/-- A result of an operation of frames (cddm/video.py:248-250, 275-277, 326-328). -/
inductive IntResult
  | ints (t : IntPix) (px : Arr2 Int)
  | floats (px : Arr2 ℝ)

/-- `frame - w`, `frame + w`, `frame*w` of two arrays of integers with broadcasting (cddm/video.py:250, 277, 328).
Simplified: floating-point numbers are exact. -/
noncomputable def intArith (op : FrameOp) (a b : IntPix) (x y : Arr2 Int) : Py IntResult :=
  match broadcastLen x.h y.h, broadcastLen x.w y.w with
  | some h, some w =>
    let at' := fun (z : Arr2 Int) i j => z.get (if z.h = 1 then 0 else i) (if z.w = 1 then 0 else j)
    match commonInt a b with
    | some t => .ok (.ints t ⟨h, w, fun i j =>
        toIntPix t (op.onInt (toIntPix t (at' x i j)) (toIntPix t (at' y i j)))⟩)
    | none => .ok (.floats ⟨h, w, fun i j => op.onReal (at' x i j : ℝ) (at' y i j : ℝ)⟩)
  | _, _ => .error .valueError

/-- `np.asarray(..., dtype = dtype)` with an integer type or without one (cddm/video.py:250, 277, 328).  Simplified:
floating-point results with an integer `dtype` are not modelled. -/
noncomputable def asIntPix : Option IntPix → IntResult → Py IntResult
  | none, r => .ok r
  | some t, .ints _ px => .ok (.ints t ⟨px.h, px.w, fun i j => toIntPix t (px.get i j)⟩)
  | some _, .floats _ => .error .notModelled

/-- `np.subtract(frame, w, frame)` and the others (cddm/video.py:248, 275, 326): TypeError unless the result can be
converted to the type of `frame` within its kind; then ValueError unless it has the shape of `frame`. -/
noncomputable def intArithInplace (op : FrameOp) (a b : IntPix) (x y : Arr2 Int) : Py IntResult :=
  match commonInt a b with
  | none => .error .typeError
  | some t =>
    if t.signed = true ∧ a.signed = false then .error .typeError
    else do
      let r ← intArith op a b x y
      match r with
      | .ints _ px =>
        if px.h ≠ x.h ∨ px.w ≠ x.w then .error .valueError
        else .ok (.ints a ⟨px.h, px.w, fun i j => toIntPix a (px.get i j)⟩)
      | .floats _ => .error .typeError

/-- What `subtract`, `add` and `multiply` make of one frame (cddm/video.py:247-250, 274-277, 325-328). -/
noncomputable def intFrameArith (op : FrameOp) (inplace : Bool) (dtype : Option IntPix) (a b : IntPix)
    (x y : Arr2 Int) : Py IntResult :=
  if inplace then intArithInplace op a b x y
  else do
    let r ← intArith op a b x y
    asIntPix dtype r

end Cddm
