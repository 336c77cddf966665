import Verif.Model.Video
import Verif.Model.FrameShow

/-!
# Frames of a camera: unsigned integers

The functions of `Verif.Model.Video` and `Verif.Model.FrameShow` on frames whose pixels are unsigned integers, as cameras deliver them.
numpy computes with two such arrays in their own type, modulo a power of two.
-/

namespace Cddm

/-- The element type of a frame, also of the argument `dtype` of cddm/video.py:225-328: unsigned integers of a number of bits, or
floating-point numbers.  Simplified: floating-point numbers are exact; signed integers are in `Verif.Model.IntFrame`. -/
inductive PixType
  | uint (bits : Nat)
  | float

/-- A frame, `frame` and `w` in cddm/video.py:243-250: its type and pixels (in one list; the shape does not matter). -/
inductive CamFrame
  | uint (bits : Nat) (px : List Int)
  | float (px : List ℝ)

/-- The pixels as floating-point numbers: the conversion numpy makes of an operand if the other is of that type, or if
`dtype` asks for it (cddm/video.py:250, 277, 328). -/
noncomputable def CamFrame.reals : CamFrame → List ℝ
  | .uint _ px => px.map (Int.cast : Int → ℝ)
  | .float px => px

/-- The three operations (cddm/video.py:248-250, 275-277, 326-328). -/
inductive FrameOp
  | sub
  | add
  | mul

/-- The operation on integers before reduction to the type (cddm/video.py:250, 277, 328). -/
def FrameOp.onInt : FrameOp → Int → Int → Int
  | .sub => fun a b => a - b
  | .add => fun a b => a + b
  | .mul => fun a b => a * b

/-- The operation on floating-point numbers (cddm/video.py:250, 277, 328). -/
noncomputable def FrameOp.onReal : FrameOp → ℝ → ℝ → ℝ
  | .sub => fun a b => a - b
  | .add => fun a b => a + b
  | .mul => fun a b => a * b

/-- `frame - w`, `frame + w`, `frame*w` of numpy arrays (cddm/video.py:250, 277, 328): two arrays of unsigned integers give one of the
wider type, modulo its size; otherwise both are converted to floating-point numbers.  Simplified: frames of different shapes are not
modelled. -/
noncomputable def npArith (op : FrameOp) : CamFrame → CamFrame → Py CamFrame
  | .uint a x, .uint b y =>
    if x.length ≠ y.length then .error .notModelled
    else .ok (.uint (max a b) (List.zipWith (fun u v => op.onInt u v % 2 ^ max a b) x y))
  | x, y =>
    if x.reals.length ≠ y.reals.length then .error .notModelled
    else .ok (.float (List.zipWith op.onReal x.reals y.reals))

/-- A floating-point number as an unsigned integer (cddm/video.py:250 with an integer `dtype`): the fraction is cut off; the result is
undefined in C if it is not one of the type. -/
noncomputable def realToUint (bits : Nat) (v : ℝ) : Option Int :=
  let k : Int := if 0 ≤ v then ⌊v⌋ else ⌈v⌉
  if 0 ≤ k ∧ k < 2 ^ bits then some k else none

/-- `np.asarray(..., dtype = dtype)` (cddm/video.py:250, 277, 328). -/
noncomputable def asDtype : Option PixType → CamFrame → Py CamFrame
  | none, f => .ok f
  | some .float, f => .ok (.float f.reals)
  | some (.uint b), .uint _ px => .ok (.uint b (px.map (· % 2 ^ b)))
  | some (.uint b), .float px => (orUB (px.mapM (realToUint b))).map (.uint b)

/-- `np.subtract(frame, w, frame)` and the others (cddm/video.py:248, 275, 326): the result is converted to the type of `frame`;
numpy does this between unsigned integers and from them to floating-point numbers, but raises TypeError for floating-point numbers into
integers. -/
noncomputable def arithInplace (op : FrameOp) (frame w : CamFrame) : Py CamFrame := do
  let r ← npArith op frame w
  match frame, r with
  | .uint b _, .uint _ px => .ok (.uint b (px.map (· % 2 ^ b)))
  | .uint _ _, .float _ => .error .typeError
  | .float _, r => .ok (.float r.reals)

/-- What `subtract`, `add` and `multiply` make of one frame (cddm/video.py:247-250, 274-277, 325-328). -/
noncomputable def frameArith (op : FrameOp) (inplace : Bool) (dtype : Option PixType) (frame w : CamFrame) : Py CamFrame :=
  if inplace then arithInplace op frame w
  else do
    let r ← npArith op frame w
    asDtype dtype r

/-- `subtract`, `add` and `multiply` (cddm/video.py:225-277, 304-328) of two videos: the multi-frames yielded, and the exception. -/
noncomputable def videoArith (op : FrameOp) (inplace : Bool) (dtype : Option PixType) (x y : List (List CamFrame)) :
    List (List CamFrame) × Option PyErr :=
  combine (frameArith op inplace dtype) x y

/-- `x.max()` of an array of integers that is not empty (cddm/video.py:725). -/
def uintMax (x : Arr2 Int) : Int :=
  ((List.range x.h ×ˢ List.range x.w).map fun p => x.get p.1 p.2).foldl max (x.get 0 0)

/-- `m = 2* max(x.max(),y.max())` (cddm/video.py:725) of two arrays of unsigned integers of `bits` bits.  numpy before version 2 makes
the product of a Python integer and a numpy integer a 64-bit integer; from version 2 on (`keeps`) it keeps the type of the latter. -/
def uintScale (keeps : Bool) (bits : Nat) (x y : Arr2 Int) : Int :=
  let m := 2 * max (uintMax x) (uintMax y)
  if keeps then m % 2 ^ bits else m

/-- The difference image of two frames of unsigned integers of the same shape, `normalize = False` (cddm/video.py:719-727).  If the
scale is zero no pixel is a finite number. -/
noncomputable def diffImageUint (keeps : Bool) (bits : Nat) (x y : Arr2 Int) : Py (Arr2 (Option ℝ)) :=
  if x.h ≠ y.h ∨ x.w ≠ y.w then .error .notModelled
  else if x.h = 0 ∨ x.w = 0 then .error .valueError
  else
    let m : Int := uintScale keeps bits x y
    .ok ⟨x.h, x.w, fun i j => if m = 0 then none else some ((x.get i j : ℝ) / m - (y.get i j : ℝ) / m + 1 / 2)⟩

/-- The image `_cv_imshow` hands to OpenCV (cddm/video.py:376-380), after `norm_func`; an array without pixels has no maximum. -/
noncomputable def cvImage (im : Arr2 ℝ) : Py (Arr2 ℝ) :=
  if im.h = 0 ∨ im.w = 0 then .error .valueError
  else if frameMax im > 1 then .ok ⟨im.h, im.w, fun i j => im.get i j / frameMax im⟩
  else .ok im

end Cddm
