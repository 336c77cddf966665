import Verif.Model.Err
import Verif.Model.Sim
import Mathlib.Algebra.BigOperators.Group.List.Basic

/-!
# Reshaping for threaded computation (cddm/core.py:254-388)

An array is its shape and its elements in C order.
-/

namespace Cddm

/-- A numpy array (cddm/core.py:309): shape and elements in C order. -/
structure NdArr (α : Type) where
  shape : List Nat
  data : List α

/-- `x.reshape(s)` (cddm/core.py:322, 325, 365).  With negative sizes it is an error here: numpy infers a single one,
but those that arise here come in pairs or beside a zero, which numpy rejects. -/
def npReshape {α : Type} (x : NdArr α) (s : List Int) : Py (NdArr α) :=
  if s.any (· < 0) then .error .valueError
  else if (s.map Int.toNat).prod = x.shape.prod then .ok ⟨s.map Int.toNat, x.data⟩
  else .error .valueError

/-- `thread_frame_shape` (cddm/core.py:254-284), for an integer `thread_divisor`. -/
def threadFrameShape (shape : List Nat) (divisor : Option Int) (force2d : Bool) : Py (List Int) :=
  match (if shape.length = 1 ∧ divisor = none ∧ force2d = true then some 1 else divisor) with
  | none => .ok (shape.map fun (n : Nat) => (n : Int))
  | some d =>
    if shape = [] then .error .typeError
    else if d = 0 then .error .zeroDivisionError
    else if (shape.prod : Int) ≠ d * Int.fdiv shape.prod d then .error .valueError
    else .ok [d, Int.fdiv shape.prod d]

/-- `list.insert(k, x)` (cddm/core.py:321). -/
def pyInsert {α : Type} (l : List α) (k : Nat) (x : α) : List α := l.take k ++ x :: l.drop k

/-- The positions selected by a mask, in C order (cddm/core.py:315, 328, 368). -/
def truePos (mask : NdArr Bool) : List Nat := (List.range mask.data.length).filter fun q => mask.data.getD q false

/-- `f[:,mask]` (cddm/core.py:315) for a mask of the shape of the frames.  A mask of only some of their axes is not
modelled. -/
def maskSelect {α : Type} [Inhabited α] (f : NdArr α) (mask : NdArr Bool) : Py (NdArr α) :=
  if mask.shape = f.shape.tail then
    .ok ⟨[f.shape.headD 0, (truePos mask).length], (List.range (f.shape.headD 0)).flatMap fun (t : Nat) =>
      (truePos mask).map fun (q : Nat) => f.data.getD (t * mask.shape.prod + q) default⟩
  else if mask.shape <+: f.shape.tail then .error .notModelled
  else .error .indexError

/-- `reshape_input` (cddm/core.py:286-322). -/
def reshapeInput {α : Type} [Inhabited α] (f : NdArr α) (axis : Int) (divisor : Option Int)
    (mask : Option (NdArr Bool)) : Py (NdArr α × List Nat) :=
  match resolveIdx f.shape.length axis with
  | none => .error .indexError
  | some k => do
    let f ← match mask with
      | none => .ok f
      | some mk => if k ≠ 0 then .error .valueError else maskSelect f mk
    let new ← threadFrameShape (f.shape.eraseIdx k) divisor mask.isNone
    let y ← npReshape f (pyInsert new k (f.shape.getD k 0 : Nat))
    .ok (y, f.shape.eraseIdx k)

/-- `s[0:-k]` of a shape (cddm/core.py:367, 380, 382). -/
def shapeHead (s : List Nat) (k : Nat) : List Nat := if k = 0 then [] else s.take (s.length - k)

/-- The elements cut into rows of `m` (cddm/core.py:368: the last axis of `x`). -/
def rowsOf {α : Type} (m count : Nat) (data : List α) : List (List α) :=
  (List.range count).map fun (k : Nat) => (data.drop (k * m)).take m

/-- Rows put where the mask is true, `fill` elsewhere (cddm/core.py:327-329, 367-369). -/
def scatterRows {α : Type} (fill : List α) : List Bool → List (List α) → List (List α)
  | [], _ => []
  | false :: ms, rows => fill :: scatterRows fill ms rows
  | true :: _, [] => []
  | true :: ms, r :: rows => r :: scatterRows fill ms rows

/-- `out[...,mask,:] = x; out[...,np.logical_not(mask),:] = np.nan` (cddm/core.py:367-369).  Only an `x` of the shape
of the selection is modelled, not one that is repeated to it. -/
def unmask {α : Type} (nan : α) (x : NdArr α) (mask : NdArr Bool) : Py (NdArr α) :=
  let lead := shapeHead x.shape mask.shape.length
  let m := x.shape.getLastD 0
  let count := (truePos mask).length
  if x.shape = lead ++ [count, m] then
    .ok ⟨lead ++ mask.shape ++ [m], (List.range lead.prod).flatMap fun (b : Nat) =>
      (scatterRows (List.replicate m nan) mask.data (rowsOf m count (x.data.drop (b * (count * m))))).flatten⟩
  else .error .notModelled

/-- `_reshape` inside `reshape_output` (cddm/core.py:362-374), for the reshaped size `full`. -/
def reshapeOne {α : Type} (nan : α) (full : List Nat) (mask : Option (NdArr Bool)) (i : Nat) (x : Option (NdArr α)) :
    Py (Option (NdArr α)) :=
  if i = 1 then .ok x
  else match x with
    | none => .ok none
    | some x =>
      match npReshape x (full.map fun (n : Nat) => (n : Int)) with
      | .error e => .error e
      | .ok y =>
        match mask with
        | none => .ok (some y)
        | some mk => (unmask nan y mk).map some

/-- `reshape_output` (cddm/core.py:334-388) for a tuple of arrays, of which the second holds the counts. -/
def reshapeOutput {α : Type} (nan : α) (data : List (Option (NdArr α))) (shape : Option (List Nat))
    (mask : Option (NdArr Bool)) : Py (List (Option (NdArr α))) :=
  match shape, mask with
  | none, none => .error .valueError
  | shape, mask =>
    match data with
    | some d0 :: _ =>
      if d0.shape = [] then .error .indexError
      else
        let sh := match shape, mask with
          | some s, _ => s
          | none, some mk => mk.shape
          | none, none => []
        let lead := match mask with
          | none => shapeHead d0.shape (sh.length + 1)
          | some mk => shapeHead d0.shape mk.shape.length
        let full := lead ++ sh ++ [d0.shape.getLastD 0]
        data.zipIdx.mapM fun xi => reshapeOne nan full mask xi.2 xi.1
    | [] => .error .indexError
    | none :: _ => .error .notModelled

/-- `reshape_frame` (cddm/core.py:324-332); the same restriction as for `unmask`. -/
def reshapeFrame {α : Type} (nan : α) (frame : NdArr α) (shape : List Nat) (mask : Option (NdArr Bool)) : Py (NdArr α) :=
  match npReshape frame (shape.map fun (n : Nat) => (n : Int)) with
  | .error e => .error e
  | .ok x =>
    match mask with
    | none => .ok x
    | some mk =>
      if x.shape = [(truePos mk).length] then
        .ok ⟨mk.shape, (scatterRows [nan] mk.data (rowsOf 1 (truePos mk).length x.data)).flatten⟩
      else .error .notModelled

end Cddm
