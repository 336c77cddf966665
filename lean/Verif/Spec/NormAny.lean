import Verif.Model.NormAny
import Verif.Spec.AnyAxis

/-! # What it means that `normalize` acts on every wave vector by itself -/

namespace Cddm
namespace Spec
variable {C : Type}

/-- The curve over delay at position `q` of the other axes; the delays are the last axis. -/
def curveAt {α : Type} (x : Tensor α) (q : List Nat) : List α :=
  (List.range (x.shape.getLastD 0)).map fun i => x.get (q ++ [i])

/-- The data: levels, then the axes of the frame, then the delays; the count has no axes of the frame. -/
def DataFits (lev frame : List Nat) (n : Nat) (data : DataAny C) : Prop :=
  match data with
  | .corr cor count sq s1 s2 => cor.shape = lev ++ frame ++ [n] ∧ count.shape = lev ++ [n] ∧
      (∀ x, sq = some x → x.shape = lev ++ frame ++ [n]) ∧ (∀ x, s1 = some x → x.shape = lev ++ frame ++ [n]) ∧
      ∀ x, s2 = some x → x.shape = lev ++ frame ++ [n]
  | .diff dif count s1 s2 => dif.shape = lev ++ frame ++ [n] ∧ count.shape = lev ++ [n] ∧
      (∀ x, s1 = some x → x.shape = lev ++ frame ++ [n]) ∧ ∀ x, s2 = some x → x.shape = lev ++ frame ++ [n]
  | .other => True

/-- The data of level `l` and wave vector `p`. -/
def dataAt (data : DataAny C) (l p : List Nat) : NormData C :=
  match data with
  | .corr cor count sq s1 s2 => .corr (curveAt cor (l ++ p)) (curveAt count l) (sq.map (curveAt · (l ++ p)))
      (s1.map (curveAt · (l ++ p))) (s2.map (curveAt · (l ++ p)))
  | .diff dif count s1 s2 => .diff (curveAt dif (l ++ p)) (curveAt count l) (s1.map (curveAt · (l ++ p)))
      (s2.map (curveAt · (l ++ p)))
  | .other => .other

/-- A background or variance, or both of a pair, of shape `s`.  A single array whose first axis has length two is left out. -/
def ArgFits {α : Type} (s : List Nat) (x : FrameArg α) : Prop :=
  match x with
  | .arr x => x.shape = s ∧ s.head? ≠ some 2
  | .pair x y => x.shape = s ∧ y.shape = s

/-- The value for wave vector `p`: that of a number is the same for all. -/
def valueAt {α : Type} (x : Tensor α) (p : List Nat) : α := if x.shape = [] then x.get [] else x.get p

/-- The background of wave vector `p`. -/
def backgroundAt (x : FrameArg (Cx ℝ)) (p : List Nat) : Background :=
  match x with
  | .arr x => .one (valueAt x p)
  | .pair x y => .two (valueAt x p) (valueAt y p)

/-- The variance of wave vector `p`. -/
def varianceAt (x : FrameArg ℝ) (p : List Nat) : Variance :=
  match x with
  | .arr x => .one (valueAt x p)
  | .pair x y => .two (valueAt x p) (valueAt y p)

/-- The result holds at each position the curve (and the weight) of that position alone, or the exception is that of some
position alone. -/
def WaveWise (outer : List Nat) (n : Nat) (res : Py (Tensor (Option C) × Option (Tensor C)))
    (one : List Nat → Py (List (Option C) × Option (List C))) : Prop :=
  match res with
  | .error e => ∃ q, InShape q outer ∧ one q = .error e
  | .ok (r, w) => r.shape = outer ++ [n] ∧ (∀ x, w = some x → x.shape = outer ++ [n]) ∧
      ∀ q, InShape q outer → one q = .ok (curveAt r q, w.map (curveAt · q))

/-- The wave vectors a mask selects, in the order of numpy: each one once, the last coordinate changing fastest. -/
def MaskOrder (mask : Tensor Bool) (sel : List (List Nat)) : Prop :=
  sel.Pairwise (· < ·) ∧ ∀ p, p ∈ sel ↔ InShape p mask.shape ∧ mask.get p = true

end Spec
end Cddm
