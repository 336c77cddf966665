import Verif.Model.Sector
import Mathlib.Data.List.ProdSigma
import Mathlib.Algebra.BigOperators.Group.List.Basic

/-!
# k-selection (cddm/map.py:294-334, 606-671)

Data of one lag time, without leading axes: all functions act on every lag time separately.  A cell
holds `none` for NaN.  `V` is the type of the values, `conj` complex conjugation (the identity for
real data).
-/

namespace Cddm

/-- The data argument of `k_select` (cddm/map.py:606-648): frames of shape `(i, j)`, or only the
pixels inside a mask. -/
inductive KData (V : Type)
  | grid (a : Arr2 (Option V))
  | flat (l : List (Option V))

/-- The argument `k` of `k_select` (cddm/map.py:623-624): missing, one number, a list. -/
inductive KArg
  | all
  | one (k : ℝ)
  | many (ks : List ℝ)

/-- Python's `round` (cddm/map.py:295, 311): ties go to the even neighbour. -/
noncomputable def pyRound (x : ℝ) : Int :=
  if x - ⌊x⌋ < 1 / 2 then ⌊x⌋
  else if x - ⌊x⌋ > 1 / 2 then ⌊x⌋ + 1
  else if ⌊x⌋ % 2 = 0 then ⌊x⌋ else ⌊x⌋ + 1

/-- Indices of the true cells of a mask in the order of numpy (cddm/map.py:298, 303). -/
def whereTrue (mask : Arr2 Bool) : List (Nat × Nat) :=
  (List.range mask.h ×ˢ List.range mask.w).filter fun p => mask.get p.1 p.2

/-- `x[mask]` with a two-dimensional mask (cddm/map.py:298, 300, 303, 312, 322-327). -/
def boolIndex {α : Type} (x : Arr2 α) (mask : Arr2 Bool) : Py (List α) :=
  if x.h = mask.h ∧ x.w = mask.w then .ok ((whereTrue mask).map fun p => x.get p.1 p.2)
  else .error .indexError

/-- `x[mask]` with a one-dimensional mask (cddm/map.py:303, 326-328). -/
def boolIndex1 {α : Type} (x : List α) (mask : List Bool) : Py (List α) :=
  if x.length = mask.length then
    .ok ((x.zip mask).filterMap fun p => if p.2 then some p.1 else none)
  else .error .indexError

/-- One dimension of numpy's broadcasting (cddm/map.py:297, 317-318). -/
def broadcastDim (a b : Nat) : Py Nat :=
  if a = b then .ok a else if a = 1 then .ok b else if b = 1 then .ok a else .error .valueError

/-- `a & b` of masks, with numpy's broadcasting (cddm/map.py:297, 317-318). -/
def andMask (a b : Arr2 Bool) : Py (Arr2 Bool) := do
  let h ← broadcastDim a.h b.h
  let w ← broadcastDim a.w b.w
  .ok ⟨h, w, fun i j => a.get (if a.h = 1 then 0 else i) (if a.w = 1 then 0 else j) &&
    b.get (if b.h = 1 then 0 else i) (if b.w = 1 then 0 else j)⟩

/-- `mask & computed_mask` if there is one (cddm/map.py:296-297, 316-318). -/
def andMaskOpt (a : Arr2 Bool) : Option (Arr2 Bool) → Py (Arr2 Bool)
  | none => .ok a
  | some b => andMask a b

/-- A mask of frames, or of the pixels inside another mask (cddm/map.py:299-300, 321-323). -/
inductive KMask
  | grid (a : Arr2 Bool)
  | flat (l : List Bool)

/-- `mask[computed_mask]` if the data are masked (cddm/map.py:299-300, 321-323).  Indexing with None
cannot happen: masked data come with a mask. -/
def reduceMask (mask : Arr2 Bool) (cm : Option (Arr2 Bool)) (masked : Bool) : Py KMask :=
  match masked, cm with
  | false, _ => .ok (.grid mask)
  | true, none => .error .notModelled
  | true, some c => do
    let l ← boolIndex mask c
    .ok (.flat l)

/-- `data[..., mask, :]` (cddm/map.py:303, 327).  Frames with a one-dimensional mask (data and mask of
different shapes) are not modelled. -/
def selectData {V : Type} (data : KData V) (mask : KMask) : Py (List (Option V)) :=
  match data, mask with
  | .grid a, .grid m => boolIndex a m
  | .flat l, .flat m => boolIndex1 l m
  | _, _ => .error .notModelled

/-- `conj_mask[mask]` (cddm/map.py:326). -/
def indexMask (x mask : KMask) : Py (List Bool) :=
  match x, mask with
  | .grid a, .grid m => boolIndex a m
  | .flat l, .flat m => boolIndex1 l m
  | _, _ => .error .notModelled

/-- `np.nanmean` (cddm/map.py:303, 329): mean of the values that are numbers, NaN without any. -/
noncomputable def nanMean {V : Type} [AddCommGroup V] [Module ℝ V] (l : List (Option V)) : Option V :=
  let v := l.filterMap id
  if v.length = 0 then none else some ((1 / (v.length : ℝ)) • v.sum)

/-- `mask = (indexmap == int(round(k)))` (cddm/map.py:295, 311). -/
noncomputable def binMask (indexmap : Arr2 Int) (k : ℝ) : Arr2 Bool :=
  ⟨indexmap.h, indexmap.w, fun i j => indexmap.get i j == pyRound k⟩

/-- `_k_select_complex` (cddm/map.py:294-308). -/
noncomputable def kSelectComplex {V : Type} [AddCommGroup V] [Module ℝ V] (data : KData V) (k : ℝ)
    (indexmap : Arr2 Int) (kmap : Arr2 ℝ) (cm : Option (Arr2 Bool)) (masked : Bool) :
    Py (Option (ℝ × Option V)) := do
  let mask ← andMaskOpt (binMask indexmap k) cm
  let ks ← boolIndex kmap mask
  let m ← reduceMask mask cm masked
  if ks.length > 0 then do
    let d ← selectData data m
    .ok (some (ks.sum / ks.length, nanMean d))
  else .ok none

/-- `_k_select_real` (cddm/map.py:310-334). -/
noncomputable def kSelectReal {V : Type} [AddCommGroup V] [Module ℝ V] (conj : V → V) (data : KData V)
    (k : ℝ) (indexmap : Arr2 Int) (kmap : Arr2 ℝ) (cm : Option (Arr2 Bool)) (masked : Bool) :
    Py (Option (ℝ × Option V)) := do
  let full := binMask indexmap k
  let ks ← boolIndex kmap full
  let mask ← asRfft2Mask full
  let conjMask ← asRfft2Conj false mask
  let mask ← andMaskOpt mask cm
  let conjMask ← andMaskOpt conjMask cm
  let m ← reduceMask mask cm masked
  let c ← reduceMask conjMask cm masked
  if ks.length > 0 then do
    let c ← indexMask c m
    let d ← selectData data m
    let d := (d.zip c).map fun p => if p.2 then p.1.map conj else p.1
    .ok (some (ks.sum / ks.length, nanMean d))
  else .ok none

/-- `tuple((data for data in iterator if data is not None))` (cddm/map.py:667-668). -/
def collectSome {α : Type} : List (Py (Option α)) → Py (List α)
  | [] => .ok []
  | x :: xs => do
    let a ← x
    let r ← collectSome xs
    match a with
    | none => .ok r
    | some a => .ok (a :: r)

/-- What `k_select` returns (cddm/map.py:632-638). -/
inductive KResult (V : Type)
  | pair (p : Option (ℝ × Option V))
  | pairs (l : List (ℝ × Option V))

/-- Frame shape and whether the data are masked (cddm/map.py:643-652).  Masked data have one axis less
and without a mask the two sizes cannot be read off. -/
def kSelectSize {V : Type} (data : KData V) (mask : Option (Arr2 Bool)) : Py ((Nat × Nat) × Bool) :=
  match mask, data with
  | some m, .grid a => .ok ((m.h, m.w), decide (¬ (a.h = m.h ∧ a.w = m.w)))
  | some m, .flat _ => .ok ((m.h, m.w), true)
  | none, .grid a => .ok ((a.h, a.w), false)
  | none, .flat _ => .error .valueError

/-- Shape in full space (cddm/map.py:654-658). -/
def kSelectShape (size : Nat × Nat) (shape : Option (Nat × Nat)) (rfft2 : Bool) : Py (Nat × Int) :=
  if rfft2 then asFft2Shape (some size.1) (some size.2) shape else .ok (size.1, (size.2 : Int))

/-- The loop over `k` (cddm/map.py:663-671).  A number is not iterable: the TypeError is caught and
the last line calls `_k_select` with an argument missing, which is a TypeError again.  A TypeError
inside the loop would end the same way. -/
noncomputable def kSelectLoop {V : Type} (select : ℝ → Py (Option (ℝ × Option V)))
    (indexmap : Arr2 Int) (k : KArg) : Py (KResult V) :=
  match k with
  | .one _ => .error .typeError
  | .many ks => (collectSome (ks.map select)).map .pairs
  | .all =>
    let kdim : Int := indexmap.entries.foldl max (indexmap.get 0 0) + 1
    (collectSome (((List.range kdim.toNat).map fun (i : Nat) => (i : ℝ)).map select)).map .pairs

/-- `k_select` (cddm/map.py:606-671); `rfft2` tells whether `mode == "rfft2"`. -/
noncomputable def kSelect {V : Type} [AddCommGroup V] [Module ℝ V] (conj : V → V) (data : KData V)
    (angle sector kstep : ℝ) (k : KArg) (shape : Option (Nat × Nat)) (mask : Option (Arr2 Bool))
    (rfft2 : Bool) : Py (KResult V) :=
  if ¬ sector > 0 then .error .assertionError
  else do
    let size ← kSelectSize data mask
    let fullShape ← kSelectShape size.1 shape rfft2
    let maps ← fft2Kangle fullShape.1 fullShape.2 shape
    let indexmap ← fft2SectorIndexmap maps.1 maps.2 angle sector kstep
    kSelectLoop (fun kk =>
      if rfft2 then kSelectReal conj data kk indexmap maps.1 mask size.2
      else kSelectComplex data kk indexmap maps.1 mask size.2) indexmap k

end Cddm
