import Verif.Model.KSelect
import Verif.Model.Norm
import Verif.Model.Cx
import Mathlib.Data.Real.Sqrt

/-!
# The viewer of correlation data: average over wave vectors (cddm/viewer.py:255-272, 579-765)

Data of one lag time, as in Verif/Model/KSelect.lean; `set_data` and `get_data` act on every lag time
separately.  The check of the length of the time array (cddm/viewer.py:686-690), the sliders and the
drawing are not modelled.  State after an exception is not modelled.
-/

namespace Cddm

/-- The masks that `set_mask` stores (cddm/viewer.py:748-762). -/
structure ViewMasks where
  mask : KMask
  graph : Arr2 Bool
  half : KMask
  conj : KMask

/-- A `DataViewer` (cddm/viewer.py:596-615): `size` is `(kisize, kjsize)`, the shape of `data` is
`kshape`, `maps` are `kmap` and `anglemap`. -/
structure DataView (V : Type) where
  shape : Option (Nat × Nat)
  computed : Option (Arr2 Bool)
  size : Option (Nat × Nat)
  data : Option (KData V)
  maps : Option (Arr2 ℝ × Arr2 ℝ)
  masks : Option ViewMasks

variable {V : Type}

/-- `DataViewer.__init__` (cddm/viewer.py:608-615). -/
def DataView.new (shape : Option (Nat × Nat)) (mask : Option (Arr2 Bool)) : DataView V :=
  { shape := shape, computed := mask, size := mask.map fun m => (m.h, m.w),
    data := none, maps := none, masks := none }

/-- `DataViewer.set_data` (cddm/viewer.py:674-690).  Without a mask of the computed elements the data
must have two dimensions besides time: unpacking a shape of another length is a ValueError. -/
def DataView.setData (v : DataView V) (data : KData V) : Py (DataView V) :=
  match v.computed, data with
  | none, .grid a => .ok { v with data := some data, size := some (a.h, a.w) }
  | none, .flat _ => .error .valueError
  | some _, _ => .ok { v with data := some data }

/-- `_init_map` (cddm/viewer.py:617-620), the maps of wave numbers and angles.  The index map that it
computes too is computed again by `set_mask`. -/
noncomputable def DataView.initMap (v : DataView V) : Py (Arr2 ℝ × Arr2 ℝ) := do
  let (h, w) ← asFft2Shape (v.size.map Prod.fst) (v.size.map Prod.snd) v.shape
  fft2Kangle h w v.shape

/-- `if self.kmap is None: self._init_map()` (cddm/viewer.py:745-746): the maps are computed once and kept. -/
noncomputable def DataView.getMaps (v : DataView V) : Py (Arr2 ℝ × Arr2 ℝ) :=
  match v.maps with
  | some m => .ok m
  | none => v.initMap

/-- `self.kshape == (self.kisize, self.kjsize)` (cddm/viewer.py:754). -/
def sameKShape (data : KData V) (size : Option (Nat × Nat)) : Bool :=
  match data with
  | .grid a => size == some (a.h, a.w)
  | .flat _ => false

/-- The masks of `set_mask` for a full-space mask (cddm/viewer.py:748-763).  `junk` is the content of
the array that `from_rfft2_data` allocates. -/
def DataView.viewMasks (v : DataView V) (junk : Nat → Nat → Bool) (mask : Arr2 Bool) :
    Py ViewMasks := do
  let half ← asRfft2Mask mask
  let conj ← asRfft2Conj false mask
  match v.computed with
  | none => .ok ⟨.grid mask, mask, .grid half, .grid conj⟩
  | some c =>
    match v.data with
    | none => .error .attributeError
    | some data =>
      if sameKShape data v.size then do
        let half ← andMask half c
        let full ← fromRfft2Data id junk c v.shape
        let graph ← andMask mask full
        let conj ← andMask conj c
        .ok ⟨.grid graph, graph, .grid half, .grid conj⟩
      else do
        let full ← fromRfft2Data id junk c v.shape
        let graph ← andMask mask full
        let half ← boolIndex half c
        let conj ← boolIndex conj c
        let m ← boolIndex mask full
        .ok ⟨.flat m, graph, .flat half, .flat conj⟩

/-- `mask.any()` (cddm/viewer.py:765). -/
def KMask.any : KMask → Bool
  | .grid a => !(whereTrue a).isEmpty
  | .flat l => l.any id

/-- `DataViewer.set_mask` (cddm/viewer.py:722-765). -/
noncomputable def DataView.setMask (v : DataView V) (junk : Nat → Nat → Bool) (k : Int)
    (angle sector kstep : ℝ) : Py (DataView V × Bool) := do
  let maps ← v.getMaps
  let imap ← fft2SectorIndexmap maps.1 maps.2 angle sector kstep
  let ms ← v.viewMasks junk ⟨imap.h, imap.w, fun i j => imap.get i j == k⟩
  .ok ({ v with maps := some maps, masks := some ms }, ms.mask.any)

/-- `get_data` and `_get_avg_data` up to `data_repr` (cddm/viewer.py:692-714): the values of the
selected wave vectors, conjugated where marked, and their mean. -/
noncomputable def DataView.getAvg [AddCommGroup V] [Module ℝ V] (conj : V → V) (v : DataView V) :
    Py (Option V) :=
  match v.data, v.masks with
  | none, _ => .error .valueError
  | _, none => .error .valueError
  | some data, some ms => do
    let d ← selectData data ms.half
    let m ← indexMask ms.conj ms.half
    .ok (nanMean ((d.zip m).map fun p => if p.2 then p.1.map conj else p.1))

/-- `kmap[mask]` (cddm/viewer.py:720).  A one-dimensional mask selects rows. -/
noncomputable def indexByMask (kmap : Arr2 ℝ) : KMask → Py (List ℝ)
  | .grid m => boolIndex kmap m
  | .flat l => do
    let rows ← boolIndex1 (List.range kmap.h) l
    .ok (rows.flatMap fun i => (List.range kmap.w).map fun j => kmap.get i j)

/-- `DataViewer.get_k` (cddm/viewer.py:716-720): mean of the selected wave numbers; `none` is NaN. -/
noncomputable def DataView.getK (v : DataView V) : Py (Option ℝ) :=
  match v.masks, v.maps with
  | some ms, some maps => do
    let l ← indexByMask maps.1 ms.mask
    .ok (if l.length = 0 then none else some (l.sum / l.length))
  | _, _ => .error .valueError

/-- A call of `set_data` or `set_mask` (cddm/viewer.py:674, 722). -/
inductive ViewOp (V : Type)
  | data (d : KData V)
  | mask (junk : Nat → Nat → Bool) (k : Int) (angle sector kstep : ℝ)

/-- The effect of one call (cddm/viewer.py:674-690, 722-765). -/
noncomputable def DataView.step (v : DataView V) : ViewOp V → Py (DataView V)
  | .data d => v.setData d
  | .mask junk k angle sector kstep => do
    let (v, _) ← v.setMask junk k angle sector kstep
    .ok v

/-- A sequence of calls (cddm/viewer.py:674-690, 722-765). -/
noncomputable def DataView.run : DataView V → List (ViewOp V) → Py (DataView V)
  | v, [] => .ok v
  | v, op :: ops => do
    let v ← v.step op
    v.run ops

/-- The four representations of complex data (cddm/viewer.py:255, 263-272). -/
inductive ReprMode
  | real | imag | abs | phase
  deriving DecidableEq

/-- `_inspect_data_repr_mode`: `str(mode).strip().lower()` must be one of four names
(cddm/viewer.py:257-261).  Lower case of ASCII characters only: no other character has a lower case that
occurs in the names. -/
def reprMode (mode : List Char) : Py ReprMode :=
  let s := (stripChars mode).map Char.toLower
  if s = "real".toList then .ok .real
  else if s = "imag".toList then .ok .imag
  else if s = "abs".toList then .ok .abs
  else if s = "phase".toList then .ok .phase
  else .error .valueError

/-- `data_repr` of one number (cddm/viewer.py:263-272).  Signed zeros, which decide between phase pi and
-pi, are not modelled. -/
noncomputable def dataRepr (z : Cx ℝ) (mode : List Char) : Py ℝ := do
  match ← reprMode mode with
  | .real => .ok z.re
  | .imag => .ok z.im
  | .abs => .ok (Real.sqrt (z.re ^ 2 + z.im ^ 2))
  | .phase => .ok (Complex.arg ⟨z.re, z.im⟩)

end Cddm
