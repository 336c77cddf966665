import Verif.Model.KSelect
import Verif.Model.AnyAxis

/-!
# k-selection of arrays with leading axes (cddm/map.py:294-334, 606-671)

Data of shape `(..., i, j, n)`, or `(..., pixels, n)` if only the pixels inside a mask were kept; `n` delays.  The maps and the masks
are those of `Verif.Model.KSelect`.  A cell holds `none` for NaN.
-/

namespace Cddm

/-- `data.shape[-3:-1]` (cddm/map.py:646, 650). -/
def frameSizes (shape : List Nat) : List Nat := (shape.drop (shape.length - 3)).dropLast

/-- Frame shape and whether the data are masked (cddm/map.py:643-652). -/
def kSelectSizeAny {V : Type} (data : Tensor (Option V)) (mask : Option (Arr2 Bool)) : Py ((Nat × Nat) × Bool) :=
  match mask with
  | some m => .ok ((m.h, m.w), decide (frameSizes data.shape ≠ [m.h, m.w]))
  | none => match frameSizes data.shape with
    | [h, w] => .ok ((h, w), false)
    | _ => .error .valueError

/-- The indices of the true entries of a mask of one axis (cddm/map.py:303, 327-328). -/
def whereTrue1 (mask : List Bool) : List Nat := (List.range mask.length).filter fun i => mask.getD i false

/-- `data[..., mask, :]` with a mask of two axes or of one (cddm/map.py:303, 327). -/
def selectDataAny {V : Type} (data : Tensor (Option V)) (mask : KMask) : Py (Tensor (Option V)) :=
  let ndim := data.shape.length
  let n := data.shape.getLastD 0
  match mask with
  | .grid m =>
    if 3 ≤ ndim ∧ frameSizes data.shape = [m.h, m.w] then
      let cells := whereTrue m
      .ok ⟨data.shape.take (ndim - 3) ++ [cells.length, n], fun p =>
        let c := cells.getD (p.getD (ndim - 3) 0) (0, 0)
        data.get (p.take (ndim - 3) ++ [c.1, c.2, p.getD (ndim - 2) 0])⟩
    else .error .indexError
  | .flat l =>
    if 2 ≤ ndim ∧ data.shape.getD (ndim - 2) 0 = l.length then
      let cells := whereTrue1 l
      .ok ⟨data.shape.take (ndim - 2) ++ [cells.length, n], fun p =>
        data.get (p.take (ndim - 2) ++ [cells.getD (p.getD (ndim - 2) 0) 0, p.getD (ndim - 1) 0])⟩
    else .error .indexError

/-- `masked_data[..., conj_mask, :] = np.conj(masked_data[..., conj_mask, :])` (cddm/map.py:328). -/
def conjWhere {V : Type} (conj : V → V) (c : List Bool) (d : Tensor (Option V)) : Tensor (Option V) where
  shape := d.shape
  get p := if c.getD (p.getD (d.shape.length - 2) 0) false then (d.get p).map conj else d.get p

/-- `np.nanmean(d, axis = -2)` (cddm/map.py:303, 329). -/
noncomputable def nanMeanAny {V : Type} [AddCommGroup V] [Module ℝ V] (d : Tensor (Option V)) : Tensor (Option V) where
  shape := d.shape.eraseIdx (d.shape.length - 2)
  get p := nanMean ((List.range (d.shape.getD (d.shape.length - 2) 0)).map fun i => d.get (p.dropLast ++ [i, p.getLastD 0]))

/-- `_k_select_complex` (cddm/map.py:294-308). -/
noncomputable def kSelectComplexAny {V : Type} [AddCommGroup V] [Module ℝ V] (data : Tensor (Option V)) (k : ℝ)
    (indexmap : Arr2 Int) (kmap : Arr2 ℝ) (cm : Option (Arr2 Bool)) (masked : Bool) :
    Py (Option (ℝ × Tensor (Option V))) := do
  let mask ← andMaskOpt (binMask indexmap k) cm
  let ks ← boolIndex kmap mask
  let m ← reduceMask mask cm masked
  if ks.length > 0 then do
    let d ← selectDataAny data m
    .ok (some (ks.sum / ks.length, nanMeanAny d))
  else .ok none

/-- `_k_select_real` (cddm/map.py:310-334). -/
noncomputable def kSelectRealAny {V : Type} [AddCommGroup V] [Module ℝ V] (conj : V → V) (data : Tensor (Option V))
    (k : ℝ) (indexmap : Arr2 Int) (kmap : Arr2 ℝ) (cm : Option (Arr2 Bool)) (masked : Bool) :
    Py (Option (ℝ × Tensor (Option V))) := do
  let full := binMask indexmap k
  let ks ← boolIndex kmap full
  let mask ← asRfft2Mask full
  let conjMask ← asRfft2Conj false mask
  let mask ← andMaskOpt mask cm
  let conjMask ← andMaskOpt conjMask cm
  let m ← reduceMask mask cm masked
  let c ← reduceMask conjMask cm masked
  if ks.length > 0 then do
    let c ← indexMask c m
    let d ← selectDataAny data m
    .ok (some (ks.sum / ks.length, nanMeanAny (conjWhere conj c d)))
  else .ok none

/-- The loop over `k` (cddm/map.py:663-671), as `kSelectLoop`: only lists are ever returned. -/
noncomputable def kSelectLoopAny {V : Type} (select : ℝ → Py (Option (ℝ × Tensor (Option V))))
    (indexmap : Arr2 Int) (k : KArg) : Py (List (ℝ × Tensor (Option V))) :=
  match k with
  | .one _ => .error .typeError
  | .many ks => collectSome (ks.map select)
  | .all =>
    let kdim : Int := indexmap.entries.foldl max (indexmap.get 0 0) + 1
    collectSome (((List.range kdim.toNat).map fun (i : Nat) => (i : ℝ)).map select)

/-- `k_select` (cddm/map.py:606-671); `rfft2` tells whether `mode == "rfft2"`. -/
noncomputable def kSelectAny {V : Type} [AddCommGroup V] [Module ℝ V] (conj : V → V) (data : Tensor (Option V))
    (angle sector kstep : ℝ) (k : KArg) (shape : Option (Nat × Nat)) (mask : Option (Arr2 Bool))
    (rfft2 : Bool) : Py (List (ℝ × Tensor (Option V))) :=
  if ¬ sector > 0 then .error .assertionError
  else do
    let size ← kSelectSizeAny data mask
    let fullShape ← kSelectShape size.1 shape rfft2
    let maps ← fft2Kangle fullShape.1 fullShape.2 shape
    let indexmap ← fft2SectorIndexmap maps.1 maps.2 angle sector kstep
    kSelectLoopAny (fun kk =>
      if rfft2 then kSelectRealAny conj data kk indexmap maps.1 mask size.2
      else kSelectComplexAny data kk indexmap maps.1 mask size.2) indexmap k

end Cddm
