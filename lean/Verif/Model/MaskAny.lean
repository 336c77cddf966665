import Verif.Model.IterAny
import Verif.Model.NormAny

/-!
# Computing on selected pixels only: the argument `mask` (`cddm/core.py`, `cddm/multitau.py`)

`ccorr_multi`, `acorr_multi`, `iccorr_multi`, `iacorr_multi`, `iccorr` and `iacorr` with a boolean array `mask`: the selected pixels are
taken out of every frame, correlated as frames of one axis, and put back; all other pixels are set to NaN, here `none`.
Simplified: as in `Verif.Model.MultiAny` and `Verif.Model.IterAny`, the levels are a list of arrays.  A mask that has only some of the axes of the
frames is not modelled.
-/

namespace Cddm

/-- `x1[mask]` (cddm/multitau.py:502, 509), for a frame of the shape of the mask. -/
def pickFrame {α : Type} (mask : Tensor Bool) (x : Tensor α) : Tensor α :=
  ⟨[(selectedBy mask).length], fun p => x.get ((selectedBy mask).getD (p.headD 0) [])⟩

/-- `f[:,mask]` (cddm/core.py:315), for frames of the shape of the mask. -/
def maskedVideo {α : Type} (mask : Tensor Bool) (f : Tensor α) : Tensor α :=
  ⟨[f.shape.headD 0, (selectedBy mask).length], fun p =>
    f.get (p.headD 0 :: (selectedBy mask).getD (p.tail.headD 0) [])⟩

/-- numpy refuses a mask that does not have the shape of the frames (cddm/core.py:315).  If it has the shape of the first axes, numpy
accepts it: this is not modelled. -/
def maskCheck (mask : Tensor Bool) (shape : List Nat) : Py Unit :=
  if mask.shape = shape then .ok ()
  else if mask.shape <+: shape then .error .notModelled
  else .error .indexError

/-- `thread_frame_shape(shape, thread_divisor, force_2d)` of the selected pixels (cddm/core.py:317-320, cddm/multitau.py:782-785), negative
sizes as in `iterFrameShape`. -/
def maskedShape (mask : Tensor Bool) (divisor : Option Int) : Py (List Nat) := do
  let new ← threadFrameShape [(selectedBy mask).length] divisor false
  if new.any (· < 0) then .error .valueError else .ok (new.map Int.toNat)

/-- `reshape_input` with a mask (cddm/core.py:286-322), see `reshapeInAny`. -/
def reshapeInMask {α : Type} (f : Tensor α) (axis : Int) (divisor : Option Int) (mask : Tensor Bool) : Py (Tensor α) :=
  match resolveIdx f.shape.length axis with
  | none => .error .indexError
  | some ax =>
    if ax ≠ 0 then .error .valueError
    else do
      let _ ← maskCheck mask f.shape.tail
      let new ← maskedShape mask divisor
      reshapeAny (maskedVideo mask f) (f.shape.headD 0 :: new)

/-! ### Putting the pixels back -/

/-- `correlation data` with a mask (cddm/core.py:362-374), NaN is `none`. -/
structure CorrMasked (C : Type) where
  cor : Option (Tensor (Option C))
  count : Option (List Nat)
  sq : Option (Tensor (Option ℝ))
  ds1 : Option (Tensor (Option (Cx ℝ)))
  ds2 : Option (Tensor (Option (Cx ℝ)))

/-- `out[...,mask,:] = x; out[...,np.logical_not(mask),:] = np.nan` (cddm/core.py:367-369), see `unmask`. -/
def unmaskAny {α : Type} (mask : Tensor Bool) (x : Tensor α) : Py (Tensor (Option α)) :=
  let lead := shapeHead x.shape mask.shape.length
  let m := x.shape.getLastD 0
  if x.shape = lead ++ [(selectedBy mask).length, m] then
    .ok ⟨lead ++ mask.shape ++ [m], fun p =>
      let q := (p.drop lead.length).take mask.shape.length
      if mask.get q then some (x.get (p.take lead.length ++ [(selectedBy mask).idxOf q, p.getLastD 0])) else none⟩
  else .error .notModelled

/-- `_reshape` of one array (cddm/core.py:362-374); the axes but the last are reshaped to `full`, see `reshapeOpt`. -/
def unmaskOpt {α : Type} (full : List Nat) (mask : Tensor Bool) (x : Option (Tensor α)) : Py (Option (Tensor (Option α))) := do
  match ← reshapeOpt full x with
  | none => .ok none
  | some y => do
    let z ← unmaskAny mask y
    .ok (some z)

/-- All arrays but the count (cddm/core.py:384-388). -/
def unmaskArrays {C : Type} (full : List Nat) (mask : Tensor Bool) (a : CorrAoutAny C) : Py (CorrMasked C) := do
  let cor ← unmaskOpt full mask a.cor
  let sq ← unmaskOpt full mask a.sq
  let ds1 ← unmaskOpt full mask a.ds1
  let ds2 ← unmaskOpt full mask a.ds2
  .ok ⟨cor, a.count, sq, ds1, ds2⟩

/-- `reshape_output` with a mask (cddm/core.py:334-388) of the linear data, whose arrays have the given shape. -/
def unmaskFast {C : Type} (mask : Tensor Bool) (shape : List Nat) (a : CorrAoutAny C) : Py (CorrMasked C) :=
  unmaskArrays (shapeHead shape mask.shape.length ++ [(selectedBy mask).length]) mask a

/-- `reshape_output` with a mask (cddm/core.py:334-388) of the slow data, see `reshapeSlow`.  Masks of other than two axes that get here
are not modelled. -/
def unmaskSlow {C : Type} (mask : Tensor Bool) (shape : List Nat) (levels : List (CorrAoutAny C)) : Py (List (CorrMasked C)) :=
  let full := shapeHead (levels.length :: shape) mask.shape.length ++ [(selectedBy mask).length]
  if full.prod ≠ levels.length * shape.dropLast.prod then .error .valueError
  else if full.headD 0 = levels.length ∧ full.tail.prod = shape.dropLast.prod ∧ mask.shape.length = 2 then
    levels.mapM (unmaskArrays full.tail mask)
  else .error .notModelled

/-- The tuple of linear data and levels (cddm/multitau.py:301, 1078-1087). -/
def unmaskMulti {C : Type} (mask : Tensor Bool) (fastShape slowShape : List Nat) (out : CorrAoutAny C × List (CorrAoutAny C)) :
    Py (CorrMasked C × List (CorrMasked C)) := do
  let fast ← unmaskFast mask fastShape out.1
  let slow ← unmaskSlow mask slowShape out.2
  .ok (fast, slow)

/-- `out[mask] = x; out[np.logical_not(mask)] = np.nan` for a frame (cddm/core.py:326-330). -/
def unmaskFrame {α : Type} (mask : Tensor Bool) (x : Tensor α) : Tensor (Option α) :=
  ⟨mask.shape, fun q => if mask.get q then some (x.get [(selectedBy mask).idxOf q]) else none⟩

/-! ### The functions of whole arrays -/

/-- `ccorr_multi` with a mask (cddm/multitau.py:159-301, 304-354), see `ccorrMultiAnyBody`. -/
noncomputable def ccorrMultiMaskBody {C : Type} [Zero C] (complex : Bool) (cc : CrossFnAny C)
    (f1 f2 : Tensor (Cx ℝ)) (t1 t2 : Option (List Int)) (axis : Int) (levelSize : Nat) (norm : Option Int)
    (method : Option String) (period : Nat) (binning : Option Int) (nlevel : Option Int) (align contiguous : Bool)
    (divisor : Option Int) (mask : Tensor Bool) (r : Nat → ℚ) : Py (CorrMasked C × List (CorrMasked C)) := do
  let (method, binning) ← defaultMethodBinning method binning
  let norm ← defaultNorm norm method true
  if t1.isNone ≠ t2.isNone then .error .valueError
  else if f1.shape = [] ∨ f1.shape ≠ f2.shape then .error .valueError
  else
  let (t, levelSize) ← inspectCross 0 0 t1 t2 (some levelSize) none false
  let f1 ← reshapeInMask f1 axis divisor mask
  let f2 ← reshapeInMask f2 axis divisor mask
  let out ← crossMultiCore complex cc method binning norm levelSize period nlevel t axis align contiguous r f1 f2
  unmaskMulti mask out.1.1 out.1.2 out.2

/-- `acorr_multi` with a mask (cddm/multitau.py:159-301, 356-402), see `acorrMultiAnyBody`. -/
noncomputable def acorrMultiMaskBody {C : Type} [Zero C] (complex : Bool) (ac : AutoFnAny C)
    (f : Tensor (Cx ℝ)) (t : Option (List Int)) (axis : Int) (levelSize : Nat) (norm : Option Int)
    (method : Option String) (period : Nat) (binning : Option Int) (nlevel : Option Int) (align contiguous : Bool)
    (divisor : Option Int) (mask : Tensor Bool) (r : Nat → ℚ) : Py (CorrMasked C × List (CorrMasked C)) := do
  let (method, binning) ← defaultMethodBinning method binning
  let norm ← defaultNorm norm method false
  if f.shape = [] then .error .valueError
  else
  let (t, levelSize) ← inspectAuto 0 t (some levelSize) none
  let f ← reshapeInMask f axis divisor mask
  let out ← autoMultiCore complex ac method binning norm levelSize period nlevel t axis align contiguous r f
  unmaskMulti mask out.1.1 out.1.2 out.2

/-- `ccorr_multi(complex = False)` with a mask (cddm/multitau.py:304-354). -/
noncomputable def ccorrMultiMask (flags : Nat → Bool × Bool) := ccorrMultiMaskBody false (ccorrCall flags)
/-- `ccorr_multi(complex = True)` with a mask (cddm/multitau.py:304-354). -/
noncomputable def ccorrMultiComplexMask (flags : Nat → Bool × Bool) := ccorrMultiMaskBody true (ccorrComplexCall flags)
/-- `acorr_multi(complex = False)` with a mask (cddm/multitau.py:356-402). -/
noncomputable def acorrMultiMask (flags : Nat → Bool × Bool) := acorrMultiMaskBody false (acorrCall flags)
/-- `acorr_multi(complex = True)` with a mask (cddm/multitau.py:356-402). -/
noncomputable def acorrMultiComplexMask (flags : Nat → Bool × Bool) := acorrMultiMaskBody true (acorrComplexCall flags)

/-! ### The iterative functions -/

/-- What the iterators return with a mask (cddm/multitau.py:1078-1087), see `IterOutAny`. -/
structure IterOutMask (C : Type) where
  fast : CorrMasked C
  slow : List (CorrMasked C)
  stats : List (Option (Tensor (Option (Cx ℝ)) × Tensor (Option ℝ)))

/-- `reshape_frame` with a mask (cddm/core.py:324-330) of the mean and the variance of one signal. -/
def unmaskStat (mask : Tensor Bool) (shape : List Nat) :
    Option ((List Nat → Cx ℝ) × (List Nat → ℝ)) → Py (Option (Tensor (Option (Cx ℝ)) × Tensor (Option ℝ)))
  | none => .ok none
  | some s => do
    let m ← reshapeAny ⟨shape, s.1⟩ [(selectedBy mask).length]
    let v ← reshapeAny ⟨shape, s.2⟩ [(selectedBy mask).length]
    .ok (some (unmaskFrame mask m, unmaskFrame mask v))

/-- The last yield with a mask (cddm/multitau.py:1076-1087). -/
def unmaskIter {C : Type} (mask : Tensor Bool) (shape : List Nat) (raw : IterRaw C) : Py (Nat × IterOutMask C) := do
  let out ← unmaskMulti mask raw.fastShape raw.slowShape (raw.fast, raw.slow)
  let stats ← raw.stats.mapM (unmaskStat mask shape)
  .ok (raw.taken, ⟨out.1, out.2, stats⟩)

/-- `_compute_multi_iter(cross = True)` with a mask (cddm/multitau.py:716-1087, 497-502), see `crossIterAny`.  Frames of other shapes than
that of the mask are not modelled. -/
noncomputable def crossIterMask {C : Type} [Zero C] (complex : Bool) (cc : CrossFnAny C)
    (data : List (Tensor (Cx ℝ) × Tensor (Cx ℝ))) (t1 t2 : Option (List Int)) (o : MultiOpts) (divisor : Option Int)
    (mask : Tensor Bool) (env : IterEnvAny) : Py (Nat × IterOutMask C) := do
  let (t1, t2, cfg) ← iterParams t1 t2 env.dataLen o.period o.levelSize o.chunkSize o.binning o.method o.count
    o.autoBackground o.nlevel o.mode
  match data with
  | [] => if 0 < cfg.nframes - 1 then .error .valueError else .error .nameError
  | d :: data =>
    if (d :: data).any (fun x => x.1.shape ≠ mask.shape ∨ x.2.shape ≠ mask.shape) then .error .notModelled
    else do
      let shape ← maskedShape mask divisor
      let norm ← defaultNorm o.norm cfg.method true
      let raw ← crossIterCore complex cc { cfg with norm := norm } t1 t2 shape env.junk env.junkSq env.rand
        ((d :: data).map fun x => (pickFrame mask x.1, pickFrame mask x.2))
      unmaskIter mask shape raw

/-- `_compute_multi_iter(cross = False)` with a mask (cddm/multitau.py:716-1087, 503-510), see `autoIterAny` and `crossIterMask`. -/
noncomputable def autoIterMask {C : Type} [Zero C] [Add C] (ac : AutoFnAny C) (cc : CrossFnAny C)
    (data : List (Tensor (Cx ℝ))) (t : Option (List Int)) (o : MultiOpts) (divisor : Option Int)
    (mask : Tensor Bool) (env : IterEnvAny) : Py (Nat × IterOutMask C) := do
  let (t, _, cfg) ← iterParams t none env.dataLen o.period o.levelSize o.chunkSize o.binning o.method o.count
    o.autoBackground o.nlevel o.mode
  match data with
  | [] => if 0 < cfg.nframes - 1 then .error .valueError else .error .nameError
  | d :: data =>
    if (d :: data).any (fun x => x.shape ≠ mask.shape) then .error .notModelled
    else do
      let shape ← maskedShape mask divisor
      let norm ← defaultNorm o.norm cfg.method false
      let raw ← autoIterCore ac cc { cfg with norm := norm } t shape (fun j k p => (env.junk j k p).1)
        (fun j k p => (env.junkSq j k p).1) env.rand ((d :: data).map (pickFrame mask))
      unmaskIter mask shape raw

/-- `iccorr_multi` with a mask (cddm/multitau.py:1089-1173), see `iccorrMultiAnyOf`. -/
noncomputable def iccorrMultiMaskOf {C : Type} [Zero C] (complex : Bool) (cc : CrossFnAny C)
    (data : List (Tensor (Cx ℝ) × Tensor (Cx ℝ))) (t1 t2 : Option (List Int)) (o : MultiOpts) (divisor : Option Int)
    (mask : Tensor Bool) (env : IterEnvAny) : Py (Nat × IterOutMask C) :=
  if (t1.isNone ∧ t2.isSome) ∨ (t2.isNone ∧ t1.isSome) then .error .valueError
  else crossIterMask complex cc data t1 t2 o divisor mask env

/-- `iccorr_multi(complex = False)` with a mask (cddm/multitau.py:1089-1173). -/
noncomputable def iccorrMultiMask (flags : Nat → Bool × Bool) := iccorrMultiMaskOf false (ccorrCall flags)
/-- `iccorr_multi(complex = True)` with a mask (cddm/multitau.py:1089-1173). -/
noncomputable def iccorrMultiComplexMask (flags : Nat → Bool × Bool) := iccorrMultiMaskOf true (ccorrComplexCall flags)
/-- `iacorr_multi(complex = False)` with a mask (cddm/multitau.py:1176-1254). -/
noncomputable def iacorrMultiMask (flags : Nat → Bool × Bool) := autoIterMask (acorrCall flags) (ccorrCall flags)
/-- `iacorr_multi(complex = True)` with a mask (cddm/multitau.py:1176-1254). -/
noncomputable def iacorrMultiComplexMask (flags : Nat → Bool × Bool) := autoIterMask (acorrComplexCall flags) (ccorrComplexCall flags)

/-- `iccorr` with a mask (cddm/core.py:1299-1393), see `iccorrAnyOf`. -/
noncomputable def iccorrMaskOf {C : Type} [Zero C] (complex : Bool) (cc : CrossFnAny C)
    (data : List (Tensor (Cx ℝ) × Tensor (Cx ℝ))) (t1 t2 : Option (List Int)) (o : IccorrOpts) (divisor : Option Int)
    (mask : Tensor Bool) (env : IterEnvAny) :
    Py (Nat × CorrMasked C × List (Option (Tensor (Option (Cx ℝ)) × Tensor (Option ℝ)))) :=
  if (t1.isNone ∧ t2.isSome) ∨ (t2.isNone ∧ t1.isSome) then .error .valueError
  else do
    let norm ← defaultNormOpt o.norm o.method true
    match o.n with
    | none => noLevelSize t1 t2 env.dataLen o.method o.count o.mode
    | some n => do
      let (taken, d) ← crossIterMask complex cc data t1 t2
        { levelSize := n, norm := some norm, method := o.method, count := o.count, period := 1
          binning := none, nlevel := some 0, chunkSize := o.chunkSize
          autoBackground := o.autoBackground, mode := o.mode } divisor mask env
      .ok (taken, d.fast, d.stats)

/-- `iacorr` with a mask (cddm/core.py:1395-1480), see `iacorrAnyOf`. -/
noncomputable def iacorrMaskOf {C : Type} [Zero C] [Add C] (ac : AutoFnAny C) (cc : CrossFnAny C)
    (data : List (Tensor (Cx ℝ))) (t : Option (List Int)) (o : IacorrOpts) (divisor : Option Int) (mask : Tensor Bool)
    (env : IterEnvAny) : Py (Nat × CorrMasked C × List (Option (Tensor (Option (Cx ℝ)) × Tensor (Option ℝ)))) := do
  let norm ← defaultNormOpt o.norm o.method false
  match o.n with
  | none => noLevelSize t none env.dataLen o.method o.count o.mode
  | some n => do
    let (taken, d) ← autoIterMask ac cc data t
      { levelSize := n, norm := some norm, method := o.method, count := o.count, period := 1
        binning := none, nlevel := some 0, chunkSize := o.chunkSize
        autoBackground := o.autoBackground, mode := o.mode } divisor mask env
    .ok (taken, d.fast, d.stats)

/-- `iccorr(complex = False)` with a mask (cddm/core.py:1299-1393). -/
noncomputable def iccorrMask (flags : Nat → Bool × Bool) := iccorrMaskOf false (ccorrCall flags)
/-- `iccorr(complex = True)` with a mask (cddm/core.py:1299-1393). -/
noncomputable def iccorrComplexMask (flags : Nat → Bool × Bool) := iccorrMaskOf true (ccorrComplexCall flags)
/-- `iacorr(complex = False)` with a mask (cddm/core.py:1395-1480). -/
noncomputable def iacorrMask (flags : Nat → Bool × Bool) := iacorrMaskOf (acorrCall flags) (ccorrCall flags)
/-- `iacorr(complex = True)` with a mask (cddm/core.py:1395-1480). -/
noncomputable def iacorrComplexMask (flags : Nat → Bool × Bool) := iacorrMaskOf (acorrComplexCall flags) (ccorrComplexCall flags)

end Cddm
