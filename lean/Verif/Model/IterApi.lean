import Verif.Model.MultitauIter

/-!
# The iterative functions `iccorr_multi`, `iacorr_multi`, `iccorr`, `iacorr`

The wrappers around `_compute_multi_iter`.  Not modelled: `mask`; `thread_divisor` is in `Model/IterAny`, `viewer` and
`stats = False` are in `Model/IterYield`.  The result says also how many items were taken from the iterator.
-/

namespace Cddm

/-- What a call of `_compute_multi_iter` (cddm/multitau.py:716-1087) depends on besides its arguments: the `len` of the data (`none` if it has none), the
content of new arrays, the memory layout, the random numbers. -/
structure IterEnv where
  dataLen : Option Nat
  junk : Nat → Nat → Cx ℝ × Cx ℝ
  junkSq : Nat → Nat → ℝ × ℝ
  aligned : Bool
  aligned' : Bool
  rand : Nat → ℚ

/-- The optional arguments of `iccorr_multi` and `iacorr_multi` and their defaults
(cddm/multitau.py:1089-1091, 1176-1178). -/
structure MultiOpts where
  levelSize : Nat := 16
  norm : Option Int := none
  method : Option String := some "corr"
  count : Option Nat := none
  period : Nat := 1
  binning : Option Int := none
  nlevel : Option Int := none
  chunkSize : Option Nat := none
  autoBackground : Bool := false
  mode : String := "full"

/-- The call of `_compute_multi_iter(cross = True)` (cddm/multitau.py:1160-1162). -/
noncomputable def crossIterOf {C : Type} [Zero C] (complex : Bool) (cc : CrossFn C)
    (data : List (Cx ℝ × Cx ℝ)) (t1 t2 : Option (List Int)) (o : MultiOpts) (env : IterEnv) :
    Py (Nat × IterOut C) :=
  crossIter complex cc data env.dataLen t1 t2 o.period o.levelSize o.chunkSize o.binning o.method
    o.count o.autoBackground o.nlevel o.norm o.mode env.junk env.junkSq env.aligned env.aligned'
    env.rand

/-- The call of `_compute_multi_iter(cross = False)` (cddm/multitau.py:1241-1243). -/
noncomputable def autoIterOf {C : Type} [Zero C] [Add C] (ac : AutoFn C) (cc : CrossFn C)
    (data : List (Cx ℝ)) (t : Option (List Int)) (o : MultiOpts) (env : IterEnv) :
    Py (Nat × IterOut C) :=
  autoIter ac cc data env.dataLen t o.period o.levelSize o.chunkSize o.binning o.method
    o.count o.autoBackground o.nlevel o.norm o.mode (fun j k => (env.junk j k).1)
    (fun j k => (env.junkSq j k).1) env.aligned env.aligned' env.rand

/-- `iccorr_multi` (cddm/multitau.py:1089-1173), `cc` being `ccorr` with `complex` as given. -/
noncomputable def iccorrMultiOf {C : Type} [Zero C] (complex : Bool) (cc : CrossFn C)
    (data : List (Cx ℝ × Cx ℝ)) (t1 t2 : Option (List Int)) (o : MultiOpts) (env : IterEnv) :
    Py (Nat × IterOut C) :=
  if (t1.isNone ∧ t2.isSome) ∨ (t2.isNone ∧ t1.isSome) then .error .valueError
  else crossIterOf complex cc data t1 t2 o env

/-- `iccorr_multi(complex = False)` (cddm/multitau.py:1089-1173). -/
noncomputable def iccorrMulti (data : List (Cx ℝ × Cx ℝ)) (t1 t2 : Option (List Int))
    (o : MultiOpts) (env : IterEnv) : Py (Nat × IterOut ℝ) :=
  iccorrMultiOf false ccorr data t1 t2 o env

/-- `iccorr_multi(complex = True)` (cddm/multitau.py:1089-1173). -/
noncomputable def iccorrMultiComplex (data : List (Cx ℝ × Cx ℝ)) (t1 t2 : Option (List Int))
    (o : MultiOpts) (env : IterEnv) : Py (Nat × IterOut (Cx ℝ)) :=
  iccorrMultiOf true ccorrComplex data t1 t2 o env

/-- `iacorr_multi(complex = False)` (cddm/multitau.py:1176-1254). -/
noncomputable def iacorrMulti (data : List (Cx ℝ)) (t : Option (List Int))
    (o : MultiOpts) (env : IterEnv) : Py (Nat × IterOut ℝ) :=
  autoIterOf acorr ccorr data t o env

/-- `iacorr_multi(complex = True)` (cddm/multitau.py:1176-1254). -/
noncomputable def iacorrMultiComplex (data : List (Cx ℝ)) (t : Option (List Int))
    (o : MultiOpts) (env : IterEnv) : Py (Nat × IterOut (Cx ℝ)) :=
  autoIterOf acorrComplex ccorrComplex data t o env

/-- The optional arguments of `iccorr` and their defaults (cddm/core.py:1299-1301). -/
structure IccorrOpts where
  n : Option Nat := none
  norm : Option Int := none
  method : Option String := some "corr"
  count : Option Nat := none
  chunkSize : Option Nat := none
  autoBackground : Bool := false
  mode : String := "full"

/-- The optional arguments of `iacorr` and their defaults (cddm/core.py:1395-1397): note `norm = 0`. -/
structure IacorrOpts where
  n : Option Nat := none
  norm : Option Int := some 0
  method : Option String := some "corr"
  count : Option Nat := none
  chunkSize : Option Nat := none
  autoBackground : Bool := false
  mode : String := "full"

/-- What happens before and at `int(level_size)` with `level_size = None`
(cddm/multitau.py:722-729). -/
def noLevelSize {α : Type} (t1 t2 : Option (List Int)) (dataLen : Option Nat)
    (method : Option String) (count : Option Nat) (mode : String) : Py α :=
  if mode ≠ "full" ∧ mode ≠ "chunk" then .error .valueError
  else do
    let _ ← defaultMethodBinning method none
    let _ ← inspectT1T2Count t1 t2 count dataLen
    .error .typeError

/-- `_default_norm(norm, method, cross)` at cddm/core.py:1365, 1458, where `method` may be None,
which is not "diff". -/
def defaultNormOpt (norm : Option Int) (method : Option String) (cross : Bool) : Py Nat :=
  defaultNorm norm (method.getD "") cross

/-- `iccorr` (cddm/core.py:1299-1393): the data and the statistics.  `period = 1`, `nlevel = 0`,
`level_size = n`, default binning. -/
noncomputable def iccorrOf {C : Type} [Zero C] (complex : Bool) (cc : CrossFn C)
    (data : List (Cx ℝ × Cx ℝ)) (t1 t2 : Option (List Int)) (o : IccorrOpts) (env : IterEnv) :
    Py (Nat × CorrAout C × List (Option (Cx ℝ × ℝ))) :=
  if (t1.isNone ∧ t2.isSome) ∨ (t2.isNone ∧ t1.isSome) then .error .valueError
  else do
    let norm ← defaultNormOpt o.norm o.method true
    match o.n with
    | none => noLevelSize t1 t2 env.dataLen o.method o.count o.mode
    | some n => do
      let (taken, d) ← crossIterOf complex cc data t1 t2
        { levelSize := n, norm := some norm, method := o.method, count := o.count, period := 1
          binning := none, nlevel := some 0, chunkSize := o.chunkSize
          autoBackground := o.autoBackground, mode := o.mode } env
      .ok (taken, d.fast, d.stats)

/-- `iccorr(complex = False)` (cddm/core.py:1299-1393). -/
noncomputable def iccorr (data : List (Cx ℝ × Cx ℝ)) (t1 t2 : Option (List Int)) (o : IccorrOpts)
    (env : IterEnv) : Py (Nat × CorrAout ℝ × List (Option (Cx ℝ × ℝ))) :=
  iccorrOf false ccorr data t1 t2 o env

/-- `iccorr(complex = True)` (cddm/core.py:1299-1393). -/
noncomputable def iccorrComplex (data : List (Cx ℝ × Cx ℝ)) (t1 t2 : Option (List Int))
    (o : IccorrOpts) (env : IterEnv) : Py (Nat × CorrAout (Cx ℝ) × List (Option (Cx ℝ × ℝ))) :=
  iccorrOf true ccorrComplex data t1 t2 o env

/-- `iacorr` (cddm/core.py:1395-1480). -/
noncomputable def iacorrOf {C : Type} [Zero C] [Add C] (ac : AutoFn C) (cc : CrossFn C)
    (data : List (Cx ℝ)) (t : Option (List Int)) (o : IacorrOpts) (env : IterEnv) :
    Py (Nat × CorrAout C × List (Option (Cx ℝ × ℝ))) := do
  let norm ← defaultNormOpt o.norm o.method false
  match o.n with
  | none => noLevelSize t none env.dataLen o.method o.count o.mode
  | some n => do
    let (taken, d) ← autoIterOf ac cc data t
      { levelSize := n, norm := some norm, method := o.method, count := o.count, period := 1
        binning := none, nlevel := some 0, chunkSize := o.chunkSize
        autoBackground := o.autoBackground, mode := o.mode } env
    .ok (taken, d.fast, d.stats)

/-- `iacorr(complex = False)` (cddm/core.py:1395-1480). -/
noncomputable def iacorr (data : List (Cx ℝ)) (t : Option (List Int)) (o : IacorrOpts)
    (env : IterEnv) : Py (Nat × CorrAout ℝ × List (Option (Cx ℝ × ℝ))) :=
  iacorrOf acorr ccorr data t o env

/-- `iacorr(complex = True)` (cddm/core.py:1395-1480). -/
noncomputable def iacorrComplex (data : List (Cx ℝ)) (t : Option (List Int)) (o : IacorrOpts)
    (env : IterEnv) : Py (Nat × CorrAout (Cx ℝ) × List (Option (Cx ℝ × ℝ))) :=
  iacorrOf acorrComplex ccorrComplex data t o env

end Cddm
