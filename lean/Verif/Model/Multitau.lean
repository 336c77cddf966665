import Verif.Model.Ccorr
import Verif.Model.LogAvg

/-!
# In-memory multiple tau: `ccorr_multi` and `acorr_multi` (`cddm/multitau.py`)

One pixel: signals are lists over time.  Exact arithmetic over `ℝ`.  `axis`, `align`,
`thread_divisor`, `mask`, the reshaping of input and output (see C66) and printing are not
modelled.  Whether the data of a call is contiguous along time (`_is_aligned`) is an argument
`al`, given for each call of `ccorr`/`acorr`.  Random numbers are arguments as well.
-/

namespace Cddm

/-- A `while` loop (cddm/multitau.py:146-157) counting up from `d` as long as `p` holds; `fuel` bounds the number of rounds
(the callers pass a bound that is never reached, see `whileUp_spec`). -/
def whileUp (p : Nat → Bool) : Nat → Nat → Nat
  | 0, d => d
  | fuel + 1, d => if p d then whileUp p fuel (d + 1) else d

/-- `mean_data_parallel` and `mean_data_cpu` (cddm/multitau.py:61-83; `_mean` is `0.5*(a+b)`,
cddm/_core_nb.py:27-35). -/
noncomputable def meanData {V : Type} [AddCommGroup V] [Module ℝ V] (x : List V) : List V :=
  let n := x.length
  let f1 := takeIdx x (sliceBy n 0 (n - 1) 2)
  let f2 := takeIdx x (sliceBy n 1 n 2)
  List.zipWith (fun a b => (1 / 2 : ℝ) • (a + b)) f1 f2

/-- `_get_binning_function(binning)` applied to one signal (cddm/multitau.py:133-144); `r` is the
random number used by `choose_data`. -/
noncomputable def binData {V : Type} [AddCommGroup V] [Module ℝ V] (binning : Int) (r : ℚ)
    (x : List V) : List V :=
  if binning = 1 then meanData x
  else if binning = 0 then everySecond x
  else chooseData (decide (r < 1 / 2)) x

/-- `_default_method_and_binning` (cddm/multitau.py:111-131). -/
def defaultMethodBinning (method : Option String) (binning : Option Int) : Py (String × Int) :=
  let method := method.getD "corr"
  if method = "corr" ∨ method = "fft" then
    let binning := binning.getD 1
    if binning ∈ ([1, 0, 2] : List Int) then .ok (method, binning) else .error .valueError
  else if method = "diff" then
    let binning := binning.getD 0
    if binning ∈ ([2, 0] : List Int) then .ok (method, binning) else .error .valueError
  else .error .valueError

/-- `_determine_lengths` (cddm/multitau.py:146-157). -/
def determineLengths (length n period : Nat) (nlevel : Option Int) : Py (Nat × Nat × Nat) :=
  if ¬ n > 4 then .error .assertionError
  else
    let nlevel : Int := nlevel.getD
      (whileUp (fun d => decide (length / 2 ^ d ≥ n)) (length + 1) 0 - 1)
    if nlevel ≥ 0 then .ok (period * n, n, nlevel.toNat) else .error .assertionError

/-- The type of `ccorr` (cddm/core.py:1137): `ccorr` or `ccorrComplex`. -/
abbrev CrossFn (C : Type) := List (Cx ℝ) → List (Cx ℝ) → Option (List Int) → Option (List Int) →
  Option Nat → Option Int → Option String → Bool → Option (List ℝ) → Option (List ℝ) →
  CorrAout C → Py (CorrTuple C)

/-- The type of `acorr` (cddm/core.py:1022): `acorr` or `acorrComplex`. -/
abbrev AutoFn (C : Type) := List (Cx ℝ) → Option (List Int) → Option Nat → Option Int →
  Option String → Bool → Option (List ℝ) → CorrAout C → Py (CorrTuple C)

/-- The arrays of a returned tuple, absent entries `none` (cddm/multitau.py:288, 290). -/
def CorrTuple.arrays {C : Type} (r : CorrTuple C) : CorrAout C :=
  ⟨some r.cor, some r.count, r.sq, r.ds1, r.ds2⟩

/-- The tuple `aout` after a call `ccorr(..., aout = aout)` whose result is not used: the arrays
given are changed in place, absent ones stay absent (cddm/multitau.py:288, 290, 886-949,
988-1029, 1069-1074). -/
def CorrTuple.into {C : Type} (r : CorrTuple C) (aout : CorrAout C) : CorrAout C :=
  ⟨aout.cor.map fun _ => r.cor, aout.count.map fun _ => r.count,
    if aout.sq.isSome then r.sq else none, if aout.ds1.isSome then r.ds1 else none,
    if aout.ds2.isSome then r.ds2 else none⟩

/-- New arrays of zeros, `len` cells for the data and `clen` for the count, as allocated by
`_compute_multi` (cddm/multitau.py:245-265) and by `_init_data_fast`, `_init_data_slow`
(cddm/multitau.py:558-634), one level, one pixel. -/
def zeroArrays {C : Type} [Zero C] (norm : Nat) (cross correlate : Bool) (len clen : Nat) :
    CorrAout C :=
  ⟨some (List.replicate len 0), some (List.replicate clen 0),
    if needsSquares norm && correlate then some (List.replicate len 0) else none,
    if needsSums norm then some (List.replicate len 0) else none,
    if needsSums norm && cross then some (List.replicate len 0) else none⟩

/-- The loop over levels of `_compute_multi`, cross-correlation (cddm/multitau.py:276-296): `k`
levels are still to be computed, the next one is number `i`.  In-place arrays are returned as the
list of levels.  `r (4*i), ..., r (4*i+3)` are the random numbers drawn for the four signals. -/
noncomputable def multiLevels {C : Type} (cc : CrossFn C) (binning : Int) (method : String)
    (norm nSlow : Nat) (squares : Bool) (row : CorrAout C) (al : Nat → Bool) (r : Nat → ℚ) :
    Nat → Nat → List (Cx ℝ) → List (Cx ℝ) → Option (List ℝ) → Option (List ℝ) →
      Py (List (CorrAout C))
  | 0, _, _, _, _, _ => .ok []
  | k + 1, i, f1, f2, f1s, f2s => do
    let f1 := binData binning (r (4 * i)) f1
    let f2 := binData binning (r (4 * i + 1)) f2
    let f1s := if squares then f1s.map (binData binning (r (4 * i + 2))) else f1s
    let f2s := if squares then f2s.map (binData binning (r (4 * i + 3))) else f2s
    let d ← cc f1 f2 none none (some nSlow) (some norm) (some method) (al (i + 1)) f1s f2s row
    let rest ← multiLevels cc binning method norm nSlow squares row al r k (i + 1) f1 f2 f1s f2s
    .ok (d.into row :: rest)

/-- `ccorr_multi` = `_compute_multi` with `f2` given (cddm/multitau.py:159-301, 304-354), `cc`
being `ccorr` with the given `complex` flag.  Returns the linear data and the levels. -/
noncomputable def ccorrMultiBody {C : Type} [Zero C] (complex : Bool) (cc : CrossFn C)
    (f1 f2 : List (Cx ℝ)) (t1 t2 : Option (List Int)) (levelSize : Nat) (norm : Option Int)
    (method : Option String) (period : Nat) (binning : Option Int) (nlevel : Option Int)
    (al : Nat → Bool) (r : Nat → ℚ) : Py (CorrAout C × List (CorrAout C)) := do
  let (method, binning) ← defaultMethodBinning method binning
  let norm ← defaultNorm norm method true
  let correlate : Bool := method = "corr" ∨ method = "fft"
  let (t, levelSize) ← inspectCross f1.length f2.length t1 t2 (some levelSize) none false
  let t1 := t.map Prod.fst
  let t2 := t.map Prod.snd
  let (nFast, nSlow, nlevel) ← determineLengths f1.length levelSize period nlevel
  let squares := needsSquares norm && correlate
  let f1s := if squares then some (f1.map Cx.abs2) else none
  let f2s := if squares then some (f2.map Cx.abs2) else none
  let fast ← cc f1 f2 t1 t2 (some nFast) (some norm) (some method) (al 0) f1s f2s {}
  let row := zeroArrays norm true correlate (if complex then nSlow * 2 + 1 else nSlow) nSlow
  let slow ← multiLevels cc binning method norm nSlow squares row al r nlevel 0 f1 f2 f1s f2s
  .ok (fast.arrays, slow)

/-- The loop over levels of `_compute_multi`, auto-correlation (cddm/multitau.py:276-296). -/
noncomputable def multiLevelsAuto {C : Type} (ac : AutoFn C) (binning : Int) (method : String)
    (norm nSlow : Nat) (squares : Bool) (row : CorrAout C) (al : Nat → Bool) (r : Nat → ℚ) :
    Nat → Nat → List (Cx ℝ) → Option (List ℝ) → Py (List (CorrAout C))
  | 0, _, _, _ => .ok []
  | k + 1, i, f, fs => do
    let f := binData binning (r (4 * i)) f
    let fs := if squares then fs.map (binData binning (r (4 * i + 2))) else fs
    let d ← ac f none (some nSlow) (some norm) (some method) (al (i + 1)) fs row
    let rest ← multiLevelsAuto ac binning method norm nSlow squares row al r k (i + 1) f fs
    .ok (d.into row :: rest)

/-- `acorr_multi` = `_compute_multi` with `f2 = None` (cddm/multitau.py:159-301, 356-402). -/
noncomputable def acorrMultiBody {C : Type} [Zero C] (complex : Bool) (ac : AutoFn C)
    (f : List (Cx ℝ)) (t : Option (List Int)) (levelSize : Nat) (norm : Option Int)
    (method : Option String) (period : Nat) (binning : Option Int) (nlevel : Option Int)
    (al : Nat → Bool) (r : Nat → ℚ) : Py (CorrAout C × List (CorrAout C)) := do
  let (method, binning) ← defaultMethodBinning method binning
  let norm ← defaultNorm norm method false
  let correlate : Bool := method = "corr" ∨ method = "fft"
  let (t, levelSize) ← inspectAuto f.length t (some levelSize) none
  let (nFast, nSlow, nlevel) ← determineLengths f.length levelSize period nlevel
  let squares := needsSquares norm && correlate
  let fs := if squares then some (f.map Cx.abs2) else none
  let fast ← ac f t (some nFast) (some norm) (some method) (al 0) fs {}
  let row := zeroArrays norm false correlate (if complex then nSlow * 2 + 1 else nSlow) nSlow
  let slow ← multiLevelsAuto ac binning method norm nSlow squares row al r nlevel 0 f fs
  .ok (fast.arrays, slow)

/-- `ccorr_multi(complex = False)` (cddm/multitau.py:304-354). -/
noncomputable def ccorrMulti := ccorrMultiBody false ccorr
/-- `ccorr_multi(complex = True)` (cddm/multitau.py:304-354). -/
noncomputable def ccorrMultiComplex := ccorrMultiBody true ccorrComplex
/-- `acorr_multi(complex = False)` (cddm/multitau.py:356-402). -/
noncomputable def acorrMulti := acorrMultiBody false acorr
/-- `acorr_multi(complex = True)` (cddm/multitau.py:356-402). -/
noncomputable def acorrMultiComplex := acorrMultiBody true acorrComplex

end Cddm
