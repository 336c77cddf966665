import Verif.Model.AnyAxisFft

/-!
# `ccorr` and `acorr` on arrays of any number of axes (`cddm/core.py`)

The computation axis is moved to the end, or before the end, once; the functions of `Verif.Model.AnyAxis` and
`Verif.Model.AnyAxisFft` are then called with that axis.  Whether the moved data are contiguous in memory (`moved`) is an argument.
-/

namespace Cddm

/-- An elementwise function of an array (cddm/core.py:1118, 1124, 1273, 1278). -/
def Tensor.map {α β : Type} (g : α → β) (x : Tensor α) : Tensor β := ⟨x.shape, fun p => g (x.get p)⟩

/-- The tuple of arrays accumulated into (cddm/core.py:1075-1078, 1220-1225); the count has one axis. -/
structure CorrAoutAny (C : Type) where
  cor : Option (Tensor C) := none
  count : Option (List Nat) := none
  sq : Option (Tensor ℝ) := none
  ds1 : Option (Tensor (Cx ℝ)) := none
  ds2 : Option (Tensor (Cx ℝ)) := none

/-- The returned tuple (cddm/core.py:1132-1135, 1293-1296). -/
structure CorrTupleAny (C : Type) where
  cor : Tensor C
  count : List Nat
  sq : Option (Tensor ℝ)
  ds1 : Option (Tensor (Cx ℝ))
  ds2 : Option (Tensor (Cx ℝ))

/-- `_sum` of `ccorr` for real data (cddm/core.py:1264-1267, 1282-1283). -/
noncomputable def sumSelAnyR (useFft : Bool) (g : Tensor ℝ) (ta tb : Option (List Int)) (axis : Int) (n : Nat)
    (complex inv : Bool) (aout : Option (Tensor ℝ)) : Py (Tensor ℝ) :=
  if useFft = true then crossSumFftAny crossSumFftR crossSumComplexFftR g ta tb axis (some n) complex inv aout
  else crossSumAny g ta tb axis (some n) complex inv aout

/-- `_sum` of `ccorr` for complex data (cddm/core.py:1264-1267, 1288-1289). -/
noncomputable def sumSelAnyC (useFft : Bool) (g : Tensor (Cx ℝ)) (ta tb : Option (List Int)) (axis : Int) (n : Nat)
    (complex inv : Bool) (aout : Option (Tensor (Cx ℝ))) : Py (Tensor (Cx ℝ)) :=
  if useFft = true then crossSumFftAny crossSumFftC crossSumComplexFftC g ta tb axis (some n) complex inv aout
  else crossSumAny g ta tb axis (some n) complex inv aout

/-- The block `if (norm & NORM_STRUCTURED) and correlate` of `ccorr` (cddm/core.py:1270-1283). -/
noncomputable def ccorrSquaresAny (method : String) (norm : Nat) (useFft : Bool) (g1 g2 : Tensor ℝ)
    (t1 t2 : Option (List Int)) (axis : Int) (n : Nat) (complex : Bool) (aout : Option (Tensor ℝ)) :
    Py (Option (Tensor ℝ)) :=
  if needsSquares norm = true ∧ method ≠ "diff" then do
    let s ← sumSelAnyR useFft g1 t1 t2 axis n complex false aout
    let s ← sumSelAnyR useFft g2 t2 t1 axis n complex true (some s)
    .ok (some s)
  else .ok (if method = "diff" then none else aout)

/-- The block `if norm & NORM_SUBTRACTED` of `ccorr` (cddm/core.py:1285-1289), one of the two sums. -/
noncomputable def ccorrSumsAny (norm : Nat) (useFft : Bool) (f : Tensor (Cx ℝ)) (ta tb : Option (List Int)) (axis : Int)
    (n : Nat) (complex inv : Bool) (aout : Option (Tensor (Cx ℝ))) : Py (Option (Tensor (Cx ℝ))) :=
  if needsSums norm = true then (sumSelAnyC useFft f ta tb axis n complex inv aout).map some
  else .ok aout

/-- `ccorr` (cddm/core.py:1137-1296) for given correlation functions, called with the axis of the moved data. -/
noncomputable def ccorrAnyBody {C : Type} (complex : Bool)
    (kFft kCorr kDiff : Tensor (Cx ℝ) → Tensor (Cx ℝ) → Option (List Int) → Option (List Int) → Int →
      Option Nat → Option (Tensor C) → Py (Tensor C))
    (f1 f2 : Tensor (Cx ℝ)) (t1 t2 : Option (List Int)) (n : Option Nat) (norm : Option Int)
    (method : Option String) (align contiguous : Bool) (axis : Int) (f1s f2s : Option (Tensor ℝ)) (aout : CorrAoutAny C) :
    Py (CorrTupleAny C) := do
  let method ← defaultMethod method n
  let norm ← defaultNorm norm method true
  if method = "diff" ∧ complex = true then .error .valueError else
  if t1.isNone ≠ t2.isNone then .error .valueError
  else if f1.shape = [] ∨ f1.shape ≠ f2.shape then .error .valueError
  else
  let ndim := f1.shape.length
  let N := f1.shape.getD ((resolveIdx ndim axis).getD 0) 0
  let last ← lastLength n aout.cor
  let (t, n) ← inspectCross N N t1 t2 n last complex
  let ax ← findAxis ndim axis true
  let t1 := t.map Prod.fst
  let t2 := t.map Prod.snd
  let pos := newAxis ndim (t.isNone && isAligned ndim axis contiguous align)
  let newAx : Int := (pos : Int) - ndim
  let g1 := moveAxisAndAlign f1 ax pos
  let g2 := moveAxisAndAlign f2 ax pos
  let cor ← (if method = "fft" then kFft g1 g2 t1 t2 newAx (some n) aout.cor
    else if method = "corr" then kCorr g1 g2 t1 t2 newAx (some n) aout.cor
    else kDiff g1 g2 t1 t2 newAx (some n) aout.cor)
  let count ← crossCount (.array (t1.getD (arange N))) (some (.array (t2.getD (arange N)))) (some n) complex aout.count
  let useFft : Bool := method = "fft" ∧ t.isSome
  let g1s := match f1s with
    | none => g1.map Cx.abs2
    | some s => moveAxisAndAlign s ax pos
  let g2s := match f2s with
    | none => g2.map Cx.abs2
    | some s => moveAxisAndAlign s ax pos
  let sq ← ccorrSquaresAny method norm useFft g1s g2s t1 t2 newAx n complex aout.sq
  let ds1 ← ccorrSumsAny norm useFft g1 t1 t2 newAx n complex false aout.ds1
  let ds2 ← ccorrSumsAny norm useFft g2 t2 t1 newAx n complex true aout.ds2
  .ok ⟨cor, count, sq, ds1, ds2⟩

/-- `ccorr(complex = False)` (cddm/core.py:1137-1296). -/
noncomputable def ccorrAny (f1 f2 : Tensor (Cx ℝ)) (t1 t2 : Option (List Int)) (n : Option Nat)
    (norm : Option Int) (method : Option String) (align contiguous moved : Bool) (axis : Int)
    (f1s f2s : Option (Tensor ℝ)) (aout : CorrAoutAny ℝ) : Py (CorrTupleAny ℝ) :=
  ccorrAnyBody false crossCorrelateFftAny
    (fun f1 f2 t1 t2 axis n aout => crossCorrelateAny f1 f2 t1 t2 axis n false moved aout)
    (fun f1 f2 t1 t2 axis n aout => crossDifferenceAny f1 f2 t1 t2 axis n false moved aout)
    f1 f2 t1 t2 n norm method align contiguous axis f1s f2s aout

/-- `ccorr(complex = True)` (cddm/core.py:1137-1296); method 'diff' is refused before `cross_difference` is reached. -/
noncomputable def ccorrComplexAny (f1 f2 : Tensor (Cx ℝ)) (t1 t2 : Option (List Int)) (n : Option Nat)
    (norm : Option Int) (method : Option String) (align contiguous moved : Bool) (axis : Int)
    (f1s f2s : Option (Tensor ℝ)) (aout : CorrAoutAny (Cx ℝ)) : Py (CorrTupleAny (Cx ℝ)) :=
  ccorrAnyBody true crossCorrelateComplexFftAny
    (fun f1 f2 t1 t2 axis n aout => crossCorrelateComplexAny f1 f2 t1 t2 axis n false moved aout)
    (fun _ _ _ _ _ _ _ => .error .valueError)
    f1 f2 t1 t2 n norm method align contiguous axis f1s f2s aout

/-- One of the two sums of `acorr` (cddm/core.py:1111-1129). -/
noncomputable def acorrSumAny {M : Type} [AddCommGroup M] [Module ℝ M]
    (kR : List M → List (Cx ℝ) → List Int → Nat → List M → Py (List M)) (method : String)
    (needed useFft : Bool) (g : Tensor M) (t : Option (List Int)) (axis : Int) (n : Nat)
    (aout : Option (Tensor M)) : Py (Option (Tensor M)) :=
  if needed = true ∧ method ≠ "diff" then
    (if useFft = true then autoSumFftAny kR g t axis (some n) aout
      else autoSumAny ℝ g t axis (some n) aout).map some
  else .ok (if method = "diff" then none else aout)

/-- `acorr` (cddm/core.py:1022-1135) for given correlation functions. -/
noncomputable def acorrAnyBody {C : Type}
    (kFft kCorr kDiff : Tensor (Cx ℝ) → Option (List Int) → Int → Option Nat → Option (Tensor C) → Py (Tensor C))
    (f : Tensor (Cx ℝ)) (t : Option (List Int)) (n : Option Nat) (norm : Option Int)
    (method : Option String) (align contiguous : Bool) (axis : Int) (fs : Option (Tensor ℝ)) (aout : CorrAoutAny C) :
    Py (CorrTupleAny C) := do
  let method ← defaultMethod method n
  let norm ← defaultNorm norm method false
  if f.shape = [] then .error .valueError
  else
  let ndim := f.shape.length
  let N := f.shape.getD ((resolveIdx ndim axis).getD 0) 0
  let last ← lastLength n aout.cor
  let (t, n) ← inspectAuto N t n last
  let ax ← findAxis ndim axis true
  let pos := newAxis ndim (t.isNone && isAligned ndim axis contiguous align)
  let newAx : Int := (pos : Int) - ndim
  let g := moveAxisAndAlign f ax pos
  let cor ← (if method = "fft" then kFft g t newAx (some n) aout.cor
    else if method = "corr" then kCorr g t newAx (some n) aout.cor
    else kDiff g t newAx (some n) aout.cor)
  let count ← autoCount (.array (t.getD (arange N))) (some n) aout.count
  let useFft : Bool := method = "fft" ∧ t.isSome
  let gs := match fs with
    | none => g.map Cx.abs2
    | some s => moveAxisAndAlign s ax pos
  let sq ← acorrSumAny crossSumFftR method (needsSquares norm) useFft (gs.map (2 * ·)) t newAx n aout.sq
  let ds ← acorrSumAny crossSumFftC method (needsSums norm) useFft g t newAx n aout.ds1
  .ok ⟨cor, count, sq, ds, none⟩

/-- `acorr(complex = False)` (cddm/core.py:1022-1135). -/
noncomputable def acorrAny (f : Tensor (Cx ℝ)) (t : Option (List Int)) (n : Option Nat)
    (norm : Option Int) (method : Option String) (align contiguous moved : Bool) (axis : Int)
    (fs : Option (Tensor ℝ)) (aout : CorrAoutAny ℝ) : Py (CorrTupleAny ℝ) :=
  acorrAnyBody autoCorrelateFftAny
    (fun f t axis n aout => autoCorrelateAny f t axis n false moved aout)
    (fun f t axis n aout => autoDifferenceAny f t axis n false moved aout)
    f t n norm method align contiguous axis fs aout

/-- `acorr(complex = True)` (cddm/core.py:1022-1135).  With method 'diff' the code ignores the flag and returns the real array of
`auto_difference`; here its entries are embedded into the complex numbers (and real parts of a given `aout` are used). -/
noncomputable def acorrComplexAny (f : Tensor (Cx ℝ)) (t : Option (List Int)) (n : Option Nat)
    (norm : Option Int) (method : Option String) (align contiguous moved : Bool) (axis : Int)
    (fs : Option (Tensor ℝ)) (aout : CorrAoutAny (Cx ℝ)) : Py (CorrTupleAny (Cx ℝ)) :=
  acorrAnyBody autoCorrelateComplexFftAny
    (fun f t axis n aout => autoCorrelateComplexAny f t axis n false moved aout)
    (fun f t axis n aout => do
      let d ← autoDifferenceAny f t axis n false moved (aout.map (Tensor.map Cx.re))
      .ok (d.map Cx.ofR))
    f t n norm method align contiguous axis fs aout

end Cddm
