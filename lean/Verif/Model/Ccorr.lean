import Verif.Model.Fft

/-!
# `ccorr` and `acorr` (`cddm/core.py`)

One signal at a time, exact arithmetic over `ℝ`.  Printing and timing are not modelled.  The tuple
`aout` is modelled as a record of optional arrays (a tuple of the wrong length is not modelled);
for method 'diff' the tuple has no `squaresum` entry and the field `sq` is ignored and returned as
`none`.
-/

namespace Cddm

/-- `_default_method` (cddm/core.py:1004-1009). -/
def defaultMethod (method : Option String) (n : Option Nat) : Py String :=
  match method with
  | none => .ok (if n.isNone then "fft" else "corr")
  | some m => if m ∈ ["corr", "fft", "diff"] then .ok m else .error .valueError

/-- The tuple `supported` of `_default_norm` (cddm/core.py:1012-1015). -/
def supportedNorms (method : String) (cross : Bool) : List Nat :=
  if method = "diff" then (if cross then [2, 2 ||| 4] else [2]) else [1, 2, 3, 5, 6, 7]

/-- `_default_norm` (cddm/core.py:1011-1020). -/
def defaultNorm (norm : Option Int) (method : String) (cross : Bool) : Py Nat :=
  let norm := norm.getD ((supportedNorms method cross).getLast?.getD 0 : Nat)
  if norm ∈ (supportedNorms method cross).map Int.ofNat then .ok norm.toNat
  else .error .valueError

/-- The tuple of arrays accumulated into (cddm/core.py:1226-1230, 1080-1083). -/
structure CorrAout (C : Type) where
  cor : Option (List C) := none
  count : Option (List Nat) := none
  sq : Option (List ℝ) := none
  ds1 : Option (List (Cx ℝ)) := none
  ds2 : Option (List (Cx ℝ)) := none

/-- The returned tuple (cddm/core.py:1293-1296, 1132-1135). -/
structure CorrTuple (C : Type) where
  cor : List C
  count : List Nat
  sq : Option (List ℝ)
  ds1 : Option (List (Cx ℝ))
  ds2 : Option (List (Cx ℝ))

/-- Does `norm` contain `NORM_STRUCTURED = 2` (cddm/norm.py:44, cddm/core.py:1273)? -/
def needsSquares (norm : Nat) : Bool := norm &&& 2 ≠ 0
/-- Does `norm` contain `NORM_SUBTRACTED = 4` (cddm/norm.py:50, cddm/core.py:1287)? -/
def needsSums (norm : Nat) : Bool := norm &&& 4 ≠ 0

/-- `_sum(data, ta, t_other = tb, ...)` for real data (cddm/core.py:1264-1267, 1282-1283):
`cross_sum_fft` or `cross_sum`. -/
noncomputable def sumSelR (useFft : Bool) (g : List ℝ) (ta tb : Option (List Int)) (n : Nat)
    (complex inv : Bool) (aout : Option (List ℝ)) : Py (List ℝ) :=
  if useFft = true then
    crossSumFftApi crossSumFftR crossSumComplexFftR g ta tb (some n) complex inv aout
  else crossSumApi g ta tb (some n) complex inv aout

/-- `_sum` for complex data (cddm/core.py:1264-1267, 1288-1289). -/
noncomputable def sumSelC (useFft : Bool) (g : List (Cx ℝ)) (ta tb : Option (List Int)) (n : Nat)
    (complex inv : Bool) (aout : Option (List (Cx ℝ))) : Py (List (Cx ℝ)) :=
  if useFft = true then
    crossSumFftApi crossSumFftC crossSumComplexFftC g ta tb (some n) complex inv aout
  else crossSumApi g ta tb (some n) complex inv aout

/-- The block `if (norm & NORM_STRUCTURED) and correlate` of `ccorr` (cddm/core.py:1270-1283). -/
noncomputable def ccorrSquares (method : String) (norm : Nat) (useFft : Bool) (g1 g2 : List ℝ)
    (t1 t2 : Option (List Int)) (n : Nat) (complex : Bool) (aout : Option (List ℝ)) :
    Py (Option (List ℝ)) :=
  if needsSquares norm = true ∧ method ≠ "diff" then do
    let s ← sumSelR useFft g1 t1 t2 n complex false aout
    let s ← sumSelR useFft g2 t2 t1 n complex true (some s)
    .ok (some s)
  else .ok (if method = "diff" then none else aout)

/-- The block `if norm & NORM_SUBTRACTED` of `ccorr` (cddm/core.py:1285-1289), one of the two
sums. -/
noncomputable def ccorrSums (norm : Nat) (useFft : Bool) (f : List (Cx ℝ))
    (ta tb : Option (List Int)) (n : Nat) (complex inv : Bool) (aout : Option (List (Cx ℝ))) :
    Py (Option (List (Cx ℝ))) :=
  if needsSums norm = true then (sumSelC useFft f ta tb n complex inv aout).map some
  else .ok aout

/-- `ccorr` (cddm/core.py:1137-1296) for given correlation functions: `kFft`, `kCorr`, `kDiff`
stand for `cross_correlate_fft`, `cross_correlate` and `cross_difference` with the given `complex`
flag. -/
noncomputable def ccorrBody {C : Type} (complex : Bool)
    (kFft kCorr kDiff : List (Cx ℝ) → List (Cx ℝ) → Option (List Int) → Option (List Int) →
      Option Nat → Option (List C) → Py (List C))
    (f1 f2 : List (Cx ℝ)) (t1 t2 : Option (List Int)) (n : Option Nat) (norm : Option Int)
    (method : Option String) (f1s f2s : Option (List ℝ)) (aout : CorrAout C) :
    Py (CorrTuple C) := do
  let method ← defaultMethod method n
  let norm ← defaultNorm norm method true
  if method = "diff" ∧ complex = true then .error .valueError else
  let (t, n) ← inspectCross f1.length f2.length t1 t2 n (aout.cor.map List.length) complex
  let t1 := t.map Prod.fst
  let t2 := t.map Prod.snd
  let cor ← (if method = "fft" then kFft f1 f2 t1 t2 (some n) aout.cor
    else if method = "corr" then kCorr f1 f2 t1 t2 (some n) aout.cor
    else kDiff f1 f2 t1 t2 (some n) aout.cor)
  let count ← crossCount (.array (t1.getD (arange f1.length)))
    (some (.array (t2.getD (arange f1.length)))) (some n) complex aout.count
  let useFft : Bool := method = "fft" ∧ t.isSome
  let sq ← ccorrSquares method norm useFft (f1s.getD (f1.map Cx.abs2))
    (f2s.getD (f2.map Cx.abs2)) t1 t2 n complex aout.sq
  let ds1 ← ccorrSums norm useFft f1 t1 t2 n complex false aout.ds1
  let ds2 ← ccorrSums norm useFft f2 t2 t1 n complex true aout.ds2
  .ok ⟨cor, count, sq, ds1, ds2⟩

/-- `ccorr(complex = False)` (cddm/core.py:1137-1296). -/
noncomputable def ccorr (f1 f2 : List (Cx ℝ)) (t1 t2 : Option (List Int)) (n : Option Nat)
    (norm : Option Int) (method : Option String) (aligned : Bool) (f1s f2s : Option (List ℝ))
    (aout : CorrAout ℝ) : Py (CorrTuple ℝ) :=
  ccorrBody false crossCorrelateFft
    (fun f1 f2 t1 t2 n aout => crossCorrelate f1 f2 t1 t2 n aligned aout)
    (fun f1 f2 t1 t2 n aout => crossDifference f1 f2 t1 t2 n aligned aout)
    f1 f2 t1 t2 n norm method f1s f2s aout

/-- `ccorr(complex = True)` (cddm/core.py:1137-1296); method 'diff' is refused before
`cross_difference` is reached. -/
noncomputable def ccorrComplex (f1 f2 : List (Cx ℝ)) (t1 t2 : Option (List Int)) (n : Option Nat)
    (norm : Option Int) (method : Option String) (aligned : Bool) (f1s f2s : Option (List ℝ))
    (aout : CorrAout (Cx ℝ)) : Py (CorrTuple (Cx ℝ)) :=
  ccorrBody true crossCorrelateComplexFft
    (fun f1 f2 t1 t2 n aout => crossCorrelateComplex f1 f2 t1 t2 n aligned aout)
    (fun _ _ _ _ _ _ => .error .valueError)
    f1 f2 t1 t2 n norm method f1s f2s aout

/-- `if norm & ... and correlate: sq = _sum(data, t, ...)` of `acorr` (cddm/core.py:1111-1129):
`auto_sum_fft` (with the kernel `kR`) or `auto_sum`; not computed unless `needed`. -/
noncomputable def acorrSum {M : Type} [AddCommGroup M] [Module ℝ M]
    (kR : List M → List (Cx ℝ) → List Int → Nat → List M → Py (List M)) (method : String)
    (needed useFft : Bool) (g : List M) (t : Option (List Int)) (n : Nat)
    (aout : Option (List M)) : Py (Option (List M)) :=
  if needed = true ∧ method ≠ "diff" then
    (if useFft = true then autoSumFftApi kR g t (some n) aout
      else autoSumApi ℝ g t (some n) aout).map some
  else .ok (if method = "diff" then none else aout)

/-- `acorr` (cddm/core.py:1022-1135) for given correlation functions (`auto_correlate_fft`,
`auto_correlate`, `auto_difference`).  `aout.ds2` stands for the unused last entry; it is
returned as None. -/
noncomputable def acorrBody {C : Type}
    (kFft kCorr kDiff : List (Cx ℝ) → Option (List Int) →
      Option Nat → Option (List C) → Py (List C))
    (f : List (Cx ℝ)) (t : Option (List Int)) (n : Option Nat) (norm : Option Int)
    (method : Option String) (fs : Option (List ℝ)) (aout : CorrAout C) :
    Py (CorrTuple C) := do
  let method ← defaultMethod method n
  let norm ← defaultNorm norm method false
  let (t, n) ← inspectAuto f.length t n (aout.cor.map List.length)
  let cor ← (if method = "fft" then kFft f t (some n) aout.cor
    else if method = "corr" then kCorr f t (some n) aout.cor
    else kDiff f t (some n) aout.cor)
  let count ← autoCount (.array (t.getD (arange f.length))) (some n) aout.count
  let useFft : Bool := method = "fft" ∧ t.isSome
  let sq ← acorrSum crossSumFftR method (needsSquares norm) useFft
    ((fs.getD (f.map Cx.abs2)).map (2 * ·)) t n aout.sq
  let ds ← acorrSum crossSumFftC method (needsSums norm) useFft f t n aout.ds1
  .ok ⟨cor, count, sq, ds, none⟩

/-- `acorr(complex = False)` (cddm/core.py:1022-1135). -/
noncomputable def acorr (f : List (Cx ℝ)) (t : Option (List Int)) (n : Option Nat)
    (norm : Option Int) (method : Option String) (aligned : Bool) (fs : Option (List ℝ))
    (aout : CorrAout ℝ) : Py (CorrTuple ℝ) :=
  acorrBody autoCorrelateFft (fun f t n aout => autoCorrelate f t n aligned aout)
    (fun f t n aout => autoDifference f t n aligned aout) f t n norm method fs aout

/-- `acorr(complex = True)` (cddm/core.py:1022-1135).  With method 'diff' the code ignores the
flag and returns the real array of `auto_difference`; here its entries are embedded into the
complex numbers (and real parts of a given `aout` are used). -/
noncomputable def acorrComplex (f : List (Cx ℝ)) (t : Option (List Int)) (n : Option Nat)
    (norm : Option Int) (method : Option String) (aligned : Bool) (fs : Option (List ℝ))
    (aout : CorrAout (Cx ℝ)) : Py (CorrTuple (Cx ℝ)) :=
  acorrBody autoCorrelateComplexFft
    (fun f t n aout => autoCorrelateComplex f t n aligned aout)
    (fun f t n aout => do
      let d ← autoDifference f t n aligned (aout.map (List.map Cx.re))
      .ok (d.map Cx.ofR)) f t n norm method fs aout

end Cddm
