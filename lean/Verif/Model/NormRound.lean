import Verif.Model.Norm
import Verif.Model.Rounding

/-!
# `ccorr`, `acorr` and `normalize` in rounded arithmetic

Method 'corr', real data, one wave vector, no `aout`, norms that are not weighted, no `mask`, no `scale`.  In double precision: in single
precision numba divides by the `int64` counts and multiplies by 0.5 in double precision, with smaller errors.
-/

namespace Cddm
variable {rnd : ℝ → ℝ}

-- Division of machine numbers, cddm/_core_nb.py:834-1026.
noncomputable instance : Div (Fl rnd) := ⟨fun a b => ⟨rnd (a.val / b.val)⟩⟩

/-- A number written in the source (0.5, 2, -2: cddm/_core_nb.py:852, cddm/norm.py:436-437) or a count converted to a machine number. -/
noncomputable def flConst (rnd : ℝ → ℝ) (x : ℝ) : Fl rnd := ⟨rnd x⟩

/-- `abs2` (cddm/_core_nb.py:23-25). -/
noncomputable def abs2Fl (x : Cx (Fl rnd)) : Fl rnd := x.re * x.re + x.im * x.im

/-- Division by a count (cddm/_core_nb.py:834-1026); a zero count gives a value that is not finite. -/
noncomputable def divCountFl (x : Fl rnd) (count : Nat) : Option (Fl rnd) :=
  if count = 0 then none else some (x / flConst rnd count)

/-- `_normalize_corr_baseline_real` (cddm/_core_nb.py:832-834). -/
noncomputable def corrBaselineFl (data : Fl rnd) (count : Nat) (bg1 bg2 : Cx (Fl rnd)) : Option (Fl rnd) :=
  (divCountFl data count).map fun x => x - (bg1.re * bg2.re + bg1.im * bg2.im)

/-- `_normalize_struct_baseline_real` (cddm/_core_nb.py:850-861). -/
noncomputable def structBaselineFl (data : Fl rnd) (count : Nat) (bg1 bg2 : Cx (Fl rnd)) (var sq : Fl rnd) : Option (Fl rnd) :=
  let tmp := data - flConst rnd (1 / 2) * sq
  (divCountFl tmp count).map fun tmp =>
    let d := bg1.re - bg2.re
    let d2 := d * d
    let d := bg1.im - bg2.im
    let d2 := d2 + d * d
    tmp + (flConst rnd (1 / 2) * d2) + var

/-- `_normalize_corr_compensated_real` (cddm/_core_nb.py:895-900). -/
noncomputable def corrCompensatedFl (data : Fl rnd) (count : Nat) (m1 m2 : Cx (Fl rnd)) : Option (Fl rnd) :=
  (divCountFl (m1.re * m2.re + m1.im * m2.im) count).bind fun tmp => divCountFl (data - tmp) count

/-- `_normalize_struct_compensated_real` (cddm/_core_nb.py:949-957). -/
noncomputable def structCompensatedFl (data : Fl rnd) (count : Nat) (var sq : Fl rnd) (m1 m2 : Cx (Fl rnd)) : Option (Fl rnd) :=
  let tmp := (m1.re - m2.re) * (m1.re - m2.re)
  let tmp := tmp + (m1.im - m2.im) * (m1.im - m2.im)
  (divCountFl (flConst rnd (1 / 2) * tmp) count).bind fun tmp =>
    (divCountFl (data + tmp - flConst rnd (1 / 2) * sq) count).map fun tmp => tmp + var

/-- `_normalize_corr_subtracted_real` (cddm/_core_nb.py:985-990). -/
noncomputable def corrSubtractedFl (data : Fl rnd) (count : Nat) (bg1 bg2 m1 m2 : Cx (Fl rnd)) : Option (Fl rnd) :=
  let tmp := data
  let tmp := tmp - bg1.re * m2.re - bg1.im * m2.im
  let tmp := tmp - bg2.re * m1.re - bg2.im * m1.im
  (divCountFl tmp count).map fun x => x + bg1.re * bg2.re + bg1.im * bg2.im

/-- `_normalize_struct_subtracted_real` (cddm/_core_nb.py:1012-1026). -/
noncomputable def structSubtractedFl (data : Fl rnd) (count : Nat) (bg1 bg2 : Cx (Fl rnd)) (var sq : Fl rnd) (m1 m2 : Cx (Fl rnd)) :
    Option (Fl rnd) :=
  let tmp := data - flConst rnd (1 / 2) * sq
  let tmp := tmp + (m1.re - m2.re) * (bg1.re - bg2.re)
  let tmp := tmp + (m1.im - m2.im) * (bg1.im - bg2.im)
  (divCountFl tmp count).map fun tmp =>
    let d := bg1.re - bg2.re
    let d2 := d * d
    let d := bg1.im - bg2.im
    let d2 := d2 + d * d
    tmp - (flConst rnd (1 / 2) * d2) + var

/-- `scale_factor` of two variances (cddm/norm.py:155-157), `_variance2offset` (cddm/norm.py:441-443).  Simplified: a single variance is
given twice. -/
noncomputable def offsetFl (v1 v2 : Fl rnd) : Fl rnd := (v1 + v2) / flConst rnd 2

/-- The tuple returned by `ccorr` (cddm/core.py:1293-1296). -/
structure FlTuple (rnd : ℝ → ℝ) where
  cor : List (Fl rnd)
  count : List Nat
  sq : Option (List (Fl rnd))
  ds1 : Option (List (Cx (Fl rnd)))
  ds2 : Option (List (Cx (Fl rnd)))

/-- `ccorr(method = "corr", complex = False)` (cddm/core.py:1137-1296) without `aout`, `f1s` and `f2s`. -/
noncomputable def ccorrFl (f1 f2 : List (Cx (Fl rnd))) (t1 t2 : Option (List Int)) (n : Option Nat) (norm : Option Int)
    (aligned : Bool) : Py (FlTuple rnd) := do
  let norm ← defaultNorm norm "corr" true
  let (t, n) ← inspectCross f1.length f2.length t1 t2 n none false
  let t1 := t.map Prod.fst
  let t2 := t.map Prod.snd
  let cor ← crossCorrelate f1 f2 t1 t2 (some n) aligned none
  let count ← crossCount (.array (t1.getD (arange f1.length))) (some (.array (t2.getD (arange f1.length)))) (some n) false none
  let sq ← (if needsSquares norm = true then do
      let s ← crossSumApi (f1.map abs2Fl) t1 t2 (some n) false false none
      let s ← crossSumApi (f2.map abs2Fl) t2 t1 (some n) false true (some s)
      .ok (some s)
    else .ok none : Py (Option (List (Fl rnd))))
  let ds1 ← (if needsSums norm = true then (crossSumApi f1 t1 t2 (some n) false false none).map some
    else .ok none : Py (Option (List (Cx (Fl rnd)))))
  let ds2 ← (if needsSums norm = true then (crossSumApi f2 t2 t1 (some n) false true none).map some
    else .ok none : Py (Option (List (Cx (Fl rnd)))))
  .ok ⟨cor, count, sq, ds1, ds2⟩

/-- `x / 2.` at the end of `auto_sum` (cddm/core.py:920-921), real numbers. -/
noncomputable def halfFl (x : Fl rnd) : Fl rnd := x / flConst rnd 2

/-- `x / 2.` at the end of `auto_sum` (cddm/core.py:920-921), complex numbers: both parts are divided. -/
noncomputable def halfCxFl (x : Cx (Fl rnd)) : Cx (Fl rnd) := ⟨halfFl x.re, halfFl x.im⟩

/-- `acorr(method = "corr", complex = False)` (cddm/core.py:1022-1135) without `aout` and `fs`. -/
noncomputable def acorrFl (f : List (Cx (Fl rnd))) (t : Option (List Int)) (n : Option Nat) (norm : Option Int) (aligned : Bool) :
    Py (FlTuple rnd) := do
  let norm ← defaultNorm norm "corr" false
  let (t, n) ← inspectAuto f.length t n none
  let cor ← autoCorrelate f t (some n) aligned none
  let count ← autoCount (.array (t.getD (arange f.length))) (some n) none
  let sq ← (if needsSquares norm = true then
      (autoSumWith halfFl ((f.map abs2Fl).map (flConst rnd 2 * ·)) t (some n) none).map some
    else .ok none : Py (Option (List (Fl rnd))))
  let ds ← (if needsSums norm = true then (autoSumWith halfCxFl f t (some n) none).map some
    else .ok none : Py (Option (List (Cx (Fl rnd)))))
  .ok ⟨cor, count, sq, ds, none⟩

/-- The kernel chosen for the norm, one cell (cddm/norm.py:640-712); arrays that the norm does not use may be absent. -/
noncomputable def normCellFl (norm : Nat) (bg1 bg2 : Cx (Fl rnd)) (var : Fl rnd) (data : Fl rnd) (count : Nat) (sq : Fl rnd)
    (m1 m2 : Cx (Fl rnd)) : Option (Fl rnd) :=
  if norm = 1 then corrBaselineFl data count bg1 bg2
  else if norm = 2 then structBaselineFl data count bg1 bg2 var sq
  else if norm = 5 ∨ norm = 13 then corrSubtractedFl data count bg1 bg2 m1 m2
  else if norm = 9 then corrCompensatedFl data count m1 m2
  else if norm = 6 ∨ norm = 14 then structSubtractedFl data count bg1 bg2 var sq m1 m2
  else structCompensatedFl data count var sq m1 m2

/-- `_corr2diff` (cddm/norm.py:435-439). -/
noncomputable def corr2diffFl (data var : Fl rnd) : Fl rnd := data * flConst rnd (-2) + var * flConst rnd 2

/-- `normalize` (cddm/norm.py:489-722) of correlation data; `diff` says that the mode is "diff".  The sums of the second signal are those of the
first if there are none.  Simplified: background and
variance are given, weighted norms raise (they are not modelled here), all arrays have the length of the first. -/
noncomputable def normalizeFl (d : FlTuple rnd) (bg1 bg2 : Cx (Fl rnd)) (v1 v2 : Fl rnd) (norm : Option Int) (diff : Bool) :
    Py (List (Option (Fl rnd))) := do
  let norm ← normFromCcorrData d.sq.isSome d.ds1.isSome norm
  if norm &&& 3 = 3 then .error .valueError else
  let var := offsetFl v1 v2
  .ok ((List.range d.cor.length).map fun k =>
    (normCellFl norm bg1 bg2 var (d.cor.getD k 0) (d.count.getD k 0) ((d.sq.getD []).getD k 0) ((d.ds1.getD []).getD k 0)
      (((d.ds2.or d.ds1).getD []).getD k 0)).map fun x => if diff = true then corr2diffFl x var else x)

end Cddm
