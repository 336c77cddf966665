import Verif.Model.Slice
import Verif.Model.Norm
import Mathlib.Analysis.SpecialFunctions.Complex.Arg

/-!
# `take_data`, `shift_data`, `equalize_data`, `fold_data` (cddm/norm.py:741-863)

One pixel (one wave vector): the last axis is the delay.  The functions act on every pixel alike.
-/

namespace Cddm

/-- The argument `data`: `np.iscomplexobj(data)` decides (cddm/norm.py:773, 802, 843). -/
inductive DelayData
  | real (x : List ℝ)
  | cplx (x : List (Cx ℝ))

/-- `np.abs` of a complex number (cddm/norm.py:788-790, 815). -/
noncomputable def Cx.modulus (z : Cx ℝ) : ℝ := Real.sqrt (z.re * z.re + z.im * z.im)

/-- `np.sqrt` of a complex number, the principal branch (cddm/norm.py:811).  A negative real number
gives a positive imaginary root (numpy: for an imaginary part +0.0, not -0.0). -/
noncomputable def Cx.sqrt (z : Cx ℝ) : Cx ℝ :=
  ⟨Real.sqrt ((z.modulus + z.re) / 2),
    if z.im < 0 then -Real.sqrt ((z.modulus - z.re) / 2) else Real.sqrt ((z.modulus - z.re) / 2)⟩

/-- `np.arctan2(z.imag, z.real)` (cddm/norm.py:782-783). -/
noncomputable def Cx.phase (z : Cx ℝ) : ℝ := Complex.arg ⟨z.re, z.im⟩

/-- `np.exp(1j*phase)` (cddm/norm.py:786). -/
noncomputable def Cx.expI (phase : ℝ) : Cx ℝ := ⟨Real.cos phase, Real.sin phase⟩

/-- `out[...,0] = np.abs(data[...,0])` (cddm/norm.py:790, 815): IndexError for empty data. -/
noncomputable def setFirst (out : List (Cx ℝ)) (data : List (Cx ℝ)) : Py (List (Cx ℝ)) :=
  match data with
  | [] => .error .indexError
  | d :: _ => .ok (out.set 0 (Cx.ofR d.modulus))

/-- `shift_data` (cddm/norm.py:764-791).  `out` is the new array of `np.empty_like(data)`, whose
content is arbitrary. -/
noncomputable def shiftData (data : DelayData) (out : List (Cx ℝ)) : Py (List (Cx ℝ)) :=
  match data with
  | .real _ => .error .valueError
  | .cplx data => do
    let len := data.length
    let n : Nat := (len + 1) / 2
    let pos := takeIdx data (sliceUp len 1 n)
    let neg := (takeIdx data (sliceDown len (-1) (-n))).map Cx.conj
    let pn := pos.zip neg
    let exp := pn.map fun (p, q) => Cx.expI ((p.phase - q.phase) / 2)
    let out ← assignIdx out (sliceUp len 1 n) (List.zipWith (fun p e => p.modulus • e) pos exp)
    let out ← assignIdx out (sliceDown len (-1) (-n))
      (List.zipWith (fun q e => q.modulus • Cx.conj e) neg exp)
    setFirst out data

/-- `equalize_data` (cddm/norm.py:793-816). -/
noncomputable def equalizeData (data : DelayData) (out : List (Cx ℝ)) : Py (List (Cx ℝ)) :=
  match data with
  | .real _ => .error .valueError
  | .cplx data => do
    let len := data.length
    let n : Nat := (len + 1) / 2
    let pos := takeIdx data (sliceUp len 1 n)
    let neg := (takeIdx data (sliceDown len (-1) (-n))).map Cx.conj
    let tmp := (List.zipWith (fun p q => p * q) pos neg).map Cx.sqrt
    let out ← assignIdx out (sliceUp len 1 n) tmp
    let out ← assignIdx out (sliceDown len (-1) (-n)) (tmp.map Cx.conj)
    setFirst out data

/-- `fold_data` (cddm/norm.py:819-863). -/
noncomputable def foldData (data : DelayData) (mode : Int) : Py (List (Cx ℝ)) :=
  match data with
  | .real _ => .error .valueError
  | .cplx data =>
    let len := data.length
    let n : Nat := (len + 1) / 2
    if mode ∉ ([0, 1, -1] : List Int) then .error .valueError
    else if mode ≥ 0 then
      let out := takeIdx data (sliceUp len 0 n)
      if mode = 0 then do
        let neg := (takeIdx data (sliceDown len (-1) (-n))).map Cx.conj
        let idx := sliceUp out.length 1 out.length
        -- `out[...,1:] += neg`
        if (takeIdx out idx).length = neg.length then do
          let out ← assignIdx out idx (List.zipWith (· + ·) (takeIdx out idx) neg)
          assignIdx out idx ((takeIdx out idx).map fun x => (1 / 2 : ℝ) • x)
        else .error .valueError
      else .ok out
    else
      let out := takeIdx data (sliceDown len (-1) (-n - 1))
      match data with
      | [] => .error .indexError
      | d :: _ => .ok (out.set 0 d)

/-- `data[...,mask,:]` (cddm/norm.py:757-759) of an array stored as the list of its pixels: the
pixels where the mask is true, in order.  A mask of another size: IndexError. -/
def takePixels {α : Type} (mask : List Bool) (x : List α) : Py (List α) :=
  if mask.length = x.length then .ok ((mask.zip x).filterMap fun (m, v) => if m then some v else none)
  else .error .indexError

/-- A tuple of `ccorr` data for many pixels; `count` is common to all (cddm/norm.py:741-756). -/
structure PixelData (C : Type) where
  cor : List (List C)
  count : List Nat
  sq : Option (List (List ℝ))
  s1 : Option (List (List (Cx ℝ)))
  s2 : Option (List (List (Cx ℝ)))

/-- `_mask(i, data)` for `i != 1` (cddm/norm.py:757-760). -/
def takeOpt {α : Type} (mask : List Bool) (x : Option (List α)) : Py (Option (List α)) :=
  match x with
  | none => .ok none
  | some x => (takePixels mask x).map some

/-- `take_data` of a 5-tuple (cddm/norm.py:741-762). -/
def takeData {C : Type} (d : PixelData C) (mask : List Bool) : Py (PixelData C) := do
  let cor ← takePixels mask d.cor
  let sq ← takeOpt mask d.sq
  let s1 ← takeOpt mask d.s1
  let s2 ← takeOpt mask d.s2
  .ok ⟨cor, d.count, sq, s1, s2⟩

end Cddm
