import Verif.Model.Arr2

/-!
# Half-space and full-space FFT data (cddm/map.py), cropping (cddm/fft.py)

Only the default axes (-2, -1).
-/

namespace Cddm

/-- `as_fft2_shape` (cddm/map.py:376-400).  The width is an integer: it is -1 for `kjsize = 0`. -/
def asFft2Shape (kisize kjsize : Option Nat) (shape : Option (Nat × Nat)) : Py (Nat × Int) := do
  let kj : Int ←
    match kjsize, shape with
    | none, none => .error .valueError
    | none, some s => .ok (s.2 : Int)
    | some kj, none => .ok (kj * 2 - 1 : Int)
    | some kj, some s =>
      if (kj * 2 - 1 : Int) = s.2 + 1 then .ok (s.2 : Int)
      else if (kj * 2 - 1 : Int) > s.2 then .error .valueError
      else .ok (kj * 2 - 1 : Int)
  match kisize, shape with
  | none, none => .error .valueError
  | none, some s => .ok (s.1, kj)
  | some ki, none => .ok (ki, kj)
  | some ki, some s => if ki > s.1 then .error .valueError else .ok (ki, kj)

/-- `as_rfft2_data` (cddm/map.py:470-493). -/
def asRfft2Data {α : Type} (a : Arr2 α) : Arr2 α :=
  let whalf : Nat := a.w / 2 + 1
  take2 a (List.range a.h) (sliceUp a.w 0 whalf)

/-- `as_rfft2_conj` (cddm/map.py:409-468); `invalid` is the mark of cells without data: NaN, False or
-1, depending on the type (cddm/map.py:434-444). -/
def asRfft2Conj {α : Type} (invalid : α) (a : Arr2 α) : Py (Arr2 α) := do
  let whalf : Nat := a.w / 2 + 1
  let m2 : Arr2 α := ⟨a.h, (sliceUp a.w 0 whalf).length, fun _ _ => invalid⟩
  let m2 ← assign2 m2 (sliceUp m2.h 1 m2.h) (sliceUp m2.w 1 m2.w)
    (take2 a (sliceDown a.h (-1) 0) (sliceDown a.w (-1) (-(whalf : Int))))
  if a.h = 0 then .error .indexError
  else assign2 m2 [0] (sliceUp m2.w 1 m2.w) (take2 a [0] (sliceDown a.w (-1) (-(whalf : Int))))

/-- `as_rfft2_mask` (cddm/map.py:402-407). -/
def asRfft2Mask (a : Arr2 Bool) : Py (Arr2 Bool) := do
  let m1 := asRfft2Data a
  let m2 ← asRfft2Conj false a
  .ok ⟨m1.h, m1.w, fun i j => m1.get i j || m2.get i j⟩

/-- `from_rfft2_data` (cddm/map.py:495-555).  `conj` is complex conjugation for complex data, the
identity for real data; `junk` is the content of the new array. -/
def fromRfft2Data {α : Type} (conj : α → α) (junk : Nat → Nat → α) (a : Arr2 α)
    (shape : Option (Nat × Nat)) : Py (Arr2 α) := do
  let (newh, w) ← asFft2Shape (some a.h) (some a.w) shape
  if w < 0 then .error .valueError
  else
    let neww : Nat := w.toNat
    let out : Arr2 α := ⟨newh, neww, junk⟩
    let whalf : Nat := neww / 2 + 1
    let out ← assign2 out (List.range newh) (sliceUp neww 0 whalf) a
    let whalf2 : Nat := (neww + 1) / 2
    let src := take2 a (sliceDown a.h (-1) 0) (sliceDown a.w (-1) (-(whalf : Int)))
    let out ← assign2 out (sliceUp newh 1 newh) (sliceUp neww whalf2 neww)
      { src with get := fun i j => conj (src.get i j) }
    if a.h = 0 then .error .indexError
    else
      let src := take2 a [0] (sliceDown a.w (-1) (-(whalf : Int)))
      assign2 out [0] (sliceUp neww whalf2 neww) { src with get := fun i j => conj (src.get i j) }

/-- `_determine_kimax` (cddm/fft.py:87-95): cutoff and size; `none`: too large. -/
def determineKimax (kisize : Nat) (kimax : Option Int) : Option (Int × Int) :=
  match kimax with
  | none => some ((kisize / 2 : Nat), kisize)
  | some k => if k * 2 + 1 > ((kisize / 2 : Nat) : Int) * 2 + 1 then none else some (k, k * 2 + 1)

/-- `_determine_kjmax` (cddm/fft.py:97-104). -/
def determineKjmax (kjsize : Nat) (kjmax : Option Int) : Option (Int × Int) :=
  match kjmax with
  | none => some ((kjsize : Int) - 1, kjsize)
  | some k => if k > (kjsize : Int) - 1 then none else some (k, k + 1)

/-- `_determine_cutoff_indices` (cddm/fft.py:106-124) followed by `np.empty` (cddm/fft.py:150, 180),
which refuses negative sizes: shape, `istop`, `jstop`. -/
def determineCutoff (h w : Nat) (kimax kjmax : Option Int) (half : Bool) :
    Py (Nat × Nat × Int × Int) :=
  match determineKimax h kimax, (if half then determineKjmax w kjmax else determineKimax w kjmax) with
  | some (ki, hs), some (kj, ws) =>
    if hs < 0 ∨ ws < 0 then .error .valueError else .ok (hs.toNat, ws.toNat, ki + 1, kj + 1)
  | _, _ => .error .valueError

/-- `rfft2_crop` (cddm/fft.py:126-154). -/
def rfft2Crop {α : Type} (junk : Nat → Nat → α) (x : Arr2 α) (kimax kjmax : Option Int) :
    Py (Arr2 α) :=
  if kimax = none ∧ kjmax = none then .ok x
  else do
    let (h, w, istop, jstop) ← determineCutoff x.h x.w kimax kjmax true
    let out : Arr2 α := ⟨h, w, junk⟩
    let out ← assign2 out (sliceUp h 0 istop) (List.range w)
      (take2 x (sliceUp x.h 0 istop) (sliceUp x.w 0 jstop))
    assign2 out (sliceUp h (-istop + 1) h) (List.range w)
      (take2 x (sliceUp x.h (-istop + 1) x.h) (sliceUp x.w 0 jstop))

/-- `fft2_crop` (cddm/fft.py:156-186). -/
def fft2Crop {α : Type} (junk : Nat → Nat → α) (x : Arr2 α) (kimax kjmax : Option Int) :
    Py (Arr2 α) :=
  if kimax = none ∧ kjmax = none then .ok x
  else do
    let (h, w, istop, jstop) ← determineCutoff x.h x.w kimax kjmax false
    let out : Arr2 α := ⟨h, w, junk⟩
    let out ← assign2 out (sliceUp h 0 istop) (sliceUp w 0 jstop)
      (take2 x (sliceUp x.h 0 istop) (sliceUp x.w 0 jstop))
    let out ← assign2 out (sliceUp h (-istop + 1) h) (sliceUp w 0 jstop)
      (take2 x (sliceUp x.h (-istop + 1) x.h) (sliceUp x.w 0 jstop))
    let out ← assign2 out (sliceUp h 0 istop) (sliceUp w (-jstop + 1) w)
      (take2 x (sliceUp x.h 0 istop) (sliceUp x.w (-jstop + 1) x.w))
    assign2 out (sliceUp h (-istop + 1) h) (sliceUp w (-jstop + 1) w)
      (take2 x (sliceUp x.h (-istop + 1) x.h) (sliceUp x.w (-jstop + 1) x.w))

end Cddm
