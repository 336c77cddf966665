import Verif.Model.SimWalk
import Verif.Model.Fft2

/-!
# Form factor of the point spread function

`form_factor` (cddm/sim.py:31-76).
-/

namespace Cddm

/-- The transform of one image (cddm/sim.py:69-75). -/
noncomputable def formFactorTransform (mode : String) (im : Arr2 (Cx ℝ)) : Py (Arr2 (Cx ℝ)) :=
  if mode = "rfft2" then npRfft2 "numpy" im else if mode = "fft2" then npFft2 im else .error .valueError

/-- The square of the absolute value of the transform of one drawing (cddm/sim.py:64-73): the particle is drawn at
`((i,j) * shape) / navg` into an image of zeros, which is multiplied with the window and transformed. -/
noncomputable def formFactorTerm (bits : Nat) (window : Arr2 ℝ) (sigma : ℝ) (intensity navg : Nat) (mode : String) (i j : Nat) :
    Py (Arr2 ℝ) := do
  let im ← drawPsf bits ⟨window.h, window.w, fun _ _ => 0⟩
    [((i * window.h : Nat) * 1 / navg, (j * window.w : Nat) * 1 / navg)] [intensity] [sigma]
  let im : Arr2 (Cx ℝ) := ⟨window.h, window.w, fun p q => ⟨im.get p q * window.get p q, 0⟩⟩
  let f ← formFactorTransform mode im
  .ok ⟨f.h, f.w, fun p q => (f.get p q).abs2⟩

/-- `out += ...` (cddm/sim.py:70, 72); `out` is the number 0 before the first term. -/
def addTerm (out : Option (Arr2 ℝ)) (x : Arr2 ℝ) : Option (Arr2 ℝ) :=
  match out with
  | none => some ⟨x.h, x.w, fun p q => 0 + x.get p q⟩
  | some o => some ⟨o.h, o.w, fun p q => o.get p q + x.get p q⟩

/-- `form_factor` (cddm/sim.py:31-76).  Without terms (`navg = 0`) the last line divides zero by zero: ZeroDivisionError.  Not
modelled: a negative `navg`, a window that is not a two-dimensional array of reals, an intensity that does not fit in the dtype. -/
noncomputable def formFactor (window : Arr2 ℝ) (sigma : ℝ) (intensity : Int) (navg : Nat) (dtype : FrameDtype) (mode : String) :
    Py (Arr2 ℝ) := do
  let dtype ← inspectFrameDtype dtype intensity
  if intensity ≥ 2 ^ dtype.bits then .error .notModelled
  else do
    let out ← (List.range navg ×ˢ List.range navg).foldlM (fun (out : Option (Arr2 ℝ)) (q : Nat × Nat) => do
      let x ← formFactorTerm dtype.bits window sigma intensity.toNat navg mode q.1 q.2
      .ok (addTerm out x)) none
    match out with
    | none => .error .zeroDivisionError
    | some o => .ok ⟨o.h, o.w, fun p q => Real.sqrt (o.get p q / (navg : ℝ) ^ 2)⟩

end Cddm
