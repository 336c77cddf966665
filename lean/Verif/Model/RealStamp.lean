import Verif.Model.Core
import Verif.Model.Sim

/-!
# Time stamps that are not whole numbers

`np.asarray(t, I64DTYPE)` (cddm/core.py:80-81, 144, 711, 718, 748) converts an array of floats to
`int64` without complaint, each number truncated toward zero.
Simplified: real numbers instead of floats; the stamps are small enough for `int64`
(`Verif.Model.Stamp64` has the 64-bit arithmetic).
-/

namespace Cddm
variable {R : Type} [Zero R] [Add R] [Sub R] [Neg R] [Mul R]

/-- `np.asarray(t, I64DTYPE)` of an array of floats (cddm/core.py:80-81, 144): every stamp is truncated toward
zero, as `int` does (`truncInt`). -/
noncomputable def asStamps (t : List ℝ) : List Int := t.map truncInt

/-- `cross_correlate` with float time stamps (cddm/core.py:80-81, 390-466). -/
noncomputable def crossCorrelateReal (f1 f2 : List (Cx R)) (t1 t2 : List ℝ) (n : Option Nat)
    (aligned : Bool) (aout : Option (List R)) : Py (List R) :=
  crossCorrelate f1 f2 (some (asStamps t1)) (some (asStamps t2)) n aligned aout

/-- `cross_correlate(complex=True)` with float time stamps (cddm/core.py:80-81, 390-466). -/
noncomputable def crossCorrelateComplexReal (f1 f2 : List (Cx R)) (t1 t2 : List ℝ) (n : Option Nat)
    (aligned : Bool) (aout : Option (List (Cx R))) : Py (List (Cx R)) :=
  crossCorrelateComplex f1 f2 (some (asStamps t1)) (some (asStamps t2)) n aligned aout

/-- `cross_difference` with float time stamps (cddm/core.py:80-81, 468-535). -/
noncomputable def crossDifferenceReal (f1 f2 : List (Cx R)) (t1 t2 : List ℝ) (n : Option Nat)
    (aligned : Bool) (aout : Option (List R)) : Py (List R) :=
  crossDifference f1 f2 (some (asStamps t1)) (some (asStamps t2)) n aligned aout

/-- `auto_correlate` with float time stamps (cddm/core.py:144, 537-607). -/
noncomputable def autoCorrelateReal (f : List (Cx R)) (t : List ℝ) (n : Option Nat)
    (aligned : Bool) (aout : Option (List R)) : Py (List R) :=
  autoCorrelate f (some (asStamps t)) n aligned aout

/-- `auto_correlate(complex=True)` with float time stamps (cddm/core.py:144, 537-607). -/
noncomputable def autoCorrelateComplexReal (f : List (Cx R)) (t : List ℝ) (n : Option Nat)
    (aligned : Bool) (aout : Option (List (Cx R))) : Py (List (Cx R)) :=
  autoCorrelateComplex f (some (asStamps t)) n aligned aout

/-- `cross_sum` with float time stamps (cddm/core.py:80-81, 759-826). -/
noncomputable def crossSumReal {M : Type} [Zero M] [Add M] [Sub M] (f : List M) (t tOther : List ℝ) (n : Option Nat)
    (complex timeInversion : Bool) (aout : Option (List M)) : Py (List M) :=
  crossSumApi f (some (asStamps t)) (some (asStamps tOther)) n complex timeInversion aout

/-- `auto_sum` with float time stamps (cddm/core.py:144, 862-924). -/
noncomputable def autoSumReal {M : Type} [AddCommGroup M] (K : Type) [Field K] [Module K M] (f : List M) (t : List ℝ) (n : Option Nat)
    (aout : Option (List M)) : Py (List M) :=
  autoSumApi K f (some (asStamps t)) n aout

/-- `auto_difference` with float time stamps (cddm/core.py:144, 609-667). -/
noncomputable def autoDifferenceReal (f : List (Cx R)) (t : List ℝ) (n : Option Nat)
    (aligned : Bool) (aout : Option (List R)) : Py (List R) :=
  autoDifference f (some (asStamps t)) n aligned aout

/-- `cross_count` with float time stamps (cddm/core.py:685-724, conversion in 711, 718). -/
noncomputable def crossCountReal (t1 t2 : List ℝ) (n : Option Nat) (complex : Bool) (aout : Option (List Nat)) :
    Py (List Nat) :=
  crossCount (.array (asStamps t1)) (some (.array (asStamps t2))) n complex aout

/-- `auto_count` with float time stamps (cddm/core.py:726-754, conversion in 748). -/
noncomputable def autoCountReal (t : List ℝ) (n : Option Nat) (aout : Option (List Nat)) : Py (List Nat) :=
  autoCount (.array (asStamps t)) n aout

end Cddm
