import Verif.Model.Core
import Mathlib.Data.Real.Basic

/-!
# Rounded arithmetic

The kernels of `Verif.Model.Kernels` and `Verif.Model.Regular` are written for any type with the four operations.  Here is the type
whose operations round, which makes them the floating-point programs of cddm/_core_nb.py (compiled without `fastmath`, the default
of cddm/conf.py:125-129, so that no operation is reordered or fused).
-/

namespace Cddm

/-- A machine number: models `float64` or `float32` (`FDTYPE`, cddm/conf.py:190-202) with the rounding function `rnd` of the
machine.  Simplified: no overflow and no NaN; that inputs are numbers of the machine is not required. -/
structure Fl (rnd : ℝ → ℝ) where
  val : ℝ

namespace Fl
variable {rnd : ℝ → ℝ}

-- The operations of `F` used in cddm/_core_nb.py:245-568: each result is rounded, a change of sign is exact.
noncomputable instance : Zero (Fl rnd) := ⟨⟨0⟩⟩
noncomputable instance : Add (Fl rnd) := ⟨fun a b => ⟨rnd (a.val + b.val)⟩⟩
noncomputable instance : Sub (Fl rnd) := ⟨fun a b => ⟨rnd (a.val - b.val)⟩⟩
noncomputable instance : Mul (Fl rnd) := ⟨fun a b => ⟨rnd (a.val * b.val)⟩⟩
noncomputable instance : Neg (Fl rnd) := ⟨fun a => ⟨-a.val⟩⟩

end Fl

end Cddm
