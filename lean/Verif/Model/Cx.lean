import Mathlib.Algebra.Ring.Defs
import Mathlib.Tactic.Ring
import Mathlib.Algebra.Module.Defs

/-!
# Complex samples over an arbitrary commutative ring

cddm works on `complex128`/`float64` (or single precision) arrays (cddm/conf.py:190-202, 371-381 `C`, `F`).
The model replaces machine numbers by exact ones: `F` becomes an arbitrary commutative ring `R`
(ordered field, `ℚ` or `ℝ` where a theorem needs it) and `C` becomes the pair type `Cx R`.
Simplification: no rounding, no overflow, no NaN.  The operations need only those of `R`, so that the kernels can also be
run with rounded numbers (`Verif.Model.Rounding`).
-/

namespace Cddm

/-- A complex number with components in `R`; models the numba scalar type `C`
(cddm/conf.py:371-381).  Simplified: exact arithmetic if that of `R` is exact. -/
@[ext] structure Cx (R : Type*) where
  /-- real part, `x.real` -/
  re : R
  /-- imaginary part, `x.imag` -/
  im : R
deriving DecidableEq, Repr

namespace Cx
variable {R : Type*}

-- Zero, one, addition, negation, subtraction and multiplication of `C` (cddm/conf.py:371-381), from those of `F`.
instance [Zero R] : Zero (Cx R) := ⟨⟨0, 0⟩⟩
instance [Zero R] [One R] : One (Cx R) := ⟨⟨1, 0⟩⟩
instance [Add R] : Add (Cx R) := ⟨fun a b => ⟨a.re + b.re, a.im + b.im⟩⟩
instance [Neg R] : Neg (Cx R) := ⟨fun a => ⟨-a.re, -a.im⟩⟩
instance [Sub R] : Sub (Cx R) := ⟨fun a b => ⟨a.re - b.re, a.im - b.im⟩⟩
instance [Add R] [Sub R] [Mul R] : Mul (Cx R) :=
  ⟨fun a b => ⟨a.re * b.re - a.im * b.im, a.re * b.im + a.im * b.re⟩⟩

/-- Complex conjugate, `np.conj` (used in cddm/_core_nb.py:255, 316, 335, 407, 412). -/
def conj [Neg R] (a : Cx R) : Cx R := ⟨a.re, -a.im⟩

section ring
variable [CommRing R]

@[simp] theorem zero_re : (0 : Cx R).re = 0 := rfl
@[simp] theorem zero_im : (0 : Cx R).im = 0 := rfl
@[simp] theorem one_re : (1 : Cx R).re = 1 := rfl
@[simp] theorem one_im : (1 : Cx R).im = 0 := rfl
@[simp] theorem add_re (a b : Cx R) : (a + b).re = a.re + b.re := rfl
@[simp] theorem add_im (a b : Cx R) : (a + b).im = a.im + b.im := rfl
@[simp] theorem neg_re (a : Cx R) : (-a).re = -a.re := rfl
@[simp] theorem neg_im (a : Cx R) : (-a).im = -a.im := rfl
@[simp] theorem sub_re (a b : Cx R) : (a - b).re = a.re - b.re := rfl
@[simp] theorem sub_im (a b : Cx R) : (a - b).im = a.im - b.im := rfl
@[simp] theorem mul_re (a b : Cx R) : (a * b).re = a.re * b.re - a.im * b.im := rfl
@[simp] theorem mul_im (a b : Cx R) : (a * b).im = a.re * b.im + a.im * b.re := rfl

instance : CommRing (Cx R) where
  add_assoc a b c := by ext <;> simp [add_assoc]
  zero_add a := by ext <;> simp
  add_zero a := by ext <;> simp
  add_comm a b := by ext <;> simp [add_comm]
  mul_assoc a b c := by ext <;> simp <;> ring
  one_mul a := by ext <;> simp
  mul_one a := by ext <;> simp
  left_distrib a b c := by ext <;> simp <;> ring
  right_distrib a b c := by ext <;> simp <;> ring
  mul_comm a b := by ext <;> simp <;> ring
  zero_mul a := by ext <;> simp
  mul_zero a := by ext <;> simp
  neg_add_cancel a := by ext <;> simp
  sub_eq_add_neg a b := by ext <;> simp [sub_eq_add_neg]
  nsmul := nsmulRec
  zsmul := zsmulRec

@[simp] theorem conj_re (a : Cx R) : (conj a).re = a.re := rfl
@[simp] theorem conj_im (a : Cx R) : (conj a).im = -a.im := rfl
@[simp] theorem conj_conj (a : Cx R) : conj (conj a) = a := by ext <;> simp
@[simp] theorem conj_zero : conj (0 : Cx R) = 0 := by ext <;> simp
theorem conj_add (a b : Cx R) : conj (a + b) = conj a + conj b := by ext <;> simp [add_comm]
theorem conj_sub (a b : Cx R) : conj (a - b) = conj a - conj b := by ext <;> simp [sub_eq_add_neg, add_comm]
theorem conj_mul (a b : Cx R) : conj (a * b) = conj a * conj b := by
  ext <;> simp; ring

/-- A real number where a complex one is needed, e.g. the casts to `CDTYPE` (cddm/core.py:72-73). -/
def ofR (r : R) : Cx R := ⟨r, 0⟩
@[simp] theorem ofR_re (r : R) : (ofR r).re = r := rfl
@[simp] theorem ofR_im (r : R) : (ofR r).im = 0 := rfl

/-- Squared modulus, `_abs2` / `abs2` (cddm/_core_nb.py:17-25). -/
def abs2 (x : Cx R) : R := x.re * x.re + x.im * x.im

/-- Real part as an additive map; proof device, `x.real` of `C` (cddm/conf.py:371-381). -/
def reHom : Cx R →+ R := { toFun := Cx.re, map_zero' := rfl, map_add' := fun _ _ => rfl }
/-- Imaginary part as an additive map; proof device, `x.imag` of `C` (cddm/conf.py:371-381). -/
def imHom : Cx R →+ R := { toFun := Cx.im, map_zero' := rfl, map_add' := fun _ _ => rfl }
/-- Conjugation as an additive map; proof device, `np.conj` (cddm/_core_nb.py:316). -/
def conjHom : Cx R →+ Cx R := { toFun := conj, map_zero' := conj_zero, map_add' := conj_add }

/-- Multiplication by a real scalar, e.g. `out0[...,1:] /= 2.` on complex data
(cddm/core.py:921). -/
instance : SMul R (Cx R) := ⟨fun r a => ⟨r * a.re, r * a.im⟩⟩
@[simp] theorem smul_re (r : R) (a : Cx R) : (r • a).re = r * a.re := rfl
@[simp] theorem smul_im (r : R) (a : Cx R) : (r • a).im = r * a.im := rfl
instance : Module R (Cx R) where
  one_smul a := by ext <;> simp
  mul_smul r s a := by ext <;> simp [mul_assoc]
  smul_zero r := by ext <;> simp
  smul_add r a b := by ext <;> simp [mul_add]
  add_smul r s a := by ext <;> simp [add_mul]
  zero_smul a := by ext <;> simp

end ring
end Cx
end Cddm
