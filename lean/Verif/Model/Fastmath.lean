import Verif.Model.Core
import Mathlib.Data.Real.Basic

/-!
# The kernels compiled with `fastmath`

With `CDDM_FASTMATH` or `fastmath = yes` (cddm/conf.py:125-129) every function of cddm/_core_nb.py is compiled with the numba option
`fastmath = True` (cddm/_core_nb.py:239-573): the compiler may reorder, regroup and fuse the operations.  The kernels of `Verif.Model.Kernels`
and `Verif.Model.Regular` run on expressions return the operations of the source for every cell of the output; `Fast` says what the compiler
may make of them.
-/

namespace Cddm

/-- The operations by which a number is computed: models the values of type `F` in cddm/_core_nb.py:239-573.  `fma a b c` is `a * b + c` with
one rounding; it does not occur in the source. -/
inductive Expr
  | val (x : ℝ)
  | add (a b : Expr)
  | sub (a b : Expr)
  | mul (a b : Expr)
  | neg (a : Expr)
  | fma (a b c : Expr)

namespace Expr

-- The operations of the source, cddm/_core_nb.py:239-573.
noncomputable instance : Zero Expr := ⟨val 0⟩
instance : Add Expr := ⟨add⟩
instance : Sub Expr := ⟨sub⟩
instance : Mul Expr := ⟨mul⟩
instance : Neg Expr := ⟨neg⟩

/-- The number computed by a machine that rounds the result of every operation (but a change of sign) with `rnd`: cddm/_core_nb.py:239-573 with
the type `F` of cddm/conf.py:190-202.  Simplified: no overflow and no NaN. -/
noncomputable def run (rnd : ℝ → ℝ) : Expr → ℝ
  | val x => x
  | add a b => rnd (a.run rnd + b.run rnd)
  | sub a b => rnd (a.run rnd - b.run rnd)
  | mul a b => rnd (a.run rnd * b.run rnd)
  | neg a => -a.run rnd
  | fma a b c => rnd (a.run rnd * b.run rnd + c.run rnd)

end Expr

open Expr in
/-- What the compiler may make of an expression under `fastmath = True` (cddm/_core_nb.py:239-573, cddm/conf.py:125-129): any order and grouping
of sums and products, signs moved, zeros left out, common factors taken out, and multiplications fused with additions, anywhere in the
expression.  From the description of LLVM's flags `reassoc`, `nsz` and `contract`.  Not modelled: the flags for special values (`nnan`, `ninf`),
reciprocals (`arcp`) and approximate functions (`afn`), as the kernels neither divide nor call functions; the zeros that vectorized loops start
from, which are added without error. -/
inductive Fast : Expr → Expr → Prop
  | refl (a) : Fast a a
  | trans {a b c} : Fast a b → Fast b c → Fast a c
  | congrAdd {a a' b b'} : Fast a a' → Fast b b' → Fast (add a b) (add a' b')
  | congrSub {a a' b b'} : Fast a a' → Fast b b' → Fast (sub a b) (sub a' b')
  | congrMul {a a' b b'} : Fast a a' → Fast b b' → Fast (mul a b) (mul a' b')
  | congrNeg {a a'} : Fast a a' → Fast (neg a) (neg a')
  | congrFma {a a' b b' c c'} : Fast a a' → Fast b b' → Fast c c' → Fast (fma a b c) (fma a' b' c')
  | addComm (a b) : Fast (add a b) (add b a)
  | addLeft (a b c) : Fast (add a (add b c)) (add (add a b) c)
  | addRight (a b c) : Fast (add (add a b) c) (add a (add b c))
  | mulComm (a b) : Fast (mul a b) (mul b a)
  | mulLeft (a b c) : Fast (mul a (mul b c)) (mul (mul a b) c)
  | mulRight (a b c) : Fast (mul (mul a b) c) (mul a (mul b c))
  | addNeg (a b) : Fast (sub a b) (add a (neg b))
  | subOf (a b) : Fast (add a (neg b)) (sub a b)
  | negNeg (a) : Fast (neg (neg a)) a
  | negIn (a b) : Fast (neg (mul a b)) (mul (neg a) b)
  | negOut (a b) : Fast (mul (neg a) b) (neg (mul a b))
  | negEach (a b) : Fast (neg (add a b)) (add (neg a) (neg b))
  | negBoth (a b) : Fast (add (neg a) (neg b)) (neg (add a b))
  | zeroAdd (a) : Fast (add (val 0) a) a
  | factor (a b c) : Fast (add (mul a b) (mul a c)) (mul a (add b c))
  | contract (a b c) : Fast (add (mul a b) c) (fma a b c)

/-- A sample whose parts are numbers: an element of the arrays given to the kernels (cddm/_core_nb.py:239-573). -/
def symbol (z : Cx ℝ) : Cx Expr := ⟨.val z.re, .val z.im⟩

end Cddm
