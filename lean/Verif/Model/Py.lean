import Mathlib.Data.List.Basic
import Mathlib.Algebra.Order.Group.Int
import Mathlib.Algebra.BigOperators.Group.List.Basic

/-!
# Python / numpy indexing

Shared vocabulary for the kernels: index resolution with negative wrap-around, slices and
`out[m] += v`.  In compiled numba code an out-of-range index is undefined behaviour; in the model
it is the explicit failure `none`, so "returns `some`" includes memory safety.
-/

namespace Cddm

/-- Resolution of a (possibly negative) index against an array of length `len`.
Models numba/numpy indexing `out[m]` as used in cddm/_core_nb.py:308, 317, 516, 550, 720:
`m >= 0` addresses cell `m`, `m < 0` addresses `len + m`, anything else is out of bounds (`none`). -/
def pyIdx (len : Nat) (m : Int) : Option Nat :=
  if 0 ≤ m then (if m < len then some m.toNat else none)
  else (if 0 ≤ (len : Int) + m then some ((len : Int) + m).toNat else none)

/-- `out[m] += v` (cddm/_core_nb.py:308 and all other kernels). -/
def addAt {M : Type} [Add M] (out : List M) (m : Int) (v : M) : Option (List M) :=
  (pyIdx out.length m).bind fun k => some (out.modify k (· + v))

/-- `x[m]` (read), as in cddm/_core_nb.py:308. -/
def pyGet {α : Type} (x : List α) (m : Int) : Option α :=
  (pyIdx x.length m).bind fun k => x[k]?

/-- `x[0:n]` for an arbitrary integer `n` (cddm/_core_nb.py:343-366): a negative `n` counts from
the end, as in Python. -/
def pyTake {α : Type} (x : List α) (n : Int) : List α :=
  if 0 ≤ n then x.take n.toNat else x.take ((x.length : Int) + n).toNat

/-- `x[i:]` for a non-negative `i` (cddm/_core_nb.py:343-366). -/
def pyDrop {α : Type} (x : List α) (i : Nat) : List α := x.drop i

/-- `for i in range(n): body` (cddm/_core_nb.py:300-308 and all other kernels) over a state that may fail. -/
def forRange {σ : Type} (n : Nat) (s : σ) (body : σ → Nat → Option σ) : Option σ :=
  (List.range n).foldlM body s

/-- `for j in range(a, n): body` (cddm/_core_nb.py:391-398 and other kernels) over a state that may fail. -/
def forRange' {σ : Type} (a n : Nat) (s : σ) (body : σ → Nat → Option σ) : Option σ :=
  (List.range' a (n - a)).foldlM body s

end Cddm
