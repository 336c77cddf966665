import Verif.Model.Cx
import Mathlib.Data.List.ProdSigma
import Mathlib.Algebra.Order.Group.Int

/-!
# Specification vocabulary: sums over pairs of time-stamped samples

A stream is a list of `(time, sample)`.  Everything cddm computes is a sum over pairs of samples
selected by their time difference; these few definitions say which pairs and what is summed,
without reference to loops, arrays or indices.
-/

namespace Cddm

/-- A time-stamped signal: a list of `(time, sample)`. -/
abbrev Stream (α : Type) := List (Int × α)

namespace Spec
variable {α β M R : Type}

/-- Time difference "second minus first" of a pair of stamped samples. -/
def delay (p : (Int × α) × (Int × β)) : Int := p.2.1 - p.1.1

/-- Sum of `g a b` over all pairs (sample `a` of `s1`, sample `b` of `s2`) at time distance `k`. -/
def pairSum [AddCommMonoid M] (g : α → β → M) (s1 : Stream α) (s2 : Stream β) (k : Nat) : M :=
  (((s1 ×ˢ s2).filter fun p => |delay p| = k).map fun p => g p.1.2 p.2.2).sum

/-- Sum of `g a b` over all pairs with signed delay exactly `d`. -/
def pairSumAt [AddCommMonoid M] (g : α → β → M) (s1 : Stream α) (s2 : Stream β) (d : Int) : M :=
  (((s1 ×ˢ s2).filter fun p => delay p = d).map fun p => g p.1.2 p.2.2).sum

/-- All unordered pairs of list positions, a position paired with itself included: the first
component is never later in the list than the second. -/
def selfPairs : List α → List (α × α)
  | [] => []
  | a :: l => (a :: l).map (fun b => (a, b)) ++ selfPairs l

/-- Sum of `g a b` over unordered pairs of samples of one stream at time distance `k`. -/
def selfSum [AddCommMonoid M] (g : α → α → M) (s : Stream α) (k : Nat) : M :=
  (((selfPairs s).filter fun p => |delay p| = k).map fun p => g p.1.2 p.2.2).sum

/-- Orient a pair forward in time: the sample with the smaller time stamp first. -/
def forward (p : (Int × α) × (Int × α)) : (Int × α) × (Int × α) := if delay p < 0 then p.swap else p

/-- Sum of `g earlier later` over unordered pairs at time distance `k`. -/
def selfSumFwd [AddCommMonoid M] (g : α → α → M) (s : Stream α) (k : Nat) : M :=
  (((selfPairs s).filter fun p => |delay p| = k).map
    fun p => g (forward p).1.2 (forward p).2.2).sum

/-- Regularly sampled data: sample number `i` carries the time stamp `i`. -/
def regular (x : List α) : Stream α := x.mapIdx fun i v => ((i : Int), v)

/-- The signed delay filed in cell `k` of a full-size (complex) array of length `L = 2n-1`:
cell `k` holds delay `k` for `k < n`, and delay `k - L` (i.e. it is `out[-(L-k)]`) otherwise. -/
def cellDelay (L k : Nat) : Int := if k < (L + 1) / 2 then k else (k : Int) - L

/-- A bare list of time stamps as a stream without samples. -/
def stamps (t : List Int) : Stream Unit := t.map fun a => (a, ())

variable [CommRing R]

/-- `Re(conj(a) b)`. -/
def reProd (a b : Cx R) : R := (a.conj * b).re
/-- `conj(a) b`. -/
def cxProd (a b : Cx R) : Cx R := a.conj * b
/-- `|b - a|²`. -/
def dist2 (a b : Cx R) : R := (b - a).abs2

end Spec
end Cddm
