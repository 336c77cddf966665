import Verif.Model.IterApi
import Verif.Spec.MultitauIter
import Mathlib.Algebra.BigOperators.Group.Finset.Basic

/-!
# Specification vocabulary for the iterative functions
-/

namespace Cddm
namespace Spec

/-- What the arguments of an iterative call mean: the times, the number of frames offered, the chunk
size, `frames = chunk * 2^k` frames to process, the number of slow levels, method, binning, norm. -/
structure Eff where
  T1 : List Int
  T2 : List Int
  count : Nat
  chunk : Nat
  k : Nat
  frames : Nat
  nlevel : Nat
  method : String
  binning : Int
  norm : Int

/-- The call with the arguments `t1`, `t2`, `o` means `e`, and is one that can be computed. -/
structure IterCall (cross cplx : Bool) (t1 t2 : Option (List Int)) (dataLen : Option Nat)
    (o : MultiOpts) (e : Eff) : Prop where
  pair : cross = true → t1.isSome = t2.isSome
  mode : o.mode = "full" ∨ o.mode = "chunk"
  times : EffTimes t1 t2 o.count dataLen e.T1 e.T2 e.count
  frames : EffFrames o.levelSize o.chunkSize e.count e.chunk e.k e.frames
  levels : EffLevels o.levelSize e.frames o.nlevel e.nlevel
  binning : EffBinning o.method o.binning e.method e.binning
  norm : e.norm = effNorm o.norm e.method cross
  args : IterArgs cross cplx e.method e.norm e.chunk e.frames (o.period * o.levelSize) e.T1 e.T2
  period : 1 ≤ o.period
  fft : cross = false → e.method = "fft" → o.period * o.levelSize ≤ 2 * e.chunk + 1

/-- One frame in each period of `p` time units: frame `i` in `[i p, (i+1) p)`. -/
def OnePerPeriod (p N : Nat) (T : List Int) : Prop :=
  ∀ i : Nat, i < N → (p : Int) * i ≤ T.getD i 0 ∧ T.getD i 0 < p * (i + 1)

/-- The mean of some frames. -/
noncomputable def meanOf (y : List (Cx ℝ)) : Cx ℝ := (1 / (y.length : ℝ)) • y.sum

/-- Their mean squared deviation from the mean. -/
noncomputable def varianceOf (y : List (Cx ℝ)) : ℝ :=
  (1 / (y.length : ℝ)) * (y.map fun a => (a - meanOf y).abs2).sum

/-- `c` is the chunk size of the call. -/
def IsChunk (t1 t2 : Option (List Int)) (dataLen : Option Nat) (o : MultiOpts) (c : Nat) :
    Prop :=
  ∀ T1 T2 cnt, EffTimes t1 t2 o.count dataLen T1 T2 cnt →
    o.chunkSize = some c ∨ (o.chunkSize = none ∧ DefaultChunk o.levelSize cnt c)

/-- Piece number `q` of a list, in pieces of `c`. -/
def piece {α : Type} (c q : Nat) (x : List α) : List α := (x.drop (q * c)).take c

/-- The number of pieces of `c` of a list of `n`, the last one possibly shorter. -/
def pieces (c n : Nat) : Nat := (n + c - 1) / c

/-- Cell by cell sum of the cross-correlation arrays of `Q` pairs of streams (`crossData`). -/
noncomputable def crossDataSum {C : Type} [AddCommMonoid C] (full : Bool) (g : Cx ℝ → Cx ℝ → C)
    (m : String) (v : Int) (L Q : Nat) (s1 s2 : Nat → Stream (Cx ℝ)) (q1 q2 : Nat → Stream ℝ) :
    CorrAout C where
  cor := some (cells L fun L k => ∑ p ∈ Finset.range Q, cellSum full g (s1 p) (s2 p) L k)
  count := some (cells L fun L k =>
    ∑ p ∈ Finset.range Q, cellSum full (fun _ _ => 1) (s1 p) (s2 p) L k)
  sq := if WantsSquares v ∧ m ≠ "diff" then some (cells L fun L k =>
    ∑ p ∈ Finset.range Q, cellSum full (· + ·) (q1 p) (q2 p) L k) else none
  ds1 := if WantsSums v then some (cells L fun L k =>
    ∑ p ∈ Finset.range Q, cellSum full (fun a _ => a) (s1 p) (s2 p) L k) else none
  ds2 := if WantsSums v then some (cells L fun L k =>
    ∑ p ∈ Finset.range Q, cellSum full (fun _ b => b) (s1 p) (s2 p) L k) else none

/-- Cell by cell sum of the auto-correlation arrays of `Q` streams (`autoData`); `cor` sums the
products of one stream. -/
noncomputable def autoDataSum {C : Type} [AddCommMonoid C] (cor : Stream (Cx ℝ) → Nat → C)
    (m : String) (v : Int) (L Q : Nat) (s : Nat → Stream (Cx ℝ)) (q : Nat → Stream ℝ) :
    CorrAout C where
  cor := some (cells L fun _ k => ∑ p ∈ Finset.range Q, cor (s p) k)
  count := some (cells L fun _ k => ∑ p ∈ Finset.range Q, selfSum (fun _ _ => 1) (s p) k)
  sq := if WantsSquares v ∧ m ≠ "diff" then some (cells L fun _ k =>
    ∑ p ∈ Finset.range Q, selfSum (· + ·) (q p) k) else none
  ds1 := if WantsSums v then some (cells L fun _ k =>
    ∑ p ∈ Finset.range Q, selfSum (fun a b => (1 / 2 : ℝ) • (a + b)) (s p) k) else none
  ds2 := none

/-- Every count of `a` is at most that of `b`. -/
def CountsLe {C : Type} (a b : CorrAout C) : Prop :=
  ∃ x y, a.count = some x ∧ b.count = some y ∧ List.Forall₂ (· ≤ ·) x y

/-- The highest level that is binned while the frames arrive; the ones above it are binned in the end,
from the samples of this one. -/
def lastLevel (o : MultiOpts) (e : Eff) : Nat := if o.nlevel = none then e.k - 1 else e.nlevel

/-- The multiple-tau call that `iccorr(n = n, ...)` stands for: no slow levels, period 1. -/
def iccorrAsMulti (o : IccorrOpts) (n : Nat) : MultiOpts :=
  { levelSize := n, norm := o.norm, method := o.method, count := o.count, nlevel := some 0
    chunkSize := o.chunkSize, autoBackground := o.autoBackground, mode := o.mode }

/-- The same for `iacorr(n = n, ...)`. -/
def iacorrAsMulti (o : IacorrOpts) (n : Nat) : MultiOpts :=
  { levelSize := n, norm := o.norm, method := o.method, count := o.count, nlevel := some 0
    chunkSize := o.chunkSize, autoBackground := o.autoBackground, mode := o.mode }

end Spec
end Cddm
