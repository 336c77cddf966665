import Verif.Spec.Multitau

/-!
# Specification vocabulary for the iterative algorithms
-/

namespace Cddm
namespace Spec

/-- The time stamps `0, 1, ..., N-1`. -/
def upTo (N : Nat) : List Int := (List.range N).map Int.ofNat

/-- The default chunk size: `count` halved (rounding down) until it is at most 128, but not below
`levelSize`. -/
def DefaultChunk (levelSize count c : Nat) : Prop :=
  ∃ h, c = count / 2 ^ h ∧ (c ≤ 128 ∨ c / 2 < levelSize) ∧
    ∀ i, i < h → 128 < count / 2 ^ i ∧ levelSize ≤ count / 2 ^ (i + 1)

/-- The times and the number of frames meant by the arguments: `count` frames, by default as many
as there are times, or, without times, as the data has; the times are `0, 1, ...` by default, those
of the second signal are by default those of the first; there are enough of them. -/
structure EffTimes (t1 t2 : Option (List Int)) (count dataLen : Option Nat) (T1 T2 : List Int)
    (cnt : Nat) : Prop where
  count : count = some cnt ∨ (count = none ∧ (∀ t, t1 = some t → cnt = t.length) ∧
    (t1 = none → dataLen = some cnt))
  first : T1 = t1.getD (upTo cnt)
  second : T2 = t2.getD T1
  enough : cnt ≤ T1.length
  same : T1.length = T2.length

/-- `N` frames in chunks of `c` are processed: `N = c * 2^k` is the largest such number not above
the number of frames `cnt`. -/
structure EffFrames (levelSize : Nat) (chunkSize : Option Nat) (cnt c k N : Nat) : Prop where
  chunk : chunkSize = some c ∨ (chunkSize = none ∧ DefaultChunk levelSize cnt c)
  level : 0 < levelSize
  lo : levelSize ≤ c
  frames : N = c * 2 ^ k
  le : N ≤ cnt
  lt : cnt < 2 * N

/-- The number of slow levels: as many as have at least `levelSize` samples, or fewer if fewer are
asked for. -/
def EffLevels (levelSize N : Nat) (nlevel : Option Int) (nl : Nat) : Prop :=
  ∃ nl0 : Nat, levelSize ≤ N / 2 ^ nl0 ∧ N / 2 ^ (nl0 + 1) < levelSize ∧
    (nlevel = none → nl = nl0) ∧ ∀ l, nlevel = some l → (nl : Int) = min l nl0

/-- Method and binning: by default 'corr' and averaging, no averaging for 'diff'. -/
structure EffBinning (method : Option String) (binning : Option Int) (m : String) (b : Int) :
    Prop where
  method : m = method.getD "corr"
  binning : b = binning.getD (if m = "diff" then 0 else 1)
  known : ((m = "corr" ∨ m = "fft") ∧ (b = 0 ∨ b = 1 ∨ b = 2)) ∨ (m = "diff" ∧ (b = 0 ∨ b = 2))

/-- The first `N` frames as they are correlated: with automatic background the mean of the first
`c` frames is subtracted from each. -/
noncomputable def processed (autoBackground : Bool) (c N : Nat) (x : List (Cx ℝ)) : List (Cx ℝ) :=
  (if autoBackground then x.map (fun a => a - (1 / (c : ℝ)) • (x.take c).sum) else x).take N

/-- Frames whose chunks are not neighbours are at least `n` apart in time. -/
def Spaced (c N n : Nat) (T1 T2 : List Int) : Prop :=
  ∀ i j : Nat, i < N → j < N → (i / c + 2 ≤ j / c ∨ j / c + 2 ≤ i / c) →
    (n : Int) ≤ |T2.getD j 0 - T1.getD i 0|

/-- What method 'fft' needs: distinct time stamps, and in every pair of chunks that are correlated
(the same or neighbours) frames that are at least `n - 2` apart. -/
structure FftFits (c N n : Nat) (T1 T2 : List Int) : Prop where
  pos : 1 ≤ n
  nodup1 : (T1.take N).Nodup
  nodup2 : (T2.take N).Nodup
  span : ∀ p q, (p + 1) * c ≤ N → (q + 1) * c ≤ N → p ≤ q + 1 → q ≤ p + 1 →
    ∃ i j : Nat, i / c = p ∧ j / c = q ∧ (n : Int) ≤ |T2.getD j 0 - T1.getD i 0| + 2

/-- Arguments of an iterative cross-correlation with method `m`, norm `v`, `n` linear delays, that
processes `N` frames in chunks of `c`. -/
structure IterArgs (cross cplx : Bool) (m : String) (v : Int) (c N n : Nat) (T1 T2 : List Int) :
    Prop where
  method : m = "corr" ∨ m = "fft" ∨ m = "diff"
  norm : SupportedNorm m cross v
  diff : cplx = true → m ≠ "diff"
  times1 : N ≤ T1.length
  times2 : N ≤ T2.length
  fft : m = "fft" → FftFits c N n T1 T2
  distinct : cross = false → (T1.take N).Nodup

/-- Part `q` of the signal with samples `y` at times `T`, in parts of `c` samples. -/
def part {α : Type} (T : List Int) (y : Nat → α) (c q : Nat) : Stream α :=
  (List.range c).map fun k => (T.getD (q * c + k) 0, y (q * c + k))

/-- The first `N` samples. -/
def firsts {α : Type} (T : List Int) (y : Nat → α) (N : Nat) : Stream α :=
  (List.range N).map fun i => (T.getD i 0, y i)

end Spec
end Cddm
