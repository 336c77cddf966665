import Verif.Spec.IterApi
import Verif.Model.IterYield

/-!
# Specification vocabulary for the results shown while an iterative function runs
-/

namespace Cddm
namespace Spec

/-- The entries whose position is divisible by `v`. -/
def everyNth {Y : Type} (v : Int) (ys : List Y) : List Y :=
  (ys.zipIdx.filter fun p => decide (v ∣ (p.2 : Int))).map Prod.fst

/-- Of the first `n` frames, the ones in whole chunks of level `j` (of `chunk * 2^j` frames), if the
level is binned while the frames arrive. -/
def binnedFrames (o : MultiOpts) (e : Eff) (n j : Nat) : Nat :=
  if j ≤ lastLevel o e then n / (e.chunk * 2 ^ j) * (e.chunk * 2 ^ j) else 0

end Spec
end Cddm
