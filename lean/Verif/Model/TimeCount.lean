import Verif.Model.Err
import Mathlib.Data.Real.Basic

/-!
# The estimated number of pairs in random triggering (cddm/sim.py)
-/

namespace Cddm

/-- `random_time_count` (cddm/sim.py:341-346).  `count[0:n] = np.arange(n)/n * count[0:n]` raises ValueError if the array
is shorter than `n`, that is for no frames and `n ≥ 2`.  For `n = 0` the array
has one entry, NaN, which is replaced by 0. -/
noncomputable def randomTimeCount (nframes n : Nat) : Py (List ℝ) :=
  if n = 0 then .ok [0]
  else
    let count := (List.range (nframes * n + 1)).reverse.map fun (k : Nat) => (k : ℝ) / n / n
    if count.length < n then .error .valueError
    else
      let count := count.mapIdx fun k c => if k < n then (k : ℝ) / n * c else c
      .ok (count.set 0 (nframes * n : Nat))

end Cddm
