import Verif.Model.Core

/-!
# Pairs of frame pairs: `auto_count_mixed` and `cross_count_mixed`

cddm/_core_nb.py:740-811.  The two functions collect for every delay the times of the frame pairs with that delay
in a table, then count the pairs of these times by their distance.
Simplified: the numbers are unbounded; a table is the list of its rows; `period` is not negative.
-/

namespace Cddm

/-- `i = count[m]; if i < table.shape[1]: table[m,i] = v; count[m] += 1` (cddm/_core_nb.py:753-756, 759-762, 774-777) on
the table and its counts; `none` for an index outside the arrays. -/
def fileTime (st : List (List Int) × List Nat) (m : Nat) (v : Int) : Option (List (List Int) × List Nat) := do
  let i ← st.2[m]?
  let row ← st.1[m]?
  if i < row.length then some (st.1.set m (row.set i v), st.2.set m (i + 1)) else some st

/-- `auto_tau_times` (cddm/_core_nb.py:764-777). -/
def autoTauTimes (t : List Int) (tpos : List (List Int)) : Py (List (List Int)) := do
  let st ← (List.range t.length).foldlM (fun st ii =>
    (List.range' ii (t.length - ii)).foldlM (fun st jj => do
      let b ← orUB t[jj]?
      let a ← orUB t[ii]?
      let m : Int := b - a
      if m < 0 then .error .assertionError
      else if m < tpos.length then orUB (fileTime st m.toNat a)
      else .ok st) st) (tpos, List.replicate tpos.length 0)
  .ok st.1

/-- `cross_tau_times` (cddm/_core_nb.py:740-762).  The second assertion compares the shape of `tpos` with itself. -/
def crossTauTimes (t1 t2 : List Int) (tpos tneg : List (List Int)) : Py (List (List Int) × List (List Int)) := do
  if t1.length ≠ t2.length then .error .assertionError
  else do
    let st ← (List.range t1.length).foldlM (fun st ii =>
      (List.range t2.length).foldlM (fun (st : (List (List Int) × List Nat) × (List (List Int) × List Nat)) jj => do
        let a ← orUB t1[ii]?
        let b ← orUB t2[jj]?
        let m : Int := a - b
        if |m| < tpos.length then
          if 0 ≤ m then do
            let p ← orUB (fileTime st.1 m.toNat a)
            .ok (p, st.2)
          else do
            let p ← orUB (fileTime st.2 (-m).toNat a)
            .ok (st.1, p)
        else .ok st) st) ((tpos, List.replicate tpos.length 0), (tneg, List.replicate tneg.length 0))
    .ok (st.1.1, st.2.1)

/-- `np.empty((n, w), int)` filled with -1 (cddm/_core_nb.py:781-784, 800-801). -/
def emptyTable (n w : Nat) : List (List Int) := List.replicate n (List.replicate w (-1))

/-- `pos[i, pos[i] > 0]` (cddm/_core_nb.py:791-796, 808-809). -/
def positiveTimes (row : List Int) : List Int := row.filter fun v => 0 < v

/-- `auto_count_mixed` (cddm/_core_nb.py:799-811). -/
def autoCountMixed (t : List Int) (n period : Nat) : Py (List (List Nat)) := do
  if period = 0 then .error .zeroDivisionError
  else do
    let pos ← autoTauTimes t (emptyTable n (t.length / period * 2))
    pos.mapM fun row => orUB (addCountCross (positiveTimes row) (positiveTimes row) (List.replicate (2 * n) 0))

/-- `cross_count_mixed` (cddm/_core_nb.py:780-797). -/
def crossCountMixed (t1 t2 : List Int) (n period : Nat) :
    Py (List (List Nat) × List (List Nat) × List (List Nat)) := do
  if period = 0 then .error .zeroDivisionError
  else do
    let (pos, neg) ← crossTauTimes t1 t2 (emptyTable n (t1.length / period * 2)) (emptyTable n (t1.length / period * 2))
    let pp ← pos.mapM fun row => orUB (addCountCross (positiveTimes row) (positiveTimes row) (List.replicate (2 * n) 0))
    let nn ← neg.mapM fun row => orUB (addCountCross (positiveTimes row) (positiveTimes row) (List.replicate (2 * n) 0))
    let pn ← (pos.zip neg).mapM fun r =>
      orUB (addCountCross (positiveTimes r.1) (positiveTimes r.2) (List.replicate (2 * n) 0))
    .ok (pp, nn, pn)

end Cddm
