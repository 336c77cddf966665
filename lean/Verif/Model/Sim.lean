import Verif.Model.Err
import Verif.Model.Arr2
import Verif.Model.KSelect
import Mathlib.Analysis.SpecialFunctions.Exp
import Mathlib.Analysis.SpecialFunctions.Trigonometric.Basic
import Mathlib.Data.Finset.Sort

/-!
# Simulator (cddm/sim.py, cddm/_sim_nb.py)

Coordinates are real numbers.  Random numbers are arguments.
-/

namespace Cddm

/-! ### Periodic box -/

open Classical in
/-- The loop of `mirror` (cddm/_sim_nb.py:26-33), at most `n` turns. -/
noncomputable def mirrorLoop (x0 x1 : ℝ) : Nat → ℝ → Option ℝ
  | 0, _ => none
  | n + 1, x =>
    if x < x0 then mirrorLoop x0 x1 n (x1 + x - x0)
    else if x ≥ x1 then mirrorLoop x0 x1 n (x0 + x - x1)
    else some x

open Classical in
/-- `mirror` (cddm/_sim_nb.py:15-33): `none` if the loop does not end. -/
noncomputable def mirror (x x0 x1 : ℝ) : Option ℝ :=
  if x0 = x1 then some x
  else if h : ∃ n y, mirrorLoop x0 x1 n x = some y then mirrorLoop x0 x1 h.choose x
  else none

/-- `mirror(x, 0, shape)` of all particles (cddm/sim.py:132-134, 148, 494-495). -/
noncomputable def mirrorAll (shape : Nat × Nat) (x : List (ℝ × ℝ)) : Option (List (ℝ × ℝ)) :=
  x.mapM fun p => do
    let a ← mirror p.1 0 shape.1
    let b ← mirror p.2 0 shape.2
    some (a, b)

/-- `make_step` of all particles (cddm/_sim_nb.py:42-45, cddm/sim.py:147): `inc p` is the random
step plus the velocity of particle `p`. -/
def makeStep (x : List (ℝ × ℝ)) (inc : Nat → ℝ × ℝ) : List (ℝ × ℝ) :=
  x.mapIdx fun p q => (q.1 + (inc p).1, q.2 + (inc p).2)

/-- The loop of `brownian_walk` (cddm/sim.py:136-148): the coordinates yielded.  `inc i x p` is the
increment `randn()*scale + velocity` of particle `p` at step `i`; with callable `delta` or `velocity`
it depends on the coordinates `x`. -/
noncomputable def walkLoop (shape : Nat × Nat) (inc : Nat → List (ℝ × ℝ) → Nat → ℝ × ℝ) :
    Nat → Nat → List (ℝ × ℝ) → Option (List (List (ℝ × ℝ)))
  | 0, _, _ => some []
  | n + 1, i, x => do
    let x' ← mirrorAll shape (makeStep x (inc i x))
    let rest ← walkLoop shape inc n (i + 1) x'
    some (x :: rest)

/-- `brownian_walk` (cddm/sim.py:83-148), started with a list of pairs; `none` if it hangs. -/
noncomputable def brownianWalk (x0 : List (ℝ × ℝ)) (count : Nat) (shape : Nat × Nat)
    (inc : Nat → List (ℝ × ℝ) → Nat → ℝ × ℝ) : Option (List (List (ℝ × ℝ))) := do
  let x ← mirrorAll shape x0
  walkLoop shape inc count 0 x

/-- `_coordinate_rotate` (cddm/sim.py:497-505). -/
noncomputable def coordinateRotate (rotation : Option ℝ) (p : ℝ × ℝ) : ℝ × ℝ :=
  match rotation with
  | none => p
  | some r => (Real.cos r * p.1 - Real.sin r * p.2, Real.sin r * p.1 + Real.cos r * p.2)

/-- `coordinate_transform` (cddm/sim.py:460-495). -/
noncomputable def coordinateTransform (data : List (ℝ × ℝ)) (shape : Nat × Nat) (offset : Option (ℝ × ℝ))
    (rotation : Option ℝ) : Option (List (ℝ × ℝ)) :=
  let c : ℝ × ℝ := ((shape.1 : ℝ) / 2, (shape.2 : ℝ) / 2)
  let rc := coordinateRotate rotation c
  let off : ℝ × ℝ :=
    match offset with
    | none => (c.1 - rc.1, c.2 - rc.2)
    | some o => (o.1 + (c.1 - rc.1), o.2 + (c.2 - rc.2))
  mirrorAll shape (data.map fun p =>
    ((coordinateRotate rotation p).1 + off.1, (coordinateRotate rotation p).2 + off.2))

/-! ### Drawing -/

/-- `psf_gauss` (cddm/_sim_nb.py:47-52), cut to an unsigned integer; `dy`, `dx` are `x-x0`, `y-y0`. -/
noncomputable def psfGauss (dy dx sigma : ℝ) (intensity : Nat) : Nat :=
  ⌊(intensity : ℝ) * Real.exp (-(1 / 2) * ((dy + 1 / 2) ^ 2 + (dx + 1 / 2) ^ 2) / sigma ^ 2)⌋₊

/-- Compiled code resolves an index `-n <= i < 0` like Python; everything outside is an access outside
the array (cddm/_sim_nb.py:62, 158). -/
def resolveIdx (n : Nat) (i : Int) : Option Nat :=
  if 0 ≤ i then (if i < n then some i.toNat else none)
  else if 0 ≤ i + n then some (i + n).toNat else none

/-- `im[i,j] = im[i,j] + p` for unsigned integers of `bits` bits (cddm/_sim_nb.py:62, 158). -/
def addPixel (bits : Nat) (im : Arr2 Nat) (i j : Int) (p : Nat) : Option (Arr2 Nat) := do
  let i ← resolveIdx im.h i
  let j ← resolveIdx im.w j
  some { im with get := fun r c => if r = i ∧ c = j then (im.get i j + p) % 2 ^ bits else im.get r c }

/-- The flooring of an index in `draw_psf` (cddm/_sim_nb.py:147-157). -/
def wrapOnce (n : Nat) (i : Int) : Int := if i ≥ n then i - n else if i < 0 then n + i else i

/-- `range(h-size, h+size+1)` (cddm/_sim_nb.py:139-140). -/
def psfRange (h size : Int) : List Int :=
  (List.range (2 * size + 1).toNat).map fun (k : Nat) => h - size + k

/-- `int(h0)` (cddm/_sim_nb.py:62, 138): truncation toward zero. -/
noncomputable def truncInt (x : ℝ) : Int := if 0 ≤ x then ⌊x⌋ else ⌈x⌉

/-- The two inner loops of `draw_psf` (cddm/_sim_nb.py:139-158) for one particle. -/
noncomputable def drawOnePsf (bits : Nat) (size : Int) (im : Arr2 Nat) (pt : ℝ × ℝ) (intensity : Nat) (sigma : ℝ) :
    Option (Arr2 Nat) :=
  (psfRange (truncInt pt.1) size ×ˢ psfRange (truncInt pt.2) size).foldlM
    (fun im (q : Int × Int) => addPixel bits im (wrapOnce im.h q.1) (wrapOnce im.w q.2)
      (psfGauss (q.1 - pt.1) (q.2 - pt.2) sigma intensity)) im

/-- `draw_psf` (cddm/_sim_nb.py:126-159); the particles one after the other (they may be drawn in
parallel).  `sigma.max()` of no particles raises ValueError. -/
noncomputable def drawPsf (bits : Nat) (im : Arr2 Nat) (points : List (ℝ × ℝ)) (intensity : List Nat)
    (sigma : List ℝ) : Py (Arr2 Nat) :=
  if points.length ≠ intensity.length ∨ points.length ≠ sigma.length then .error .assertionError
  else match sigma with
    | [] => .error .valueError
    | s :: rest =>
      let size := pyRound (3 * rest.foldl max s)
      orUB (((points.zip intensity).zip sigma).foldlM
        (fun im q => drawOnePsf bits size im q.1.1 q.1.2 q.2) im)

/-- `draw_points` (cddm/_sim_nb.py:54-63). -/
noncomputable def drawPoints (bits : Nat) (im : Arr2 Nat) (points : List (ℝ × ℝ)) (intensity : List Nat) :
    Py (Arr2 Nat) :=
  if points.length ≠ intensity.length then .error .assertionError
  else orUB ((points.zip intensity).foldlM
    (fun im q => addPixel bits im (truncInt q.1.1) (truncInt q.1.2) q.2) im)

/-! ### Analogue to digital conversion -/

open Classical in
/-- `adc_clean` (cddm/_sim_nb.py:86-93) of one pixel, `saturation` not zero. -/
noncomputable def adcClean (frame saturation blackLevel : ℝ) (maxv : Nat) : Nat :=
  let out := (frame - blackLevel) / saturation * maxv
  if out < 0 then 0 else if out > maxv then maxv else ⌊out⌋₊

open Classical in
/-- `_adc_scale` (cddm/_sim_nb.py:65-71) followed by `adc_8bit`, `adc_10bit`, `adc_12bit`, `adc_14bit`
or `adc_16bit` (cddm/_sim_nb.py:95-124) of one pixel, `saturation` not zero. -/
noncomputable def adcBit (bits : Nat) (frame saturation blackLevel : ℝ) : Nat :=
  let out := (frame - blackLevel) / saturation
  let out := if out < 0 then 0 else out
  if out < 1 then ⌊out * 2 ^ bits⌋₊ else 2 ^ bits - 1

/-- The noise models of `adc` (cddm/sim.py:446-452). -/
inductive NoiseModel
  | gaussian | poisson | none | other

open Classical in
/-- `adc` (cddm/sim.py:414-458) of one pixel; `bits` is the number in `bit_depth`.  `z` is the normal
random number, `p1` and `p2` the Poisson random numbers.  The square root of a negative number (NaN),
zero saturation and more than 16 bits are not modelled. -/
noncomputable def adc (frame saturation blackLevel : ℝ) (bits : Nat) (readout : ℝ) (noise : NoiseModel)
    (z : ℝ) (p1 p2 : Nat) : Py Nat := do
  let frame ←
    match noise with
    | .gaussian =>
      if frame + readout < 0 then .error .notModelled
      else .ok (frame + readout + z * Real.sqrt (frame + readout))
    | .poisson =>
      .ok ((if frame > 0 then (p1 : ℝ) else 0) + (if readout > 0 then (p2 : ℝ) else 0))
    | .none => .ok frame
    | .other => .error .valueError
  if bits > 16 ∨ saturation = 0 then .error .notModelled
  else .ok (adcClean frame saturation blackLevel (2 ^ bits - 1))

/-! ### Trigger times -/

/-- `np.random.randint(low, high)` (cddm/sim.py:337, 352-353): ValueError for an empty range; `r` is
the random number. -/
def randint (low high r : Int) : Py Int := if low < high then .ok r else .error .valueError

/-- The loop of `create_random_time` (cddm/sim.py:336-338); `rand i low high` is the random number
of frame `i`. -/
def randomTimeLoop (n dtMin : Int) (rand : Nat → Int → Int → Int) : Nat → Nat → Int → Py (List Int)
  | 0, _, _ => .ok []
  | k + 1, i, r1 => do
    let low := max 0 (dtMin - n + r1)
    let r ← randint low n (rand i low n)
    let rest ← randomTimeLoop n dtMin rand k (i + 1) r
    .ok (((i : Int) * n + r) :: rest)

/-- `create_random_time` (cddm/sim.py:332-339). -/
def createRandomTime (nframes : Nat) (n dtMin : Int) (rand : Nat → Int → Int → Int) : Py (List Int) :=
  randomTimeLoop n dtMin rand nframes 0 0

/-- `create_random_times1` (cddm/sim.py:348-356); `rand1 k` and `rand2 k` are the random numbers of
the frames.  `iperiod//(2*n)` is 1 and `iperiod//2` is `n`. -/
def createRandomTimes1 (nframes : Nat) (n : Nat) (rand1 rand2 : Nat → Nat) :
    Py (List Int × List Int) :=
  if n = 0 then .error .valueError
  else
    let iperiod := n * 2
    .ok ((List.range nframes).map fun (k : Nat) => ((k * iperiod + rand1 k * (iperiod / (2 * n)) : Nat) : Int),
      (List.range nframes).map fun (k : Nat) => ((k * iperiod + rand2 k * (iperiod / 2) : Nat) : Int))

/-- `create_random_times2` (cddm/sim.py:358-368); `rand3 k = 0` makes the two times equal. -/
def createRandomTimes2 (nframes : Nat) (n : Nat) (rand1 rand2 rand3 : Nat → Nat) :
    Py (List Int × List Int) :=
  if n = 0 then .error .valueError
  else
    let iperiod := n * 2
    let t1 (k : Nat) : Int := ((k * iperiod + rand1 k * (iperiod / (2 * n)) : Nat) : Int)
    let t2 (k : Nat) : Int := ((k * iperiod + rand2 k * (iperiod / 2) : Nat) : Int)
    .ok ((List.range nframes).map t1,
      (List.range nframes).map fun (k : Nat) => if rand3 k = 0 then t1 k else t2 k)

/-! ### Triggered frames -/

/-- The loop of `data_trigger` (cddm/sim.py:297-304): `ii` is the next index, `t` the later ones in
increasing order (the code keeps them reversed and pops from the end). -/
def triggerLoop {α : Type} : List α → Nat → Int → List Int → List α
  | [], _, _, _ => []
  | d :: ds, i, ii, t =>
    if (i : Int) = ii then
      match t with
      | [] => [d]
      | ii' :: t' => d :: triggerLoop ds (i + 1) ii' t'
    else triggerLoop ds (i + 1) ii t

/-- `data_trigger` (cddm/sim.py:280-304). -/
def dataTrigger {α : Type} (data : List α) (indices : List Int) : Py (List α) :=
  match (indices.toFinset.sort (· ≤ ·)) with
  | [] => .error .indexError
  | ii :: t => .ok (triggerLoop data 0 ii t)

/-- `i in t[:1]` (cddm/sim.py:262, 267). -/
def isNext (i : Nat) (t : List Int) : Bool :=
  match t with
  | [] => false
  | a :: _ => a == i

/-- The loop of `particles_video` with two cameras (cddm/sim.py:260-274); `f1` and `f2` draw the frames
of the cameras (cddm/sim.py:240-257, 264-265, 269). -/
def dualLoop {D F : Type} (f1 f2 : D → F) : List D → Nat → List Int → List Int → Option F → Option F →
    List (F × F)
  | [], _, _, _, _, _ => []
  | d :: ds, i, t1, t2, out1, out2 =>
    let out1 := if isNext i t1 then some (f1 d) else out1
    let t1 := if isNext i t1 then t1.tail else t1
    let out2 := if isNext i t2 then some (f2 d) else out2
    let t2 := if isNext i t2 then t2.tail else t2
    match out1, out2 with
    | some a, some b => (a, b) :: dualLoop f1 f2 ds (i + 1) t1 t2 none none
    | out1, out2 => dualLoop f1 f2 ds (i + 1) t1 t2 out1 out2

/-- The loop of `particles_video` with one camera (cddm/sim.py:260-266, 275-278). -/
def singleLoop {D F : Type} (f1 : D → F) : List D → Nat → List Int → List F
  | [], _, _ => []
  | d :: ds, i, t1 =>
    if isNext i t1 then f1 d :: singleLoop f1 ds (i + 1) t1.tail
    else singleLoop f1 ds (i + 1) t1

end Cddm
