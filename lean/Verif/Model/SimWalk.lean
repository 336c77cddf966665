import Verif.Model.Sim

/-!
# Simulated particles and videos (cddm/sim.py:23-29, 83-278, 370-411)

A generator that is read to its end is a pair: the values yielded, and how it ended (normally or with an
exception).  Random numbers are arguments: `g i p` are the two normal random numbers drawn for particle
`p` in step `i` (`np.random.randn()` in `make_step`, cddm/_sim_nb.py:45, called once for each coordinate),
`r p` the two numbers of `np.random.rand` for particle `p` (cddm/sim.py:180).
-/

namespace Cddm

/-! ### Step parameters -/

/-- A number or an array with one or two axes, passed as `velocity` or `delta` (cddm/sim.py:122, 126, 140,
143). -/
inductive StepArr
  | scalar (a : ℝ)
  | vec (n : Nat) (get : Nat → ℝ)
  | mat (rows cols : Nat) (get : Nat → Nat → ℝ)

/-- The product of an array and a number (cddm/sim.py:122, 126, 144). -/
def StepArr.times (c : ℝ) : StepArr → StepArr
  | .scalar a => .scalar (a * c)
  | .vec n g => .vec n fun i => g i * c
  | .mat r k g => .mat r k fun i j => g i j * c

/-- Broadcasting to `(n, 2)` (cddm/sim.py:147, 189): the pair of particle `p`, `none` if the shapes do not
fit. -/
def StepArr.pairs (n : Nat) : StepArr → Option (Nat → ℝ × ℝ)
  | .scalar a => some fun _ => (a, a)
  | .vec k g =>
    if k = 2 then some fun _ => (g 0, g 1)
    else if k = 1 then some fun _ => (g 0, g 0)
    else none
  | .mat r k g =>
    if r = n ∨ r = 1 then
      if k = 2 then some fun p => (g (if r = 1 then 0 else p) 0, g (if r = 1 then 0 else p) 1)
      else if k = 1 then some fun p => (g (if r = 1 then 0 else p) 0, g (if r = 1 then 0 else p) 0)
      else none
    else none

/-- The argument as used by `make_step` (cddm/sim.py:147) for `n` particles: ValueError if the shapes do
not fit.  Not modelled: a single particle with an array of several rows, which multiplies the particle. -/
def StepArr.forStep (n : Nat) (a : StepArr) : Py (Nat → ℝ × ℝ) :=
  match a.pairs n with
  | some f => .ok f
  | none =>
    match a with
    | .mat _ k _ => if n = 1 ∧ (k = 1 ∨ k = 2) then .error .notModelled else .error .valueError
    | _ => .error .valueError

/-- `delta` and `velocity`: given, or a function of the coordinates (cddm/sim.py:121-127, 139-145). -/
inductive WalkArg
  | const (a : StepArr)
  | call (f : List (ℝ × ℝ) → StepArr)

/-- The array `_velocity` (cddm/sim.py:121-122, 139-141); the value of a function is not multiplied by `dt`. -/
def velocityOf (dt : ℝ) (velocity : WalkArg) (x : List (ℝ × ℝ)) : StepArr :=
  match velocity with
  | .const a => a.times dt
  | .call f => f x

/-- The array `_scale` (cddm/sim.py:124-127, 142-145). -/
noncomputable def scaleOf (dt : ℝ) (delta : WalkArg) (x : List (ℝ × ℝ)) : StepArr :=
  match delta with
  | .const a => a.times (Real.sqrt dt)
  | .call f => (f x).times (Real.sqrt dt)

/-! ### Walk -/

/-- One turn of the loop of `brownian_walk` after the yield (cddm/sim.py:139-148), with `make_step`
(cddm/_sim_nb.py:43-45). -/
noncomputable def walkStep (shape : Nat × Nat) (delta : WalkArg) (dt : ℝ) (velocity : WalkArg) (g : Nat → ℝ × ℝ)
    (x : List (ℝ × ℝ)) : Py (List (ℝ × ℝ)) := do
  let s ← (scaleOf dt delta x).forStep x.length
  let v ← (velocityOf dt velocity x).forStep x.length
  orUB (mirrorAll shape (makeStep x fun p => ((g p).1 * (s p).1 + (v p).1, (g p).2 * (s p).2 + (v p).2)))

/-- The loop of `brownian_walk` (cddm/sim.py:136-148). -/
noncomputable def walkGen (shape : Nat × Nat) (delta : WalkArg) (dt : ℝ) (velocity : WalkArg)
    (g : Nat → Nat → ℝ × ℝ) : Nat → Nat → List (ℝ × ℝ) → List (List (ℝ × ℝ)) × Py Unit
  | 0, _, _ => ([], .ok ())
  | n + 1, i, x =>
    match walkStep shape delta dt velocity (g i) x with
    | .error e => ([x], .error e)
    | .ok x' =>
      let r := walkGen shape delta dt velocity g n (i + 1) x'
      (x :: r.1, r.2)

/-- Initial coordinates (cddm/sim.py:115-119, 182-184): pairs, or an array of numbers with one axis. -/
inductive Coords
  | points (x : List (ℝ × ℝ))
  | flat (n : Nat)

open Classical in
/-- `brownian_walk` (cddm/sim.py:83-148).  The square root of a negative `dt` (NaN) is not modelled. -/
noncomputable def brownianWalkGen (x0 : Coords) (count : Nat) (shape : List Nat) (delta : WalkArg) (dt : ℝ)
    (velocity : WalkArg) (g : Nat → Nat → ℝ × ℝ) : List (List (ℝ × ℝ)) × Py Unit :=
  match x0 with
  | .flat _ => ([], .error .valueError)
  | .points x =>
    match shape with
    | [h, w] =>
      if dt < 0 then ([], .error .notModelled)
      else match orUB (mirrorAll (h, w) x) with
        | .error e => ([], .error e)
        | .ok x => walkGen (h, w) delta dt velocity g count 0 x
    | _ => ([], .error .valueError)

/-- The initial coordinates of `brownian_particles` (cddm/sim.py:179-184).  A shape that is not a pair
raises ValueError, here or in `brownian_walk`. -/
noncomputable def startCoords (shape : List Nat) (num : Nat) (x0 : Option Coords) (r : Nat → ℝ × ℝ) : Py Coords :=
  match x0 with
  | none =>
    match shape with
    | [h, w] => .ok (.points ((List.range num).map fun (p : Nat) => ((r p).1 * h, (r p).2 * w)))
    | _ => .error .valueError
  | some (.points x) => if x.length ≠ num then .error .valueError else .ok (.points x)
  | some (.flat n) => if n ≠ num then .error .valueError else .ok (.flat n)

/-- `v0` of `brownian_particles` (cddm/sim.py:186-192): `v0[:,:] = velocity` raises IndexError if `v0` has one
axis, ValueError if the shapes do not fit. -/
def startVelocity (x0 : Coords) (velocity : WalkArg) : Py WalkArg :=
  match velocity with
  | .call f => .ok (.call f)
  | .const a =>
    match x0 with
    | .flat _ => .error .indexError
    | .points x =>
      match a.pairs x.length with
      | none => .error .valueError
      | some v => .ok (.const (.mat x.length 2 fun p c => if c = 0 then (v p).1 else (v p).2))

/-- `brownian_particles` (cddm/sim.py:150-194). -/
noncomputable def brownianParticles (count : Nat) (shape : List Nat) (num : Nat) (delta : WalkArg) (dt : ℝ)
    (velocity : WalkArg) (x0 : Option Coords) (r : Nat → ℝ × ℝ) (g : Nat → Nat → ℝ × ℝ) :
    List (List (ℝ × ℝ)) × Py Unit :=
  match startCoords shape num x0 r with
  | .error e => ([], .error e)
  | .ok x =>
    match startVelocity x velocity with
    | .error e => ([], .error e)
    | .ok v => brownianWalkGen x count shape delta dt v g

/-! ### Video -/

/-- The dtype of the frames (cddm/sim.py:24-25). -/
inductive FrameDtype
  | uint8 | uint16 | other
  deriving DecidableEq

/-- Bits of the dtype (cddm/sim.py:23-29). -/
def FrameDtype.bits : FrameDtype → Nat
  | .uint8 => 8
  | .uint16 => 16
  | .other => 0

/-- `_inspect_frame_dtype` (cddm/sim.py:23-29). -/
def inspectFrameDtype (dtype : FrameDtype) (intensity : Int) : Py FrameDtype :=
  if dtype = .other then .error .valueError
  else if intensity > 255 ∧ dtype ≠ .uint16 ∨ intensity < 0 then .error .valueError
  else .ok dtype

/-- Arguments of `particles_video` and `simple_brownian_video` that describe the camera (cddm/sim.py:196-197,
370). -/
structure CameraArgs where
  /-- frame shape -/
  shape : Nat × Nat
  /-- background value -/
  background : Int
  /-- intensity of a particle -/
  intensity : Int
  /-- width of the point spread function -/
  sigma : Option ℝ
  /-- dtype of the frames -/
  dtype : FrameDtype
  /-- offset of camera 1 -/
  offset : Option (ℝ × ℝ)
  /-- rotation of camera 1 -/
  rotation : Option ℝ

/-- `get_frame` (cddm/sim.py:240-257) with one intensity and one sigma for all particles. -/
noncomputable def getFrame (c : CameraArgs) (data : List (ℝ × ℝ)) : Py (Arr2 Nat) :=
  let im : Arr2 Nat := ⟨c.shape.1, c.shape.2, fun _ _ => c.background.toNat⟩
  let int := List.replicate data.length c.intensity.toNat
  match c.sigma with
  | none => drawPoints c.dtype.bits im data int
  | some s => drawPsf c.dtype.bits im data int (List.replicate data.length s)

/-- The frame of camera 1 (cddm/sim.py:264-265). -/
noncomputable def getFrame1 (c : CameraArgs) (data : List (ℝ × ℝ)) : Py (Arr2 Nat) := do
  let data1 ← orUB (coordinateTransform data c.shape c.offset c.rotation)
  getFrame c data1

/-- `if i in t[:1]: t.pop(0); out = frame` (cddm/sim.py:262-265, 267-269). -/
def takeFrame {F : Type} (i : Nat) (t : List Int) (out : Option F) (frame : Py F) : Py (List Int × Option F) :=
  if isNext i t then do
    let f ← frame
    .ok (t.tail, some f)
  else .ok (t, out)

/-- The loop of `particles_video` (cddm/sim.py:260-278) over the coordinates yielded by `particles`, which end
with `ends`.  A yielded tuple is a list of frames. -/
def videoLoop {D F : Type} (f1 f2 : D → Py F) (ends : Py Unit) :
    List D → Nat → List Int → Option (List Int) → Option F → Option F → List (List F) × Py Unit
  | [], _, _, _, _, _ => ([], ends)
  | d :: ds, i, t1, none, out1, out2 =>
    match takeFrame i t1 out1 (f1 d) with
    | .error e => ([], .error e)
    | .ok (t1, some a) =>
      let r := videoLoop f1 f2 ends ds (i + 1) t1 none none out2
      ([a] :: r.1, r.2)
    | .ok (t1, none) => videoLoop f1 f2 ends ds (i + 1) t1 none none out2
  | d :: ds, i, t1, some t2, out1, out2 =>
    match takeFrame i t1 out1 (f1 d) with
    | .error e => ([], .error e)
    | .ok (t1, out1) =>
      match takeFrame i t2 out2 (f2 d) with
      | .error e => ([], .error e)
      | .ok (t2, out2) =>
        match out1, out2 with
        | some a, some b =>
          let r := videoLoop f1 f2 ends ds (i + 1) t1 (some t2) none none
          ([a, b] :: r.1, r.2)
        | out1, out2 => videoLoop f1 f2 ends ds (i + 1) t1 (some t2) out1 out2

/-- `particles_video` (cddm/sim.py:196-278).  Not modelled: a background or an intensity that does not fit in
the dtype. -/
noncomputable def particlesVideo (particles : List (List (ℝ × ℝ)) × Py Unit) (t1 : List Int) (t2 : Option (List Int))
    (c : CameraArgs) : List (List (Arr2 Nat)) × Py Unit :=
  match inspectFrameDtype c.dtype c.intensity with
  | .error e => ([], .error e)
  | .ok dtype =>
    if c.background < 0 ∨ c.background ≥ 2 ^ dtype.bits ∨ c.intensity ≥ 2 ^ dtype.bits then ([], .error .notModelled)
    else videoLoop (getFrame1 c) (getFrame c) particles.2 particles.1 0 t1 t2 none none

/-- `t.max()` (cddm/sim.py:404, 407): ValueError for an empty array. -/
def maxTime : List Int → Py Int
  | [] => .error .valueError
  | a :: l => .ok (l.foldl max a)

/-- The number of steps that are simulated (cddm/sim.py:402-407). -/
def videoCount (t1 : List Int) (t2 : Option (List Int)) : Py Int := do
  let a ← maxTime t1
  match t2 with
  | none => .ok (a + 1)
  | some t2 =>
    let b ← maxTime t2
    .ok (max a b + 1)

/-- `simple_brownian_video` (cddm/sim.py:370-411): a generator. -/
noncomputable def simpleBrownianVideo (t1 : List Int) (t2 : Option (List Int)) (c : CameraArgs) (num : Nat)
    (delta : WalkArg) (dt : ℝ) (velocity : WalkArg) (x0 : Option Coords) (r : Nat → ℝ × ℝ) (g : Nat → Nat → ℝ × ℝ) :
    Py (List (List (Arr2 Nat)) × Py Unit) := do
  let count ← videoCount t1 t2
  .ok (particlesVideo (brownianParticles count.toNat [c.shape.1, c.shape.2] num delta dt velocity x0 r g) t1 t2 c)

end Cddm
