import Verif.Model.Sim

/-!
# Drawing particles in parallel

`draw_psf` (cddm/_sim_nb.py:126-159) is compiled with `parallel = NUMBA_PARALLEL`: the loop over the particles is a `prange`, the
particles are divided among workers that share the image.  `im[i,j] = im[i,j] + p` is not atomic: the pixel is read, then written.
-/

namespace Cddm

/-- One execution of `im[i,j] = im[i,j] + p` (cddm/_sim_nb.py:158): the pixel and `p`. -/
abbrev PixelUpdate := (Nat × Nat) × Nat

/-- The updates of one particle in the order of the two inner loops (cddm/_sim_nb.py:137-158); `none` if a pixel lies outside the
image. -/
noncomputable def psfUpdates (h w : Nat) (size : Int) (pt : ℝ × ℝ) (intensity : Nat) (sigma : ℝ) : Option (List PixelUpdate) :=
  (psfRange (truncInt pt.1) size ×ˢ psfRange (truncInt pt.2) size).mapM fun (q : Int × Int) => do
    let i ← resolveIdx h (wrapOnce h q.1)
    let j ← resolveIdx w (wrapOnce w q.2)
    some ((i, j), psfGauss (q.1 - pt.1) (q.2 - pt.2) sigma intensity)

/-- A worker of the `prange` (cddm/_sim_nb.py:136): the updates left to do and the value it has read for the first of them. -/
structure DrawWorker where
  /-- updates left -/
  todo : List PixelUpdate
  /-- value read for the first of them -/
  reg : Option Nat

/-- The shared image and the workers (cddm/_sim_nb.py:136-158). -/
structure DrawState (T : Nat) where
  /-- the image -/
  im : Arr2 Nat
  /-- the workers -/
  worker : Fin T → DrawWorker

/-- One step of worker `t`: read the pixel, or write the sum to it (cddm/_sim_nb.py:158), for unsigned integers of `bits` bits.
A worker that is done does nothing. -/
def drawStep {T : Nat} (bits : Nat) (s : DrawState T) (t : Fin T) : DrawState T :=
  match (s.worker t).todo, (s.worker t).reg with
  | [], _ => s
  | (q, p) :: rest, none => { s with worker := Function.update s.worker t ⟨(q, p) :: rest, some (s.im.get q.1 q.2)⟩ }
  | (q, p) :: rest, some v =>
    { im := { s.im with get := fun r c => if r = q.1 ∧ c = q.2 then (v + p) % 2 ^ bits else s.im.get r c },
      worker := Function.update s.worker t ⟨rest, none⟩ }

/-- The steps of the workers in the order `sched` (cddm/_sim_nb.py:136-158). -/
def drawRun {T : Nat} (bits : Nat) (sched : List (Fin T)) (s : DrawState T) : DrawState T := sched.foldl (drawStep bits) s

/-- The updates of a worker (cddm/_sim_nb.py:136): those of its particles, one particle after the other. -/
noncomputable def workerUpdates (h w : Nat) (size : Int) (particles : List (((ℝ × ℝ) × Nat) × ℝ)) : Option (List PixelUpdate) :=
  (particles.mapM fun q => psfUpdates h w size q.1.1 q.1.2 q.2).map List.flatten

/-- The particles of worker `t`, if particle `k` is given to worker `share k` (cddm/_sim_nb.py:136).  numba gives every worker a
range of particles; here the division is arbitrary. -/
def workerParticles {α : Type} {T : Nat} (share : Nat → Fin T) (particles : List α) (t : Fin T) : List α :=
  (particles.zipIdx.filter fun q => decide (share q.2 = t)).map (·.1)

/-- `draw_psf` (cddm/_sim_nb.py:126-159) with `T` workers: the image after the steps `sched`, or `none` as long as some worker is
not done (the function returns when all are).  An access outside the image by any worker is undefined. -/
noncomputable def drawPsfParallel {T : Nat} (bits : Nat) (im : Arr2 Nat) (points : List (ℝ × ℝ)) (intensity : List Nat)
    (sigma : List ℝ) (share : Nat → Fin T) (sched : List (Fin T)) : Py (Option (Arr2 Nat)) :=
  if points.length ≠ intensity.length ∨ points.length ≠ sigma.length then .error .assertionError
  else match sigma with
    | [] => .error .valueError
    | s :: rest =>
      let size := pyRound (3 * rest.foldl max s)
      let particles := (points.zip intensity).zip sigma
      match workerUpdates im.h im.w size particles with
      | none => .error .undefined
      | some _ =>
        let fin := drawRun bits sched
          ⟨im, fun t => ⟨(workerUpdates im.h im.w size (workerParticles share particles t)).getD [], none⟩⟩
        .ok (if ∀ t, (fin.worker t).todo = [] then some fin.im else none)

end Cddm
