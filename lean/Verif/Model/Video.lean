import Verif.Model.Err
import Verif.Model.Sim

/-!
# Videos (cddm/video.py)

A multi-frame is a list of frames, one for every camera.  `F` is the type of frames.
-/

namespace Cddm

/-! ### Loading -/

/-- A video argument (cddm/video.py:51-131): the multi-frames it delivers, whether `len()` and whether `next()` work on it
(a list has a length but is no iterator, a generator the other way round). -/
structure VideoArg (F : Type) where
  frames : List (List F)
  sized : Bool
  iterator : Bool

/-- `fromarrays` (cddm/video.py:35-48): `zip(*arrays)`. -/
def fromarrays {F : Type} (arrays : List (List F)) : List (List F) :=
  match arrays with
  | [] => []
  | a :: as => (List.range ((as.map List.length).foldl min a.length)).map fun (k : Nat) =>
      (a :: as).filterMap fun x => x[k]?

/-- The array of one camera: its first frame (of which it has the shape and type) and its rows, `none` if
never written (cddm/video.py:86, 128-131). -/
abbrev CamArray (F : Type) := F × List (Option F)

/-- `[_load(out[i][j],frame) for i,frame in enumerate(frames)]` (cddm/video.py:87, 90, 138, 141).  `put t f`
is the assignment `array[...] = frame` of frame `f` to an array made for `t`. -/
def loadRow {F : Type} (put : F → F → Py F) (j : Nat) : List (CamArray F) → List F → Py (List (CamArray F))
  | outs, [] => .ok outs
  | [], _ :: _ => .error .indexError
  | (t, rows) :: outs, f :: fs =>
    if j < rows.length then do
      let v ← put t f
      let rest ← loadRow put j outs fs
      .ok ((t, rows.set j (some v)) :: rest)
    else .error .indexError

/-- The loop over the remaining frames (cddm/video.py:88-90, 139-141). -/
def loadLoop {F : Type} (put : F → F → Py F) : Nat → List (List F) → List (CamArray F) → Py (List (CamArray F))
  | _, [], outs => .ok outs
  | j, fs :: rest, outs => do
    let outs ← loadRow put j outs fs
    loadLoop put (j + 1) rest outs

/-- The count given, or else the length (cddm/video.py:75-79, 119-123).  Negative counts are not modelled. -/
def resolveCount {F : Type} (v : VideoArg F) (count : Option Nat) : Py Nat :=
  match count with
  | some n => .ok n
  | none => if v.sized then .ok v.frames.length else .error .valueError

/-- The common part of `asarrays` and `asmemmaps`; `print_progress(0, 0)` divides by zero if it prints
(cddm/video.py:81-94, 134-144; cddm/print_tools.py:25-27).  `fill t` is what the rows of a new array hold. -/
def loadVideo {F : Type} (put : F → F → Py F) (fill : F → Option F) (verbose : Int) (count : Nat)
    (frames : List (List F)) : Py (List (List (Option F))) :=
  if count = 0 ∧ 1 ≤ verbose then .error .zeroDivisionError
  else match frames with
    | [] => .error .stopIteration
    | f0 :: rest => do
      let outs ← loadRow put 0 (f0.map fun f => (f, List.replicate count (fill f))) f0
      let outs ← loadLoop put 1 rest outs
      .ok (outs.map (·.2))

/-- `asarrays` (cddm/video.py:50-94): the rows of `np.empty` are not initialised.  The division by the time
taken in `print_frame_rate` is not modelled. -/
def asarrays {F : Type} (put : F → F → Py F) (verbose : Int) (v : VideoArg F) (count : Option Nat) :
    Py (List (List (Option F))) := do
  let count ← resolveCount v count
  loadVideo put (fun _ => none) verbose count v.frames

/-- `asmemmaps` (cddm/video.py:96-144): files opened with `w+` hold zeros, `zero t` being the frame of zeros;
`next(video)` needs an iterator. -/
def asmemmaps {F : Type} (put : F → F → Py F) (zero : F → F) (verbose : Int) (v : VideoArg F)
    (count : Option Nat) : Py (List (List (Option F))) := do
  let count ← resolveCount v count
  if v.iterator then loadVideo put (fun t => some (zero t)) verbose count v.frames
  else if count = 0 ∧ 1 ≤ verbose then .error .zeroDivisionError
  else .error .typeError

/-- `load` (cddm/video.py:146-164). -/
def load {F : Type} (put : F → F → Py F) (verbose : Int) (v : VideoArg F) (count : Option Nat) :
    Py (List (List (Option F))) := do
  let arrays ← asarrays put verbose v count
  .ok (fromarrays arrays)

/-! ### Arithmetic -/

/-- `subtract`, `add` and `multiply` (cddm/video.py:225-277, 304-328): the multi-frames yielded, and the
exception that ends the generator, if any.  `op` is the operation on two frames, with the conversion to
`dtype`. -/
def combine {F : Type} (op : F → F → Py F) : List (List F) → List (List F) → List (List F) × Option PyErr
  | fs :: x, ws :: y =>
    if fs.length ≠ ws.length then ([], some .valueError)
    else match (fs.zip ws).mapM (fun p => op p.1 p.2) with
      | .error e => ([], some e)
      | .ok r => (r :: (combine op x y).1, (combine op x y).2)
  | _, _ => ([], none)

/-- The input frames after `inplace = True` (cddm/video.py:248, 275, 326): those combined have been replaced
by the results. -/
def combineInplace {F : Type} (op : F → F → Py F) (x y : List (List F)) : List (List F) :=
  (combine op x y).1 ++ x.drop (combine op x y).1.length

/-! ### Display -/

/-- `show_video` (cddm/video.py:695-698): the multi-frames yielded and the exception.  `full` tells whether
the display queue (of size 1) holds an image; `pop1 k` and `pop2 k` tell whether the display takes it before
the test of frame `k` and between test and `put`. -/
def showVideo {F : Type} (id : Int) (pop1 pop2 : Nat → Bool) : Nat → Bool → List (List F) →
    List (List F) × Option PyErr
  | _, _, [] => ([], none)
  | k, full, fs :: rest =>
    let full := full && !pop1 k
    if full then
      let r := showVideo id pop1 pop2 (k + 1) full rest
      (fs :: r.1, r.2)
    else match resolveIdx fs.length id with
      | none => ([], some .indexError)
      | some _ =>
        if full && !pop2 k then ([], some .queueFull)
        else
          let r := showVideo id pop1 pop2 (k + 1) true rest
          (fs :: r.1, r.2)

/-- `_process_frames` of `show_diff` (cddm/video.py:721-730): whether the queue is full afterwards, or the
exception.  `diff` computes the image. -/
def processFrames {F : Type} (diff : F → F → Py Unit) (full pop2 : Bool) (fs : List F) : Py Bool :=
  if full then .ok true
  else match fs with
    | [x, y] =>
      match diff x y with
      | .error e => .error e
      | .ok _ => if full && !pop2 then .error .queueFull else .ok true
    | _ => .error .valueError

/-- `show_diff` (cddm/video.py:739-747): `sel k` tells whether frame `k` is displayed. -/
def showDiffLoop {F : Type} (diff : F → F → Py Unit) (sel pop1 pop2 : Nat → Bool) : Nat → Bool →
    List (List F) → List (List F) × Option PyErr
  | _, _, [] => ([], none)
  | k, full, fs :: rest =>
    match (if sel k then processFrames diff (full && !pop1 k) (pop2 k) fs else .ok (full && !pop1 k)) with
    | .error e => ([], some e)
    | .ok full' =>
      let r := showDiffLoop diff sel pop1 pop2 (k + 1) full' rest
      (fs :: r.1, r.2)

/-- `show_diff` (cddm/video.py:700-747).  With `dt` the frames are zipped with the times. -/
def showDiff {F : Type} (diff : F → F → Py Unit) (dt : Option (List Int × List Int × List Int))
    (pop1 pop2 : Nat → Bool) (video : List (List F)) : List (List F) × Option PyErr :=
  match dt with
  | none => showDiffLoop diff (fun _ => true) pop1 pop2 0 false video
  | some (dt, t1, t2) =>
    showDiffLoop diff (fun k => |t2.getD k 0 - t1.getD k 0| ∈ dt) pop1 pop2 0 false
      (video.take (min t1.length t2.length))

open Classical in
/-- `play` (cddm/video.py:463-478): the multi-frames yielded, the exception, and the numbers of the frames at
which the figures are updated.  `clock k` is the time since the first frame read at frame `k`. -/
noncomputable def playLoop {F : Type} (fps maxDelay : ℝ) (clock : Nat → ℝ) : Nat → List (List F) →
    List (List F) × Option PyErr × List Nat
  | _, [] => ([], none, [])
  | k, fs :: rest =>
    if fps = 0 then ([], some .zeroDivisionError, [])
    else
      let r := playLoop fps maxDelay clock (k + 1) rest
      (fs :: r.1, r.2.1, if clock k < k / fps + maxDelay then k :: r.2.2 else r.2.2)

/-- A display queue `Queue(1)` between the thread of `show_video`/`show_diff` and the one of `play` or
`play_threaded`: the number of images in it, whether the first has found it empty and is about to `put`,
whether the second has found it not empty and is about to `get`, whether `put` has raised and whether `get`
blocks (cddm/video.py:470-473, 558-561, 692-697, 722-730). -/
structure DisplayQueue where
  images : Nat
  putting : Bool
  getting : Bool
  overflow : Bool
  blocked : Bool

/-- The beginning (cddm/video.py:692, 736). -/
def DisplayQueue.start : DisplayQueue := ⟨0, false, false, false, false⟩

/-- A step of the thread that puts (cddm/video.py:696-697, 722, 730). -/
def putStep (s : DisplayQueue) : DisplayQueue :=
  if s.putting then
    if 1 ≤ s.images then { s with putting := false, overflow := true }
    else { s with putting := false, images := s.images + 1 }
  else { s with putting := s.images = 0 }

/-- A step of the thread that gets (cddm/video.py:471-472, 559-560). -/
def getStep (s : DisplayQueue) : DisplayQueue :=
  if s.getting then
    if s.images = 0 then { s with blocked := true }
    else { s with getting := false, images := s.images - 1 }
  else { s with getting := s.images ≠ 0 }

/-- The state after the steps of a schedule, `true` for the thread that puts (cddm/video.py:470-473, 558-561, 692-697). -/
def runDisplay (sched : List Bool) : DisplayQueue :=
  sched.foldl (fun s b => if b then putStep s else getStep s) DisplayQueue.start

/-! ### Threads -/

/-- The two threads of `threaded` and `play_threaded` (cddm/video.py:519-563, 583-600): frames the worker still has to deliver, whether it has
put the final `None`, the queue, the items the consumer has taken from it in order, whether it has ended, and
(for `play_threaded`) whether it is displaying. -/
structure Threads (F : Type) where
  todo : List F
  sent : Bool
  queue : List (Option F)
  got : List (Option F)
  done : Bool
  displaying : Bool

/-- The beginning (cddm/video.py:519-531, 583-592). -/
def Threads.start {F : Type} (video : List F) : Threads F := ⟨video, false, [], [], false, false⟩

/-- One step of the worker (cddm/video.py:521-526, 585-590): it waits while the queue is full (`size <= 0`: it
never is).  A video that raises delivers `None` like one that ends. -/
def workerStep {F : Type} (size : Int) (s : Threads F) : Threads F :=
  if 0 < size ∧ size ≤ s.queue.length then s
  else match s.todo with
    | f :: fs => { s with todo := fs, queue := s.queue ++ [some f] }
    | [] => if s.sent then s else { s with sent := true, queue := s.queue ++ [none] }

/-- One step of the consumer of `threaded` (cddm/video.py:594-600): it waits while the queue is empty. -/
def threadedStep {F : Type} (s : Threads F) : Threads F :=
  if s.done then s
  else match s.queue with
    | [] => s
    | x :: q => { s with queue := q, got := s.got ++ [x], done := x.isNone }

/-- One step of the consumer of `play_threaded` (cddm/video.py:532-563), without (`wait = false`) and with
(`wait = true`) a given `fps`, not zero; `late` is the outcome of the comparison with the clock. -/
def playStep {F : Type} (wait late : Bool) (s : Threads F) : Threads F :=
  if s.done then s
  else if s.displaying then { s with displaying := false }
  else match s.queue with
    | [] => if wait then s else { s with displaying := true }
    | x :: q => { s with queue := q, got := s.got ++ [x], done := x.isNone, displaying := x.isSome && wait && late }

/-- The state after `n` steps of the schedule (cddm/video.py:519-563, 583-600): `sched k` tells whether step `k` is of the worker. -/
def runThreads {F : Type} (worker : Threads F → Threads F) (consumer : Nat → Threads F → Threads F)
    (sched : Nat → Bool) (s : Threads F) : Nat → Threads F
  | 0 => s
  | n + 1 =>
    let s' := runThreads worker consumer sched s n
    if sched n then worker s' else consumer n s'

/-- `threaded(video, queue_size)` after `n` steps of a schedule (cddm/video.py:567-600). -/
def threadedRun {F : Type} (size : Int) (sched : Nat → Bool) (video : List F) (n : Nat) : Threads F :=
  runThreads (workerStep size) (fun _ => threadedStep) sched (Threads.start video) n

/-- `play_threaded(video, fps)` after `n` steps of a schedule (cddm/video.py:481-565); its queue is unbounded
(line 519). -/
def playRun {F : Type} (wait : Bool) (late : Nat → Bool) (sched : Nat → Bool) (video : List F) (n : Nat) : Threads F :=
  runThreads (workerStep 0) (fun k => playStep wait (late k)) sched (Threads.start video) n

/-- What `threaded` has yielded: all items taken (cddm/video.py:597). -/
def threadedOut {F : Type} (s : Threads F) : List (Option F) := s.got

/-- What `play_threaded` has yielded: the items taken that are not `None` (cddm/video.py:537-540, 547-550). -/
def playOut {F : Type} (s : Threads F) : List F := s.got.filterMap id

end Cddm
