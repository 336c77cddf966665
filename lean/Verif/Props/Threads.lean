import Verif.Lemmas.Threads

/-!
# C61: threaded videos

Every schedule of the worker and the consumer is covered; that both run again and again (`Fair`) is assumed only
for termination.
-/

namespace Cddm
open Spec

/-- **C61** (safety of `threaded`): at every moment of every schedule, what has been yielded is a beginning of the
frames of the video, in order, followed by one `None`. -/
theorem C61_threaded_prefix {F : Type} (size : Int) (sched : Nat → Bool) (video : List F) (n : Nat) :
    threadedOut (threadedRun size sched video n) <+: video.map some ++ [none] := by
  have h := threadInv_run (video := video) size true (fun _ => false) sched n
  unfold threadedRun
  rw [(threaded_run size sched _ rfl n).1]
  have := h.stream
  rw [List.append_assoc] at this
  exact ⟨_, this⟩

/-- **C61** (`threaded` terminates under every fair schedule and every queue size, having yielded everything). -/
theorem C61_threaded_ends {F : Type} (size : Int) (sched : Nat → Bool) (hfair : Fair sched) (video : List F) :
    ∃ n, ∀ m, n ≤ m → (threadedRun size sched video m).done = true ∧
      threadedOut (threadedRun size sched video m) = video.map some ++ [none] := by
  obtain ⟨n, hn⟩ := run_terminates (video := video) size true (fun _ => false) sched hfair
  refine ⟨n, fun m hm => ?_⟩
  obtain ⟨d, rfl⟩ := Nat.exists_eq_add_of_le hm
  have hd := run_done_mono size true (fun _ => false) sched n hn d
  unfold threadedRun
  rw [(threaded_run size sched _ rfl (n + d)).1]
  exact ⟨hd, threadInv_done (threadInv_run size true (fun _ => false) sched (n + d)) hd⟩

/-- **C61** (`threaded`, what is true of it): under every fair schedule the items that are frames are exactly the
frames of the video, each once and in order.  Missing: nothing but the frames is yielded, which is false
(`C61_threaded_refuted`). -/
theorem C61_threaded_partial {F : Type} (size : Int) (sched : Nat → Bool) (hfair : Fair sched) (video : List F) :
    ∃ n, ∀ m, n ≤ m → (threadedRun size sched video m).done = true ∧
      (threadedOut (threadedRun size sched video m)).filterMap id = video := by
  obtain ⟨n, h⟩ := C61_threaded_ends size sched hfair video
  refine ⟨n, fun m hm => ⟨(h m hm).1, ?_⟩⟩
  rw [(h m hm).2]
  simp

/-- **C61** (refuted for `threaded`): whatever the schedule and the video, once it has ended it has yielded a
`None` after the frames, so never exactly the frames. -/
theorem C61_threaded_refuted {F : Type} (size : Int) (sched : Nat → Bool) (video : List F) (n : Nat)
    (hd : (threadedRun size sched video n).done = true) :
    threadedOut (threadedRun size sched video n) ≠ video.map some := by
  have h : threadedOut (threadedRun size sched video n) = video.map some ++ [none] := by
    unfold threadedRun at hd ⊢
    rw [(threaded_run size sched _ rfl n).1] at hd ⊢
    exact threadInv_done (threadInv_run size true (fun _ => false) sched n) hd
  rw [h]
  simp

/-- **C61** (the queue): it never holds more than `queue_size` items. -/
theorem C61_queue_bound {F : Type} (size : Int) (hsize : 0 < size) (sched : Nat → Bool) (video : List F) (n : Nat) :
    ((threadedRun size sched video n).queue.length : Int) ≤ size := by
  unfold threadedRun
  rw [(threaded_run size sched _ rfl n).1]
  exact queue_bound hsize true (fun _ => false) sched video n

/-- **C61** (safety of `play_threaded`): at every moment the frames yielded are a beginning of the video,
whatever the schedule, the clock and the frame rate. -/
theorem C61_play_threaded_prefix {F : Type} (wait : Bool) (late sched : Nat → Bool) (video : List F) (n : Nat) :
    playOut (playRun wait late sched video n) <+: video := by
  have h := (threadInv_run (video := video) 0 wait late sched n).stream
  rw [List.append_assoc] at h
  have := congrArg (List.filterMap id) h
  rw [List.filterMap_append] at this
  refine ⟨_, this.trans ?_⟩
  simp [sentAll]

/-- **C61** (`play_threaded` terminates under every fair schedule, having yielded exactly the frames of the video,
each once and in order, whatever the clock and the frame rate). -/
theorem C61_play_threaded {F : Type} (wait : Bool) (late sched : Nat → Bool) (hfair : Fair sched) (video : List F) :
    ∃ n, ∀ m, n ≤ m → (playRun wait late sched video m).done = true ∧ playOut (playRun wait late sched video m) = video := by
  obtain ⟨n, hn⟩ := run_terminates (video := video) 0 wait late sched hfair
  refine ⟨n, fun m hm => ?_⟩
  obtain ⟨d, rfl⟩ := Nat.exists_eq_add_of_le hm
  have hd := run_done_mono 0 wait late sched n hn d
  refine ⟨hd, ?_⟩
  have : (playRun wait late sched video (n + d)).got = sentAll video :=
    threadInv_done (threadInv_run 0 wait late sched (n + d)) hd
  unfold playOut
  rw [this]
  simp [sentAll]

/-- The alternating schedule is fair. -/
theorem fair_even : Fair fun n => n % 2 == 0 := by
  intro b n
  cases b with
  | true => exact ⟨2 * n, by omega, by simp⟩
  | false => exact ⟨2 * n + 1, by omega, by simp⟩

/-- Three frames through a queue of one item. -/
example : ∃ n, ∀ m, n ≤ m → (threadedRun 1 (fun n => n % 2 == 0) [10, 20, 30] m).done = true ∧
    threadedOut (threadedRun 1 (fun n => n % 2 == 0) [10, 20, 30] m) = [some 10, some 20, some 30, none] :=
  C61_threaded_ends 1 _ fair_even [10, 20, 30]

/-- The hypothesis of the refutation is met: here after eight steps. -/
example : (threadedRun 1 (fun n => n % 2 == 0) [10, 20, 30] 8).done = true ∧
    (threadedRun 1 (fun n => n % 2 == 0) [10, 20, 30] 7).done = false ∧
    (threadedRun 1 (fun n => n % 2 == 0) [10, 20, 30] 5).queue = [some 30] := ⟨rfl, rfl, rfl⟩

/-- `play_threaded` with a display after every second frame. -/
example : ∃ n, ∀ m, n ≤ m → (playRun true (fun k => k % 4 == 1) (fun n => n % 2 == 0) ["a", "b"] m).done = true ∧
    playOut (playRun true (fun k => k % 4 == 1) (fun n => n % 2 == 0) ["a", "b"] m) = ["a", "b"] :=
  C61_play_threaded true _ _ fair_even ["a", "b"]

end Cddm
