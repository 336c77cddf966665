import Verif.Model.Video
import Verif.Spec.Video
import Verif.Lemmas.Threads

/-!
# C62: display
-/

namespace Cddm
open Spec

/-- **C62** (`show_video`): whenever the display takes its images, all multi-frames are yielded unchanged and
nothing is raised, if `id` is a camera of each of them. -/
theorem C62_show_video {F : Type} (id : Int) (pop1 pop2 : Nat → Bool) (k : Nat) (full : Bool) (video : List (List F))
    (hid : ∀ fs ∈ video, -(fs.length : Int) ≤ id ∧ id < fs.length) :
    showVideo id pop1 pop2 k full video = (video, none) := by
  induction video generalizing k full with
  | nil => rfl
  | cons fs rest ih =>
    have h := hid fs List.mem_cons_self
    have ih' := fun k full => ih k full fun f hf => hid f (List.mem_cons_of_mem _ hf)
    have hr : ∃ i, resolveIdx fs.length id = some i := by
      unfold resolveIdx
      split_ifs <;> first | exact ⟨_, rfl⟩ | omega
    obtain ⟨i, hr⟩ := hr
    unfold showVideo
    by_cases c : (full && !pop1 k) = true
    · simp only [c, if_true, ih']
    · have c' : (full && !pop1 k) = false := by simpa using c
      simp only [c', hr, ih']
      simp

/-- **C62** (`show_video` with a wrong `id`): the first multi-frame already raises `IndexError`, and nothing is
yielded. -/
theorem C62_show_video_bad_id {F : Type} (id : Int) (pop1 pop2 : Nat → Bool) (fs : List F) (rest : List (List F))
    (hid : ¬(-(fs.length : Int) ≤ id ∧ id < fs.length)) :
    showVideo id pop1 pop2 0 false (fs :: rest) = ([], some .indexError) := by
  have hr : resolveIdx fs.length id = none := by
    unfold resolveIdx
    split_ifs <;> first | rfl | omega
  unfold showVideo
  simp [hr]

theorem showDiffLoop_ok {F : Type} (diff : F → F → Py Unit) (hdiff : ∀ x y, diff x y = .ok ())
    (sel pop1 pop2 : Nat → Bool) (k : Nat) (full : Bool) (video : List (List F)) (h2 : HasCameras video 2) :
    showDiffLoop diff sel pop1 pop2 k full video = (video, none) := by
  induction video generalizing k full with
  | nil => rfl
  | cons fs rest ih =>
    have h := h2 fs List.mem_cons_self
    have ih' := fun k full => ih k full fun f hf => h2 f (List.mem_cons_of_mem _ hf)
    obtain ⟨x, y, rfl⟩ := List.length_eq_two.mp h
    unfold showDiffLoop
    have : ∃ b, (if sel k then processFrames diff (full && !pop1 k) (pop2 k) [x, y] else .ok (full && !pop1 k)) =
        .ok b := by
      split_ifs with c
      · refine ⟨true, ?_⟩
        unfold processFrames
        by_cases c' : (full && !pop1 k) = true
        · rw [if_pos c']
        · have c'' : (full && !pop1 k) = false := by simpa using c'
          rw [c'']
          simp [hdiff]
      · exact ⟨_, rfl⟩
    obtain ⟨b, hb⟩ := this
    rw [hb]
    simp only [ih']

/-- **C62** (`show_diff`): with two cameras, and with no `dt` or enough times, all multi-frames are yielded
unchanged and nothing is raised, whenever the display takes its images. -/
theorem C62_show_diff {F : Type} (diff : F → F → Py Unit) (hdiff : ∀ x y, diff x y = .ok ())
    (dt : Option (List Int × List Int × List Int)) (pop1 pop2 : Nat → Bool) (video : List (List F))
    (h2 : HasCameras video 2)
    (htimes : ∀ d, dt = some d → video.length ≤ d.2.1.length ∧ video.length ≤ d.2.2.length) :
    showDiff diff dt pop1 pop2 video = (video, none) := by
  cases dt with
  | none => exact showDiffLoop_ok diff hdiff _ pop1 pop2 0 false video h2
  | some d =>
    obtain ⟨d, t1, t2⟩ := d
    have := htimes _ rfl
    dsimp only at this
    unfold showDiff
    dsimp only
    rw [List.take_of_length_le (by omega)]
    exact showDiffLoop_ok diff hdiff _ pop1 pop2 0 false video h2

/-- **C62** (`show_diff` with times, what is true in general): the multi-frames that have times are yielded.
Missing: those beyond the times are too, which is false (`C62_show_diff_refuted`). -/
theorem C62_show_diff_partial {F : Type} (diff : F → F → Py Unit) (hdiff : ∀ x y, diff x y = .ok ())
    (d t1 t2 : List Int) (pop1 pop2 : Nat → Bool) (video : List (List F)) (h2 : HasCameras video 2) :
    showDiff diff (some (d, t1, t2)) pop1 pop2 video = (video.take (min t1.length t2.length), none) :=
  showDiffLoop_ok diff hdiff _ pop1 pop2 0 false _ fun fs hfs => h2 fs (List.mem_of_mem_take hfs)

/-- **C62** (refuted for `show_diff` with too few times): frames are dropped. -/
theorem C62_show_diff_refuted {F : Type} (diff : F → F → Py Unit) (hdiff : ∀ x y, diff x y = .ok ())
    (d t1 t2 : List Int) (pop1 pop2 : Nat → Bool) (video : List (List F)) (h2 : HasCameras video 2)
    (hshort : t1.length < video.length ∨ t2.length < video.length) :
    (showDiff diff (some (d, t1, t2)) pop1 pop2 video).1 ≠ video := by
  rw [C62_show_diff_partial diff hdiff d t1 t2 pop1 pop2 video h2]
  intro h
  have := congrArg List.length h
  simp at this
  omega

/-- **C62** (refuted for `show_diff` of a video that has not two cameras): the first multi-frame raises
`ValueError`, and nothing is yielded. -/
theorem C62_show_diff_cameras_refuted {F : Type} (diff : F → F → Py Unit) (pop1 pop2 : Nat → Bool) (fs : List F)
    (rest : List (List F)) (h : fs.length ≠ 2) :
    showDiff diff none pop1 pop2 (fs :: rest) = ([], some .valueError) := by
  unfold showDiff
  dsimp only
  unfold showDiffLoop
  have : processFrames diff (false && !pop1 0) (pop2 0) fs = .error .valueError := by
    unfold processFrames
    match fs with
    | [] => rfl
    | [x] => rfl
    | [x, y] => simp at h
    | x :: y :: z :: t => rfl
  rw [if_pos rfl, this]

/-- **C62** (`play`): whatever the clock, all multi-frames are yielded unchanged and nothing is raised; the figures
are updated exactly at the frames for which the clock is not late by more than `max_delay`. -/
theorem C62_play {F : Type} (fps maxDelay : ℝ) (hfps : fps ≠ 0) (clock : Nat → ℝ) (k : Nat) (video : List (List F)) :
    (playLoop fps maxDelay clock k video).1 = video ∧ (playLoop fps maxDelay clock k video).2.1 = none ∧
    ∀ i, i ∈ (playLoop fps maxDelay clock k video).2.2 ↔
      (k ≤ i ∧ i < k + video.length) ∧ clock i < i / fps + maxDelay := by
  induction video generalizing k with
  | nil =>
    refine ⟨rfl, rfl, fun i => ?_⟩
    simp only [playLoop, List.not_mem_nil, List.length_nil, Nat.add_zero, false_iff]
    omega
  | cons fs rest ih =>
    obtain ⟨h1, h2, h3⟩ := ih (k + 1)
    unfold playLoop
    rw [if_neg hfps]
    refine ⟨by simp only [h1], h2, fun i => ?_⟩
    dsimp only
    split_ifs with c
    · rw [List.mem_cons, h3, List.length_cons]
      constructor
      · rintro (rfl | ⟨h, h'⟩)
        · exact ⟨by omega, c⟩
        · exact ⟨by omega, h'⟩
      · rintro ⟨h, h'⟩
        by_cases e : i = k
        · exact Or.inl e
        · exact Or.inr ⟨by omega, h'⟩
    · rw [h3, List.length_cons]
      constructor
      · rintro ⟨h, h'⟩
        exact ⟨by omega, h'⟩
      · rintro ⟨h, h'⟩
        refine ⟨⟨?_, by omega⟩, h'⟩
        rcases Nat.lt_or_ge k i with hi | hi
        · omega
        · have : i = k := by omega
          subst this
          exact absurd h' c

/-- **C62** (`play` with `fps = 0`): `ZeroDivisionError` at the first frame. -/
theorem C62_play_zero {F : Type} (maxDelay : ℝ) (clock : Nat → ℝ) (k : Nat) (fs : List F) (rest : List (List F)) :
    playLoop 0 maxDelay clock k (fs :: rest) = ([], some .zeroDivisionError, []) := by
  unfold playLoop
  rw [if_pos rfl]

/-- **C62** (the display queue): in every interleaving of the thread that tests and puts with the thread that
tests and gets, `put` never finds the queue full, `get` never finds it empty, and it never holds more than one
image. -/
theorem C62_display_queue (sched : List Bool) :
    (runDisplay sched).overflow = false ∧ (runDisplay sched).blocked = false ∧ (runDisplay sched).images ≤ 1 := by
  have key : ∀ s : DisplayQueue, (s.overflow = false ∧ s.blocked = false ∧ s.images ≤ 1 ∧
      (s.putting = true → s.images = 0) ∧ (s.getting = true → s.images = 1)) →
      ∀ sched : List Bool, let t := sched.foldl (fun s b => if b then putStep s else getStep s) s
      t.overflow = false ∧ t.blocked = false ∧ t.images ≤ 1 := by
    intro s hs sched
    induction sched generalizing s with
    | nil => exact ⟨hs.1, hs.2.1, hs.2.2.1⟩
    | cons b sched ih =>
      refine ih _ ?_
      obtain ⟨h1, h2, h3, h4, h5⟩ := hs
      obtain ⟨n, p, g, o, bl⟩ := s
      dsimp only at h1 h2 h3 h4 h5
      subst h1
      subst h2
      have hn : n = 0 ∨ n = 1 := by omega
      cases b <;> cases p <;> cases g <;> rcases hn with rfl | rfl <;>
        simp_all [putStep, getStep]
  exact key DisplayQueue.start ⟨rfl, rfl, by simp [DisplayQueue.start], by simp [DisplayQueue.start],
    by simp [DisplayQueue.start]⟩ sched

/-- Two cameras, the second shown, the display taking every other image. -/
example : showVideo (-1) (fun k => k % 2 == 0) (fun _ => false) 0 false [[1, 2], [3, 4], [5, 6]] =
    ([[1, 2], [3, 4], [5, 6]], none) :=
  C62_show_video (-1) _ _ 0 false _ (by simp)

/-- Three multi-frames but two times: the third is lost. -/
example : (showDiff (fun _ _ => .ok ()) (some ([0], [0, 2], [0, 3])) (fun _ => false) (fun _ => false)
    [[1, 2], [3, 4], [5, 6]]).1 ≠ [[1, 2], [3, 4], [5, 6]] :=
  C62_show_diff_refuted _ (fun _ _ => rfl) _ _ _ _ _ _ (by simp [HasCameras]) (by simp)

/-- Both threads get their turn: an image goes through the queue. -/
example : (runDisplay [true, true, false, true, false]).images = 0 ∧ (runDisplay [true, true, false, true]).images = 1 :=
  ⟨rfl, rfl⟩

/-- A frame rate and a clock. -/
example : (playLoop 100 (1 / 10) (fun k => k) 0 [[1], [2]]).1 = [[1], [2]] :=
  (C62_play 100 (1 / 10) (by norm_num) _ 0 _).1

end Cddm
