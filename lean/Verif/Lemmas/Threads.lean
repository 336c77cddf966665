import Verif.Model.Video
import Verif.Spec.Video

/-!
# Lemmas about the worker and consumer threads
-/

namespace Cddm
open Spec

/-- Everything that the worker sends. -/
def sentAll {F : Type} (video : List F) : List (Option F) := video.map some ++ [none]

/-- What holds after every step. -/
structure ThreadInv {F : Type} (video : List F) (s : Threads F) : Prop where
  stream : s.got ++ s.queue ++ (s.todo.map some ++ if s.sent then [] else [none]) = sentAll video
  sent : s.sent = true → s.todo = []
  ended : s.done = true ↔ none ∈ s.got

theorem threadInv_start {F : Type} (video : List F) : ThreadInv video (Threads.start video) :=
  ⟨by simp [Threads.start, sentAll], by simp [Threads.start], by simp [Threads.start]⟩

theorem workerStep_cases {F : Type} (size : Int) (s : Threads F) :
    workerStep size s = s ∨
    ¬(0 < size ∧ size ≤ s.queue.length) ∧
      ((∃ f fs, s.todo = f :: fs ∧ workerStep size s = { s with todo := fs, queue := s.queue ++ [some f] }) ∨
        s.todo = [] ∧ s.sent = false ∧ workerStep size s = { s with sent := true, queue := s.queue ++ [none] }) := by
  unfold workerStep
  by_cases c : 0 < size ∧ size ≤ s.queue.length
  · rw [if_pos c]
    exact Or.inl rfl
  · rw [if_neg c]
    cases e : s.todo with
    | cons f fs => exact Or.inr ⟨c, Or.inl ⟨f, fs, rfl, rfl⟩⟩
    | nil =>
      dsimp only
      by_cases c' : s.sent = true
      · rw [if_pos c']
        exact Or.inl rfl
      · rw [if_neg c']
        exact Or.inr ⟨c, Or.inr ⟨rfl, by simpa using c', rfl⟩⟩

theorem playStep_cases {F : Type} (wait late : Bool) (s : Threads F) :
    playStep wait late s = s ∨
    s.done = false ∧
      ((∃ b, playStep wait late s = { s with displaying := b }) ∨
        ∃ x q d, s.queue = x :: q ∧ playStep wait late s =
          { s with queue := q, got := s.got ++ [x], done := x.isNone, displaying := d }) := by
  unfold playStep
  by_cases c : s.done = true
  · rw [if_pos c]
    exact Or.inl rfl
  · have c0 : s.done = false := by simpa using c
    rw [if_neg c]
    by_cases c' : s.displaying = true
    · rw [if_pos c']
      exact Or.inr ⟨c0, Or.inl ⟨false, rfl⟩⟩
    · rw [if_neg c']
      cases e : s.queue with
      | nil =>
        dsimp only
        by_cases cw : wait = true
        · rw [if_pos cw]
          exact Or.inl rfl
        · rw [if_neg cw]
          exact Or.inr ⟨c0, Or.inl ⟨true, rfl⟩⟩
      | cons x q => exact Or.inr ⟨c0, Or.inr ⟨x, q, _, rfl, rfl⟩⟩

theorem threadInv_worker {F : Type} {video : List F} (size : Int) {s : Threads F} (h : ThreadInv video s) :
    ThreadInv video (workerStep size s) := by
  rcases workerStep_cases size s with e | ⟨-, ⟨f, fs, e, e'⟩ | ⟨e, hs, e'⟩⟩
  · rwa [e]
  · obtain ⟨h1, h2, h3⟩ := h
    rw [e']
    refine ⟨?_, fun h => ?_, h3⟩
    · rw [e] at h1
      rw [← h1]
      simp
    · have := h2 h
      rw [e] at this
      cases this
  · obtain ⟨h1, h2, h3⟩ := h
    rw [e']
    refine ⟨?_, fun _ => e, h3⟩
    rw [e, hs] at h1
    rw [← h1]
    simp [e]

theorem threadInv_play {F : Type} {video : List F} (wait late : Bool) {s : Threads F} (h : ThreadInv video s) :
    ThreadInv video (playStep wait late s) := by
  rcases playStep_cases wait late s with e | ⟨hd, ⟨b, e⟩ | ⟨x, q, d, e, e'⟩⟩
  · rwa [e]
  · rw [e]
    exact ⟨h.1, h.2, h.3⟩
  · obtain ⟨h1, h2, h3⟩ := h
    rw [e']
    refine ⟨?_, h2, ?_⟩
    · rw [e] at h1
      rw [← h1]
      simp
    · have : none ∉ s.got := fun hn => by
        have := h3.mpr hn
        rw [hd] at this
        cases this
      cases x <;> simp [this]

/-- The consumer of `threaded` is one that never displays. -/
theorem threadedStep_eq {F : Type} (s : Threads F) (h : s.displaying = false) :
    threadedStep s = playStep true false s := by
  unfold threadedStep playStep
  rw [h]
  cases s.queue <;> simp

theorem threadedStep_displaying {F : Type} (s : Threads F) : (threadedStep s).displaying = s.displaying := by
  unfold threadedStep
  split
  · rfl
  · cases s.queue <;> rfl

theorem workerStep_displaying {F : Type} (size : Int) (s : Threads F) :
    (workerStep size s).displaying = s.displaying := by
  rcases workerStep_cases size s with e | ⟨-, ⟨f, fs, e, e'⟩ | ⟨e, hs, e'⟩⟩
  · rw [e]
  · rw [e']
  · rw [e']

/-- `threaded` runs like `play_threaded` with a consumer that never displays. -/
theorem threaded_run {F : Type} (size : Int) (sched : Nat → Bool) (s : Threads F) (h : s.displaying = false)
    (n : Nat) :
    runThreads (workerStep size) (fun _ => threadedStep) sched s n =
      runThreads (workerStep size) (fun _ => playStep true false) sched s n ∧
    (runThreads (workerStep size) (fun _ => threadedStep) sched s n).displaying = false := by
  induction n with
  | zero => exact ⟨rfl, h⟩
  | succ n ih =>
    unfold runThreads
    dsimp only
    split_ifs
    · exact ⟨by rw [ih.1], by rw [workerStep_displaying]; exact ih.2⟩
    · exact ⟨by rw [threadedStep_eq _ ih.2, ih.1], by rw [threadedStep_displaying]; exact ih.2⟩

theorem threadInv_run {F : Type} {video : List F} (size : Int) (wait : Bool) (late : Nat → Bool)
    (sched : Nat → Bool) (n : Nat) :
    ThreadInv video (runThreads (workerStep size) (fun k => playStep wait (late k)) sched (Threads.start video) n) := by
  induction n with
  | zero => exact threadInv_start video
  | succ n ih =>
    unfold runThreads
    dsimp only
    split_ifs
    · exact threadInv_worker size ih
    · exact threadInv_play wait (late n) ih

/-- Once ended, everything has been taken. -/
theorem threadInv_done {F : Type} {video : List F} {s : Threads F} (h : ThreadInv video s) (hd : s.done = true) :
    s.got = sentAll video := by
  obtain ⟨h1, -, h3⟩ := h
  have hn := h3.mp hd
  obtain ⟨a, b, e⟩ := List.append_of_mem hn
  have key : ∀ (v : List F) (a r : List (Option F)), a ++ none :: r = v.map some ++ [none] → r = [] := by
    intro v
    induction v with
    | nil =>
      intro a r hr
      cases a with
      | nil => simpa using hr
      | cons x a => simp at hr
    | cons f v ih =>
      intro a r hr
      cases a with
      | nil => simp at hr
      | cons x a =>
        simp only [List.cons_append, List.map_cons, List.cons.injEq] at hr
        exact ih a r hr.2
  rw [e] at h1
  simp only [List.append_assoc, List.cons_append] at h1
  have := key video a _ h1
  rw [this] at h1
  have hb : b = [] := (List.append_eq_nil_iff.mp this).1
  rw [e, hb]
  exact h1

/-- How much is left to do. -/
def left {F : Type} (s : Threads F) : Nat :=
  2 * s.todo.length + (if s.sent then 0 else 2) + s.queue.length

/-- Two states differing at most in `displaying`. -/
def SameWork {F : Type} (s t : Threads F) : Prop :=
  s.todo = t.todo ∧ s.sent = t.sent ∧ s.queue = t.queue ∧ s.got = t.got ∧ s.done = t.done

theorem SameWork.refl {F : Type} (s : Threads F) : SameWork s s := ⟨rfl, rfl, rfl, rfl, rfl⟩

theorem SameWork.trans {F : Type} {s t u : Threads F} (h : SameWork s t) (h' : SameWork t u) : SameWork s u :=
  ⟨h.1.trans h'.1, h.2.1.trans h'.2.1, h.2.2.1.trans h'.2.2.1, h.2.2.2.1.trans h'.2.2.2.1,
    h.2.2.2.2.trans h'.2.2.2.2⟩

theorem worker_progress {F : Type} (size : Int) (s : Threads F) :
    workerStep size s = s ∨ left (workerStep size s) < left s := by
  rcases workerStep_cases size s with e | ⟨-, ⟨f, fs, e, e'⟩ | ⟨e, hs, e'⟩⟩
  · exact Or.inl e
  · right
    rw [e']
    simp [left, e]
    omega
  · right
    rw [e']
    simp [left, e, hs]
    omega

theorem worker_productive {F : Type} (size : Int) (s : Threads F) (hq : s.queue = []) (hs : s.sent = false) :
    left (workerStep size s) < left s := by
  rcases worker_progress size s with e | h
  · exfalso
    unfold workerStep at e
    rw [if_neg (by rw [hq]; simp)] at e
    cases et : s.todo with
    | cons f fs =>
      simp only [et] at e
      have := congrArg Threads.queue e
      simp [hq] at this
    | nil =>
      simp only [et, hs] at e
      have := congrArg Threads.queue e
      simp [hq] at this
  · exact h

theorem play_progress {F : Type} (wait late : Bool) (s : Threads F) :
    SameWork s (playStep wait late s) ∨ left (playStep wait late s) < left s := by
  rcases playStep_cases wait late s with e | ⟨hd, ⟨b, e⟩ | ⟨x, q, d, e, e'⟩⟩
  · rw [e]
    exact Or.inl (SameWork.refl s)
  · rw [e]
    exact Or.inl ⟨rfl, rfl, rfl, rfl, rfl⟩
  · right
    rw [e']
    simp only [left, e, List.length_cons]
    omega

theorem play_productive {F : Type} (wait late : Bool) (s : Threads F) (hq : s.queue ≠ []) (hd : s.done = false)
    (hs : s.displaying = false) : left (playStep wait late s) < left s := by
  unfold playStep
  rw [if_neg (by simp [hd]), if_neg (by simp [hs])]
  cases e : s.queue with
  | nil => exact absurd e hq
  | cons x q =>
    simp only [left, e, List.length_cons]
    omega

/-- Under a fair schedule something gets done. -/
theorem run_progress {F : Type} {video : List F} (size : Int) (wait : Bool) (late : Nat → Bool)
    (sched : Nat → Bool) (hfair : Fair sched) (n : Nat)
    (hd : (runThreads (workerStep size) (fun k => playStep wait (late k)) sched (Threads.start video) n).done = false) :
    ∃ m, n ≤ m ∧
      left (runThreads (workerStep size) (fun k => playStep wait (late k)) sched (Threads.start video) m) <
      left (runThreads (workerStep size) (fun k => playStep wait (late k)) sched (Threads.start video) n) := by
  set run := runThreads (workerStep size) (fun k => playStep wait (late k)) sched (Threads.start video) with hrun
  have step : ∀ k, run (k + 1) = if sched k then workerStep size (run k) else playStep wait (late k) (run k) :=
    fun k => rfl
  by_contra hno
  push Not at hno
  have same : ∀ d, SameWork (run n) (run (n + d)) := by
    intro d
    induction d with
    | zero => exact SameWork.refl _
    | succ d ih =>
      have hl : left (run (n + d)) = left (run n) := by
        obtain ⟨a, b, c, -, -⟩ := ih
        simp only [left, a, b, c]
      have hnl := hno (n + (d + 1)) (by omega)
      refine SameWork.trans ih ?_
      rw [show n + (d + 1) = n + d + 1 by omega, step] at hnl ⊢
      split_ifs at hnl ⊢ with c
      · rcases worker_progress size (run (n + d)) with h | h
        · rw [h]; exact SameWork.refl _
        · omega
      · rcases play_progress wait (late (n + d)) (run (n + d)) with h | h
        · exact h
        · omega
  have same' : ∀ m, n ≤ m → SameWork (run n) (run m) := by
    intro m hm
    obtain ⟨d, rfl⟩ := Nat.exists_eq_add_of_le hm
    exact same d
  have leftEq : ∀ m, n ≤ m → left (run m) = left (run n) := by
    intro m hm
    obtain ⟨a, b, c, -, -⟩ := same' m hm
    simp only [left, a, b, c]
  by_cases hq : (run n).queue = []
  · have hinv : ThreadInv video (run n) := threadInv_run size wait late sched n
    have hs : (run n).sent = false := by
      by_contra hs
      have hs' : (run n).sent = true := by simpa using hs
      have ht := hinv.sent hs'
      have h1 := hinv.stream
      rw [hq, ht, if_pos hs'] at h1
      simp only [List.map_nil, List.append_nil] at h1
      have : (run n).done = true := hinv.ended.mpr (by rw [h1]; simp [sentAll])
      rw [this] at hd
      cases hd
    obtain ⟨m, hm, hsm⟩ := hfair true n
    obtain ⟨a, b, c, -, -⟩ := same' m hm
    have := worker_productive size (run m) (by rw [← c]; exact hq) (by rw [← b]; exact hs)
    have h2 := leftEq (m + 1) (by omega)
    have h3 := leftEq m hm
    rw [step, if_pos hsm] at h2
    omega
  · obtain ⟨m, hm, hsm⟩ := hfair false n
    have key : ∀ m, n ≤ m → sched m = false → (run m).displaying = false → False := by
      intro m hm hsm hdm
      obtain ⟨-, -, c, -, d⟩ := same' m hm
      have := play_productive wait (late m) (run m) (by rw [← c]; exact hq) (by rw [← d]; exact hd) hdm
      have h2 := leftEq (m + 1) (by omega)
      have h3 := leftEq m hm
      rw [step, if_neg (by simp [hsm])] at h2
      omega
    by_cases hdm : (run m).displaying = false
    · exact key m hm hsm hdm
    · have hdm' : (run m).displaying = true := by simpa using hdm
      have h1 : (run (m + 1)).displaying = false := by
        rw [step, if_neg (by simp [hsm])]
        obtain ⟨-, -, -, -, d⟩ := same' m hm
        unfold playStep
        rw [if_neg (by rw [← d, hd]; simp), if_pos hdm']
      classical
      have hex : ∃ k, m + 1 ≤ k ∧ sched k = false := hfair false (m + 1)
      have hk := Nat.find_spec hex
      have hmin := fun j (hj : j < Nat.find hex) => Nat.find_min hex hj
      have stay : ∀ d, m + 1 + d ≤ Nat.find hex → (run (m + 1 + d)).displaying = false := by
        intro d
        induction d with
        | zero => intro _; exact h1
        | succ d ih =>
          intro hle
          have hw := hmin (m + 1 + d) (by omega)
          have hw' : sched (m + 1 + d) = true := by
            by_contra hc
            exact hw ⟨by omega, by simpa using hc⟩
          rw [show m + 1 + (d + 1) = m + 1 + d + 1 by omega, step, if_pos hw', workerStep_displaying]
          exact ih (by omega)
      refine key (Nat.find hex) (by omega) hk.2 ?_
      obtain ⟨d, hd'⟩ := Nat.exists_eq_add_of_le hk.1
      rw [hd']
      exact stay d (by omega)

theorem run_terminates {F : Type} {video : List F} (size : Int) (wait : Bool) (late : Nat → Bool)
    (sched : Nat → Bool) (hfair : Fair sched) :
    ∃ n, (runThreads (workerStep size) (fun k => playStep wait (late k)) sched (Threads.start video) n).done = true := by
  by_contra hno
  push Not at hno
  have : ∀ b n, left (runThreads (workerStep size) (fun k => playStep wait (late k)) sched (Threads.start video) n) ≤ b →
      False := by
    intro b
    induction b with
    | zero =>
      intro n hn
      obtain ⟨m, _, h⟩ := run_progress size wait late sched hfair n (by simpa using hno n)
      omega
    | succ b ih =>
      intro n hn
      obtain ⟨m, _, h⟩ := run_progress size wait late sched hfair n (by simpa using hno n)
      exact ih m (by omega)
  exact this _ 0 (le_refl _)

/-- The consumer stays ended. -/
theorem run_done_mono {F : Type} {s : Threads F} (size : Int) (wait : Bool) (late : Nat → Bool) (sched : Nat → Bool)
    (n : Nat) (hd : (runThreads (workerStep size) (fun k => playStep wait (late k)) sched s n).done = true) (d : Nat) :
    (runThreads (workerStep size) (fun k => playStep wait (late k)) sched s (n + d)).done = true := by
  induction d with
  | zero => exact hd
  | succ d ih =>
    rw [← Nat.add_assoc]
    unfold runThreads
    dsimp only
    split_ifs
    · generalize runThreads _ _ _ _ _ = s' at ih ⊢
      rcases workerStep_cases size s' with e | ⟨-, ⟨f, fs, e, e'⟩ | ⟨e, hs, e'⟩⟩
      · rw [e]; exact ih
      · rw [e']; exact ih
      · rw [e']; exact ih
    · generalize runThreads _ _ _ _ _ = s' at ih ⊢
      unfold playStep
      rw [if_pos ih]
      exact ih

theorem queue_bound {F : Type} {size : Int} (hsize : 0 < size) (wait : Bool) (late : Nat → Bool)
    (sched : Nat → Bool) (video : List F) (n : Nat) :
    ((runThreads (workerStep size) (fun k => playStep wait (late k)) sched (Threads.start video) n).queue.length : Int)
      ≤ size := by
  induction n with
  | zero => simp [runThreads, Threads.start]; omega
  | succ n ih =>
    unfold runThreads
    dsimp only
    generalize runThreads _ _ _ _ _ = s at ih ⊢
    split_ifs
    · rcases workerStep_cases size s with e | ⟨c, ⟨f, fs, e, e'⟩ | ⟨e, hs, e'⟩⟩
      · rw [e]; exact ih
      · rw [e']
        have : ¬ size ≤ s.queue.length := fun h => c ⟨hsize, h⟩
        simp
        omega
      · rw [e']
        have : ¬ size ≤ s.queue.length := fun h => c ⟨hsize, h⟩
        simp
        omega
    · rcases playStep_cases wait (late n) s with e | ⟨hd, ⟨b, e⟩ | ⟨x, q, d, e, e'⟩⟩
      · rw [e]; exact ih
      · rw [e]; exact ih
      · rw [e']
        rw [e] at ih
        simp at ih ⊢
        omega

end Cddm
