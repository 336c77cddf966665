import Verif.Lemmas.DrawParallel
import Verif.Props.SimDraw

/-!
# C97: particles drawn in parallel
-/

namespace Cddm
open Spec

variable {T bits : Nat}

theorem workerParticles_map {α β : Type} (f : α → β) (share : Nat → Fin T) (l : List α) (t : Fin T) :
    workerParticles share (l.map f) t = (workerParticles share l t).map f := by
  unfold workerParticles
  rw [List.zipIdx_map, List.filter_map, List.map_map, List.map_map]
  rfl

/-- The updates of the worker `t`. -/
noncomputable def drawTodo (shape : Nat × Nat) (r : ℤ) (particles : List ((ℝ × ℝ) × Nat × ℝ)) (share : Nat → Fin T) (t : Fin T) :
    List PixelUpdate :=
  ((workerParticles share particles t).map fun p => boxUpdates shape.1 shape.2 r p.1 p.2.1 p.2.2).flatten

/-- The state before the first step. -/
noncomputable def drawInit (im : Arr2 Nat) (r : ℤ) (particles : List ((ℝ × ℝ) × Nat × ℝ)) (share : Nat → Fin T) : DrawState T :=
  ⟨im, fun t => ⟨drawTodo (im.h, im.w) r particles share t, none⟩⟩

theorem workerUpdates_eq {H W : Nat} (r : ℤ) (particles : List ((ℝ × ℝ) × Nat × ℝ))
    (hbox : ∀ p ∈ particles, InBox (H, W) p.1) (hH : r ≤ H) (hW : r ≤ W) :
    workerUpdates H W r (particles.map fun p => ((p.1, p.2.1), p.2.2)) =
      some ((particles.map fun p => boxUpdates H W r p.1 p.2.1 p.2.2).flatten) := by
  unfold workerUpdates
  rw [mapM_option_some _ (fun q : ((ℝ × ℝ) × Nat) × ℝ => boxUpdates H W r q.1.1 q.1.2 q.2)]
  · simp [List.map_map, Function.comp_def]
  · intro q hq
    obtain ⟨p, hp, rfl⟩ := List.mem_map.mp hq
    exact psfUpdates_eq (hbox p hp) _ _ hH hW

theorem drawPsfParallel_eq (im : Arr2 Nat) (particles : List ((ℝ × ℝ) × Nat × ℝ)) (s : ℝ) (r : ℤ)
    (hbox : ∀ p ∈ particles, InBox (im.h, im.w) p.1) (hs : ∀ p ∈ particles, p.2.2 ≤ s)
    (hs' : ∃ p ∈ particles, p.2.2 = s) (hr : Nearest (3 * s) r) (hH : r ≤ im.h) (hW : r ≤ im.w)
    (share : Nat → Fin T) (sched : List (Fin T)) :
    drawPsfParallel bits im (particles.map (·.1)) (particles.map (·.2.1)) (particles.map (·.2.2)) share sched =
      .ok (if ∀ t, ((drawRun bits sched (drawInit im r particles share)).worker t).todo = [] then
        some (drawRun bits sched (drawInit im r particles share)).im else none) := by
  obtain ⟨p0, rest, rfl⟩ : ∃ p0 rest, particles = p0 :: rest := by
    obtain ⟨p, hp, _⟩ := hs'
    cases particles with
    | nil => cases hp
    | cons a l => exact ⟨a, l, rfl⟩
  have hsize : pyRound (3 * (rest.map (·.2.2)).foldl max p0.2.2) = r := by
    rw [foldl_max_spec (m := s)]
    · exact Nearest.unique (pyRound_nearest _) hr
    · intro x hx
      rw [← List.map_cons (f := fun p : (ℝ × ℝ) × Nat × ℝ => p.2.2)] at hx
      obtain ⟨p, hp, rfl⟩ := List.mem_map.mp hx
      exact hs p hp
    · obtain ⟨p, hp, rfl⟩ := hs'
      rw [← List.map_cons (f := fun p : (ℝ × ℝ) × Nat × ℝ => p.2.2)]
      exact List.mem_map_of_mem hp
  have hw := workerUpdates_eq r (p0 :: rest) hbox hH hW
  have hw' : ∀ t, workerUpdates im.h im.w r
      (workerParticles share ((p0 :: rest).map fun p => ((p.1, p.2.1), p.2.2)) t) =
        some (drawTodo (im.h, im.w) r (p0 :: rest) share t) := by
    intro t
    rw [workerParticles_map]
    refine workerUpdates_eq r _ (fun p hp => ?_) hH hW
    obtain ⟨k, hk, _⟩ := mem_workerParticles hp
    exact hbox p (List.mem_of_getElem? hk)
  have hz : (((p0 :: rest).map fun p : (ℝ × ℝ) × Nat × ℝ => p.1).zip ((p0 :: rest).map fun p => p.2.1)).zip
      ((p0 :: rest).map fun p => p.2.2) = (p0 :: rest).map fun p => ((p.1, p.2.1), p.2.2) := by
    rw [List.zip_map', List.zip_map']
  unfold drawPsfParallel
  rw [if_neg (by simp)]
  simp only [List.map_cons, hsize]
  simp only [List.map_cons] at hz hw hw'
  rw [hz, hw]
  dsimp only
  simp only [hw', Option.getD_some]
  rfl

/-- What the workers add to pixel `(i, j)` altogether. -/
theorem leftAt_init (im : Arr2 Nat) (r : ℤ) (particles : List ((ℝ × ℝ) × Nat × ℝ)) (share : Nat → Fin T) {i j : Nat}
    (hi : i < im.h) (hj : j < im.w) :
    leftAt (i, j) (drawInit im r particles share) =
      (particles.map fun p => lightAt (im.h, im.w) r p.2.1 p.2.2 p.1.1 p.1.2 i j).sum := by
  unfold leftAt drawInit drawTodo
  simp only [pixelSum_flatten, List.map_map, Function.comp_def, pixelSum_box _ _ _ _ hi hj]
  exact sum_workers share particles _

/-- **C97.** Drawing in parallel always runs without an access outside the image, and ends when every worker has done its steps:
two for each of the `(2r+1)²` pixels of each of its particles. -/
theorem C97_ends (im : Arr2 Nat) (particles : List ((ℝ × ℝ) × Nat × ℝ)) (s : ℝ) (r : Nat)
    (hbox : ∀ p ∈ particles, InBox (im.h, im.w) p.1) (hs : ∀ p ∈ particles, p.2.2 ≤ s)
    (hs' : ∃ p ∈ particles, p.2.2 = s) (hr : Nearest (3 * s) r) (hH : r ≤ im.h) (hW : r ≤ im.w)
    (share : Nat → Fin T) (sched : List (Fin T)) :
    (∃ res, drawPsfParallel bits im (particles.map (·.1)) (particles.map (·.2.1)) (particles.map (·.2.2)) share sched = .ok res) ∧
    ((∀ t, 2 * ((2 * r + 1) ^ 2 * (workerParticles share particles t).length) ≤ sched.count t) →
      ∃ out, drawPsfParallel bits im (particles.map (·.1)) (particles.map (·.2.1)) (particles.map (·.2.2)) share sched = .ok (some out) ∧
        out.h = im.h ∧ out.w = im.w) := by
  have e := drawPsfParallel_eq (bits := bits) im particles s r hbox hs hs' hr (by exact_mod_cast hH) (by exact_mod_cast hW) share sched
  refine ⟨⟨_, e⟩, fun h => ?_⟩
  rw [if_pos] at e
  · exact ⟨_, e, drawRun_shape sched (drawInit im r particles share)⟩
  · intro t
    refine drawRun_done t sched _ (le_trans ?_ (h t))
    have : (drawTodo (im.h, im.w) r particles share t).length = (2 * r + 1) ^ 2 * (workerParticles share particles t).length := by
      unfold drawTodo
      rw [List.length_flatten, List.map_map]
      simp only [Function.comp_def, boxUpdates_length, List.map_const', List.sum_replicate, smul_eq_mul]
      ring
    simp only [stepsLeft, drawInit, Option.isSome_none, Bool.false_eq_true, if_false, this]
    omega

/-- **C97, no light is invented.** However the particles are divided and the workers interleaved, no pixel gets darker than it was
or brighter than with sequential drawing (if that does not overflow). -/
theorem C97_between (im out : Arr2 Nat) (particles : List ((ℝ × ℝ) × Nat × ℝ)) (s : ℝ) (r : ℤ)
    (hbox : ∀ p ∈ particles, InBox (im.h, im.w) p.1) (hs : ∀ p ∈ particles, p.2.2 ≤ s)
    (hs' : ∃ p ∈ particles, p.2.2 = s) (hr : Nearest (3 * s) r) (hH : r ≤ im.h) (hW : r ≤ im.w)
    (share : Nat → Fin T) (sched : List (Fin T))
    (h : drawPsfParallel bits im (particles.map (·.1)) (particles.map (·.2.1)) (particles.map (·.2.2)) share sched = .ok (some out))
    (i j : Nat) (hi : i < im.h) (hj : j < im.w)
    (hov : im.get i j + (particles.map fun p => lightAt (im.h, im.w) r p.2.1 p.2.2 p.1.1 p.1.2 i j).sum < 2 ^ bits) :
    im.get i j ≤ out.get i j ∧
      out.get i j ≤ im.get i j + (particles.map fun p => lightAt (im.h, im.w) r p.2.1 p.2.2 p.1.1 p.1.2 i j).sum := by
  rw [drawPsfParallel_eq im particles s r hbox hs hs' hr hH hW share sched] at h
  split at h
  swap
  · cases h
  cases h
  have := drawRun_inv (bits := bits) (Within (i, j) (im.get i j)
      (im.get i j + (particles.map fun p => lightAt (im.h, im.w) r p.2.1 p.2.2 p.1.1 p.1.2 i j).sum))
    (fun s t => within_step hov s t) sched (drawInit im r particles share) ⟨le_refl _, by
      rw [leftAt_init im r particles share hi hj]
      exact le_refl _, fun t p rest v _ hv => by simp [drawInit] at hv⟩
  exact ⟨this.1, le_trans (Nat.le_add_right _ _) this.2.1⟩

/-- **C97, pixels of one worker.** A pixel on which the particles of only one worker are drawn gets exactly their light, in every
interleaving. -/
theorem C97_one_worker (im out : Arr2 Nat) (particles : List ((ℝ × ℝ) × Nat × ℝ)) (s : ℝ) (r : ℤ)
    (hbox : ∀ p ∈ particles, InBox (im.h, im.w) p.1) (hs : ∀ p ∈ particles, p.2.2 ≤ s)
    (hs' : ∃ p ∈ particles, p.2.2 = s) (hr : Nearest (3 * s) r) (hH : r ≤ im.h) (hW : r ≤ im.w)
    (share : Nat → Fin T) (sched : List (Fin T))
    (h : drawPsfParallel bits im (particles.map (·.1)) (particles.map (·.2.1)) (particles.map (·.2.2)) share sched = .ok (some out))
    (i j : Nat) (hi : i < im.h) (hj : j < im.w) (him : im.get i j < 2 ^ bits) (t : Fin T)
    (hone : ∀ k p, particles[k]? = some p → DrawnOn (im.h, im.w) r p.1 i j → share k = t) :
    out.get i j = (im.get i j + (particles.map fun p => lightAt (im.h, im.w) r p.2.1 p.2.2 p.1.1 p.1.2 i j).sum) % 2 ^ bits := by
  rw [drawPsfParallel_eq im particles s r hbox hs hs' hr hH hW share sched] at h
  split at h
  swap
  · cases h
  rename_i hdone
  cases h
  have hother : ∀ t', t' ≠ t → ∀ u ∈ drawTodo (im.h, im.w) r particles share t', u.1 ≠ (i, j) := by
    intro t' ht' u hu hq
    unfold drawTodo at hu
    obtain ⟨l, hl, hul⟩ := List.mem_flatten.mp hu
    obtain ⟨p, hp, rfl⟩ := List.mem_map.mp hl
    obtain ⟨k, hk, hkt⟩ := mem_workerParticles hp
    exact ht' (by rw [← hkt, hone k p hk (mem_box hi hj hul hq)])
  have hsum : pixelSum (i, j) (drawTodo (im.h, im.w) r particles share t) =
      (particles.map fun p => lightAt (im.h, im.w) r p.2.1 p.2.2 p.1.1 p.1.2 i j).sum := by
    rw [← leftAt_init im r particles share hi hj]
    exact (Finset.sum_eq_single (f := fun t' => pixelSum (i, j) (drawTodo (im.h, im.w) r particles share t')) t
      (fun t' _ ht' => pixelSum_eq_zero (hother t' ht')) (fun h => absurd (Finset.mem_univ t) h)).symm
  have := drawRun_inv (bits := bits) (Sole bits (i, j) t
      (im.get i j + (particles.map fun p => lightAt (im.h, im.w) r p.2.1 p.2.2 p.1.1 p.1.2 i j).sum))
    (fun s t => sole_step s t) sched (drawInit im r particles share)
    ⟨hother, fun p rest v _ hv => by simp [drawInit] at hv, him, by rw [← hsum]; rfl⟩
  obtain ⟨-, -, h3, h4⟩ := this
  rw [hdone t] at h4
  simpa [pixelSum, Nat.mod_eq_of_lt h3] using h4

/-- **C97, partial.** If no pixel is shared by particles of different workers (in particular with one worker), parallel drawing
gives the image of sequential drawing.  Missing because false (`C97_refuted`): the same for particles that overlap. -/
theorem C97_same_image_partial (im out : Arr2 Nat) (particles : List ((ℝ × ℝ) × Nat × ℝ)) (s : ℝ) (r : ℤ)
    (hbox : ∀ p ∈ particles, InBox (im.h, im.w) p.1) (hs : ∀ p ∈ particles, p.2.2 ≤ s)
    (hs' : ∃ p ∈ particles, p.2.2 = s) (hr : Nearest (3 * s) r) (hH : r ≤ im.h) (hW : r ≤ im.w)
    (him : ∀ i j : Nat, i < im.h → j < im.w → im.get i j < 2 ^ bits)
    (share : Nat → Fin T) (sched : List (Fin T))
    (h : drawPsfParallel bits im (particles.map (·.1)) (particles.map (·.2.1)) (particles.map (·.2.2)) share sched = .ok (some out))
    (hdis : ∀ k p k' p', particles[k]? = some p → particles[k']? = some p' → share k ≠ share k' → ∀ i j : Nat, i < im.h → j < im.w →
      ¬ (DrawnOn (im.h, im.w) r p.1 i j ∧ DrawnOn (im.h, im.w) r p'.1 i j)) :
    ∃ seq, drawPsf bits im (particles.map (·.1)) (particles.map (·.2.1)) (particles.map (·.2.2)) = .ok seq ∧
      out.h = seq.h ∧ out.w = seq.w ∧ ∀ i j : Nat, i < im.h → j < im.w → out.get i j = seq.get i j := by
  obtain ⟨seq, e, e1, e2, e3⟩ := C54_draw_psf bits im particles s r hbox hs hs' hr hH hW him
  have hshape : out.h = im.h ∧ out.w = im.w := by
    have h' := h
    rw [drawPsfParallel_eq im particles s r hbox hs hs' hr hH hW share sched] at h'
    split at h'
    · cases h'
      exact drawRun_shape sched (drawInit im r particles share)
    · cases h'
  refine ⟨seq, e, hshape.1.trans e1.symm, hshape.2.trans e2.symm, fun i j hi hj => ?_⟩
  rw [e3 i j hi hj]
  classical
  by_cases hex : ∃ (k : Nat) (p : (ℝ × ℝ) × Nat × ℝ), particles[k]? = some p ∧ DrawnOn (im.h, im.w) r p.1 i j
  · obtain ⟨k, p, hk, hp⟩ := hex
    refine C97_one_worker im out particles s r hbox hs hs' hr hH hW share sched h i j hi hj (him i j hi hj) (share k)
      fun k' p' hk' hp' => ?_
    by_contra hne
    exact hdis k p k' p' hk hk' (Ne.symm hne) i j hi hj ⟨hp, hp'⟩
  · obtain ⟨p0, hp0, hp1⟩ := hs'
    obtain ⟨k0, hk0⟩ := List.getElem?_of_mem hp0
    exact C97_one_worker im out particles s r hbox hs ⟨p0, hp0, hp1⟩ hr hH hW share sched h i j hi hj (him i j hi hj) (share k0)
      fun k' p' hk' hp' => absurd ⟨k', p', hk', hp'⟩ hex

/-! ### A lost update, and the hypotheses are met -/

/-- A small particle in the middle of pixel (0, 0). -/
theorem boxUpdates_small : boxUpdates 4 4 0 (1 / 2, 1 / 2) 5 (1 / 10) = [((0, 0), 5)] := by
  have hf : ⌊(1 / 2 : ℝ)⌋ = 0 := by norm_num
  have hp : psfGauss (((0 : Int) : ℝ) - 1 / 2) (((0 : Int) : ℝ) - 1 / 2) (1 / 10) 5 = 5 := by
    unfold psfGauss
    norm_num
  have hr : psfRange 0 0 = [0] := rfl
  unfold boxUpdates
  dsimp only
  rw [hf, hr]
  rw [show (([0] : List Int) ×ˢ ([0] : List Int)) = [((0 : Int), (0 : Int))] from rfl]
  simp only [List.map_cons, List.map_nil, hp]
  rfl

/-- Two such particles. -/
noncomputable def twoSmall : List ((ℝ × ℝ) × Nat × ℝ) := [((1 / 2, 1 / 2), 5, 1 / 10), ((1 / 2, 1 / 2), 5, 1 / 10)]

theorem drawTodo_small (t : Fin 2) : drawTodo (4, 4) 0 twoSmall (fun k => if k = 0 then 0 else 1) t = [((0, 0), 5)] := by
  unfold drawTodo twoSmall workerParticles
  fin_cases t
  · simp [List.zipIdx]
    simpa using boxUpdates_small
  · simp [List.zipIdx]
    simpa using boxUpdates_small

theorem twoSmall_parallel (sched : List (Fin 2)) :
    drawPsfParallel 8 (zeroImage 4 4) (twoSmall.map (·.1)) (twoSmall.map (·.2.1)) (twoSmall.map (·.2.2))
      (fun k => if k = 0 then 0 else 1) sched =
    .ok (if ∀ t, ((drawRun 8 sched (⟨zeroImage 4 4, fun _ => ⟨[((0, 0), 5)], none⟩⟩ : DrawState 2)).worker t).todo = [] then
        some (drawRun 8 sched (⟨zeroImage 4 4, fun _ => ⟨[((0, 0), 5)], none⟩⟩ : DrawState 2)).im else none) := by
  have e := drawPsfParallel_eq (T := 2) (bits := 8) (zeroImage 4 4) twoSmall (1 / 10) 0
    (by simp only [twoSmall, List.mem_cons, List.not_mem_nil, or_false, or_self, forall_eq, InBox, zeroImage]; norm_num)
    (by simp [twoSmall]) (by simp [twoSmall]) (by left; norm_num [abs_lt]) (by simp) (by simp)
    (fun k => if k = 0 then 0 else 1) sched
  have hi : drawInit (zeroImage 4 4) 0 twoSmall (fun k => if k = 0 then (0 : Fin 2) else 1) =
      ⟨zeroImage 4 4, fun _ => ⟨[((0, 0), 5)], none⟩⟩ := by
    unfold drawInit
    congr 1
    funext t
    congr 1
    exact drawTodo_small t
  rw [hi] at e
  exact e

/-- **C97, refuted for particles that overlap.** Two particles in one pixel drawn by two workers: if both read the pixel before
one of them writes, the light of one particle is lost; sequential drawing gives 10. -/
theorem C97_refuted :
    (∃ seq, drawPsf 8 (zeroImage 4 4) (twoSmall.map (·.1)) (twoSmall.map (·.2.1)) (twoSmall.map (·.2.2)) = .ok seq ∧ seq.get 0 0 = 10) ∧
    (∃ out, drawPsfParallel 8 (zeroImage 4 4) (twoSmall.map (·.1)) (twoSmall.map (·.2.1)) (twoSmall.map (·.2.2))
      (fun k => if k = 0 then (0 : Fin 2) else 1) [0, 1, 0, 1] = .ok (some out) ∧ out.get 0 0 = 5) ∧
    ∃ out, drawPsfParallel 8 (zeroImage 4 4) (twoSmall.map (·.1)) (twoSmall.map (·.2.1)) (twoSmall.map (·.2.2))
      (fun k => if k = 0 then (0 : Fin 2) else 1) [0, 0, 1, 1] = .ok (some out) ∧ out.get 0 0 = 10 := by
  have hl : lightAt (4, 4) 0 5 (1 / 10) (1 / 2) (1 / 2) 0 0 = 5 := by
    rw [← pixelSum_box 0 (1 / 2, 1 / 2) 5 (1 / 10) (by decide : 0 < 4) (by decide : 0 < 4), boxUpdates_small]
    rfl
  refine ⟨?_, ?_, ?_⟩
  · obtain ⟨seq, e, -, -, e3⟩ := C54_draw_psf 8 (zeroImage 4 4) twoSmall (1 / 10) 0
      (by simp only [twoSmall, List.mem_cons, List.not_mem_nil, or_false, or_self, forall_eq, InBox, zeroImage]; norm_num)
      (by simp [twoSmall]) (by simp [twoSmall]) (by left; norm_num [abs_lt]) (by simp) (by simp) (by intros; simp [zeroImage])
    refine ⟨seq, e, ?_⟩
    have := e3 0 0 (by simp [zeroImage]) (by simp [zeroImage])
    rw [this]
    simp only [twoSmall, List.map_cons, List.map_nil, zeroImage, hl]
    rfl
  · rw [twoSmall_parallel]
    refine ⟨_, congrArg Except.ok (if_pos (by decide)), rfl⟩
  · rw [twoSmall_parallel]
    refine ⟨_, congrArg Except.ok (if_pos (by decide)), rfl⟩

/-- The bounds hold for every schedule of these particles that runs to the end. -/
example (sched : List (Fin 2)) (out : Arr2 Nat)
    (h : drawPsfParallel 8 (zeroImage 4 4) (twoSmall.map (·.1)) (twoSmall.map (·.2.1)) (twoSmall.map (·.2.2))
      (fun k => if k = 0 then (0 : Fin 2) else 1) sched = .ok (some out)) : out.get 0 0 ≤ 10 := by
  have hl : lightAt (4, 4) 0 5 (1 / 10) (1 / 2) (1 / 2) 0 0 = 5 := by
    rw [← pixelSum_box 0 (1 / 2, 1 / 2) 5 (1 / 10) (by decide : 0 < 4) (by decide : 0 < 4), boxUpdates_small]
    rfl
  have hsum : (twoSmall.map fun p => lightAt ((zeroImage 4 4).h, (zeroImage 4 4).w) 0 p.2.1 p.2.2 p.1.1 p.1.2 0 0).sum = 10 := by
    simp only [twoSmall, List.map_cons, List.map_nil, zeroImage, hl]
    rfl
  have := C97_between (zeroImage 4 4) out twoSmall (1 / 10) 0
    (by simp only [twoSmall, List.mem_cons, List.not_mem_nil, or_false, or_self, forall_eq, InBox, zeroImage]; norm_num)
    (by simp [twoSmall]) (by simp [twoSmall]) (by left; norm_num [abs_lt]) (by simp) (by simp) _ sched h 0 0
    (by simp [zeroImage]) (by simp [zeroImage]) (by rw [hsum]; simp [zeroImage])
  rw [hsum] at this
  simpa [zeroImage] using this.2

/-- Two particles in different pixels: every complete run gives the sequential image. -/
example (sched : List (Fin 2)) (h2 : ∀ t, 2 ≤ sched.count t) :
    ∃ out seq, drawPsfParallel 8 (zeroImage 4 4) [(1 / 2, 1 / 2), (3 / 2, 1 / 2)] [5, 7] [1 / 10, 1 / 10]
      (fun k => if k = 0 then (0 : Fin 2) else 1) sched = .ok (some out) ∧
      drawPsf 8 (zeroImage 4 4) [(1 / 2, 1 / 2), (3 / 2, 1 / 2)] [5, 7] [1 / 10, 1 / 10] = .ok seq ∧
      ∀ i j : Nat, i < 4 → j < 4 → out.get i j = seq.get i j := by
  have hbox : ∀ p ∈ ([((1 / 2, 1 / 2), 5, 1 / 10), ((3 / 2, 1 / 2), 7, 1 / 10)] : List ((ℝ × ℝ) × Nat × ℝ)),
      InBox ((zeroImage 4 4).h, (zeroImage 4 4).w) p.1 := by
    simp only [List.mem_cons, List.not_mem_nil, or_false, forall_eq_or_imp, forall_eq, InBox, zeroImage]
    norm_num
  have hlen : ∀ t : Fin 2, (workerParticles (fun k => if k = 0 then (0 : Fin 2) else 1)
      ([((1 / 2, 1 / 2), 5, 1 / 10), ((3 / 2, 1 / 2), 7, 1 / 10)] : List ((ℝ × ℝ) × Nat × ℝ)) t).length = 1 := by
    intro t
    unfold workerParticles
    fin_cases t <;> simp [List.zipIdx]
  obtain ⟨out, e, -⟩ := (C97_ends (T := 2) (bits := 8) (zeroImage 4 4)
    [((1 / 2, 1 / 2), 5, 1 / 10), ((3 / 2, 1 / 2), 7, 1 / 10)] (1 / 10) 0 hbox (by simp) (by simp) (by left; norm_num [abs_lt])
    (by simp) (by simp) (fun k => if k = 0 then 0 else 1) sched).2 (fun t => by rw [hlen]; simpa using h2 t)
  obtain ⟨seq, e1, -, -, e4⟩ := C97_same_image_partial (zeroImage 4 4) out
    [((1 / 2, 1 / 2), 5, 1 / 10), ((3 / 2, 1 / 2), 7, 1 / 10)] (1 / 10) 0 hbox (by simp) (by simp) (by left; norm_num [abs_lt])
    (by simp) (by simp) (by intros; simp [zeroImage]) _ sched e (by
      have hf : ⌊(1 / 2 : ℝ)⌋ = 0 := by norm_num
      have hf' : ⌊(3 / 2 : ℝ)⌋ = 1 := by rw [Int.floor_eq_iff]; norm_num
      have key : ∀ i j : Nat, ¬ (DrawnOn (4, 4) 0 (1 / 2, 1 / 2) i j ∧ DrawnOn (4, 4) 0 (3 / 2, 1 / 2) i j) := by
        rintro i j ⟨⟨a, b, ha, -, hai, -⟩, a', b', ha', -, hai', -⟩
        dsimp only at ha ha' hai hai'
        rw [hf, abs_le] at ha
        rw [hf', abs_le] at ha'
        have e1 : a = 0 := by omega
        have e2 : a' = 1 := by omega
        subst e1 e2
        exact absurd (hai.trans hai'.symm) (by decide)
      intro k p k' p' hk hk' hne i j _ _
      rcases k with _ | _ | k <;> rcases k' with _ | _ | k' <;> simp at hk hk' hne <;> subst hk hk'
      · simpa [zeroImage] using key i j
      · rw [and_comm]
        simpa [zeroImage] using key i j)
  exact ⟨out, seq, e, e1, e4⟩

end Cddm
