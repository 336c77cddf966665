import Verif.Lemmas.Reshape

/-!
# C66: reshaping for threaded computation

A computation on every pixel (`perPixel`) done between `reshape_input` and `reshape_output` must give the result of
the same computation done directly.
-/

namespace Cddm
open Spec

/-! ## `thread_frame_shape` -/

/-- A positive divisor: two axes with as many pixels, or `ValueError` when it does not divide their number. -/
theorem C66_thread_frame_shape (shape : List Nat) (hs : shape ≠ []) (d : Nat) (hd : 0 < d) (force : Bool) :
    (d ∣ shape.prod ∧ ∃ rest : Nat, d * rest = shape.prod ∧
      threadFrameShape shape (some d) force = .ok [(d : Int), (rest : Int)]) ∨
    (¬ d ∣ shape.prod ∧ threadFrameShape shape (some d) force = .error .valueError) := by
  by_cases h : d ∣ shape.prod
  · exact .inl ⟨h, shape.prod / d, Nat.mul_div_cancel' h, threadFrameShape_some shape hs d hd h force⟩
  · refine .inr ⟨h, ?_⟩
    unfold threadFrameShape
    rw [if_neg (by simp)]
    dsimp only
    rw [if_neg hs, if_neg (by omega), if_pos]
    intro e
    apply h
    have : (d : Int) ∣ (shape.prod : Int) := ⟨_, e⟩
    exact_mod_cast this

/-- Without a divisor the shape is kept, except that a one-dimensional frame gets a leading axis when forced. -/
theorem C66_thread_frame_shape_none (shape : List Nat) (force : Bool) :
    threadFrameShape shape none force =
      .ok ((if force = true ∧ shape.length = 1 then 1 :: shape else shape).map fun (n : Nat) => (n : Int)) := by
  by_cases h : force = true ∧ shape.length = 1
  · rw [if_pos h]
    obtain ⟨rfl, h⟩ := h
    obtain ⟨P, rfl⟩ := List.length_eq_one_iff.mp h
    exact threadFrameShape_force P
  · rw [if_neg h, threadFrameShape_none]
    by_contra hc
    push Not at hc
    exact h ⟨by simpa using hc.2, hc.1⟩

/-- Whatever the divisor: as many pixels, or an exception. -/
theorem C66_thread_frame_shape_pixels (shape : List Nat) (divisor : Option Int) (force : Bool) (s : List Int)
    (h : threadFrameShape shape divisor force = .ok s) : s.prod = (shape.prod : Int) := by
  have hnat : ∀ l : List Nat, (l.map fun (n : Nat) => (n : Int)).prod = (l.prod : Int) := by
    intro l
    induction l with
    | nil => rfl
    | cons a l ih => rw [List.map_cons, List.prod_cons, List.prod_cons, ih, Nat.cast_mul]
  cases divisor with
  | none =>
    rw [C66_thread_frame_shape_none] at h
    cases h
    rw [hnat]
    split_ifs <;> simp
  | some d =>
    unfold threadFrameShape at h
    rw [if_neg (by simp)] at h
    dsimp only at h
    split_ifs at h with h1 h2 h3
    cases h
    push Not at h3
    simpa using h3.symm

/-- Divisor zero is not a `ValueError`, and neither is a divisor for a single value. -/
theorem C66_divisor_zero (shape : List Nat) (force : Bool) :
    threadFrameShape shape (some 0) force =
      if shape = [] then .error .typeError else .error .zeroDivisionError := by
  unfold threadFrameShape
  rw [if_neg (by simp)]
  simp

/-- A negative divisor that divides the number of pixels passes `thread_frame_shape`. -/
theorem C66_divisor_negative_refuted : threadFrameShape [4] (some (-2)) true = .ok [-2, -2] := rfl

example : threadFrameShape [4, 6] (some 8) true = .ok [8, 3] := rfl
example : threadFrameShape [4, 6] (some 7) true = .error .valueError := rfl

/-! ## Without a mask -/

/-- The round trip, for whatever shape `thread_frame_shape` returns and whatever leading axes are then found. -/
theorem reshape_pipeline {α β : Type} [Inhabited α] (nan : β) (x : NdArr α) (n : Nat) (F : List Nat) (hx : x.shape = n :: F)
    (divisor : Option Int) (new : List Nat)
    (hnew : threadFrameShape F divisor true = .ok (new.map fun (n : Nat) => (n : Int)))
    (hprod : new.prod = F.prod) (lead lead' : List Nat) (m : Nat)
    (hlead : shapeHead (lead ++ new ++ [m]) (F.length + 1) = lead')
    (hprod' : lead'.prod * F.prod * m = lead.prod * F.prod * m)
    (g0 : Nat → List α → List β) (count : Option (NdArr β)) (gs : List (Option (Nat → List α → List β))) :
    reshapeInput x 0 divisor none = .ok (⟨n :: new, x.data⟩, F) ∧
    reshapeOutput nan (some (perPixel lead m g0 0 (⟨n :: new, x.data⟩ : NdArr α)) :: count ::
        gs.map fun g => g.map fun g => perPixel lead m g 0 (⟨n :: new, x.data⟩ : NdArr α)) (some F) none =
      .ok (some ⟨lead' ++ F ++ [m], (perPixel lead m g0 0 x).data⟩ :: count ::
        gs.map fun g => g.map fun g => ⟨lead' ++ F ++ [m], (perPixel lead m g 0 x).data⟩) := by
  have hdata : ∀ g : Nat → List α → List β, (perPixel lead m g 0 (⟨n :: new, x.data⟩ : NdArr α)).data =
      (perPixel lead m g 0 x).data := by
    intro g
    unfold perPixel
    simp only [hx, List.eraseIdx_cons_zero, List.getD_cons_zero, Nat.zero_add, List.drop_succ_cons, List.drop_zero, hprod]
  constructor
  · have h := reshapeInput_unmasked x 0 0 (by rw [hx]; simp [resolveIdx]) divisor new (by rw [hx]; exact hnew)
      (by rw [hx]; unfold pyInsert; simp [hprod])
    rw [h, hx]
    simp [pyInsert]
  · have hsh : ∀ g : Nat → List α → List β,
        (perPixel lead m g 0 (⟨n :: new, x.data⟩ : NdArr α)).shape = lead ++ new ++ [m] := fun g => rfl
    rw [reshapeOutput_unmasked nan _ _ F lead' m (by rw [hsh]; simp) (by rw [hsh]; simp) (by rw [hsh]; exact hlead)]
    · rw [List.zipIdx_cons, List.zipIdx_cons, List.map_cons, List.map_cons]
      simp only [Nat.zero_add, Nat.reduceAdd, if_true, Option.map_some, hdata]
      rw [if_neg (by decide)]
      congr 3
      refine List.ext_getElem (by simp) fun i hi hi' => ?_
      simp only [List.getElem_map, List.getElem_zipIdx]
      rw [if_neg (by omega)]
      rw [Option.map_map]
      congr 1
      funext g
      simp only [Function.comp, hdata]
    · intro i z hi hz
      have hz' : z.shape = lead ++ new ++ [m] := by
        rcases i with _ | _ | i
        · simp only [List.getElem?_cons_zero, Option.some.injEq] at hz
          rw [← hz]
          rfl
        · omega
        · simp only [List.getElem?_cons_succ, List.getElem?_map, Option.map_eq_some_iff] at hz
          obtain ⟨a, -, b, -, rfl⟩ := hz
          rfl
      rw [hz']
      simp only [List.prod_append, hprod, List.prod_singleton]
      exact hprod'

/-- **C66, without a mask, time along the first axis.**  The frames have at least two axes (or are single values, when
no divisor is given); with a divisor and levels they have exactly two.  Everything but the counts is computed by
`perPixel` for each of the levels `lead`. -/
theorem C66_unmasked_partial {α β : Type} [Inhabited α] (nan : β) (x : NdArr α) (n : Nat) (F : List Nat)
    (hx : x.shape = n :: F) (divisor : Option Int)
    (hd : divisor = none ∨ ∃ d : Nat, 0 < d ∧ divisor = some (d : Int) ∧ d ∣ F.prod) (lead : List Nat)
    (hcase : (divisor = none ∧ F.length ≠ 1) ∨ F.length = 2 ∨ (lead = [] ∧ 2 ≤ F.length)) (m : Nat)
    (g0 : Nat → List α → List β) (count : Option (NdArr β)) (gs : List (Option (Nat → List α → List β))) :
    ∃ y : NdArr α, reshapeInput x 0 divisor none = .ok (y, F) ∧
      y.shape = n :: (match divisor with
        | none => F
        | some d => [d.toNat, F.prod / d.toNat]) ∧
      reshapeOutput nan (some (perPixel lead m g0 0 y) :: count :: gs.map fun g => g.map fun g => perPixel lead m g 0 y)
          (some F) none =
        .ok (some (perPixel lead m g0 0 x) :: count :: gs.map fun g => g.map fun g => perPixel lead m g 0 x) := by
  have fin : ∀ g : Nat → List α → List β,
      (⟨lead ++ F ++ [m], (perPixel lead m g 0 x).data⟩ : NdArr β) = perPixel lead m g 0 x := by
    intro g
    unfold perPixel
    simp only [hx, List.eraseIdx_cons_zero]
  rcases hd with rfl | ⟨d, hd, rfl, hdvd⟩
  · have hF : F.length ≠ 1 := by
      rcases hcase with ⟨-, h⟩ | h | ⟨-, h⟩ <;> omega
    obtain ⟨h1, h2⟩ := reshape_pipeline nan x n F hx none F (threadFrameShape_none F true (.inl hF)) rfl lead lead m
      (by
        unfold shapeHead
        rw [if_neg (by omega), List.append_assoc, List.take_append_of_le_length (by simp)]
        rw [List.take_of_length_le]
        simp) rfl g0 count gs
    refine ⟨_, h1, rfl, ?_⟩
    rw [h2]
    simp only [fin]
  · have hne : F ≠ [] := by
      rintro rfl
      rcases hcase with ⟨h, -⟩ | h | ⟨-, h⟩
      · cases h
      · simp at h
      · simp at h
    obtain ⟨h1, h2⟩ := reshape_pipeline nan x n F hx (some (d : Int)) [d, F.prod / d] (threadFrameShape_some F hne d hd hdvd true)
      (by simp [Nat.mul_div_cancel' hdvd]) lead lead m
      (by
        unfold shapeHead
        rw [if_neg (by omega)]
        rcases hcase with ⟨h, -⟩ | h | ⟨rfl, h⟩
        · cases h
        · rw [List.append_assoc, List.take_append_of_le_length (by simp; omega), List.take_of_length_le]
          simp; omega
        · rw [List.take_eq_nil_iff]
          left
          simp; omega) rfl g0 count gs
    refine ⟨_, h1, rfl, ?_⟩
    rw [h2]
    simp only [fin]

example : (2 : Nat) ∣ [2, 3].prod ∧ ([2, 3] : List Nat).length = 2 := by decide

/-- One-dimensional frames without a divisor (used as one thread): every result is there, but the array returned has
an extra axis of length one before that of the pixels. -/
theorem C66_1d_refuted {α β : Type} [Inhabited α] (nan : β) (x : NdArr α) (n P : Nat) (hx : x.shape = [n, P])
    (divisor : Option Int) (hd : divisor = none ∨ divisor = some 1) (lead : List Nat) (m : Nat)
    (g0 : Nat → List α → List β) (count : Option (NdArr β)) (gs : List (Option (Nat → List α → List β))) :
    ∃ y : NdArr α, reshapeInput x 0 divisor none = .ok (y, [P]) ∧ y.shape = [n, 1, P] ∧
      reshapeOutput nan (some (perPixel lead m g0 0 y) :: count :: gs.map fun g => g.map fun g => perPixel lead m g 0 y)
          (some [P]) none =
        .ok (some ⟨lead ++ [1, P, m], (perPixel lead m g0 0 x).data⟩ :: count ::
          gs.map fun g => g.map fun g => ⟨lead ++ [1, P, m], (perPixel lead m g 0 x).data⟩) ∧
      (perPixel lead m g0 0 x).shape = lead ++ [P, m] := by
  have hnew : threadFrameShape [P] divisor true = .ok ([1, P].map fun (n : Nat) => (n : Int)) := by
    rcases hd with rfl | rfl
    · exact threadFrameShape_force P
    · have := threadFrameShape_some [P] (by simp) 1 (by omega) (by simp) true
      simpa using this
  obtain ⟨h1, h2⟩ := reshape_pipeline nan x n [P] hx divisor [1, P] hnew (by simp) lead (lead ++ [1]) m
    (by
      unfold shapeHead
      rw [if_neg (by simp), show lead ++ [1, P] ++ [m] = (lead ++ [1]) ++ [P, m] by simp, List.take_append_of_le_length]
      · rw [List.take_of_length_le]
        simp
      · simp) (by simp) g0 count gs
  refine ⟨_, h1, rfl, ?_, by unfold perPixel; rw [hx]; simp⟩
  rw [h2]
  simp

/-- `reshape_output` fails when the number of elements does not fit. -/
theorem reshape_pipeline_fails {α β : Type} [Inhabited α] (nan : β) (x : NdArr α) (n : Nat) (F : List Nat) (hx : x.shape = n :: F)
    (divisor : Option Int) (new : List Nat)
    (hnew : threadFrameShape F divisor true = .ok (new.map fun (n : Nat) => (n : Int)))
    (hprod : new.prod = F.prod) (lead lead' : List Nat) (m : Nat)
    (hlead : shapeHead (lead ++ new ++ [m]) (F.length + 1) = lead')
    (hprod' : lead'.prod * F.prod * m ≠ lead.prod * F.prod * m)
    (g0 : Nat → List α → List β) (rest : List (Option (NdArr β))) :
    reshapeInput x 0 divisor none = .ok (⟨n :: new, x.data⟩, F) ∧
    reshapeOutput nan (some (perPixel lead m g0 0 (⟨n :: new, x.data⟩ : NdArr α)) :: rest) (some F) none =
      .error .valueError := by
  have hsh : (perPixel lead m g0 0 (⟨n :: new, x.data⟩ : NdArr α)).shape = lead ++ new ++ [m] := rfl
  constructor
  · have h := reshapeInput_unmasked x 0 0 (by rw [hx]; simp [resolveIdx]) divisor new (by rw [hx]; exact hnew)
      (by rw [hx]; unfold pyInsert; simp [hprod])
    rw [h, hx]
    simp [pyInsert]
  · apply reshapeOutput_fails nan _ _ F lead'
    · rw [hsh]; simp
    · rw [hsh]; exact hlead
    · rw [hsh]
      simpa [hprod, and_assoc] using hprod'

/-- One-dimensional frames with two or more threads: `reshape_output` raises `ValueError`. -/
theorem C66_1d_divisor_refuted {α β : Type} [Inhabited α] (nan : β) (x : NdArr α) (n P d : Nat) (hx : x.shape = [n, P])
    (hd : 2 ≤ d) (hP : 0 < P) (hdvd : d ∣ P) (lead : List Nat) (hl : 0 < lead.prod) (m : Nat) (hm : 0 < m)
    (g0 : Nat → List α → List β) (rest : List (Option (NdArr β))) :
    ∃ y : NdArr α, reshapeInput x 0 (some (d : Int)) none = .ok (y, [P]) ∧
      reshapeOutput nan (some (perPixel lead m g0 0 y) :: rest) (some [P]) none = .error .valueError := by
  have hnew := threadFrameShape_some [P] (by simp) d (by omega) (by simpa using hdvd) true
  refine ⟨_, reshape_pipeline_fails nan x n [P] hx _ _ hnew (by simp [Nat.mul_div_cancel' hdvd]) lead (lead ++ [d]) m ?_ ?_ g0 rest⟩
  · unfold shapeHead
    rw [if_neg (by simp), show lead ++ [d, [P].prod / d] ++ [m] = (lead ++ [d]) ++ [[P].prod / d, m] by simp,
      List.take_append_of_le_length]
    · rw [List.take_of_length_le]
      simp
    · simp
  · intro h
    have h1 := Nat.eq_of_mul_eq_mul_right hm h
    have h2 := Nat.eq_of_mul_eq_mul_right (by simpa using hP) h1
    rw [List.prod_append, List.prod_singleton] at h2
    have : lead.prod * 2 ≤ lead.prod * d := Nat.mul_le_mul_left _ hd
    omega

/-- Frames of three or more axes with a divisor and two or more levels (one leading axis): `ValueError`. -/
theorem C66_levels_divisor_refuted {α β : Type} [Inhabited α] (nan : β) (x : NdArr α) (n : Nat) (F : List Nat)
    (hx : x.shape = n :: F) (hF : 3 ≤ F.length) (hP : 0 < F.prod) (d : Nat) (hd : 0 < d) (hdvd : d ∣ F.prod) (L : Nat)
    (hL : 2 ≤ L) (m : Nat) (hm : 0 < m) (g0 : Nat → List α → List β) (rest : List (Option (NdArr β))) :
    ∃ y : NdArr α, reshapeInput x 0 (some (d : Int)) none = .ok (y, F) ∧
      reshapeOutput nan (some (perPixel [L] m g0 0 y) :: rest) (some F) none = .error .valueError := by
  have hne : F ≠ [] := by
    rintro rfl
    simp at hF
  have hnew := threadFrameShape_some F hne d hd hdvd true
  refine ⟨_, reshape_pipeline_fails nan x n F hx _ _ hnew (by simp [Nat.mul_div_cancel' hdvd]) [L] [] m ?_ ?_ g0 rest⟩
  · unfold shapeHead
    rw [if_neg (by omega), List.take_eq_nil_iff]
    left
    simp; omega
  · intro h
    have h1 := Nat.eq_of_mul_eq_mul_right hm h
    have h2 := Nat.eq_of_mul_eq_mul_right hP h1
    simp at h2
    omega

example : reshapeInput (⟨[1, 2, 1, 2], [1, 2, 3, 4]⟩ : NdArr Int) 0 (some 2) none = .ok (⟨[1, 2, 2], [1, 2, 3, 4]⟩, [2, 1, 2]) :=
  rfl

/-! ## Time along another axis -/

/-- **C66, time along the last axis.**  Nothing is mixed: the results are those of the direct computation (of which the
output has this shape), for frames of two or more axes. -/
theorem C66_last_axis_partial {α β : Type} [Inhabited α] (nan : β) (x : NdArr α) (n : Nat) (F : List Nat)
    (hx : x.shape = F ++ [n]) (d : Nat) (hd : 0 < d) (hdvd : d ∣ F.prod) (hF : 2 ≤ F.length) (m : Nat)
    (g0 : Nat → List α → List β) (count : Option (NdArr β)) :
    ∃ y : NdArr α, reshapeInput x (-1) (some (d : Int)) none = .ok (y, F) ∧ y.shape = [d, F.prod / d, n] ∧
      reshapeOutput nan [some (perPixel [] m g0 2 y), count] (some F) none =
        .ok [some (perPixel [] m g0 F.length x), count] := by
  have hne : F ≠ [] := by
    rintro rfl
    simp at hF
  have hnew := threadFrameShape_some F hne d hd hdvd true
  have her : x.shape.eraseIdx F.length = F := by
    rw [hx, List.eraseIdx_append_of_length_le (Nat.le_refl _)]
    simp
  have hget : x.shape.getD F.length 0 = n := by
    rw [hx]
    simp
  have hins : pyInsert [d, F.prod / d] F.length n = [d, F.prod / d, n] := by
    unfold pyInsert
    rw [List.take_of_length_le (by simpa using hF), List.drop_of_length_le (by simpa using hF)]
    rfl
  have h := reshapeInput_unmasked x (-1) F.length (by
      rw [hx]
      unfold resolveIdx
      rw [if_neg (by omega)]
      simp) (some (d : Int)) [d, F.prod / d] (by rw [her]; exact hnew)
    (by
      rw [hget, hins, hx]
      simp only [List.prod_append, List.prod_cons, List.prod_nil, Nat.mul_one]
      rw [← Nat.mul_assoc, Nat.mul_div_cancel' hdvd])
  rw [her, hget, hins] at h
  refine ⟨_, h, rfl, ?_⟩
  rw [reshapeOutput_unmasked nan _ _ F [] m (by simp [perPixel]) (by simp [perPixel])
    (by
      unfold shapeHead perPixel
      rw [if_neg (by omega), List.take_eq_nil_iff]
      left
      simp; omega)]
  · have e : (perPixel [] m g0 2 (⟨[d, F.prod / d, n], x.data⟩ : NdArr α)).data = (perPixel [] m g0 F.length x).data := by
      unfold perPixel
      simp only [hget, her]
      rw [hx, List.drop_of_length_le (l := F ++ [n]) (by simp)]
      simp [Nat.mul_div_cancel' hdvd]
    have e2 : perPixel [] m g0 F.length x = ⟨[] ++ F ++ [m], (perPixel [] m g0 F.length x).data⟩ := by
      unfold perPixel
      simp only [her]
    rw [e2]
    simp only [List.zipIdx_cons, List.zipIdx_nil, List.map_cons, List.map_nil, Nat.zero_add, if_true]
    rw [if_neg (by decide), Option.map_some, e]
  · intro i z hi hz
    rcases i with _ | _ | i
    · simp only [List.getElem?_cons_zero, Option.some.injEq] at hz
      rw [← hz]
      unfold perPixel
      simp [← Nat.mul_assoc, Nat.mul_div_cancel' hdvd]
    · omega
    · simp at hz

/-- Two-dimensional data with time along the last axis (frames of one axis): `reshape_input` moves the time axis to the
middle without moving the elements, so that pixels and times are mixed. -/
theorem C66_axis_mixes_refuted :
    let x : NdArr Int := ⟨[2, 3], [1, 2, 3, 4, 5, 6]⟩
    reshapeInput x 1 none none = .ok (⟨[1, 3, 2], [1, 2, 3, 4, 5, 6]⟩, [2]) ∧
    (perPixel [] 3 (fun _ s => s) 1 x).data = [1, 2, 3, 4, 5, 6] ∧
    (perPixel [] 3 (fun _ s => s) 1 (⟨[1, 3, 2], [1, 2, 3, 4, 5, 6]⟩ : NdArr Int)).data = [1, 3, 5, 2, 4, 6] :=
  ⟨rfl, rfl, rfl⟩

/-- So does a divisor when time is the middle axis of three. -/
theorem C66_middle_axis_mixes_refuted :
    let x : NdArr Int := ⟨[2, 2, 2], [1, 2, 3, 4, 5, 6, 7, 8]⟩
    reshapeInput x 1 (some 4) none = .ok (⟨[4, 2, 1], [1, 2, 3, 4, 5, 6, 7, 8]⟩, [2, 2]) ∧
    (perPixel [] 2 (fun _ s => s) 1 x).data = [1, 3, 2, 4, 5, 7, 6, 8] ∧
    (perPixel [] 2 (fun _ s => s) 1 (⟨[4, 2, 1], [1, 2, 3, 4, 5, 6, 7, 8]⟩ : NdArr Int)).data =
      [1, 2, 3, 4, 5, 6, 7, 8] :=
  ⟨rfl, rfl, rfl⟩

/-! ## With a mask -/

theorem reshapeInput_masked {α : Type} [Inhabited α] (x : NdArr α) (n : Nat) (F : List Nat) (hx : x.shape = n :: F)
    (mask : NdArr Bool) (hmask : mask.shape = F) :
    reshapeInput x 0 none (some mask) =
      .ok (⟨[n, (truePos mask).length], (List.range n).flatMap fun (t : Nat) =>
        (truePos mask).map fun (q : Nat) => x.data.getD (t * F.prod + q) default⟩, [(truePos mask).length]) := by
  unfold reshapeInput maskSelect
  rw [hx]
  simp only [resolveIdx, hmask, List.tail_cons, if_true, bind, Except.bind]
  rw [if_pos (by omega), if_pos (by simp)]
  simp only [List.headD_cons, Int.toNat_zero, ne_eq, not_true_eq_false, if_false, List.eraseIdx_cons_zero,
    Option.isNone_some]
  rw [threadFrameShape_none _ _ (.inr rfl)]
  simp only
  have e : pyInsert ([(truePos mask).length].map fun (n : Nat) => (n : Int)) 0
      (([n, (truePos mask).length].getD 0 0 : Nat) : Int) =
      [n, (truePos mask).length].map fun (n : Nat) => (n : Int) := by simp [pyInsert]
  rw [e, npReshape_nat, if_pos rfl]

theorem unmask_perPixel {α β : Type} [Inhabited α] (nan : β) (x : NdArr α) (n : Nat) (F : List Nat) (hx : x.shape = n :: F)
    (mask : NdArr Bool) (hmask : mask.shape = F) (hwf : WellFormed mask) (lead : List Nat) (m : Nat)
    (hlead : shapeHead (lead ++ [(truePos mask).length] ++ [m]) F.length = lead)
    (g : Nat → List α → List β) (hg : ∀ b s, (g b s).length = m) (y : NdArr α)
    (hy : y = ⟨[n, (truePos mask).length], (List.range n).flatMap fun (t : Nat) =>
        (truePos mask).map fun (q : Nat) => x.data.getD (t * F.prod + q) default⟩) :
    unmask nan (perPixel lead m g 0 y) mask = .ok (perPixelMasked lead m g nan mask x) := by
  set c := (truePos mask).length with hc
  have hlen : mask.data.length = F.prod := by
    rw [← hmask]
    exact hwf
  have hpos : ∀ q ∈ truePos mask, q < F.prod := by
    intro q hq
    have := (List.mem_filter.mp hq).1
    rw [hlen] at this
    exact List.mem_range.mp this
  have hsh : (perPixel lead m g 0 y).shape = lead ++ [c] ++ [m] := by rw [hy]; rfl
  unfold unmask
  simp only [hsh, hmask, hlead, ← hc]
  rw [show (lead ++ [c] ++ [m]).getLastD 0 = m by simp, if_pos (by simp)]
  unfold perPixelMasked
  rw [hmask, hx]
  congr 2
  simp only [List.flatMap_def]
  congr 1
  apply List.map_congr_left
  intro b hb
  have hd : ∃ tail, (perPixel lead m g 0 y).data.drop (b * (c * m)) =
      ((truePos mask).map fun q => g b (series x.data n F.prod q)).flatten ++ tail := by
    have hf : ∀ b, ((List.range c).flatMap fun p => g b (series y.data n c p)) =
        ((truePos mask).map fun q => g b (series x.data n F.prod q)).flatten := by
      intro b
      have := congrArg (List.map (g b)) (series_masked x n F.prod (truePos mask) hpos)
      rw [List.map_map, List.map_map] at this
      rw [List.flatMap_def, hy]
      exact congrArg List.flatten this
    obtain ⟨tail, ht⟩ := drop_flatMap_range (fun b => (List.range c).flatMap fun p => g b (series y.data n c p)) (c * m)
      (by intro t; simp [hg]) lead.prod b (List.mem_range.mp hb)
    refine ⟨tail, ?_⟩
    rw [← hf]
    rw [← ht]
    unfold perPixel
    rw [hy]
    simp
  obtain ⟨tail, ht⟩ := hd
  rw [ht]
  have hr := rowsOf_flatten m ((truePos mask).map fun q => g b (series x.data n F.prod q)) (by
    intro r hr
    obtain ⟨q, -, rfl⟩ := List.mem_map.mp hr
    exact hg _ _) tail
  rw [List.length_map, ← hc] at hr
  rw [hr]
  congr 1
  have := scatterRows_truePos (List.replicate m nan) mask.data (fun q => g b (series x.data n F.prod q)) 0
  simp only [Nat.zero_add] at this
  unfold truePos
  rw [this, hlen]
  rfl

/-- **C66, with a mask.**  The mask has two axes (or more, when there is no level axis) and there is no divisor: the
result has the original shape, every selected pixel holds its own result and the other pixels `nan`. -/
theorem C66_masked_partial {α β : Type} [Inhabited α] (nan : β) (x : NdArr α) (n : Nat) (F : List Nat)
    (hx : x.shape = n :: F) (mask : NdArr Bool) (hmask : mask.shape = F) (hwf : WellFormed mask) (lead : List Nat)
    (hcase : F.length = 2 ∨ (lead = [] ∧ 2 ≤ F.length)) (m : Nat) (g0 : Nat → List α → List β)
    (hg0 : ∀ b s, (g0 b s).length = m) (count : Option (NdArr β)) (gs : List (Option (Nat → List α → List β)))
    (hgs : ∀ g ∈ gs, ∀ g' ∈ g, ∀ b s, (g' b s).length = m) :
    ∃ y : NdArr α, reshapeInput x 0 none (some mask) = .ok (y, [(truePos mask).length]) ∧
      reshapeOutput nan (some (perPixel lead m g0 0 y) :: count :: gs.map fun g => g.map fun g => perPixel lead m g 0 y)
          (some [(truePos mask).length]) (some mask) =
        .ok (some (perPixelMasked lead m g0 nan mask x) :: count ::
          gs.map fun g => g.map fun g => perPixelMasked lead m g nan mask x) := by
  refine ⟨_, reshapeInput_masked x n F hx mask hmask, ?_⟩
  generalize hy : (⟨[n, (truePos mask).length], (List.range n).flatMap fun (t : Nat) =>
        (truePos mask).map fun (q : Nat) => x.data.getD (t * F.prod + q) default⟩ : NdArr α) = y
  have hlead : shapeHead (lead ++ [(truePos mask).length] ++ [m]) F.length = lead := by
    unfold shapeHead
    rw [if_neg (by omega)]
    rcases hcase with h | ⟨rfl, h⟩
    · rw [List.append_assoc, List.take_append_of_le_length (by simp; omega), List.take_of_length_le (by simp; omega)]
    · rw [List.take_eq_nil_iff]
      left
      simp; omega
  have hsh : ∀ g : Nat → List α → List β, (perPixel lead m g 0 y).shape = lead ++ [(truePos mask).length] ++ [m] := by
    intro g
    rw [← hy]
    rfl
  unfold reshapeOutput
  dsimp only
  rw [if_neg (by rw [hsh]; simp), hsh, hmask, hlead, show (lead ++ [(truePos mask).length] ++ [m]).getLastD 0 = m by simp]
  have key : ∀ (i : Nat) (g : Nat → List α → List β), i ≠ 1 → (∀ b s, (g b s).length = m) →
      reshapeOne nan (lead ++ [(truePos mask).length] ++ [m]) (some mask) i (some (perPixel lead m g 0 y)) =
        .ok (some (perPixelMasked lead m g nan mask x)) := by
    intro i g hi hg
    unfold reshapeOne
    rw [if_neg hi]
    dsimp only
    rw [npReshape_nat, if_pos (by rw [hsh])]
    have e : (⟨lead ++ [(truePos mask).length] ++ [m], (perPixel lead m g 0 y).data⟩ : NdArr β) = perPixel lead m g 0 y := by
      rw [← hsh g]
    simp only [e, unmask_perPixel nan x n F hx mask hmask hwf lead m hlead g hg y hy.symm]
    rfl
  rw [List.zipIdx_cons, List.zipIdx_cons, List.mapM_cons, List.mapM_cons]
  dsimp only
  rw [key 0 g0 (by decide) hg0]
  have hrest := mapM_zipIdx_ok (fun xi => reshapeOne nan (lead ++ [(truePos mask).length] ++ [m]) (some mask) xi.2 xi.1)
      (fun _ i => ((gs.map fun g => g.map fun g => perPixelMasked lead m g nan mask x)[i - 2]?).getD none)
      (gs.map fun g => g.map fun g => perPixel lead m g 0 y) 2 (by
        intro i a ha
        dsimp only
        rw [show 2 + i - 2 = i by omega]
        rw [List.getElem?_map, Option.map_eq_some_iff] at ha
        obtain ⟨g, hg, rfl⟩ := ha
        rw [List.getElem?_map, hg]
        cases g with
        | none =>
          unfold reshapeOne
          rw [if_neg (by omega)]
          rfl
        | some g =>
          simp only [Option.map_some, Option.getD_some]
          exact key _ g (by omega) (hgs _ (List.mem_of_getElem? hg) g rfl))
  rw [show 0 + 1 + 1 = 2 from rfl, hrest]
  have : (((gs.map fun g => g.map fun g => perPixel lead m g 0 y).zipIdx 2).map fun p =>
      ((gs.map fun g => g.map fun g => perPixelMasked lead m g nan mask x)[p.2 - 2]?).getD none) =
      gs.map fun g => g.map fun g => perPixelMasked lead m g nan mask x := by
    refine List.ext_getElem (by simp) fun i hi hi' => ?_
    simp only [List.getElem_map, List.getElem_zipIdx]
    rw [show 2 + i - 2 = i by omega, List.getElem?_eq_getElem hi']
    simp
  rw [this]
  rfl

/-- Two pixels of a 2 by 2 frame selected, their sums over the three times; the others are `none`. -/
example :
    let x : NdArr Int := ⟨[3, 2, 2], [1, 2, 3, 4, 5, 6, 7, 8, 9, 10, 11, 12]⟩
    let mask : NdArr Bool := ⟨[2, 2], [false, true, true, false]⟩
    WellFormed mask ∧
    perPixelMasked [] 1 (fun _ s => [some s.sum]) none mask x = ⟨[2, 2, 1], [none, some 18, some 21, none]⟩ :=
  ⟨rfl, rfl⟩

/-- A mask with time along another axis is refused. -/
theorem C66_mask_axis {α : Type} [Inhabited α] (x : NdArr α) (axis : Int) (k : Nat)
    (hk : resolveIdx x.shape.length axis = some k) (h0 : k ≠ 0) (divisor : Option Int) (mask : NdArr Bool) :
    reshapeInput x axis divisor (some mask) = .error .valueError := by
  unfold reshapeInput
  rw [hk]
  simp only [h0, ne_eq, not_false_eq_true, if_true]
  rfl

/-- A mask together with two or more threads: `reshape_input` accepts them, `reshape_output` raises `ValueError`. -/
theorem C66_mask_divisor_refuted {α β : Type} [Inhabited α] (nan : β) (x : NdArr α) (n a b : Nat)
    (hx : x.shape = [n, a, b]) (mask : NdArr Bool) (hmask : mask.shape = [a, b]) (d : Nat) (hd : 2 ≤ d)
    (hc : 0 < (truePos mask).length) (hdvd : d ∣ (truePos mask).length) (lead : List Nat) (hl : 0 < lead.prod)
    (m : Nat) (hm : 0 < m) (g0 : Nat → List α → List β) (rest : List (Option (NdArr β))) :
    ∃ y : NdArr α, reshapeInput x 0 (some (d : Int)) (some mask) = .ok (y, [(truePos mask).length]) ∧
      y.shape = [n, d, (truePos mask).length / d] ∧
      reshapeOutput nan (some (perPixel lead m g0 0 y) :: rest) (some [(truePos mask).length]) (some mask) =
        .error .valueError := by
  set c := (truePos mask).length with hcdef
  refine ⟨⟨[n, d, c / d], (List.range n).flatMap fun (t : Nat) =>
        (truePos mask).map fun (q : Nat) => x.data.getD (t * [a, b].prod + q) default⟩, ?_, rfl, ?_⟩
  · unfold reshapeInput maskSelect
    rw [hx]
    simp only [resolveIdx, hmask, List.tail_cons, if_true, bind, Except.bind]
    rw [if_pos (by omega), if_pos (by simp)]
    simp only [List.headD_cons, Int.toNat_zero, ne_eq, not_true_eq_false, if_false, List.eraseIdx_cons_zero,
      Option.isNone_some, ← hcdef]
    rw [threadFrameShape_some [c] (by simp) d (by omega) (by simpa using hdvd)]
    simp only
    have e : pyInsert ([d, [c].prod / d].map fun (n : Nat) => (n : Int)) 0 (([n, c].getD 0 0 : Nat) : Int) =
        [n, d, c / d].map fun (n : Nat) => (n : Int) := by simp [pyInsert]
    rw [e, npReshape_nat, if_pos (by simp [Nat.mul_div_cancel' hdvd])]
  · generalize hy : (⟨[n, d, c / d], (List.range n).flatMap fun (t : Nat) =>
        (truePos mask).map fun (q : Nat) => x.data.getD (t * [a, b].prod + q) default⟩ : NdArr α) = y
    have hsh : (perPixel lead m g0 0 y).shape = lead ++ [d] ++ [c / d, m] := by
      rw [← hy]
      unfold perPixel
      simp
    apply reshapeOutput_fails nan _ _ [c] (lead ++ [d])
    · rw [hsh]; simp
    · dsimp only
      rw [hsh, hmask]
      unfold shapeHead
      rw [if_neg (by simp), List.take_append_of_le_length (by simp), List.take_of_length_le (by simp)]
    · rw [hsh]
      have hlast : (lead ++ [d] ++ [c / d, m]).getLastD 0 = m := by
        rw [show lead ++ [d] ++ [c / d, m] = (lead ++ [d] ++ [c / d]) ++ [m] by simp]
        simp
      rw [hlast]
      intro h
      simp only [List.prod_append, List.prod_cons, List.prod_nil, Nat.mul_one] at h
      have h' : (lead.prod * d) * c * m = lead.prod * c * m := by
        rw [h]
        conv_rhs => rw [← Nat.mul_div_cancel' hdvd]
        ring
      have h1 := Nat.eq_of_mul_eq_mul_right hm h'
      have h2 := Nat.eq_of_mul_eq_mul_right hc h1
      have : lead.prod * 2 ≤ lead.prod * d := Nat.mul_le_mul_left _ hd
      omega

/-- A mask of one-dimensional frames that selects two or more pixels: `reshape_output` raises `ValueError`. -/
theorem C66_mask_1d_refuted {α β : Type} [Inhabited α] (nan : β) (x : NdArr α) (n P : Nat) (hx : x.shape = [n, P])
    (mask : NdArr Bool) (hmask : mask.shape = [P]) (hc : 2 ≤ (truePos mask).length) (lead : List Nat)
    (hl : 0 < lead.prod) (m : Nat) (hm : 0 < m) (g0 : Nat → List α → List β) (rest : List (Option (NdArr β))) :
    ∃ y : NdArr α, reshapeInput x 0 none (some mask) = .ok (y, [(truePos mask).length]) ∧
      reshapeOutput nan (some (perPixel lead m g0 0 y) :: rest) (some [(truePos mask).length]) (some mask) =
        .error .valueError := by
  refine ⟨_, reshapeInput_masked x n [P] hx mask hmask, ?_⟩
  generalize hy : (⟨[n, (truePos mask).length], (List.range n).flatMap fun (t : Nat) =>
        (truePos mask).map fun (q : Nat) => x.data.getD (t * [P].prod + q) default⟩ : NdArr α) = y
  set c := (truePos mask).length with hcdef
  have hsh : (perPixel lead m g0 0 y).shape = lead ++ [c] ++ [m] := by
    rw [← hy]
    unfold perPixel
    simp
  apply reshapeOutput_fails nan _ _ [c] (lead ++ [c])
  · rw [hsh]; simp
  · dsimp only
    rw [hsh, hmask]
    unfold shapeHead
    rw [if_neg (by simp), List.take_append_of_le_length (by simp), List.take_of_length_le (by simp)]
  · rw [hsh, show (lead ++ [c] ++ [m]).getLastD 0 = m by simp]
    intro h
    simp only [List.prod_append, List.prod_singleton] at h
    have h1 := Nat.eq_of_mul_eq_mul_right hm h
    have : (lead.prod * c) * 2 ≤ (lead.prod * c) * c := Nat.mul_le_mul_left _ hc
    have : 0 < lead.prod * c := Nat.mul_pos hl (by omega)
    omega

/-- `reshape_output(data, mask = mask)` without `shape`, when the mask leaves out a pixel: `ValueError`, although the
mask determines the shape. -/
theorem C66_shape_none_refuted {α β : Type} [Inhabited α] (nan : β) (x : NdArr α) (n a b : Nat)
    (hx : x.shape = [n, a, b]) (mask : NdArr Bool) (hmask : mask.shape = [a, b])
    (hc : (truePos mask).length < a * b) (lead : List Nat) (hl : 0 < lead.prod) (m : Nat) (hm : 0 < m)
    (g0 : Nat → List α → List β) (rest : List (Option (NdArr β))) :
    ∃ y : NdArr α, reshapeInput x 0 none (some mask) = .ok (y, [(truePos mask).length]) ∧
      reshapeOutput nan (some (perPixel lead m g0 0 y) :: rest) none (some mask) = .error .valueError := by
  refine ⟨_, reshapeInput_masked x n [a, b] hx mask hmask, ?_⟩
  generalize hy : (⟨[n, (truePos mask).length], (List.range n).flatMap fun (t : Nat) =>
        (truePos mask).map fun (q : Nat) => x.data.getD (t * [a, b].prod + q) default⟩ : NdArr α) = y
  set c := (truePos mask).length with hcdef
  have hsh : (perPixel lead m g0 0 y).shape = lead ++ [c] ++ [m] := by
    rw [← hy]
    unfold perPixel
    simp
  have := reshapeOutput_fails nan (perPixel lead m g0 0 y) rest mask.shape lead (by rw [hsh]; simp) (some mask)
    (by
      dsimp only
      rw [hsh, hmask]
      unfold shapeHead
      rw [if_neg (by simp), List.append_assoc, List.take_append_of_le_length (by simp), List.take_of_length_le (by simp)])
    (by
      rw [hsh, hmask, show (lead ++ [c] ++ [m]).getLastD 0 = m by simp]
      intro h
      simp only [List.prod_append, List.prod_cons, List.prod_nil, Nat.mul_one] at h
      have h1 := Nat.eq_of_mul_eq_mul_right hm h
      have h2 := Nat.eq_of_mul_eq_mul_left hl h1
      omega)
  exact this

example :
    let mask : NdArr Bool := ⟨[2, 2], [false, true, true, false]⟩
    (truePos mask).length = 2 := rfl

/-! ## `reshape_frame` -/

/-- A frame reshaped for threads comes back. -/
theorem C66_frame {α : Type} (nan : α) (x : NdArr α) (new : List Nat) (h : new.prod = x.shape.prod) :
    reshapeFrame nan ⟨new, x.data⟩ x.shape none = .ok x := by
  unfold reshapeFrame
  rw [npReshape_nat, if_pos h.symm]

/-- A masked frame reshaped for threads comes back with `nan` outside the mask. -/
theorem C66_frame_masked {α : Type} (nan : α) (v : Nat → α) (mask : NdArr Bool) (hwf : WellFormed mask) (new : List Nat)
    (h : new.prod = (truePos mask).length) :
    reshapeFrame nan ⟨new, (truePos mask).map v⟩ [(truePos mask).length] (some mask) =
      .ok ⟨mask.shape, (List.range mask.shape.prod).map fun p => if mask.data.getD p false then v p else nan⟩ := by
  unfold reshapeFrame
  rw [npReshape_nat, if_pos (by simpa using h.symm)]
  simp only [if_true]
  have hr := rowsOf_flatten 1 ((truePos mask).map fun q => [v q]) (by
    intro r hr
    obtain ⟨q, -, rfl⟩ := List.mem_map.mp hr
    rfl) []
  rw [List.length_map, List.append_nil] at hr
  have e : ((truePos mask).map fun q => [v q]).flatten = (truePos mask).map v := by
    rw [← List.flatMap_def]
    exact List.flatMap_pure_eq_map _ _
  rw [e] at hr
  have hs := scatterRows_truePos [nan] mask.data (fun q => [v q]) 0
  simp only [Nat.zero_add] at hs
  rw [hr]
  unfold truePos
  rw [hs]
  congr 2
  rw [← List.flatMap_def, show mask.data.length = mask.shape.prod from hwf, ← List.flatMap_pure_eq_map]
  congr 1
  funext q
  simp only [Function.comp]
  split_ifs <;> rfl

end Cddm
