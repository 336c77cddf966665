import Verif.Lemmas.Video
import Mathlib.Algebra.Group.Basic

/-!
# C59, C60: videos and arrays, arithmetic on videos
-/

namespace Cddm
open Spec

/-! ### C59 -/

/-- **C59** (`asarrays`): a video of at least one multi-frame, with the same number of cameras in each and at most
`count` of them, gives one array per camera of `count` rows: the frames of that camera, in order, and then rows
that were never written. -/
theorem C59_asarrays {F : Type} {put : F → F → Py F} (verbose : Int) (v : VideoArg F) {count C : Nat}
    (hv : v.frames ≠ []) (hC : HasCameras v.frames C) (hcount : v.frames.length ≤ count)
    (hfit : FramesFit put v.frames) :
    ∃ arrays, asarrays put verbose v (some count) = .ok arrays ∧ arrays.length = C ∧
      ∀ c, c < C → arrays[c]? =
        some ((camera v.frames c).map some ++ List.replicate (count - v.frames.length) none) := by
  obtain ⟨arrays, e, l, h⟩ := loadVideo_ok (fun _ => none) verbose v.frames hv hC hcount hfit
  refine ⟨arrays, e, l, fun c hc => ?_⟩
  obtain ⟨t, rest, -, h⟩ := h c hc
  exact h

/-- **C59** (`asmemmaps`, of an iterator): the same, but the rows of missing frames hold zeros. -/
theorem C59_asmemmaps {F : Type} {put : F → F → Py F} (zero : F → F) (verbose : Int) (v : VideoArg F) {count C : Nat}
    (hit : v.iterator = true) (hv : v.frames ≠ []) (hC : HasCameras v.frames C) (hcount : v.frames.length ≤ count)
    (hfit : FramesFit put v.frames) :
    ∃ arrays, asmemmaps put zero verbose v (some count) = .ok arrays ∧ arrays.length = C ∧
      ∀ c, c < C → ∃ t, (camera v.frames c).head? = some t ∧ arrays[c]? =
        some ((camera v.frames c).map some ++ List.replicate (count - v.frames.length) (some (zero t))) := by
  obtain ⟨arrays, e, l, h⟩ := loadVideo_ok (fun t => some (zero t)) verbose v.frames hv hC hcount hfit
  refine ⟨arrays, ?_, l, fun c hc => ?_⟩
  · unfold asmemmaps resolveCount
    simp only [bind, Except.bind, hit, if_true]
    exact e
  · obtain ⟨t, rest, e, h⟩ := h c hc
    exact ⟨t, by rw [e]; rfl, h⟩

/-- **C59** (round trip): arrays of `n > 0` frames each, made into a video and loaded again with `count = n`, are
the same arrays, completely initialised. -/
theorem C59_round_trip {F : Type} {put : F → F → Py F} (verbose : Int) (sized it : Bool) {n : Nat} (hn : 0 < n)
    (arrays : List (List F)) (hne : arrays ≠ []) (hlen : ∀ a ∈ arrays, a.length = n)
    (hput : ∀ a ∈ arrays, ∀ f ∈ a, ∀ g ∈ a, put f g = .ok g) :
    asarrays put verbose ⟨fromarrays arrays, sized, it⟩ (some n) = .ok (arrays.map (·.map some)) := by
  have hl : (fromarrays arrays).length = n := by
    rw [fromarrays_eq arrays hne hlen]
    simp
  have hcam := camera_fromarrays arrays hne hlen
  obtain ⟨out, e, l, h⟩ := C59_asarrays (put := put) verbose ⟨fromarrays arrays, sized, it⟩ (count := n)
    (C := arrays.length)
    (by intro h; rw [show fromarrays arrays = [] from h] at hl; simp at hl; omega)
    (by
      intro fs hfs
      dsimp only at hfs
      rw [fromarrays_eq arrays hne hlen] at hfs
      obtain ⟨k, hk, rfl⟩ := List.mem_map.mp hfs
      exact row_length (List.mem_range.mp hk) arrays hlen)
    (by dsimp only; omega)
    (by
      intro c f g hf hg
      dsimp only at hf hg
      rw [hcam c] at hf hg
      cases e : arrays[c]? with
      | none => rw [e] at hf; cases hf
      | some a =>
        rw [e] at hf hg
        exact hput a (List.mem_of_getElem? e) f hf g hg)
  rw [e]
  congr 1
  refine List.ext_getElem? fun c => ?_
  by_cases hc : c < arrays.length
  · rw [h c hc]
    dsimp only
    rw [hcam c, hl, List.getElem?_map, List.getElem?_eq_getElem hc]
    simp
  · rw [List.getElem?_eq_none (by omega), List.getElem?_eq_none (by simp; omega)]

/-- **C59** (the length is used if there is one): `count = None` for a video that has a length is the same as
giving the length. -/
theorem C59_count_none {F : Type} (put : F → F → Py F) (verbose : Int) (v : VideoArg F) (h : v.sized = true) :
    asarrays put verbose v none = asarrays put verbose v (some v.frames.length) := by
  unfold asarrays resolveCount
  simp only [h, if_true]

/-- **C59** (`load`): loading a video of a known number of frames gives the same multi-frames. -/
theorem C59_load {F : Type} {put : F → F → Py F} (verbose : Int) (v : VideoArg F) {C : Nat} (hC0 : 0 < C)
    (hv : v.frames ≠ []) (hC : HasCameras v.frames C) (hfit : FramesFit put v.frames) :
    load put verbose v (some v.frames.length) = .ok (v.frames.map (·.map some)) := by
  obtain ⟨arrays, e, l, h⟩ := C59_asarrays (put := put) verbose v hv hC (le_refl _) hfit
  unfold load
  rw [e]
  show Except.ok (fromarrays arrays) = _
  congr 1
  have hlen : ∀ a ∈ arrays, a.length = v.frames.length := by
    intro a ha
    obtain ⟨c, hc, rfl⟩ := List.mem_iff_getElem.mp ha
    have h' := h c (by omega)
    rw [List.getElem?_eq_getElem hc] at h'
    rw [Option.some.inj h']
    simp only [List.length_append, List.length_map, List.length_replicate, Nat.sub_self, Nat.add_zero]
    have : ∀ (l : List (List F)), HasCameras l C → (camera l c).length = l.length := by
      intro l hl
      induction l with
      | nil => rfl
      | cons fs l ih =>
        have : c < fs.length := by rw [hl fs List.mem_cons_self]; omega
        unfold camera at ih ⊢
        rw [List.filterMap_cons, List.getElem?_eq_getElem this]
        simp only [List.length_cons]
        rw [ih fun f hf => hl f (List.mem_cons_of_mem _ hf)]
    exact this _ hC
  rw [fromarrays_eq arrays (by intro h; rw [h] at l; simp at l; omega) hlen]
  refine List.ext_getElem (by simp) fun k hk hk' => ?_
  have hkv : k < v.frames.length := by simpa using hk
  rw [List.getElem_map, List.getElem_range, List.getElem_map]
  refine List.ext_getElem? fun c => ?_
  rw [row_getElem? hkv arrays hlen c, List.getElem?_map]
  have hfs := hC v.frames[k] (List.getElem_mem hkv)
  by_cases hc : c < C
  · rw [h c hc]
    simp only [Option.bind_some, Nat.sub_self, List.replicate_zero, List.append_nil, List.getElem?_map]
    congr 1
    have : ∀ (l : List (List F)) (k : Nat) (hk : k < l.length), HasCameras l C → (camera l c)[k]? = l[k][c]? := by
      intro l
      induction l with
      | nil => intro k hk; simp at hk
      | cons fs l ih =>
        intro k hk hl
        have : c < fs.length := by rw [hl fs List.mem_cons_self]; omega
        have e : camera (fs :: l) c = fs[c] :: camera l c := by
          unfold camera
          rw [List.filterMap_cons, List.getElem?_eq_getElem this]
        rw [e]
        cases k with
        | zero => simp [List.getElem?_eq_getElem this]
        | succ k =>
          simp only [List.getElem?_cons_succ, List.getElem_cons_succ]
          exact ih k (by simpa using hk) fun f hf => hl f (List.mem_cons_of_mem _ hf)
    exact this _ k hkv hC
  · rw [List.getElem?_eq_none (by omega), List.getElem?_eq_none (by omega)]
    rfl

/-- **C59** (more frames than `count`): an `IndexError`, no silent truncation, for both functions. -/
theorem C59_too_many {F : Type} {put : F → F → Py F} (zero : F → F) (verbose : Int) (v : VideoArg F) {count C : Nat}
    (hcp : 0 < count) (hC0 : 0 < C) (hC : HasCameras v.frames C) (hcount : count < v.frames.length)
    (hfit : FramesFit put v.frames) :
    asarrays put verbose v (some count) = .error .indexError ∧
    (v.iterator = true → asmemmaps put zero verbose v (some count) = .error .indexError) := by
  refine ⟨loadVideo_over (fun _ => none) verbose hcp hC0 v.frames hC hcount hfit, fun hit => ?_⟩
  unfold asmemmaps resolveCount
  simp only [bind, Except.bind, hit, if_true]
  exact loadVideo_over (fun t => some (zero t)) verbose hcp hC0 v.frames hC hcount hfit

/-- **C59** (arguments that are rejected): no `count` and no length; no frames at all; a list given to
`asmemmaps`. -/
theorem C59_rejected {F : Type} (put : F → F → Py F) (zero : F → F) (verbose : Int) (v : VideoArg F) :
    (v.sized = false → asarrays put verbose v none = .error .valueError ∧
      asmemmaps put zero verbose v none = .error .valueError) ∧
    (v.frames = [] → ∀ count, 0 < count → asarrays put verbose v (some count) = .error .stopIteration) ∧
    (v.iterator = false → ∀ count, 0 < count → asmemmaps put zero verbose v (some count) = .error .typeError) ∧
    (1 ≤ verbose → asarrays put verbose v (some 0) = .error .zeroDivisionError) := by
  refine ⟨fun h => ?_, fun h count hc => ?_, fun h count hc => ?_, fun h => ?_⟩
  · unfold asarrays asmemmaps resolveCount
    simp [h, bind, Except.bind]
  · unfold asarrays resolveCount loadVideo
    simp only [bind, Except.bind]
    rw [if_neg (by omega), h]
  · unfold asmemmaps resolveCount
    simp only [bind, Except.bind, h]
    have : ¬(count = 0 ∧ 1 ≤ verbose) := by omega
    simp [this]
  · unfold asarrays resolveCount loadVideo
    simp only [bind, Except.bind]
    simp [h]

/-- **C59** (refuted: missing rows are presented): with fewer frames than `count` the call succeeds, and every
array holds rows that were never written. -/
theorem C59_missing_refuted {F : Type} {put : F → F → Py F} (verbose : Int) (v : VideoArg F) {count C : Nat}
    (hC0 : 0 < C) (hv : v.frames ≠ []) (hC : HasCameras v.frames C) (hcount : v.frames.length < count)
    (hfit : FramesFit put v.frames) :
    ∃ arrays, asarrays put verbose v (some count) = .ok arrays ∧ arrays ≠ [] ∧ ∀ a ∈ arrays, none ∈ a := by
  obtain ⟨arrays, e, l, h⟩ := C59_asarrays (put := put) verbose v hv hC (le_of_lt hcount) hfit
  refine ⟨arrays, e, by intro h; rw [h] at l; simp at l; omega, fun a ha => ?_⟩
  obtain ⟨c, hc, rfl⟩ := List.mem_iff_getElem.mp ha
  have h' := h c (by omega)
  rw [List.getElem?_eq_getElem hc] at h'
  rw [Option.some.inj h']
  simp
  omega

/-- **C59** (refuted: missing cameras are presented too): a later multi-frame with fewer cameras is accepted and
leaves its row unwritten. -/
theorem C59_camera_missing_refuted :
    asarrays (fun _ f => .ok f) 0 ⟨[[1, 2], [3]], true, false⟩ none = .ok [[some 1, some 3], [some 2, none]] := rfl

/-- **C59** (the part that is true): with exactly `count` frames no row is unwritten.  Missing: with fewer
frames the missing rows are never presented as data, which is false (`C59_missing_refuted`). -/
theorem C59_complete_partial {F : Type} {put : F → F → Py F} (verbose : Int) (v : VideoArg F) {C : Nat}
    (hv : v.frames ≠ []) (hC : HasCameras v.frames C) (hfit : FramesFit put v.frames) :
    ∃ arrays, asarrays put verbose v (some v.frames.length) = .ok arrays ∧ ∀ a ∈ arrays, none ∉ a := by
  obtain ⟨arrays, e, l, h⟩ := C59_asarrays (put := put) verbose v hv hC (le_refl _) hfit
  refine ⟨arrays, e, fun a ha => ?_⟩
  obtain ⟨c, hc, rfl⟩ := List.mem_iff_getElem.mp ha
  have h' := h c (by omega)
  rw [List.getElem?_eq_getElem hc] at h'
  rw [Option.some.inj h']
  simp

/-- Two arrays of three frames, to a video and back. -/
example : asarrays (fun _ f => .ok f) 0 ⟨fromarrays [[1, 2, 3], [4, 5, 6]], false, true⟩ (some 3) =
    .ok [[some 1, some 2, some 3], [some 4, some 5, some 6]] :=
  C59_round_trip (put := fun _ f => .ok f) 0 false true (by decide) [[1, 2, 3], [4, 5, 6]] (by simp) (by simp)
    (by intros; rfl)

/-- Two frames where three are announced. -/
example : ∃ arrays, asarrays (fun _ f => .ok f) 1 ⟨[[1, 2], [3, 4]], false, true⟩ (some 3) = .ok arrays ∧
    arrays ≠ [] ∧ ∀ a ∈ arrays, none ∈ a :=
  C59_missing_refuted (put := fun _ f => .ok f) (C := 2) 1 ⟨[[1, 2], [3, 4]], false, true⟩ (by decide) (by simp)
    (by simp [HasCameras]) (by decide) (by intro c f g _ _; rfl)

/-- Three frames where two are announced. -/
example : asarrays (fun _ f => .ok f) 1 ⟨[[1], [3], [5]], false, true⟩ (some 2) = .error .indexError :=
  (C59_too_many (put := fun _ f => .ok f) (C := 1) (fun _ => 0) 1 ⟨[[1], [3], [5]], false, true⟩ (by decide)
    (by decide) (by simp [HasCameras]) (by decide) (by intro c f g _ _; rfl)).1

/-- The example of `load`. -/
example : load (fun _ f => .ok f) 0 ⟨[[1, 2], [3, 4]], true, false⟩ (some 2) =
    .ok [[some 1, some 2], [some 3, some 4]] :=
  C59_load (put := fun _ f => .ok f) (C := 2) 0 ⟨[[1, 2], [3, 4]], true, false⟩ (by decide) (by simp)
    (by simp [HasCameras]) (by intro c f g _ _; rfl)

/-- And of `asmemmaps`: zeros for the missing frame. -/
example : asmemmaps (fun _ f => .ok f) (fun _ => 0) 0 ⟨[[1, 2], [3, 4]], false, true⟩ (some 3) =
    .ok [[some 1, some 3, some 0], [some 2, some 4, some 0]] := rfl

/-! ### C60 -/

theorem mapM_zip_ok {F : Type} (op : F → F → Py F) (f : F → F → F) (fs ws : List F)
    (hop : ∀ a b, op a b = .ok (f a b)) :
    (fs.zip ws).mapM (fun p => op p.1 p.2) = .ok (List.zipWith f fs ws) := by
  induction fs generalizing ws with
  | nil => rfl
  | cons a fs ih =>
    cases ws with
    | nil => rfl
    | cons b ws =>
      rw [List.zip_cons_cons, List.mapM_cons, ih ws]
      simp only [hop]
      rfl

theorem combine_cons {F : Type} {op : F → F → Py F} {f : F → F → F} (hop : ∀ a b, op a b = .ok (f a b))
    (fs ws : List F) (x y : List (List F)) (h : fs.length = ws.length) :
    combine op (fs :: x) (ws :: y) = (List.zipWith f fs ws :: (combine op x y).1, (combine op x y).2) := by
  conv_lhs => unfold combine
  rw [if_neg (by simpa using h), mapM_zip_ok op f fs ws hop]

/-- **C60** (`subtract`, `add`, `multiply`): as long as corresponding multi-frames have the same number of
cameras, the `i`-th multi-frame yielded is the combination of the `i`-th ones, up to the end of the shorter video,
and nothing is raised. -/
theorem C60_combine {F : Type} {op : F → F → Py F} {f : F → F → F} (hop : ∀ a b, op a b = .ok (f a b))
    (x y : List (List F)) (h : SameCameras x y) : combine op x y = (frameWise f x y, none) := by
  induction x generalizing y with
  | nil => rfl
  | cons fs x ih =>
    cases y with
    | nil => rfl
    | cons ws y =>
      rw [combine_cons hop fs ws x y (h (fs, ws) (by simp)), ih y fun p hp => h p (by simp [hp])]
      rfl

/-- **C60** (length): the number of multi-frames yielded is that of the shorter video. -/
theorem C60_length {F : Type} {op : F → F → Py F} {f : F → F → F} (hop : ∀ a b, op a b = .ok (f a b))
    (x y : List (List F)) (h : SameCameras x y) : (combine op x y).1.length = min x.length y.length := by
  rw [C60_combine hop x y h]
  simp [frameWise]

/-- **C60** (a mismatch): at the first multi-frames with different numbers of cameras `ValueError` is raised,
after all earlier ones have been yielded. -/
theorem C60_mismatch {F : Type} {op : F → F → Py F} {f : F → F → F} (hop : ∀ a b, op a b = .ok (f a b))
    (x y : List (List F)) (hxy : x.length = y.length) (h : SameCameras x y) (fs ws : List F)
    (hne : fs.length ≠ ws.length) (x' y' : List (List F)) :
    combine op (x ++ fs :: x') (y ++ ws :: y') = (frameWise f x y, some .valueError) := by
  induction x generalizing y with
  | nil =>
    cases y with
    | nil =>
      simp only [List.nil_append]
      unfold combine
      rw [if_pos hne]
      rfl
    | cons ws y => simp at hxy
  | cons gs x ih =>
    cases y with
    | nil => simp at hxy
    | cons us y =>
      rw [List.cons_append, List.cons_append, combine_cons hop gs us _ _ (h (gs, us) (by simp)),
        ih y (by simpa using hxy) fun p hp => h p (by simp [hp])]
      rfl

/-- **C60** (a failing operation): an error of the operation on two frames is raised, after all earlier multi-frames
have been yielded. -/
theorem C60_op_error {F : Type} {op : F → F → Py F} {f : F → F → F} (x y : List (List F)) (hxy : x.length = y.length)
    (h : SameCameras x y) (hop : ∀ p ∈ x.zip y, ∀ q ∈ p.1.zip p.2, op q.1 q.2 = .ok (f q.1 q.2))
    (fs ws : List F) (hlen : fs.length = ws.length) (e : PyErr)
    (he : (fs.zip ws).mapM (fun p => op p.1 p.2) = .error e) (x' y' : List (List F)) :
    combine op (x ++ fs :: x') (y ++ ws :: y') = (frameWise f x y, some e) := by
  induction x generalizing y with
  | nil =>
    cases y with
    | nil =>
      simp only [List.nil_append]
      unfold combine
      rw [if_neg (by simpa using hlen), he]
      rfl
    | cons ws y => simp at hxy
  | cons gs x ih =>
    cases y with
    | nil => simp at hxy
    | cons us y =>
      have m : (gs.zip us).mapM (fun p => op p.1 p.2) = .ok (List.zipWith f gs us) := by
        have := hop (gs, us) (by simp)
        dsimp only at this
        clear ih hxy h he hlen hop
        induction gs generalizing us with
        | nil => rfl
        | cons a gs ih =>
          cases us with
          | nil => rfl
          | cons b us =>
            rw [List.zip_cons_cons, List.mapM_cons, ih us fun q hq => this q (by simp [hq])]
            simp only [this (a, b) (by simp)]
            rfl
      have l := h (gs, us) (by simp)
      dsimp only at l
      rw [List.cons_append, List.cons_append]
      conv_lhs => unfold combine
      rw [if_neg (by simpa using l), m]
      dsimp only
      rw [ih y (by simpa using hxy) (fun p hp => h p (by simp [hp])) fun p hp => hop p (by simp [hp])]
      rfl

/-- **C60** (`add` undoes `subtract`): in every commutative group of frames, so also for integers that wrap
around. -/
theorem C60_add_subtract {F : Type} [AddCommGroup F] (x y : List (List F)) (h : SameCameras x y) :
    combine (fun a b => .ok (a + b)) (combine (fun a b => .ok (a - b)) x y).1 y = (x.take y.length, none) := by
  induction x generalizing y with
  | nil => cases y <;> rfl
  | cons fs x ih =>
    cases y with
    | nil => rfl
    | cons ws y =>
      have l := h (fs, ws) (by simp)
      dsimp only at l
      rw [combine_cons (f := fun a b => a - b) (fun _ _ => rfl) fs ws x y l]
      rw [combine_cons (f := fun a b => a + b) (fun _ _ => rfl) _ ws _ y (by simp [l]),
        ih y fun p hp => h p (by simp [hp])]
      have : List.zipWith (fun a b => a + b) (List.zipWith (fun a b => a - b) fs ws) ws = fs := by
        clear h ih
        induction fs generalizing ws with
        | nil => rfl
        | cons a fs ih' =>
          cases ws with
          | nil => simp at l
          | cons b ws =>
            simp only [List.zipWith_cons_cons, sub_add_cancel]
            rw [ih' ws (by simpa using l)]
      rw [this]
      rfl

/-- **C60** (`inplace`): the frames of the first video are replaced by the results, and those beyond the end of the
second stay. -/
theorem C60_inplace {F : Type} {op : F → F → Py F} {f : F → F → F} (hop : ∀ a b, op a b = .ok (f a b))
    (x y : List (List F)) (h : SameCameras x y) :
    combineInplace op x y = frameWise f x y ++ x.drop y.length := by
  unfold combineInplace
  rw [C60_combine hop x y h]
  congr 1
  simp only [frameWise, List.length_zipWith]
  rcases le_total x.length y.length with c | c
  · rw [min_eq_left c, List.drop_of_length_le (le_refl _), List.drop_of_length_le c]
  · rw [min_eq_right c]

/-- Two cameras, three frames minus two frames. -/
example : combine (fun a b => .ok (a - b)) [[5, 7], [6, 8], [1, 1]] [[1, 2], [3, 4]] = ([[4, 5], [3, (4 : Int)]], none) :=
  C60_combine (f := fun a b => a - b) (fun _ _ => rfl) _ _ (by simp [SameCameras])

/-- The second multi-frames differ in the number of cameras. -/
example : combine (fun a b => .ok (a * b)) [[5, 7], [6]] [[1, 2], [3, 4]] = ([[5, (14 : Int)]], some .valueError) :=
  C60_mismatch (f := fun a b => a * b) (fun _ _ => rfl) [[5, 7]] [[1, 2]] rfl (by simp [SameCameras]) [6] [3, 4]
    (by decide) [] []

/-- Adding what was subtracted. -/
example : combine (fun a b => .ok (a + b)) (combine (fun a b => .ok (a - b)) [[5, 7], [6, 8]] [[9, 2], [3, 4]]).1
    [[9, 2], [3, 4]] = ([[5, 7], [6, (8 : Int)]], none) :=
  C60_add_subtract _ _ (by simp [SameCameras])

end Cddm
