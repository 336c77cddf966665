import Verif.Spec.AnyAxis
import Verif.Lemmas.Vec

/-! # Kernels applied to rows and planes of arrays of any number of axes -/

namespace Cddm
open Spec
variable {α M : Type}

/-! ### Positions -/

theorem mem_positionsOf {s p : List Nat} : p ∈ positionsOf s ↔ InShape p s := by
  induction s generalizing p with
  | nil => simp [positionsOf, InShape]
  | cons n s ih =>
    simp only [positionsOf, List.mem_flatMap, List.mem_range, List.mem_map, InShape]
    constructor
    · rintro ⟨i, hi, q, hq, rfl⟩
      exact List.Forall₂.cons hi (ih.1 hq)
    · intro h
      rcases h with _ | ⟨hi, hq⟩
      exact ⟨_, hi, _, ih.2 hq, rfl⟩

theorem inShape_length {p s : List Nat} (h : InShape p s) : p.length = s.length := List.Forall₂.length_eq h

theorem inShape_snoc {o s : List Nat} {j K : Nat} (ho : InShape o s) (hj : j < K) : InShape (o ++ [j]) (s ++ [K]) :=
  List.rel_append ho (List.Forall₂.cons hj List.Forall₂.nil)

theorem inShape_snoc_cases {p u : List Nat} {K : Nat} (h : InShape p (u ++ [K])) :
    ∃ o j, p = o ++ [j] ∧ InShape o u ∧ j < K := by
  rcases List.eq_nil_or_concat p with rfl | ⟨o, j, rfl⟩
  · have := (inShape_length h); simp at this
  · refine ⟨o, j, by simp, ?_⟩
    have hl := (inShape_length h)
    simp only [List.concat_eq_append, List.length_append, List.length_singleton, Nat.add_right_cancel_iff] at hl
    have h' : List.Forall₂ (· < ·) (o ++ [j]) (u ++ [K]) := by simpa [InShape] using h
    have h1 := List.forall₂_take o.length h'
    have h2 := List.forall₂_drop o.length h'
    simp only [List.take_left, List.drop_left] at h1 h2
    rw [hl] at h1 h2
    simp only [List.take_left, List.drop_left] at h1 h2
    refine ⟨h1, ?_⟩
    simpa using h2

/-! ### Moved axes -/

theorem pyInsert_end (o : List α) (x : α) : pyInsert o o.length x = o ++ [x] := by simp [pyInsert]

theorem pyInsert_pre (o : List α) (x y : α) : pyInsert (o ++ [y]) o.length x = o ++ [x, y] := by simp [pyInsert]

theorem eraseIdx_end (o : List α) (x : α) : (o ++ [x]).eraseIdx o.length = o := by
  simp [List.eraseIdx_append_of_length_le]

theorem eraseIdx_pre (o : List α) (x y : α) : (o ++ [x, y]).eraseIdx o.length = o ++ [y] := by
  simp [List.eraseIdx_append_of_length_le]

theorem getD_end (o : List Nat) (x : Nat) : (o ++ [x]).getD o.length 0 = x := by simp [List.getD_eq_getElem?_getD]

theorem getD_pre (o : List Nat) (x y : Nat) : (o ++ [x, y]).getD o.length 0 = x := by simp [List.getD_eq_getElem?_getD]

theorem eraseIdx_last (o : List α) (x y : α) : (o ++ [x, y]).eraseIdx (o.length + 1) = o ++ [x] := by
  simp [List.eraseIdx_append_of_length_le]

theorem getD_last (o : List Nat) (x y : Nat) : (o ++ [x, y]).getD (o.length + 1) 0 = y := by
  simp [List.getD_eq_getElem?_getD]

theorem pyInsert_last (o : List α) (x y : α) : pyInsert (o ++ [x]) (o.length + 1) y = o ++ [x, y] := by
  have := pyInsert_end (o ++ [x]) y
  simpa using this

theorem moveAxis_end_get (x : Tensor α) (ax : Nat) (o : List Nat) (i : Nat) :
    (moveAxis x ax o.length).get (o ++ [i]) = x.get (pyInsert o ax i) := by
  simp only [moveAxis, eraseIdx_end, getD_end]

theorem moveAxis_pre_get (x : Tensor α) (ax : Nat) (o : List Nat) (i j : Nat) :
    (moveAxis x ax o.length).get (o ++ [i, j]) = x.get (pyInsert (o ++ [j]) ax i) := by
  simp only [moveAxis, eraseIdx_pre, getD_pre]

theorem along_eq_rowAt (x : Tensor α) {s p : List Nat} {L : Nat} (hs : x.shape = s ++ [L]) (hp : p.length = s.length) :
    along x s.length p = rowAt x L p := by
  unfold along rowAt
  rw [hs, getD_end, ← hp]
  simp

theorem along_length (x : Tensor α) (ax : Nat) (p : List Nat) : (along x ax p).length = x.shape.getD ax 0 := by
  simp [along]

theorem rowAt_length (x : Tensor α) (N : Nat) (o : List Nat) : (rowAt x N o).length = N := by simp [rowAt]

theorem planeAt_length (x : Tensor α) (N K : Nat) (o : List Nat) : (planeAt x N K o).length = N := by simp [planeAt]

theorem planeAt_rect (x : Tensor α) (N K : Nat) (o : List Nat) : Rect K (planeAt x N K o) := by
  intro r hr
  simp only [planeAt, List.mem_map] at hr
  obtain ⟨i, -, rfl⟩ := hr
  simp

theorem col_planeAt (x : Tensor α) (N K : Nat) (o : List Nat) {j : Nat} (hj : j < K) :
    col j (planeAt x N K o) = (List.range N).map fun i => x.get (o ++ [i, j]) := by
  unfold planeAt
  induction List.range N with
  | nil => rfl
  | cons i l ih =>
    unfold col at ih ⊢
    rw [List.map_cons, List.filterMap_cons_some (b := x.get (o ++ [i, j])) (by simp [hj]), ih, List.map_cons]

/-! ### Kernels on all rows, on all planes -/

theorem map_getD_range {l : List M} [Zero M] {L : Nat} (h : l.length = L) :
    (List.range L).map (fun i => l.getD i 0) = l := by
  subst h
  refine List.ext_getElem (by simp) fun i h1 h2 => ?_
  simp [h2]

theorem overRows_ok [Zero M] (outer : List Nat) (L : Nat) (F : List Nat → Option (List M))
    (h : ∀ o, InShape o outer → ∃ l, F o = some l ∧ l.length = L) :
    ∃ r, overRows outer L F = some r ∧ r.shape = outer ++ [L] ∧ ∀ o, InShape o outer → F o = some (rowAt r L o) := by
  have hall : ((positionsOf outer).all fun o => (F o).isSome) = true := by
    rw [List.all_eq_true]
    intro o ho
    obtain ⟨l, hl, -⟩ := h o (mem_positionsOf.1 ho)
    simp [hl]
  refine ⟨_, by unfold overRows; rw [if_pos hall], rfl, fun o ho => ?_⟩
  obtain ⟨l, hl, hL⟩ := h o ho
  simp only [rowAt, List.dropLast_concat, hl, Option.getD_some]
  simp only [List.getLastD_concat]
  rw [map_getD_range hL]

theorem overPlanes_ok [Zero M] (outer : List Nat) (L K : Nat) (F : List Nat → Option (List (List M)))
    (h : ∀ o, InShape o outer → ∃ l, F o = some l ∧ l.length = L ∧ Rect K l) :
    ∃ r, overPlanes outer L K F = some r ∧ r.shape = outer ++ [L, K] ∧
      ∀ o, InShape o outer → F o = some (planeAt r L K o) := by
  have hall : ((positionsOf outer).all fun o => (F o).isSome) = true := by
    rw [List.all_eq_true]
    intro o ho
    obtain ⟨l, hl, -⟩ := h o (mem_positionsOf.1 ho)
    simp [hl]
  refine ⟨_, by unfold overPlanes; rw [if_pos hall], rfl, fun o ho => ?_⟩
  obtain ⟨l, hl, hL, hK⟩ := h o ho
  have e : ∀ i j : Nat, (o ++ [i, j]).dropLast = o ++ [i] := by
    intro i j
    rw [show o ++ [i, j] = (o ++ [i]) ++ [j] by simp, List.dropLast_concat]
  have e' : ∀ i j : Nat, (o ++ [i, j]).getLastD 0 = j := by
    intro i j
    rw [show o ++ [i, j] = (o ++ [i]) ++ [j] by simp, List.getLastD_concat]
  rw [hl]
  simp only [planeAt, e, e', List.dropLast_concat, List.getLastD_concat, hl, Option.getD_some, Option.some.injEq]
  subst hL
  refine List.ext_getElem (by simp) fun i h1 h2 => ?_
  have hr : l[i].length = K := hK _ (List.getElem_mem h1)
  simp only [List.getElem_map, List.getElem_range]
  rw [show l.getD i [] = l[i] by simp [h1], map_getD_range hr]

/-! ### The second half of the functions -/

/-- The computation for one pixel. -/
def pixelRun [Zero M] (regular : Bool) (n : Nat) (complex : Bool) (aout : Option (List M)) (dims : Bool)
    (fR fI : List M → Option (List M)) : Py (List M) := do
  let out ← defaultOut aout n complex
  if regular then orUB (fR out)
  else do
    checkDims dims
    orUB (fI out)

/-- `_default_out` with the axis last. -/
theorem defaultOutAny_end [Zero M] {aout : Option (Tensor M)} {frame : List Nat} (N n : Nat) (complex : Bool)
    (hfit : OutFits frame aout) :
    (defaultOutAny aout (frame ++ [N]) n frame.length complex = .error .valueError ∧
      ∀ p, defaultOut (outAt frame aout p) n complex = .error .valueError) ∨
    ∃ out L, defaultOutAny aout (frame ++ [N]) n frame.length complex = .ok out ∧ out.shape = frame ++ [L] ∧
      ∀ p, InShape p frame → defaultOut (outAt frame aout p) n complex = .ok (rowAt out L p) := by
  rcases aout with _ | o
  · by_cases h : complex = true ∧ n = 0
    · left
      obtain ⟨rfl, rfl⟩ := h
      simp [defaultOutAny, defaultOut, outAt]
    · right
      refine ⟨_, if complex then 2 * n - 1 else n, by unfold defaultOutAny; simp only [if_neg h]; rfl, by simp, fun p hp => ?_⟩
      cases complex
      · simp [defaultOut, outAt, rowAt, List.map_const']
      · have hn : n ≠ 0 := fun hn => h ⟨rfl, hn⟩
        simp [defaultOut, outAt, rowAt, List.map_const', hn]
  · right
    obtain ⟨L, hL⟩ := hfit o rfl
    have h1 : ¬ o.shape.length < (frame ++ [N]).length - frame.length := by simp [hL]
    have e1 : o.shape.length - ((frame ++ [N]).length - frame.length) = frame.length := by simp [hL]
    have e2 : o.shape.length - 1 = frame.length := by simp [hL]
    have hsh : (moveAxis o frame.length frame.length).shape = frame ++ [L] := by
      simp only [moveAxis, hL, eraseIdx_end, getD_end, pyInsert_end]
    refine ⟨moveAxis o frame.length frame.length, L, ?_, hsh, fun p hp => ?_⟩
    · unfold defaultOutAny
      simp only [if_neg h1, e1, e2]
      rw [hsh, hL]
      simp
    · simp only [outAt, Option.map_some, defaultOut]
      rw [along_eq_rowAt o hL (inShape_length hp)]
      unfold rowAt
      rw [← (inShape_length hp)]
      simp only [moveAxis_end_get, pyInsert_end]

/-- `_default_out` with the axis last but one. -/
theorem defaultOutAny_pre [Zero M] {aout : Option (Tensor M)} {u : List Nat} (N K n : Nat) (complex : Bool)
    (hfit : OutFits (u ++ [K]) aout) :
    (defaultOutAny aout (u ++ [N, K]) n u.length complex = .error .valueError ∧
      ∀ p, defaultOut (outAt (u ++ [K]) aout p) n complex = .error .valueError) ∨
    ∃ out L, defaultOutAny aout (u ++ [N, K]) n u.length complex = .ok out ∧ out.shape = u ++ [L, K] ∧
      ∀ p j, InShape p u → j < K →
        defaultOut (outAt (u ++ [K]) aout (p ++ [j])) n complex = .ok (col j (planeAt out L K p)) := by
  rcases aout with _ | o
  · by_cases h : complex = true ∧ n = 0
    · left
      obtain ⟨rfl, rfl⟩ := h
      simp [defaultOutAny, defaultOut, outAt]
    · right
      refine ⟨_, if complex then 2 * n - 1 else n, by unfold defaultOutAny; simp only [if_neg h]; rfl, by simp,
        fun p j hp hj => ?_⟩
      rw [col_planeAt _ _ _ _ hj]
      cases complex
      · simp [defaultOut, outAt, List.map_const']
      · have hn : n ≠ 0 := fun hn => h ⟨rfl, hn⟩
        simp [defaultOut, outAt, List.map_const', hn]
  · right
    obtain ⟨L, hL⟩ := hfit o rfl
    have hL' : o.shape = u ++ [K, L] := by simpa using hL
    have h1 : ¬ o.shape.length < (u ++ [N, K]).length - u.length := by simp [hL']
    have e1 : o.shape.length - ((u ++ [N, K]).length - u.length) = u.length := by simp [hL']
    have e2 : o.shape.length - 1 = u.length + 1 := by simp [hL']
    have hsh : (moveAxis o u.length (u.length + 1)).shape = u ++ [L, K] := by
      simp only [moveAxis, hL', eraseIdx_pre, getD_pre, pyInsert_last]
    refine ⟨moveAxis o u.length (u.length + 1), L, ?_, hsh, fun p j hp hj => ?_⟩
    · unfold defaultOutAny
      simp only [if_neg h1, e1, e2]
      rw [hsh, hL]
      simp
    · simp only [outAt, Option.map_some, defaultOut]
      rw [along_eq_rowAt o hL (inShape_length (inShape_snoc hp hj)), col_planeAt _ _ _ _ hj]
      unfold rowAt
      have := (inShape_length hp)
      simp only [moveAxis, ← this, eraseIdx_last, getD_last, pyInsert_pre, List.append_assoc, List.cons_append,
        List.nil_append]

theorem rowAt_moveAxis_end (r : Tensor M) (L : Nat) {s p : List Nat} (hp : p.length = s.length) :
    rowAt (moveAxis r s.length s.length) L p = rowAt r L p := by
  unfold rowAt
  rw [← hp]
  simp only [moveAxis_end_get, pyInsert_end]

theorem applyKernels_rows [Zero M] (frame : List Nat) (N n : Nat) (regular complex dims : Bool)
    (aout : Option (Tensor M)) (fReg fOne : List Nat → List M → Option (List M))
    (fVec : List Nat → List (List M) → Option (List (List M)))
    (hreg : regular = true ∨ frame = []) (hfit : OutFits frame aout)
    (fR fI : List Nat → List M → Option (List M))
    (eR : ∀ o, InShape o frame → fReg o = fR o) (eI : regular = false → fOne [] = fI [])
    (okR : regular = true → ∀ o, InShape o frame → ∀ out, defaultOut (outAt frame aout o) n complex = .ok out →
      ∃ l, fR o out = some l ∧ l.length = out.length)
    (okI : regular = false → dims = true → ∀ out, ∃ l, fI [] out = some l ∧ l.length = out.length) :
    PixelWise frame (applyKernels (frame ++ [N]) regular frame.length n complex aout dims fReg fOne fVec)
      fun p => pixelRun regular n complex (outAt frame aout p) dims (fR p) (fI p) := by
  unfold applyKernels pixelRun
  rcases defaultOutAny_end N n complex hfit with ⟨he, hp⟩ | ⟨out, L, he, hsh, hp⟩
  · rw [he]
    intro p _
    simp only [hp, bind, Except.bind]
  · rw [he]
    have eL : out.shape.getD frame.length 0 = L := by rw [hsh, getD_end]
    have e1 : (frame ++ [N]).length - 1 = frame.length := by simp
    have fin : ∀ r : Tensor M, r.shape = frame ++ [L] →
        (moveAxis r frame.length ((frame ++ [N]).length - 1)).shape = frame ++ [L] ∧
        ∀ p, InShape p frame → along (moveAxis r frame.length ((frame ++ [N]).length - 1)) frame.length p
          = rowAt r L p := by
      intro r hr
      rw [e1]
      have hs : (moveAxis r frame.length frame.length).shape = frame ++ [L] := by
        simp only [moveAxis, hr, eraseIdx_end, getD_end, pyInsert_end]
      exact ⟨hs, fun p hp => by rw [along_eq_rowAt _ hs (inShape_length hp), rowAt_moveAxis_end r L (inShape_length hp)]⟩
    simp only [bind, Except.bind, eL]
    cases regular
    · have hnil : frame = [] := by simpa using hreg
      subst hnil
      cases dims
      · simp only [checkDims, Bool.false_eq_true, if_false]
        intro p hp'
        simp only [hp p hp']
      · obtain ⟨l, hl, hlen⟩ := okI rfl rfl (rowAt out L [])
        obtain ⟨r, hr, hrs, hrow⟩ := overRows_ok [] L (fun o => fOne o (rowAt out L o)) (by
          intro o ho
          have : o = [] := by simpa [InShape] using ho
          subst this
          exact ⟨l, by rw [eI rfl]; exact hl, by rw [hlen, rowAt_length]⟩)
        simp only [checkDims, Bool.false_eq_true, if_false, if_true, List.nil_append, List.length_singleton, hr, orUB]
        obtain ⟨f1, f2⟩ := fin r hrs
        refine ⟨L, f1, fun p hp' => ?_⟩
        have : p = [] := by simpa [InShape] using hp'
        subst this
        simp only [hp [] hp']
        have e := f2 [] hp'
        simp only [List.nil_append, List.length_singleton] at e
        rw [e]
        have := hrow [] hp'
        rw [eI rfl] at this
        simp only [this]
    · obtain ⟨r, hr, hrs, hrow⟩ := overRows_ok frame L (fun o => fReg o (rowAt out L o)) (by
        intro o ho
        obtain ⟨l, hl, hlen⟩ := okR rfl o ho _ (hp o ho)
        exact ⟨l, by rw [eR o ho]; exact hl, by rw [hlen, rowAt_length]⟩)
      simp only [if_true, List.dropLast_concat, hr, orUB]
      obtain ⟨f1, f2⟩ := fin r hrs
      refine ⟨L, f1, fun p hp' => ?_⟩
      simp only [hp p hp', f2 p hp']
      have := hrow p hp'
      rw [eR p hp'] at this
      simp only [this]

theorem applyKernels_planes [Zero M] (u : List Nat) (N K n : Nat) (complex dims : Bool)
    (aout : Option (Tensor M)) (fReg fOne : List Nat → List M → Option (List M))
    (fVec : List Nat → List (List M) → Option (List (List M))) (hfit : OutFits (u ++ [K]) aout)
    (fR fI : List Nat → List M → Option (List M))
    (hvec : dims = true → ∀ o, InShape o u → ∀ out, Rect K out → ∃ out', fVec o out = some out' ∧
      out'.length = out.length ∧ Rect K out' ∧ ∀ j, j < K → fI (o ++ [j]) (col j out) = some (col j out')) :
    PixelWise (u ++ [K]) (applyKernels (u ++ [N, K]) false u.length n complex aout dims fReg fOne fVec)
      fun p => pixelRun false n complex (outAt (u ++ [K]) aout p) dims (fR p) (fI p) := by
  unfold applyKernels pixelRun
  rcases defaultOutAny_pre N K n complex hfit with ⟨he, hp⟩ | ⟨out, L, he, hsh, hp⟩
  · rw [he]
    intro p _
    simp only [hp, bind, Except.bind]
  · rw [he]
    have eL : out.shape.getD u.length 0 = L := by rw [hsh, getD_pre]
    have e1 : (u ++ [N, K]).length - 1 = u.length + 1 := by simp
    have e2 : (u ++ [N, K]).length ≠ 1 := by simp
    have e3 : (u ++ [N, K]).dropLast.dropLast = u := by
      rw [show u ++ [N, K] = (u ++ [N]) ++ [K] by simp, List.dropLast_concat, List.dropLast_concat]
    have e4 : (u ++ [N, K]).getLastD 0 = K := by
      rw [show u ++ [N, K] = (u ++ [N]) ++ [K] by simp, List.getLastD_concat]
    simp only [bind, Except.bind, eL, e1, if_neg e2, e3, e4, Bool.false_eq_true, if_false]
    cases dims
    · simp only [checkDims, Bool.false_eq_true, if_false]
      intro p hp'
      obtain ⟨o, j, rfl, ho, hj⟩ := inShape_snoc_cases hp'
      simp only [hp o j ho hj]
    · obtain ⟨r, hr, hrs, hrow⟩ := overPlanes_ok u L K (fun o => fVec o (planeAt out L K o)) (by
        intro o ho
        obtain ⟨l, hl, hlen, hrect, -⟩ := hvec rfl o ho _ (planeAt_rect out L K o)
        exact ⟨l, hl, by rw [hlen, planeAt_length], hrect⟩)
      simp only [checkDims, if_true, hr, orUB]
      have hs : (moveAxis r u.length (u.length + 1)).shape = (u ++ [K]) ++ [L] := by
        simp only [moveAxis, hrs, eraseIdx_pre, getD_pre, pyInsert_last]
        simp
      refine ⟨L, hs, fun p hp' => ?_⟩
      obtain ⟨o, j, rfl, ho, hj⟩ := inShape_snoc_cases hp'
      simp only [hp o j ho hj]
      rw [along_eq_rowAt _ hs (by simpa using (inShape_length ho))]
      obtain ⟨l, hl, -, -, hcol⟩ := hvec rfl o ho _ (planeAt_rect out L K o)
      have := hrow o ho
      rw [hl, Option.some.injEq] at this
      rw [hcol j hj, this, col_planeAt _ _ _ _ hj]
      simp only [rowAt]
      have e := (inShape_length ho)
      simp only [moveAxis, ← e, List.append_assoc, List.cons_append, List.nil_append, eraseIdx_last, getD_last,
        pyInsert_pre]

/-! ### The moved data -/

theorem frame_length {s : List Nat} {ax : Nat} (h : ax < s.length) : (frameShape s ax).length = s.length - 1 := by
  simp [frameShape, List.length_eraseIdx, h]

theorem moved_rows (f : Tensor α) {ax : Nat} (hax : ax < f.shape.length) :
    (moveAxisAndAlign f ax (f.shape.length - 1)).shape = frameShape f.shape ax ++ [f.shape.getD ax 0] ∧
    ∀ o, o.length = (frameShape f.shape ax).length →
      rowAt (moveAxisAndAlign f ax (f.shape.length - 1)) (f.shape.getD ax 0) o = along f ax o := by
  have hl := frame_length hax
  unfold moveAxisAndAlign
  by_cases h : 1 < f.shape.length
  · rw [if_pos h, ← hl]
    refine ⟨pyInsert_end _ _, fun o ho => ?_⟩
    unfold rowAt along
    rw [← ho]
    simp only [moveAxis_end_get]
    rfl
  · rw [if_neg h]
    have h1 : ax = 0 := by omega
    subst h1
    obtain ⟨N, hN⟩ : ∃ N, f.shape = [N] := List.length_eq_one_iff.1 (by omega)
    refine ⟨by simp [hN, frameShape], fun o ho => ?_⟩
    have : o = [] := by simpa [hN, frameShape] using ho
    subst this
    rfl

theorem moved_planes (f : Tensor α) {ax : Nat} (hax : ax < f.shape.length) {u : List Nat} {K : Nat}
    (hu : frameShape f.shape ax = u ++ [K]) :
    (moveAxisAndAlign f ax (f.shape.length - 2)).shape = u ++ [f.shape.getD ax 0, K] ∧ f.shape.length - 2 = u.length ∧
    ∀ o j, o.length = u.length → j < K →
      col j (planeAt (moveAxisAndAlign f ax (f.shape.length - 2)) (f.shape.getD ax 0) K o) = along f ax (o ++ [j]) := by
  have hl := frame_length hax
  rw [hu] at hl
  simp only [List.length_append, List.length_singleton] at hl
  have h2 : f.shape.length - 2 = u.length := by omega
  unfold moveAxisAndAlign
  rw [if_pos (by omega), h2]
  refine ⟨?_, rfl, fun o j ho hj => ?_⟩
  · have : (moveAxis f ax u.length).shape = pyInsert (frameShape f.shape ax) u.length (f.shape.getD ax 0) := rfl
    rw [this, hu, pyInsert_pre]
  · rw [col_planeAt _ _ _ _ hj]
    unfold along
    rw [← ho]
    simp only [moveAxis_pre_get]
    rfl

theorem pixelWise_congr {frame : List Nat} {res : Py (Tensor M)} {one one' : List Nat → Py (List M)}
    (h : PixelWise frame res one) (e : ∀ p, InShape p frame → one' p = one p) : PixelWise frame res one' := by
  unfold PixelWise at *
  rcases res with x | r
  · exact fun p hp => (e p hp).trans (h p hp)
  · obtain ⟨L, h1, h2⟩ := h
    exact ⟨L, h1, fun p hp => (e p hp).trans (h2 p hp)⟩

/-- The second half of the functions, whatever the axis and the layout. -/
theorem applyKernels_any [Zero M] (f : Tensor α) {ax : Nat} (hax : ax < f.shape.length) (n : Nat)
    (regular complex dims : Bool) (aout : Option (Tensor M)) (fReg fOne : List Nat → List M → Option (List M))
    (fVec : List Nat → List (List M) → Option (List (List M))) (hfit : OutFits (frameShape f.shape ax) aout)
    (fR fI : List Nat → List M → Option (List M))
    (eR : regular = true → ∀ o, InShape o (frameShape f.shape ax) → fReg o = fR o)
    (eI : regular = false → frameShape f.shape ax = [] → fOne [] = fI [])
    (okR : regular = true → ∀ o, InShape o (frameShape f.shape ax) → ∀ out,
      defaultOut (outAt (frameShape f.shape ax) aout o) n complex = .ok out →
      ∃ l, fR o out = some l ∧ l.length = out.length)
    (okI : regular = false → dims = true → frameShape f.shape ax = [] → ∀ out,
      ∃ l, fI [] out = some l ∧ l.length = out.length)
    (hvec : regular = false → dims = true → ∀ u K, frameShape f.shape ax = u ++ [K] →
      ∀ o, InShape o u → ∀ out, Rect K out → ∃ out', fVec o out = some out' ∧
      out'.length = out.length ∧ Rect K out' ∧ ∀ j, j < K → fI (o ++ [j]) (col j out) = some (col j out')) :
    PixelWise (frameShape f.shape ax)
      (applyKernels (moveAxisAndAlign f ax (newAxis f.shape.length regular)).shape regular
        (newAxis f.shape.length regular) n complex aout dims fReg fOne fVec)
      fun p => pixelRun regular n complex (outAt (frameShape f.shape ax) aout p) dims (fR p) (fI p) := by
  have hl := frame_length hax
  by_cases hr : regular = true ∨ f.shape.length = 1
  · have e : newAxis f.shape.length regular = f.shape.length - 1 := if_pos hr
    rw [e, (moved_rows f hax).1, ← hl]
    have hr' : regular = true ∨ frameShape f.shape ax = [] := by
      rcases hr with h | h
      · exact Or.inl h
      · exact Or.inr (List.eq_nil_of_length_eq_zero (by omega))
    by_cases hreg : regular = true
    · refine applyKernels_rows _ _ n regular complex dims aout fReg fOne fVec hr' hfit fR fI (eR hreg) (by simp [hreg]) okR
        (by simp [hreg])
    · have hf : regular = false := by simpa using hreg
      have hn : frameShape f.shape ax = [] := by tauto
      subst hf
      have := applyKernels_rows (frameShape f.shape ax) (f.shape.getD ax 0) n false complex dims aout (fun o => fR o) fOne fVec hr' hfit fR fI
        (fun _ _ => rfl) (fun h => eI h hn) (by simp) (fun h1 h2 => okI h1 h2 hn)
      exact this
  · push Not at hr
    have hf : regular = false := by simpa using hr.1
    subst hf
    have e : newAxis f.shape.length false = f.shape.length - 2 := if_neg (by simp [hr.2])
    have hne : frameShape f.shape ax ≠ [] := by
      intro h
      rw [h] at hl
      simp at hl
      omega
    obtain ⟨u, K, hu⟩ : ∃ u K, frameShape f.shape ax = u ++ [K] :=
      ⟨_, _, (List.dropLast_append_getLast hne).symm⟩
    obtain ⟨h1, h2, -⟩ := moved_planes f hax hu
    rw [e, h1, h2, hu]
    refine applyKernels_planes u _ K n complex dims aout fReg fOne fVec (hu ▸ hfit) fR fI ?_
    exact fun hd => hvec rfl hd u K hu

/-! ### Axes and arguments -/

theorem resolveIdx_axis {ndim ax : Nat} {axis : Int} (h : NamesAxis ndim axis ax) : resolveIdx ndim axis = some ax := by
  obtain ⟨h1, h2⟩ := h
  unfold resolveIdx
  rcases h2 with rfl | rfl
  · rw [if_pos (by omega), if_pos (by omega)]
    simp
  · rw [if_neg (by omega), if_pos (by omega)]
    congr 1
    omega

theorem lastLength_ok {frame : List Nat} {aout : Option (Tensor M)} (hfit : OutFits frame aout) (n : Option Nat) :
    ∃ last, lastLength n aout = .ok last ∧
      (∀ N t1 t2 full p, inspectCross N N t1 t2 n last full =
        inspectCross N N t1 t2 n ((outAt frame aout p).map List.length) full) ∧
      (∀ N t p, inspectAuto N t n last = inspectAuto N t n ((outAt frame aout p).map List.length)) := by
  rcases aout with _ | o
  · refine ⟨none, by unfold lastLength; split <;> simp_all, fun _ _ _ _ _ => rfl, fun _ _ _ => rfl⟩
  · obtain ⟨L, hL⟩ := hfit o rfl
    have hlen : ∀ p, ((outAt frame (some o) p).map List.length) = some L := by
      intro p
      simp only [outAt, Option.map_some, along_length, hL, getD_end]
    rcases n with _ | n
    · refine ⟨some L, by simp [lastLength, hL], fun _ _ _ _ p => by rw [hlen], fun _ _ p => by rw [hlen]⟩
    · refine ⟨none, rfl, fun _ _ _ _ p => ?_, fun _ _ p => ?_⟩
      · rw [hlen]; unfold inspectCross; rfl
      · rw [hlen]; unfold inspectAuto; rfl

theorem col_singletons (x : List α) : col 0 (x.map fun a => [a]) = x := by
  induction x with
  | nil => rfl
  | cons a x ih =>
    unfold col at *
    rw [List.map_cons, List.filterMap_cons_some (b := a) (by simp), ih]

theorem rect_singletons (x : List α) : Rect 1 (x.map fun a => [a]) := by
  intro r hr
  simp only [List.mem_map] at hr
  obtain ⟨a, -, rfl⟩ := hr
  rfl

section
variable {R : Type} [CommRing R]

omit [CommRing R] in
theorem vecSim_ok {kVec : List (List (Cx R)) → List (List (Cx R)) → List Int → List Int → List (List M) →
      Option (List (List M))}
    {k : List (Cx R) → List (Cx R) → List Int → List Int → List M → Option (List M)} (h : VecSim kVec k)
    (x y : List (Cx R)) (t1 t2 : List Int) (h1 : t1.length = x.length) (h2 : t2.length = y.length) (out : List M) :
    ∃ l, k x y t1 t2 out = some l ∧ l.length = out.length := by
  obtain ⟨o', -, e2, e3, e4⟩ := h 1 (x.map fun a => [a]) (y.map fun a => [a]) t1 t2 (out.map fun a => [a])
    (rect_singletons x) (rect_singletons y) (by simpa using h1) (by simpa using h2) (rect_singletons out)
  have := e4 0 (by omega)
  rw [col_singletons, col_singletons, col_singletons] at this
  exact ⟨_, this, by rw [col_length (by omega) e3, e2, List.length_map]⟩

omit [CommRing R] in
theorem vecSim1_ok {kVec : List (List α) → List Int → List (List M) → Option (List (List M))}
    {k : List α → List Int → List M → Option (List M)} (h : VecSim1 kVec k)
    (x : List α) (t : List Int) (h1 : t.length = x.length) (out : List M) :
    ∃ l, k x t out = some l ∧ l.length = out.length := by
  obtain ⟨o', -, e2, e3, e4⟩ := h 1 (x.map fun a => [a]) t (out.map fun a => [a])
    (rect_singletons x) (by simpa using h1) (rect_singletons out)
  have := e4 0 (by omega)
  rw [col_singletons, col_singletons] at this
  exact ⟨_, this, by rw [col_length (by omega) e3, e2, List.length_map]⟩

/-! ### The cross functions -/

omit [CommRing R] in
theorem crossAny_pixelWise [Zero M] (kReg : List (Cx R) → List (Cx R) → List M → Option (List M))
    {k : List (Cx R) → List (Cx R) → List Int → List Int → List M → Option (List M)}
    {kVec : List (List (Cx R)) → List (List (Cx R)) → List Int → List Int → List (List M) → Option (List (List M))}
    (hsim : VecSim kVec k) (f1 f2 : Tensor (Cx R)) (t1 t2 : Option (List Int)) (axis : Int) (n : Option Nat)
    (align contiguous complex : Bool) (aout : Option (Tensor M)) {ax : Nat} (hs : f2.shape = f1.shape)
    (hax : NamesAxis f1.shape.length axis ax) (hfit : OutFits (frameShape f1.shape ax) aout)
    (hreg : t1 = none → isAligned f1.shape.length axis contiguous align = true →
      ∀ p, InShape p (frameShape f1.shape ax) → ∀ m out,
        inspectCross (f1.shape.getD ax 0) (f1.shape.getD ax 0) none none n
          ((outAt (frameShape f1.shape ax) aout p).map List.length) complex = .ok (none, m) →
        defaultOut (outAt (frameShape f1.shape ax) aout p) m complex = .ok out →
        ∃ l, kReg (along f1 ax p) (along f2 ax p) out = some l ∧ l.length = out.length) :
    PixelWise (frameShape f1.shape ax)
      (crossAny kReg k kVec f1 f2 t1 t2 axis n align contiguous complex aout) fun p =>
        crossApi (along f1 ax p).length (along f2 ax p).length t1 t2 n complex (outAt (frameShape f1.shape ax) aout p)
          (fun out => if isAligned f1.shape.length axis contiguous align then
              orUB (kReg (along f1 ax p) (along f2 ax p) out)
            else orUB (k (along f1 ax p) (along f2 ax p) (arange (along f1 ax p).length)
              (arange (along f1 ax p).length) out))
          (fun a b out => do
            checkDims (a.length = (along f1 ax p).length ∧ b.length = (along f2 ax p).length)
            orUB (k (along f1 ax p) (along f2 ax p) a b out)) := by
  have hl := hax.1
  simp only [along_length, hs]
  generalize hN : f1.shape.getD ax 0 = N
  rw [hN] at hreg
  have hne : ¬ (f1.shape = [] ∨ f1.shape ≠ f2.shape) := by
    rw [hs]
    rintro (h | h)
    · rw [h] at hl; simp at hl
    · exact h rfl
  obtain ⟨last, e1, e2, -⟩ := lastLength_ok hfit n
  have hfind : ∀ used, findAxis f1.shape.length axis used = .ok ax := by
    intro used
    simp only [findAxis, resolveIdx_axis hax]
  unfold crossAny
  by_cases ht : t1.isNone ≠ t2.isNone
  · rw [if_pos ht]
    intro p _
    rcases t1 with _ | a <;> rcases t2 with _ | b
    · simp at ht
    · simp [crossApi, inspectCross, bind, Except.bind]
    · simp [crossApi, inspectCross, bind, Except.bind]
    · simp at ht
  · rw [if_neg ht, if_neg hne]
    simp only [resolveIdx_axis hax, Option.getD_some, hN, e1, hfind, bind, Except.bind]
    rcases hI : inspectCross N N t1 t2 n last complex with e | ⟨t, m⟩
    · intro p _
      simp only [crossApi, ← e2 _ _ _ _ p, hI, bind, Except.bind]
    · simp only
      have hA := moved_rows f1 hl
      have hB := moved_rows f2 (hs ▸ hl)
      rw [hN] at hA
      rw [hs, hN] at hB
      have htn : t = none ↔ t1 = none ∧ t2 = none := by
        rcases t1 with _ | a <;> rcases t2 with _ | b
        · rw [inspectCross_none] at hI
          simp only [Except.ok.injEq, Prod.mk.injEq] at hI
          simp [← hI.1]
        · simp at ht
        · simp at ht
        · rcases t with _ | t
          · simp only [inspectCross, bind, Except.bind] at hI
            exfalso
            revert hI
            simp only [ne_eq, not_true_eq_false, if_false]
            split
            · simp
            · split
              · simp
              · split
                · simp
                · simp
          · simp
      have key := applyKernels_any f1 hl m (t.isNone && isAligned f1.shape.length axis contiguous align) complex
        (decide ((t.getD (arange N, arange N)).1.length = N ∧ (t.getD (arange N, arange N)).2.length = N)) aout
        (fun o out => kReg (rowAt (moveAxisAndAlign f1 ax (newAxis f1.shape.length
            (t.isNone && isAligned f1.shape.length axis contiguous align))) N o)
          (rowAt (moveAxisAndAlign f2 ax (newAxis f1.shape.length
            (t.isNone && isAligned f1.shape.length axis contiguous align))) N o) out)
        (fun o out => k (rowAt (moveAxisAndAlign f1 ax (newAxis f1.shape.length
            (t.isNone && isAligned f1.shape.length axis contiguous align))) N o)
          (rowAt (moveAxisAndAlign f2 ax (newAxis f1.shape.length
            (t.isNone && isAligned f1.shape.length axis contiguous align))) N o)
          (t.getD (arange N, arange N)).1 (t.getD (arange N, arange N)).2 out)
        (fun o out => kVec (planeAt (moveAxisAndAlign f1 ax (newAxis f1.shape.length
            (t.isNone && isAligned f1.shape.length axis contiguous align))) N
            ((moveAxisAndAlign f1 ax (newAxis f1.shape.length
              (t.isNone && isAligned f1.shape.length axis contiguous align))).shape.getLastD 0) o)
          (planeAt (moveAxisAndAlign f2 ax (newAxis f1.shape.length
            (t.isNone && isAligned f1.shape.length axis contiguous align))) N
            ((moveAxisAndAlign f1 ax (newAxis f1.shape.length
              (t.isNone && isAligned f1.shape.length axis contiguous align))).shape.getLastD 0) o)
          (t.getD (arange N, arange N)).1 (t.getD (arange N, arange N)).2 out)
        hfit
        (fun p out => kReg (along f1 ax p) (along f2 ax p) out)
        (fun p out => k (along f1 ax p) (along f2 ax p) (t.getD (arange N, arange N)).1
          (t.getD (arange N, arange N)).2 out)
        ?eR ?eI ?okR ?okI ?hvec
      · refine pixelWise_congr key fun p hp => ?_
        simp only [crossApi, ← e2 _ _ _ _ p, hI, bind, Except.bind, pixelRun]
        rcases t with _ | ⟨a, b⟩
        · rcases defaultOut (outAt (frameShape f1.shape ax) aout p) m complex with e | out
          · rfl
          · cases isAligned f1.shape.length axis contiguous align <;> simp [checkDims, arange_length]
        · rcases defaultOut (outAt (frameShape f1.shape ax) aout p) m complex with e | out
          · rfl
          · simp
      case eR =>
        intro hr o ho
        have e : newAxis f1.shape.length (t.isNone && isAligned f1.shape.length axis contiguous align)
            = f1.shape.length - 1 := if_pos (Or.inl hr)
        funext out
        rw [e, hA.2 o (inShape_length ho), hB.2 o (inShape_length ho)]
      case eI =>
        intro hr h0
        have h1 : f1.shape.length = 1 := by
          have := frame_length hl
          rw [h0] at this
          simp at this
          omega
        have e : newAxis f1.shape.length (t.isNone && isAligned f1.shape.length axis contiguous align)
            = f1.shape.length - 1 := if_pos (Or.inr h1)
        funext out
        rw [e, hA.2 [] (by rw [h0]), hB.2 [] (by rw [h0])]
      case okR =>
        intro hr o ho out hout
        simp only [Bool.and_eq_true, Option.isNone_iff_eq_none] at hr
        obtain ⟨h1, h2⟩ := htn.1 hr.1
        subst h1 h2
        obtain ⟨rfl, h3⟩ := hr
        exact hreg rfl h3 o ho m out (by rw [← e2]; exact hI) hout
      case okI =>
        intro hr hd h0 out
        simp only [decide_eq_true_eq] at hd
        exact vecSim_ok hsim _ _ _ _ (by rw [along_length, hN]; exact hd.1) (by rw [along_length, hs, hN]; exact hd.2) out
      case hvec =>
        intro hr hd u K hu o ho out hrect
        simp only [decide_eq_true_eq] at hd
        have h1 : ¬ ((t.isNone && isAligned f1.shape.length axis contiguous align) = true ∨ f1.shape.length = 1) := by
          rw [hr]
          have := frame_length hl
          rw [hu] at this
          simp at this ⊢
          omega
        have e : newAxis f1.shape.length (t.isNone && isAligned f1.shape.length axis contiguous align)
            = f1.shape.length - 2 := if_neg h1
        obtain ⟨a1, a2, a3⟩ := moved_planes f1 hl hu
        obtain ⟨b1, b2, b3⟩ := moved_planes f2 (hs ▸ hl) (u := u) (K := K) (by rw [hs]; exact hu)
        rw [hN] at a1 a3
        rw [hs, hN] at b3
        have eK : (u ++ [N, K]).getLastD 0 = K := by
          rw [show u ++ [N, K] = (u ++ [N]) ++ [K] by simp, List.getLastD_concat]
        rw [e, a1, eK]
        obtain ⟨out', c1, c2, c3, c4⟩ := hsim K _ _ (t.getD (arange N, arange N)).1 (t.getD (arange N, arange N)).2 out
          (planeAt_rect (moveAxisAndAlign f1 ax (f1.shape.length - 2)) N K o)
          (planeAt_rect (moveAxisAndAlign f2 ax (f1.shape.length - 2)) N K o)
          (by rw [planeAt_length]; exact hd.1) (by rw [planeAt_length]; exact hd.2) hrect
        refine ⟨out', c1, c2, c3, fun j hj => ?_⟩
        have := c4 j hj
        rw [a3 o j (inShape_length ho) hj, b3 o j (inShape_length ho) hj] at this
        exact this

end

end Cddm
