import Verif.Lemmas.VideoCrop

/-!
# C100, C101: cropping and masking frames
-/

namespace Cddm
open Spec

theorem forall₂_map_right {A B : Type} {R : A → B → Prop} (f : A → B) (l : List A) (h : ∀ x ∈ l, R x (f x)) :
    List.Forall₂ R l (l.map f) := by
  induction l with
  | nil => exact .nil
  | cons x l ih => exact .cons (h x List.mem_cons_self) (ih fun y hy => h y (List.mem_cons_of_mem _ hy))

theorem forall₂_chain {A B C D : Type} {R : A → B → Prop} {S : B → C → Prop} {T : A → D → Prop} {U : C → D → Prop}
    (h : ∀ a b c d, R a b → S b c → T a d → U c d) {x : List A} {y : List B} {z : List C} {u : List D}
    (h1 : List.Forall₂ R x y) (h2 : List.Forall₂ S y z) (h3 : List.Forall₂ T x u) : List.Forall₂ U z u := by
  induction h1 generalizing z u with
  | nil => cases h2; cases h3; exact .nil
  | cons g1 _ ih =>
    cases h2 with
    | cons g2 f2 =>
      cases h3 with
      | cons g3 f3 => exact .cons (h _ _ _ _ g1 g2 g3) (ih f2 f3)

/-- The frame that `crop` gives, when it gives one. -/
def cropped {α : Type} (hs ws : PySlice) (frame : Arr2 α) : Arr2 α :=
  match cropFrame hs ws frame with
  | .ok o => o
  | .error _ => frame

theorem cropVideo_eq {α : Type} (hs ws : PySlice) (hh : hs.step.getD 1 ≠ 0) (hw : ws.step.getD 1 ≠ 0) (video : List (List (Arr2 α))) :
    cropVideo (some [.ofSlice hs, .ofSlice ws]) video = (video.map fun fs => fs.map (cropped hs ws), none) := by
  unfold cropVideo parseRoi
  simp only [RoiPart.toSlice]
  refine mapFrames_ok _ _ video fun fs _ x _ => ?_
  obtain ⟨rows, cols, -, -, e⟩ := cropFrame_ok hs ws x hh hw
  unfold cropped
  rw [e]

/-- **C100.** `crop` with two slices yields, for every frame of every multi-frame, its part in the rows and columns that the slices
select, in their order. -/
theorem C100_crop {α : Type} (hs ws : PySlice) (hh : hs.step.getD 1 ≠ 0) (hw : ws.step.getD 1 ≠ 0) (video : List (List (Arr2 α))) :
    ∃ out, cropVideo (some [.ofSlice hs, .ofSlice ws]) video = (out, none) ∧
      List.Forall₂ (List.Forall₂ fun frame o => ∃ rows cols,
        SliceOf hs.start hs.stop (hs.step.getD 1) frame.h rows ∧ SliceOf ws.start ws.stop (ws.step.getD 1) frame.w cols ∧
          IsSubframe frame rows cols o) video out := by
  refine ⟨_, cropVideo_eq hs ws hh hw video, ?_⟩
  refine forall₂_map_right _ _ fun fs _ => forall₂_map_right _ _ fun frame _ => ?_
  obtain ⟨rows, cols, e1, e2, e⟩ := cropFrame_ok hs ws frame hh hw
  obtain ⟨rows', f1, g1⟩ := positions_ok hs frame.h hh
  obtain ⟨cols', f2, g2⟩ := positions_ok ws frame.w hw
  rw [e1] at f1
  rw [e2] at f2
  cases f1
  cases f2
  refine ⟨rows, cols, g1, g2, ?_⟩
  unfold cropped
  rw [e]
  exact take2_isSubframe frame rows cols

/-- **C100, tuples.** Tuples of one, two or three arguments stand for the slice that `slice` makes of them. -/
theorem C100_args {α : Type} (x y : RoiPart) (hs ws : PySlice)
    (hx : x = .ofSlice hs ∨ (x = .args [hs.stop] ∧ hs.start = none ∧ hs.step = none) ∨ (x = .args [hs.start, hs.stop] ∧ hs.step = none) ∨
      x = .args [hs.start, hs.stop, hs.step])
    (hy : y = .ofSlice ws ∨ (y = .args [ws.stop] ∧ ws.start = none ∧ ws.step = none) ∨ (y = .args [ws.start, ws.stop] ∧ ws.step = none) ∨
      y = .args [ws.start, ws.stop, ws.step]) (video : List (List (Arr2 α))) :
    cropVideo (some [x, y]) video = cropVideo (some [.ofSlice hs, .ofSlice ws]) video := by
  have key : ∀ (z : RoiPart) (s : PySlice), (z = .ofSlice s ∨ (z = .args [s.stop] ∧ s.start = none ∧ s.step = none) ∨
      (z = .args [s.start, s.stop] ∧ s.step = none) ∨ z = .args [s.start, s.stop, s.step]) → z.toSlice = .ok s := by
    rintro z ⟨a, b, c⟩ (rfl | ⟨rfl, h1, h2⟩ | ⟨rfl, h2⟩ | rfl)
    · rfl
    · dsimp only at h1 h2; rw [h1, h2]; rfl
    · dsimp only at h2; rw [h2]; rfl
    · rfl
  unfold cropVideo parseRoi
  dsimp only
  rw [key x hs hx, key y ws hy]
  rfl

theorem positions_box (a b n : Nat) :
    (PySlice.mk (some (a : Int)) (some (b : Int)) none).positions n = .ok (List.range' (min a n) (min b n - min a n)) := by
  unfold PySlice.positions
  simp only [Option.getD_none, one_ne_zero, if_false]
  congr 1
  have e1 : (PySlice.mk (some (a : Int)) (some (b : Int)) none).first 1 n = ((min a n : Nat) : Int) := by
    unfold PySlice.first
    dsimp only
    split_ifs <;> omega
  have e2 : (PySlice.mk (some (a : Int)) (some (b : Int)) none).last 1 n = ((min b n : Nat) : Int) := by
    unfold PySlice.last
    dsimp only
    split_ifs <;> omega
  rw [e1, e2]
  have e3 : sliceLength ((min a n : Nat) : Int) ((min b n : Nat) : Int) 1 = min b n - min a n := by
    unfold sliceLength
    rw [if_neg (by omega)]
    split_ifs <;> omega
  rw [e3, List.range'_eq_map_range]
  refine List.map_congr_left fun k _ => ?_
  omega

theorem cropped_box {α : Type} (a b c d : Nat) (frame : Arr2 α) :
    cropped ⟨some (a : Int), some (b : Int), none⟩ ⟨some (c : Int), some (d : Int), none⟩ frame =
      take2 frame (List.range' (min a frame.h) (min b frame.h - min a frame.h)) (List.range' (min c frame.w) (min d frame.w - min c frame.w)) := by
  unfold cropped cropFrame
  rw [positions_box, positions_box]
  rfl

/-- **C100, the documented use.** `roi = ((a, b), (c, d))`: pixel `(i, j)` of the result is pixel `(a + i, c + j)` of the frame; what is
outside of the frame is left out. -/
theorem C100_box {α : Type} (a b c d : Nat) (video : List (List (Arr2 α))) :
    ∃ out, cropVideo (some [.args [some (a : Int), some (b : Int)], .args [some (c : Int), some (d : Int)]]) video = (out, none) ∧
      List.Forall₂ (List.Forall₂ (BoxPart a b c d)) video out := by
  refine ⟨_, (C100_args _ _ ⟨some (a : Int), some (b : Int), none⟩ ⟨some (c : Int), some (d : Int), none⟩ (.inr (.inr (.inl ⟨rfl, rfl⟩)))
    (.inr (.inr (.inl ⟨rfl, rfl⟩))) video).trans (cropVideo_eq _ _ (by simp) (by simp) video), ?_⟩
  refine forall₂_map_right _ _ fun fs _ => forall₂_map_right _ _ fun frame _ => ?_
  rw [cropped_box]
  obtain ⟨h1, h2, h3⟩ := take2_isSubframe frame (List.range' (min a frame.h) (min b frame.h - min a frame.h))
    (List.range' (min c frame.w) (min d frame.w - min c frame.w))
  rw [List.length_range'] at h1 h2
  refine ⟨by omega, by omega, fun i j hi hj => ?_⟩
  rw [h3 i j (by rw [List.length_range']; omega) (by rw [List.length_range']; omega)]
  simp only [List.getElem_range', one_mul]
  congr 1 <;> omega

/-- **C100, default.** With the default `roi` the frames stay as they are. -/
theorem C100_whole {α : Type} (video : List (List (Arr2 α))) :
    ∃ out, cropVideo (some [.ofSlice ⟨none, none, none⟩, .ofSlice ⟨none, none, none⟩]) video = (out, none) ∧
      List.Forall₂ (List.Forall₂ fun frame o => SamePicture frame o) video out := by
  refine ⟨_, cropVideo_eq _ _ (by simp) (by simp) video, ?_⟩
  refine forall₂_map_right _ _ fun fs _ => forall₂_map_right _ _ fun frame _ => ?_
  have hp : ∀ n : Nat, (PySlice.mk none none none).positions n = .ok (List.range n) := by
    intro n
    unfold PySlice.positions
    simp only [Option.getD_none, one_ne_zero, if_false]
    congr 1
    have e3 : sliceLength ((PySlice.mk none none none).first 1 n) ((PySlice.mk none none none).last 1 n) 1 = n := by
      unfold sliceLength PySlice.first PySlice.last
      simp only [show ¬ (1 : Int) < 0 by omega, if_false]
      split_ifs <;> omega
    rw [e3]
    conv_rhs => rw [← List.map_id (List.range n)]
    refine List.map_congr_left fun k _ => ?_
    simp [PySlice.first]
  have : cropped ⟨none, none, none⟩ ⟨none, none, none⟩ frame = take2 frame (List.range frame.h) (List.range frame.w) := by
    unfold cropped cropFrame
    rw [hp, hp]
    rfl
  rw [this]
  obtain ⟨h1, h2, h3⟩ := take2_isSubframe frame (List.range frame.h) (List.range frame.w)
  rw [List.length_range] at h1 h2
  refine ⟨h1.symm, h2.symm, fun i j hi hj => ?_⟩
  rw [h3 i j (by simpa using hi) (by simpa using hj)]
  simp

theorem min_twice (a b a' b' n : Nat) : min b' (min b n - a) - a' = min (min b (a + b')) n - (a + a') := by omega

theorem boxPart_twice {α : Type} {a b c d a' b' c' d' : Nat} (x y z u : Arr2 α) (h1 : BoxPart a b c d x y)
    (h2 : BoxPart a' b' c' d' y z) (h3 : BoxPart (a + a') (min b (a + b')) (c + c') (min d (c + d')) x u) : SamePicture z u := by
  obtain ⟨p1, p2, p3⟩ := h1
  obtain ⟨q1, q2, q3⟩ := h2
  obtain ⟨r1, r2, r3⟩ := h3
  have e1 : z.h = u.h := by rw [q1, p1, r1, min_twice]
  have e2 : z.w = u.w := by rw [q2, p2, r2, min_twice]
  refine ⟨e1, e2, fun i j hi hj => ?_⟩
  have hi' : a' + i < y.h := by rw [q1] at hi; have := Nat.min_le_right b' y.h; omega
  have hj' : c' + j < y.w := by rw [q2] at hj; have := Nat.min_le_right d' y.w; omega
  rw [q3 i j hi hj, p3 (a' + i) (c' + j) hi' hj', r3 i j (e1 ▸ hi) (e2 ▸ hj), Nat.add_assoc, Nat.add_assoc]

/-- **C100, twice.** Cropping a cropped video is cropping once. -/
theorem C100_twice {α : Type} (a b c d a' b' c' d' : Nat) (video : List (List (Arr2 α))) :
    ∃ out out' once, cropVideo (some [.args [some (a : Int), some (b : Int)], .args [some (c : Int), some (d : Int)]]) video = (out, none) ∧
      cropVideo (some [.args [some (a' : Int), some (b' : Int)], .args [some (c' : Int), some (d' : Int)]]) out = (out', none) ∧
      cropVideo (some [.args [some ((a + a' : Nat) : Int), some ((min b (a + b') : Nat) : Int)],
        .args [some ((c + c' : Nat) : Int), some ((min d (c + d') : Nat) : Int)]]) video = (once, none) ∧
      List.Forall₂ (List.Forall₂ SamePicture) out' once := by
  obtain ⟨out, e1, f1⟩ := C100_box a b c d video
  obtain ⟨out', e2, f2⟩ := C100_box a' b' c' d' out
  obtain ⟨once, e3, f3⟩ := C100_box (a + a') (min b (a + b')) (c + c') (min d (c + d')) video
  refine ⟨out, out', once, e1, e2, e3, ?_⟩
  exact forall₂_chain (T := List.Forall₂ (BoxPart (a + a') (min b (a + b')) (c + c') (min d (c + d'))))
    (S := List.Forall₂ (BoxPart a' b' c' d')) (R := List.Forall₂ (BoxPart a b c d))
    (fun _ _ _ _ g1 g2 g3 => forall₂_chain boxPart_twice g1 g2 g3) f1 f2 f3

/-- **C100, arithmetic.** Cropping the sum, difference or product of two videos is the same as combining the cropped videos. -/
theorem C100_combine {α : Type} (hs ws : PySlice) (hh : hs.step.getD 1 ≠ 0) (hw : ws.step.getD 1 ≠ 0) (f : α → α → α)
    (op : Arr2 α → Arr2 α → Py (Arr2 α))
    (hop : ∀ x y : Arr2 α, x.h = y.h → x.w = y.w → op x y = .ok ⟨x.h, x.w, fun i j => f (x.get i j) (y.get i j)⟩)
    (x y : List (List (Arr2 α))) (hxy : List.Forall₂ (List.Forall₂ fun a b => a.h = b.h ∧ a.w = b.w) x y) :
    ∃ z cx cy, combine op x y = (z, none) ∧ cropVideo (some [.ofSlice hs, .ofSlice ws]) x = (cx, none) ∧
      cropVideo (some [.ofSlice hs, .ofSlice ws]) y = (cy, none) ∧
      combine op cx cy = cropVideo (some [.ofSlice hs, .ofSlice ws]) z := by
  have hc : ∀ a b : Arr2 α, a.h = b.h → a.w = b.w → op (cropped hs ws a) (cropped hs ws b) =
      .ok (cropped hs ws ⟨a.h, a.w, fun i j => f (a.get i j) (b.get i j)⟩) := by
    intro a b h1 h2
    obtain ⟨rows, cols, e1, e2, e⟩ := cropFrame_ok hs ws a hh hw
    have eb : cropFrame hs ws b = .ok (take2 b rows cols) := by
      unfold cropFrame
      rw [← h1, ← h2, e1, e2]
      rfl
    have ez : cropFrame hs ws ⟨a.h, a.w, fun i j => f (a.get i j) (b.get i j)⟩ =
        .ok (take2 ⟨a.h, a.w, fun i j => f (a.get i j) (b.get i j)⟩ rows cols) := by
      unfold cropFrame
      dsimp only
      rw [e1, e2]
      rfl
    unfold cropped
    rw [e, eb, ez]
    dsimp only
    exact hop (take2 a rows cols) (take2 b rows cols) rfl rfl
  have key : ∀ (op' : Arr2 α → Arr2 α → Py (Arr2 α)) (g : Arr2 α → Arr2 α), (∀ a b : Arr2 α, a.h = b.h → a.w = b.w →
      op (g a) (g b) = .ok (g ⟨a.h, a.w, fun i j => f (a.get i j) (b.get i j)⟩)) →
      combine op (x.map fun fs => fs.map g) (y.map fun fs => fs.map g) =
        ((List.zipWith (fun fs ws => List.zipWith (fun a b => (⟨a.h, a.w, fun i j => f (a.get i j) (b.get i j)⟩ : Arr2 α)) fs ws) x y).map
          fun fs => fs.map g, none) := by
    intro op' g hg
    induction hxy with
    | nil => rfl
    | @cons fs ws' x' y' h _ ih =>
      rw [List.map_cons, List.map_cons]
      unfold combine
      rw [if_neg (by rw [List.length_map, List.length_map, h.length_eq]; simp)]
      have e : ((fs.map g).zip (ws'.map g)).mapM (fun p => op p.1 p.2) =
          .ok ((List.zipWith (fun a b => (⟨a.h, a.w, fun i j => f (a.get i j) (b.get i j)⟩ : Arr2 α)) fs ws').map g) := by
        clear ih
        induction h with
        | nil => rfl
        | cons h _ ih =>
          rw [List.map_cons, List.map_cons, List.zip_cons_cons, List.mapM_cons, ih]
          dsimp only
          rw [hg _ _ h.1 h.2]
          rfl
      rw [e, ih]
      rfl
  have k1 := key op id (fun a b h1 h2 => hop a b h1 h2)
  simp only [List.map_id_fun', List.map_id_fun, id] at k1
  refine ⟨_, _, _, k1, cropVideo_eq hs ws hh hw x, cropVideo_eq hs ws hh hw y, ?_⟩
  rw [cropVideo_eq hs ws hh hw, key op _ hc]

/-- **C100, errors.** A `roi` that is not two slices or tuples of one to three arguments raises ValueError before the first frame; a
zero step raises ValueError at the first multi-frame that holds a frame. -/
theorem C100_errors {α : Type} (video : List (List (Arr2 α))) :
    cropVideo none video = ([], some .valueError) ∧
    (∀ roi, roi.length ≠ 2 → cropVideo (some roi) video = ([], some .valueError)) ∧
    (∀ x y, (x = .other ∨ x = .args [] ∨ ∃ a b c d l, x = .args (a :: b :: c :: d :: l)) →
      cropVideo (some [x, y]) video = ([], some .valueError) ∧ cropVideo (some [y, x]) video = ([], some .valueError)) ∧
    ∀ (hs ws : PySlice) (frame : Arr2 α) (fs : List (Arr2 α)) (rest : List (List (Arr2 α))), hs.step = some 0 ∨ ws.step = some 0 →
      cropVideo (some [.ofSlice hs, .ofSlice ws]) ((frame :: fs) :: rest) = ([], some .valueError) := by
  refine ⟨rfl, ?_, ?_, ?_⟩
  · intro roi h
    unfold cropVideo parseRoi
    match roi, h with
    | [], _ => rfl
    | [_], _ => rfl
    | [_, _], h => exact absurd rfl h
    | _ :: _ :: _ :: _, _ => rfl
  · intro x y hx
    have e : x.toSlice = .error .typeError := by
      rcases hx with rfl | rfl | ⟨a, b, c, d, l, rfl⟩ <;> rfl
    unfold cropVideo parseRoi
    dsimp only
    rw [e]
    cases y.toSlice <;> exact ⟨rfl, rfl⟩
  · intro hs ws frame fs rest h
    have e : cropFrame hs ws frame = .error .valueError := by
      unfold cropFrame
      rcases h with h | h
      · have : hs.positions frame.h = .error .valueError := by
          unfold PySlice.positions
          simp [h]
        rw [this]
        rfl
      · have hw : ws.positions frame.w = .error .valueError := by
          unfold PySlice.positions
          simp [h]
        by_cases h0 : hs.step.getD 1 = 0
        · have : hs.positions frame.h = .error .valueError := by
            unfold PySlice.positions
            simp [h0]
          rw [this]
          rfl
        · obtain ⟨ps, e, -⟩ := positions_ok hs frame.h h0
          rw [e]
          show Except.bind (ws.positions frame.w) _ = _
          rw [hw]
          rfl
    unfold cropVideo parseRoi
    simp only [RoiPart.toSlice]
    unfold mapFrames
    rw [List.mapM_cons, e]
    rfl

/-! ### Masks -/

/-- **C101.** `mask` yields, for every frame, the list of the pixels where the mask is set: the pixels of the frame listed row by row,
those where the mask is not set left out. -/
theorem C101_mask {α : Type} (m : Arr2 Bool) (video : List (List (Arr2 α))) (hv : ∀ fs ∈ video, ∀ x ∈ fs, m.h = x.h ∧ m.w = x.w) :
    ∃ (out : List (List (List α))) (ps : List (Nat × Nat)), maskVideo m video = (out, none) ∧
      ps.Pairwise (fun p q => p.1 < q.1 ∨ (p.1 = q.1 ∧ p.2 < q.2)) ∧
      (∀ p, p ∈ ps ↔ p.1 < m.h ∧ p.2 < m.w ∧ m.get p.1 p.2 = true) ∧
      List.Forall₂ (List.Forall₂ fun frame o => o = ps.map fun p => frame.get p.1 p.2) video out := by
  refine ⟨_, (List.range m.h ×ˢ List.range m.w).filter fun p => m.get p.1 p.2, mapFrames_ok (maskFrame m) (fun x =>
    ((List.range m.h ×ˢ List.range m.w).filter fun p => m.get p.1 p.2).map fun p => x.get p.1 p.2) video ?_, ?_, ?_, ?_⟩
  · intro fs hfs x hx
    unfold maskFrame
    have h := hv fs hfs x hx
    rw [if_pos h, h.1, h.2]
  · refine List.Pairwise.filter _ ?_
    show (List.flatMap (fun a => (List.range m.w).map (Prod.mk a)) (List.range m.h)).Pairwise _
    rw [List.pairwise_flatMap]
    refine ⟨fun a _ => ?_, ?_⟩
    · rw [List.pairwise_map]
      exact List.pairwise_lt_range.imp fun h => .inr ⟨rfl, h⟩
    · refine List.pairwise_lt_range.imp fun h x hx y hy => .inl ?_
      obtain ⟨_, -, rfl⟩ := List.mem_map.mp hx
      obtain ⟨_, -, rfl⟩ := List.mem_map.mp hy
      exact h
  · rintro ⟨a, b⟩
    rw [List.mem_filter]
    rw [show ((a, b) ∈ List.range m.h ×ˢ List.range m.w) ↔ _ from List.pair_mem_product, List.mem_range, List.mem_range]
    exact and_assoc
  · exact forall₂_map_right _ _ fun fs _ => forall₂_map_right _ _ fun frame _ => rfl

/-- **C101, errors.** A mask of another shape than the frame raises IndexError. -/
theorem C101_shape {α : Type} (m : Arr2 Bool) (frame : Arr2 α) (fs : List (Arr2 α)) (rest : List (List (Arr2 α)))
    (h : m.h ≠ frame.h ∨ m.w ≠ frame.w) : maskVideo m ((frame :: fs) :: rest) = ([], some .indexError) := by
  unfold maskVideo mapFrames
  have : maskFrame m frame = .error .indexError := by
    unfold maskFrame
    rw [if_neg (by omega)]
  rw [List.mapM_cons, this]
  rfl

/-! ### Examples -/

/-- A frame of three rows and four columns. -/
def frame12 : Arr2 Nat := ⟨3, 4, fun i j => 4 * i + j⟩

/-- Every second row from the last, and the last two columns. -/
example : ∃ out, cropVideo (some [.ofSlice ⟨none, none, some (-2)⟩, .args [some (-2), none]]) [[frame12]] = ([[out]], none) ∧
    out.h = 2 ∧ out.w = 2 ∧ [out.get 0 0, out.get 0 1, out.get 1 0, out.get 1 1] = [10, 11, 2, 3] :=
  ⟨take2 frame12 [2, 0] [2, 3], rfl, rfl, rfl, rfl⟩

example : ∃ out, cropVideo (some [.ofSlice ⟨none, none, some (-2)⟩, .ofSlice ⟨some (-2), none, none⟩]) [[frame12, frame12], []] = (out, none) ∧
    List.Forall₂ (List.Forall₂ fun frame o => ∃ rows cols, SliceOf none none (-2) frame.h rows ∧
      SliceOf (some (-2)) none 1 frame.w cols ∧ IsSubframe frame rows cols o) [[frame12, frame12], []] out :=
  C100_crop ⟨none, none, some (-2)⟩ ⟨some (-2), none, none⟩ (by simp) (by simp) _

example : ∃ z cx cy, combine (fun x y => .ok ⟨x.h, x.w, fun i j => x.get i j + y.get i j⟩) [[frame12]] [[frame12]] = (z, none) ∧
    cropVideo (some [.ofSlice ⟨some 1, none, none⟩, .ofSlice ⟨none, some 2, none⟩]) [[frame12]] = (cx, none) ∧
    cropVideo (some [.ofSlice ⟨some 1, none, none⟩, .ofSlice ⟨none, some 2, none⟩]) [[frame12]] = (cy, none) ∧
    combine (fun x y => .ok ⟨x.h, x.w, fun i j => x.get i j + y.get i j⟩) cx cy =
      cropVideo (some [.ofSlice ⟨some 1, none, none⟩, .ofSlice ⟨none, some 2, none⟩]) z :=
  C100_combine ⟨some 1, none, none⟩ ⟨none, some 2, none⟩ (by simp) (by simp) (· + ·) _ (fun _ _ _ _ => rfl) [[frame12]] [[frame12]]
    (.cons (.cons ⟨rfl, rfl⟩ .nil) .nil)

/-- The pixels with an odd number. -/
example : maskVideo ⟨3, 4, fun i j => (4 * i + j) % 2 = 1⟩ [[frame12]] = ([[[1, 3, 5, 7, 9, 11]]], none) := by decide

example : ∃ (out : List (List (List Nat))) (ps : List (Nat × Nat)), maskVideo ⟨3, 4, fun i j => (4 * i + j) % 2 = 1⟩ [[frame12]] = (out, none) ∧
    ps.Pairwise (fun p q => p.1 < q.1 ∨ (p.1 = q.1 ∧ p.2 < q.2)) ∧
    (∀ p : Nat × Nat, p ∈ ps ↔ p.1 < 3 ∧ p.2 < 4 ∧ decide ((4 * p.1 + p.2) % 2 = 1) = true) ∧
    List.Forall₂ (List.Forall₂ fun frame o => o = ps.map fun p => frame.get p.1 p.2) [[frame12]] out :=
  C101_mask ⟨3, 4, fun i j => (4 * i + j) % 2 = 1⟩ [[frame12]] (by simp [frame12])

end Cddm
