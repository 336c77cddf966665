import Verif.Props.SimWalk
import Verif.Props.SimTime
import Verif.Props.SimDraw
import Verif.Props.SimBox

/-!
# Property C88: the simulated video shows the simulated particles at the requested times
-/

namespace Cddm
open Spec
open scoped BigOperators

/-- The frame if it can be drawn. -/
def okOr {F : Type} (z : F) : Py F → F
  | .ok f => f
  | .error _ => z

theorem takeFrame_ok {F : Type} (i : Nat) (t : List Int) (out : Option F) (f : F) :
    takeFrame i t out (.ok f) = .ok (if isNext i t then t.tail else t, if isNext i t then some f else out) := by
  unfold takeFrame
  split <;> rfl

theorem videoLoop_dual {D F : Type} (f1 f2 : D → Py F) (F1 F2 : D → F) (ends : Py Unit) (ds : List D)
    (h1 : ∀ d ∈ ds, f1 d = .ok (F1 d)) (h2 : ∀ d ∈ ds, f2 d = .ok (F2 d)) (i : Nat) (t1 t2 : List Int)
    (out1 out2 : Option F) :
    videoLoop f1 f2 ends ds i t1 (some t2) out1 out2 =
      ((dualLoop F1 F2 ds i t1 t2 out1 out2).map fun p => [p.1, p.2], ends) := by
  induction ds generalizing i t1 t2 out1 out2 with
  | nil => rfl
  | cons d ds ih =>
    have ih := ih (fun d hd => h1 d (List.mem_cons_of_mem _ hd)) (fun d hd => h2 d (List.mem_cons_of_mem _ hd))
    unfold videoLoop dualLoop
    simp only [h1 d List.mem_cons_self, h2 d List.mem_cons_self, takeFrame_ok, ih]
    generalize (if isNext i t1 = true then some (F1 d) else out1) = o1
    generalize (if isNext i t2 = true then some (F2 d) else out2) = o2
    cases o1 <;> cases o2 <;> rfl

theorem videoLoop_single {D F : Type} (f1 f2 : D → Py F) (F1 : D → F) (ends : Py Unit) (ds : List D)
    (h1 : ∀ d ∈ ds, f1 d = .ok (F1 d)) (i : Nat) (t1 : List Int) (out2 : Option F) :
    videoLoop f1 f2 ends ds i t1 none none out2 = ((singleLoop F1 ds i t1).map fun a => [a], ends) := by
  induction ds generalizing i t1 with
  | nil => rfl
  | cons d ds ih =>
    have ih := ih (fun d hd => h1 d (List.mem_cons_of_mem _ hd))
    unfold videoLoop singleLoop
    simp only [h1 d List.mem_cons_self, takeFrame_ok]
    by_cases h : isNext i t1 = true
    · simp only [h, if_true, ih, List.map_cons]
    · simp only [h, if_false, ih, Bool.false_eq_true]

theorem getFrame_spec {c : CameraArgs} {R : ℤ} {num : Nat} (hc : GoodCamera c R num) (x : List (ℝ × ℝ))
    (hl : x.length = num) (hx : ∀ p ∈ x, InBox c.shape p) : ∃ im, getFrame c x = .ok im ∧ Picture c R x im := by
  obtain ⟨b0, b1⟩ := hc.background
  obtain ⟨i0, i1⟩ := hc.intensity
  have hb : ((c.background.toNat : Nat) : ℤ) = c.background := Int.toNat_of_nonneg b0
  have hi : ((c.intensity.toNat : Nat) : ℤ) = c.intensity := Int.toNat_of_nonneg i0
  have hb' : c.background.toNat < 2 ^ c.dtype.bits := by
    have : ((c.background.toNat : Nat) : ℤ) < ((2 ^ c.dtype.bits : Nat) : ℤ) := by rw [hb]; push_cast; exact b1
    exact_mod_cast this
  cases hs : c.sigma with
  | none =>
    obtain ⟨im, e, l1, l2, a⟩ := C54_draw_points c.dtype.bits ⟨c.shape.1, c.shape.2, fun _ _ => c.background.toNat⟩
      (x.map fun p => (p, c.intensity.toNat))
      (by
        intro p hp
        obtain ⟨q, hq, rfl⟩ := List.mem_map.mp hp
        exact hx q hq)
      (fun i j _ _ => hb')
    refine ⟨im, ?_, l1, l2, ?_⟩
    · unfold getFrame
      simp only [hs]
      rw [← e]
      simp [List.map_map, Function.comp_def]
    · intro i j hi' hj
      rw [a i j hi' hj]
      push_cast
      rw [hb]
      congr 2
      rw [List.map_map, List.map_map]
      congr 1
      refine List.map_congr_left fun p _ => ?_
      simp only [Function.comp_apply, hs]
      split
      · exact hi
      · rfl
  | some s =>
    obtain ⟨hR, hH, hW, hn⟩ := hc.psf s hs
    obtain ⟨im, e, l1, l2, a⟩ := C54_draw_psf c.dtype.bits ⟨c.shape.1, c.shape.2, fun _ _ => c.background.toNat⟩
      (x.map fun p => (p, c.intensity.toNat, s)) s R
      (by
        intro p hp
        obtain ⟨q, hq, rfl⟩ := List.mem_map.mp hp
        exact hx q hq)
      (by
        intro p hp
        obtain ⟨q, hq, rfl⟩ := List.mem_map.mp hp
        exact le_refl _)
      (by
        cases x with
        | nil => simp at hl; omega
        | cons p x => exact ⟨(p, c.intensity.toNat, s), by simp, rfl⟩)
      hR hH hW (fun i j _ _ => hb')
    refine ⟨im, ?_, l1, l2, ?_⟩
    · unfold getFrame
      simp only [hs]
      rw [← e]
      simp [List.map_map, Function.comp_def]
    · intro i j hi' hj
      rw [a i j hi' hj]
      push_cast
      rw [hb]
      congr 2
      rw [List.map_map, List.map_map]
      congr 1
      refine List.map_congr_left fun p _ => ?_
      simp only [Function.comp_apply, hs]

theorem broughtBack_mem {shape : Nat × Nat} {x y : List (ℝ × ℝ)} (h : BroughtBack shape x y) : ∀ p ∈ x, InBox shape p := by
  intro p hp
  obtain ⟨j, hj, rfl⟩ := List.mem_iff_getElem.mp hp
  have h := List.forall₂_iff_get.mp h
  exact (h.2 j hj (h.1 ▸ hj)).1

theorem getFrame1_spec {c : CameraArgs} {R : ℤ} {num : Nat} (hc : GoodCamera c R num) (x : List (ℝ × ℝ))
    (hl : x.length = num) : ∃ im y, getFrame1 c x = .ok im ∧
      BroughtBack c.shape y (x.map (turned c.shape (c.offset.getD (0, 0)) (c.rotation.getD 0))) ∧ Picture c R y im := by
  obtain ⟨y, e, b⟩ := C53_turned x c.shape c.offset c.rotation hc.height hc.width
  obtain ⟨im, e', p⟩ := getFrame_spec hc y (by rw [b.length_eq, List.length_map, hl]) (broughtBack_mem b)
  refine ⟨im, y, ?_, b, p⟩
  unfold getFrame1
  rw [e]
  exact e'

theorem maxTime_spec (t : List Int) (ht : t ≠ []) : ∃ m, maxTime t = .ok m ∧ ∀ a ∈ t, a ≤ m := by
  cases t with
  | nil => exact absurd rfl ht
  | cons b t =>
    refine ⟨_, rfl, ?_⟩
    have key : ∀ (t : List Int) (b : Int), b ≤ t.foldl max b ∧ ∀ a ∈ t, a ≤ t.foldl max b := by
      intro t
      induction t with
      | nil => simp
      | cons c t ih =>
        intro b
        obtain ⟨h1, h2⟩ := ih (max b c)
        rw [List.foldl_cons]
        refine ⟨le_trans (le_max_left _ _) h1, fun a ha => ?_⟩
        rcases List.mem_cons.mp ha with rfl | ha
        · exact le_trans (le_max_right _ _) h1
        · exact h2 a ha
    intro a ha
    rcases List.mem_cons.mp ha with rfl | ha
    · exact (key t a).1
    · exact (key t b).2 a ha

theorem particles_spec (x0 : Option (List (ℝ × ℝ))) (count : Nat) (shape : Nat × Nat) (num : Nat)
    (delta velocity : StepArr) (dt : ℝ) (r : Nat → ℝ × ℝ) (g : Nat → Nat → ℝ × ℝ) (δ v : Nat → ℝ × ℝ) (hh : 0 < shape.1)
    (hw : 0 < shape.2) (hdt : 0 ≤ dt) (hnum : ∀ x, x0 = some x → x.length = num) (hδ : Gives num delta δ)
    (hv : Gives num velocity v) :
    ∃ xs, brownianParticles count [shape.1, shape.2] num (.const delta) dt (.const velocity) (x0.map .points) r g =
        (xs, .ok ()) ∧
      xs.length = count ∧ (∀ x ∈ xs, x.length = num) ∧ ∀ (i : Nat) (x : List (ℝ × ℝ)), xs[i]? = some x →
        BroughtBack shape x ((startPoints shape num x0 r).mapIdx (freeWalk dt δ v g i)) := by
  cases x0 with
  | some x => exact C87_given x count shape.1 shape.2 num delta velocity dt r g δ v hh hw hdt (hnum x rfl) hδ hv
  | none =>
    obtain ⟨xs, e, l, n, b⟩ := C87_given ((List.range num).map fun (p : Nat) => ((r p).1 * shape.1, (r p).2 * shape.2))
      count shape.1 shape.2 num delta velocity dt r g δ v hh hw hdt (by simp) hδ hv
    refine ⟨xs, ?_, l, n, b⟩
    rw [← e]
    unfold brownianParticles startCoords
    simp

theorem particlesVideo_good {c : CameraArgs} {R : ℤ} {num : Nat} (hc : GoodCamera c R num)
    (p : List (List (ℝ × ℝ)) × Py Unit) (t1 : List Int) (t2 : Option (List Int)) :
    particlesVideo p t1 t2 c = videoLoop (getFrame1 c) (getFrame c) p.2 p.1 0 t1 t2 none none := by
  obtain ⟨b0, b1⟩ := hc.background
  obtain ⟨i0, i1⟩ := hc.intensity
  have e : inspectFrameDtype c.dtype c.intensity = .ok c.dtype := by
    unfold inspectFrameDtype
    rcases hc.dtype with h | h
    · rw [h] at i1 ⊢
      norm_num [FrameDtype.bits] at i1
      rw [if_neg (by decide), if_neg (by omega)]
    · rw [h]
      rw [if_neg (by decide), if_neg (by simp; omega)]
  unfold particlesVideo
  simp only [e]
  rw [if_neg (by omega)]

/-- C88, two cameras: `simple_brownian_video` yields one pair of frames for each pair of times and ends normally.
The first frame of pair `k` shows the particles after `t1[k]` steps, turned and shifted by the rotation and offset of
camera 1; the second shows them after `t2[k]` steps. -/
theorem C88_dual (t1 t2 : List Int) (c : CameraArgs) (R : ℤ) (num : Nat) (delta velocity : StepArr) (dt : ℝ)
    (x0 : Option (List (ℝ × ℝ))) (r : Nat → ℝ × ℝ) (g : Nat → Nat → ℝ × ℝ) (δ v : Nat → ℝ × ℝ)
    (hc : GoodCamera c R num) (hdt : 0 ≤ dt) (hnum : ∀ x, x0 = some x → x.length = num) (hδ : Gives num delta δ)
    (hv : Gives num velocity v) (hlen : t1.length = t2.length) (hne : t1 ≠ []) (h1 : ∀ a ∈ t1, 0 ≤ a)
    (h2 : ∀ a ∈ t2, 0 ≤ a) (hord : OneAfterAnother t1 t2) :
    ∃ frames, simpleBrownianVideo t1 (some t2) c num (.const delta) dt (.const velocity) (x0.map .points) r g =
        .ok (frames, .ok ()) ∧
      frames.length = t1.length ∧ ∀ (k : Nat) (a b : Int), t1[k]? = some a → t2[k]? = some b →
        ∃ x y x' im1 im2, frames[k]? = some [im1, im2] ∧
          BroughtBack c.shape x ((startPoints c.shape num x0 r).mapIdx (freeWalk dt δ v g a.toNat)) ∧
          BroughtBack c.shape y ((startPoints c.shape num x0 r).mapIdx (freeWalk dt δ v g b.toNat)) ∧
          BroughtBack c.shape x' (x.map (turned c.shape (c.offset.getD (0, 0)) (c.rotation.getD 0))) ∧
          Picture c R x' im1 ∧ Picture c R y im2 := by
  have hne2 : t2 ≠ [] := by
    intro h
    rw [h] at hlen
    exact hne (List.length_eq_zero_iff.mp hlen)
  obtain ⟨m1, em1, hm1⟩ := maxTime_spec t1 hne
  obtain ⟨m2, em2, hm2⟩ := maxTime_spec t2 hne2
  obtain ⟨xs, ex, lx, nx, bx⟩ := particles_spec x0 (max m1 m2 + 1).toNat c.shape num delta velocity dt r g δ v hc.height
    hc.width hdt hnum hδ hv
  have f1 : ∀ x ∈ xs, getFrame1 c x = .ok (okOr ⟨0, 0, fun _ _ => 0⟩ (getFrame1 c x)) := by
    intro x hx
    obtain ⟨im, y, e, _⟩ := getFrame1_spec hc x (nx x hx)
    rw [e]
    rfl
  have inbox : ∀ x ∈ xs, ∀ p ∈ x, InBox c.shape p := by
    intro x hx
    obtain ⟨i, hi, rfl⟩ := List.mem_iff_getElem.mp hx
    exact broughtBack_mem (bx i _ (List.getElem?_eq_getElem hi))
  have f2 : ∀ x ∈ xs, getFrame c x = .ok (okOr ⟨0, 0, fun _ _ => 0⟩ (getFrame c x)) := by
    intro x hx
    obtain ⟨im, e, _⟩ := getFrame_spec hc x (nx x hx) (inbox x hx)
    rw [e]
    rfl
  have r1 : ∀ a ∈ t1, 0 ≤ a ∧ a < xs.length := by
    intro a ha
    have := h1 a ha
    have := hm1 a ha
    rw [lx]
    omega
  have r2 : ∀ a ∈ t2, 0 ≤ a ∧ a < xs.length := by
    intro a ha
    have := h2 a ha
    have := hm2 a ha
    rw [lx]
    omega
  obtain ⟨l, key⟩ := C58_kth (fun x => okOr ⟨0, 0, fun _ _ => 0⟩ (getFrame1 c x))
    (fun x => okOr ⟨0, 0, fun _ _ => 0⟩ (getFrame c x)) xs t1 t2 hlen r1 r2 hord
  refine ⟨(dualLoop (fun x => okOr ⟨0, 0, fun _ _ => 0⟩ (getFrame1 c x)) (fun x => okOr ⟨0, 0, fun _ _ => 0⟩ (getFrame c x))
    xs 0 t1 t2 none none).map fun p => [p.1, p.2], ?_, ?_, ?_⟩
  · unfold simpleBrownianVideo videoCount
    simp only [em1, em2, bind, Except.bind, ex, particlesVideo_good hc, videoLoop_dual _ _ _ _ _ xs f1 f2]
  · rw [List.length_map, l]
  · intro k a b ha hb
    have a1 := r1 a (List.mem_of_getElem? ha)
    have b1 := r2 b (List.mem_of_getElem? hb)
    have la : a.toNat < xs.length := by omega
    have lb : b.toNat < xs.length := by omega
    have ea := List.getElem?_eq_getElem la
    have eb := List.getElem?_eq_getElem lb
    obtain ⟨im1, x', e1, bt, p1⟩ := getFrame1_spec hc xs[a.toNat] (nx _ (List.getElem_mem la))
    obtain ⟨im2, e2, p2⟩ := getFrame_spec hc xs[b.toNat] (nx _ (List.getElem_mem lb)) (inbox _ (List.getElem_mem lb))
    refine ⟨xs[a.toNat], xs[b.toNat], x', im1, im2, ?_, bx _ _ ea, bx _ _ eb, bt, p1, p2⟩
    rw [List.getElem?_map, key k a b _ _ ha hb ea eb]
    simp only [e1, e2, okOr, Option.map_some]

/-- C88, one camera: one frame for each of strictly increasing times. -/
theorem C88_single (t : List Int) (c : CameraArgs) (R : ℤ) (num : Nat) (delta velocity : StepArr) (dt : ℝ)
    (x0 : Option (List (ℝ × ℝ))) (r : Nat → ℝ × ℝ) (g : Nat → Nat → ℝ × ℝ) (δ v : Nat → ℝ × ℝ)
    (hc : GoodCamera c R num) (hdt : 0 ≤ dt) (hnum : ∀ x, x0 = some x → x.length = num) (hδ : Gives num delta δ)
    (hv : Gives num velocity v) (hne : t ≠ []) (h0 : ∀ a ∈ t, 0 ≤ a) (hord : t.Pairwise (· < ·)) :
    ∃ frames, simpleBrownianVideo t none c num (.const delta) dt (.const velocity) (x0.map .points) r g =
        .ok (frames, .ok ()) ∧
      frames.length = t.length ∧ ∀ (k : Nat) (a : Int), t[k]? = some a →
        ∃ x x' im, frames[k]? = some [im] ∧
          BroughtBack c.shape x ((startPoints c.shape num x0 r).mapIdx (freeWalk dt δ v g a.toNat)) ∧
          BroughtBack c.shape x' (x.map (turned c.shape (c.offset.getD (0, 0)) (c.rotation.getD 0))) ∧
          Picture c R x' im := by
  obtain ⟨m, em, hm⟩ := maxTime_spec t hne
  obtain ⟨xs, ex, lx, nx, bx⟩ := particles_spec x0 (m + 1).toNat c.shape num delta velocity dt r g δ v hc.height
    hc.width hdt hnum hδ hv
  have f1 : ∀ x ∈ xs, getFrame1 c x = .ok (okOr ⟨0, 0, fun _ _ => 0⟩ (getFrame1 c x)) := by
    intro x hx
    obtain ⟨im, y, e, _⟩ := getFrame1_spec hc x (nx x hx)
    rw [e]
    rfl
  have r1 : ∀ a ∈ t, 0 ≤ a ∧ a < xs.length := by
    intro a ha
    have := h0 a ha
    have := hm a ha
    rw [lx]
    omega
  have hitem : ∀ a ∈ t, ∃ hl : a.toNat < xs.length, itemAt xs a = some xs[a.toNat] := by
    intro a ha
    have := r1 a ha
    refine ⟨by omega, ?_⟩
    unfold itemAt
    rw [if_pos this.1, List.getElem?_eq_getElem]
  have efm : (t.filterMap fun a => (itemAt xs a).map fun x => okOr ⟨0, 0, fun _ _ => 0⟩ (getFrame1 c x)) =
      t.map fun a => okOr ⟨0, 0, fun _ _ => 0⟩ (getFrame1 c (xs.getD a.toNat [])) := by
    rw [← List.filterMap_eq_map]
    refine List.filterMap_congr fun a ha => ?_
    obtain ⟨hl, e⟩ := hitem a ha
    rw [e, Option.map_some, Function.comp_apply, List.getD_eq_getElem?_getD, List.getElem?_eq_getElem hl, Option.getD_some]
  refine ⟨(t.map fun a => okOr ⟨0, 0, fun _ _ => 0⟩ (getFrame1 c (xs.getD a.toNat []))).map fun a => [a], ?_, ?_, ?_⟩
  · unfold simpleBrownianVideo videoCount
    simp only [em, bind, Except.bind, ex, particlesVideo_good hc, videoLoop_single _ _ _ _ xs f1,
      C58_single _ xs t hord h0, efm]
  · simp
  · intro k a ha
    obtain ⟨la, e⟩ := hitem a (List.mem_of_getElem? ha)
    have ea := List.getElem?_eq_getElem la
    obtain ⟨im, x', e1, bt, p1⟩ := getFrame1_spec hc xs[a.toNat] (nx _ (List.getElem_mem la))
    refine ⟨xs[a.toNat], x', im, ?_, bx _ _ ea, bt, p1⟩
    rw [List.getElem?_map, List.getElem?_map, ha]
    simp only [Option.map_some, List.getD_eq_getElem?_getD, ea, Option.getD_some, e1, okOr]

/-- C88: no times are rejected with ValueError at once; an unsupported dtype and an intensity that is negative, or
too large for 8 bits, with ValueError before the first frame. -/
theorem C88_rejected (c : CameraArgs) (num : Nat) (delta velocity : WalkArg) (dt : ℝ) (x0 : Option Coords)
    (r : Nat → ℝ × ℝ) (g : Nat → Nat → ℝ × ℝ) :
    (∀ t2, simpleBrownianVideo [] t2 c num delta dt velocity x0 r g = .error .valueError) ∧
    ∀ t1 t2 n, videoCount t1 t2 = .ok n →
      (c.dtype = .other ∨ c.intensity < 0 ∨ (255 < c.intensity ∧ c.dtype = .uint8)) →
      simpleBrownianVideo t1 t2 c num delta dt velocity x0 r g = .ok ([], .error .valueError) := by
  refine ⟨fun t2 => rfl, fun t1 t2 n hn hbad => ?_⟩
  unfold simpleBrownianVideo
  rw [hn]
  have e : inspectFrameDtype c.dtype c.intensity = .error .valueError := by
    unfold inspectFrameDtype
    by_cases h : c.dtype = .other
    · rw [if_pos h]
    · rw [if_neg h, if_pos]
      rcases hbad with h' | h' | ⟨h', h''⟩
      · exact absurd h' h
      · exact Or.inr h'
      · exact Or.inl ⟨h', by rw [h'']; decide⟩
  show Except.ok (particlesVideo _ t1 t2 c) = _
  unfold particlesVideo
  rw [e]

/-- The hypotheses can be met: two cameras, point spread function of width 1, three particles. -/
example : GoodCamera ⟨(16, 16), 2, 5, some 1, .uint8, some (1, 0), none⟩ 3 3 ∧ OneAfterAnother [0, 3, 4] [1, 2, 4] ∧
    Gives 3 (.scalar 1) (fun _ => (1, 1)) := by
  refine ⟨⟨Or.inl rfl, by norm_num [FrameDtype.bits], by norm_num [FrameDtype.bits], by norm_num, by norm_num, ?_⟩, ?_,
    fun _ _ => rfl⟩
  · intro s hs
    cases hs
    refine ⟨?_, by norm_num, by norm_num, by norm_num⟩
    left
    norm_num
  · intro k a b a' b' h1 h2 h3 h4
    match k with
    | 0 => simp at h1 h2 h3 h4; omega
    | 1 => simp at h1 h2 h3 h4; omega
    | k + 2 => simp at h3

end Cddm
