import Verif.Spec.Viewer
import Verif.Props.NormReject
import Mathlib.Tactic.Linarith

/-!
# C68, C69: the viewers
-/

namespace Cddm
open Spec

section video
variable {F β : Type} (prepare : F → Py β) (count : Nat)

/-- Every event either gives the slider a value between 0 and `count`, or changes nothing but `playing` and `step`. -/
theorem handle_cases (hc : 0 < count) (s : VideoView F β) (h0 : 0 ≤ s.val) (h1 : s.val < count) (hs : 0 ≤ s.step)
    (e : ViewEvent) (he : OnSlider count e) :
    (∃ v : Rat, 0 ≤ v ∧ v < count ∧ s.handle prepare count e = s.setVal prepare v) ∨
    (∃ (p : Bool) (st : Rat), 0 ≤ st ∧ s.handle prepare count e = ({ s with playing := p, step := st }, none)) := by
  have hc' : (1 : Rat) ≤ count := by exact_mod_cast hc
  cases e with
  | drag v => exact .inl ⟨v, he.1, by have := he.2; linarith, rfl⟩
  | next =>
    refine .inl ⟨_, ?_, ?_, rfl⟩
    · exact le_min (by linarith) (by linarith)
    · exact lt_of_le_of_lt (min_le_right _ _) (by linarith)
  | nextFast =>
    refine .inl ⟨_, ?_, ?_, rfl⟩
    · exact le_min (by linarith) (by linarith)
    · exact lt_of_le_of_lt (min_le_right _ _) (by linarith)
  | prev => exact .inl ⟨_, le_max_right _ _, max_lt (by linarith) (by linarith), rfl⟩
  | prevFast => exact .inl ⟨_, le_max_right _ _, max_lt (by linarith) (by linarith), rfl⟩
  | play => exact .inr ⟨true, 1, by norm_num, rfl⟩
  | playFast => exact .inr ⟨true, (count : Rat) / 100, by positivity, rfl⟩
  | stop => exact .inr ⟨false, s.step, hs, rfl⟩
  | tick =>
    unfold VideoView.handle
    dsimp only
    by_cases hp : s.playing = true
    · rw [if_pos hp]
      by_cases hb : s.val + s.step ≥ (count : Rat)
      · rw [if_pos hb]
        exact .inr ⟨false, s.step, hs, rfl⟩
      · rw [if_neg hb]
        exact .inl ⟨s.val + s.step, by linarith, by linarith, rfl⟩
    · rw [if_neg hp]
      exact .inr ⟨s.playing, s.step, hs, rfl⟩

theorem pyTrunc_frameNo (v : Rat) (h : 0 ≤ v) : pyTrunc v = (frameNo v : Int) := by
  unfold pyTrunc frameNo
  rw [if_neg (by linarith), Int.toNat_of_nonneg (Int.floor_nonneg.mpr h)]

theorem frameNo_lt (v : Rat) (h : 0 ≤ v) (hv : v < count) : frameNo v < count := by
  unfold frameNo
  have : ⌊v⌋ < (count : Int) := Int.floor_lt.mpr (by exact_mod_cast hv)
  have := Int.floor_nonneg.mpr h
  omega

theorem resolveIdx_natCast (n k : Nat) (h : k < n) : resolveIdx n (k : Int) = some k := by
  unfold resolveIdx
  rw [if_pos (by omega), if_pos (by omega)]
  simp

/-- What setting the slider does with a list. -/
theorem setVal_list (frames : List F) (hprep : ∀ f ∈ frames, ∃ im, prepare f = .ok im) (s : VideoView F β)
    (hs : s.video = .list frames) (v : Rat) (h0 : 0 ≤ v) (hv : frameNo v < frames.length) :
    ∃ f im, frames[frameNo v]? = some f ∧ prepare f = .ok im ∧
      s.setVal prepare v = ({ s with val := v, index := (frameNo v : Int), image := im }, none) := by
  obtain ⟨im, him⟩ := hprep _ (List.getElem_mem hv)
  refine ⟨_, im, List.getElem?_eq_getElem hv, him, ?_⟩
  unfold VideoView.setVal
  dsimp only
  rw [hs]
  dsimp only
  rw [pyTrunc_frameNo v h0, resolveIdx_natCast _ _ hv]
  dsimp only
  rw [List.getElem?_eq_getElem hv]
  unfold VideoView.draw
  dsimp only
  rw [him]

/-- The invariant for a list. -/
theorem history_list (hc : 0 < count) (frames : List F) (hlen : count ≤ frames.length)
    (hprep : ∀ f ∈ frames, ∃ im, prepare f = .ok im) (es : List ViewEvent) :
    ∀ s : VideoView F β, s.video = .list frames → 0 ≤ s.val → s.val < count → 0 ≤ s.step →
    (∃ f, frames[frameNo s.val]? = some f ∧ prepare f = .ok s.image) → (∀ e ∈ es, OnSlider count e) →
    ∀ r ∈ s.history prepare count es, r.2 = none ∧ 0 ≤ r.1.val ∧ r.1.val < count ∧
      ∃ f, frames[frameNo r.1.val]? = some f ∧ prepare f = .ok r.1.image := by
  induction es with
  | nil => intro s _ _ _ _ _ _ r hr; simp [VideoView.history] at hr
  | cons e es ih =>
    intro s hv h0 h1 hst him he r hr
    unfold VideoView.history at hr
    have key : (s.handle prepare count e).2 = none ∧ (s.handle prepare count e).1.video = .list frames ∧
        0 ≤ (s.handle prepare count e).1.val ∧ (s.handle prepare count e).1.val < count ∧
        0 ≤ (s.handle prepare count e).1.step ∧
        ∃ f, frames[frameNo (s.handle prepare count e).1.val]? = some f ∧
          prepare f = .ok (s.handle prepare count e).1.image := by
      rcases handle_cases prepare count hc s h0 h1 hst e (he e List.mem_cons_self) with ⟨v, hv0, hv1, heq⟩ | ⟨p, st, hst', heq⟩
      · obtain ⟨f, im, hf, him', hset⟩ := setVal_list prepare frames hprep s hv v hv0
          (lt_of_lt_of_le (frameNo_lt count v hv0 hv1) hlen)
        rw [heq, hset]
        exact ⟨rfl, hv, hv0, hv1, hst, f, hf, him'⟩
      · rw [heq]
        exact ⟨rfl, hv, h0, h1, hst', him⟩
    obtain ⟨k1, k2, k3, k4, k5, k6⟩ := key
    rcases List.mem_cons.mp hr with rfl | hr
    · exact ⟨k1, k3, k4, k6⟩
    · exact ih _ k2 k3 k4 k5 k6 (fun e h => he e (List.mem_cons_of_mem _ h)) r hr

/-- **C68, list-like videos.**  After any history of slider movements, buttons and playing, the image shown is that of
the frame selected by the slider, and no exception was raised. -/
theorem C68_list (hc : 0 < count) (frames : List F) (hlen : count ≤ frames.length)
    (hprep : ∀ f ∈ frames, ∃ im, prepare f = .ok im) (es : List ViewEvent) (he : ∀ e ∈ es, OnSlider count e) :
    ∃ s : VideoView F β, VideoView.start prepare (.list frames) = .ok s ∧
      (∃ f, frames[0]? = some f ∧ prepare f = .ok s.image) ∧
      ∀ r ∈ s.history prepare count es, r.2 = none ∧
        ∃ f, frames[frameNo r.1.val]? = some f ∧ prepare f = .ok r.1.image := by
  cases frames with
  | nil => simp at hlen; omega
  | cons f fs =>
    obtain ⟨im, him⟩ := hprep f List.mem_cons_self
    refine ⟨⟨0, .list (f :: fs), im, 0, false, 1⟩, ?_, ⟨f, rfl, him⟩, ?_⟩
    · unfold VideoView.start
      dsimp only
      rw [him]
      rfl
    · intro r hr
      have := history_list prepare count hc (f :: fs) hlen hprep es ⟨0, .list (f :: fs), im, 0, false, 1⟩ rfl (le_refl _)
        (show (0 : Rat) < count by exact_mod_cast hc) (by norm_num) ⟨f, rfl, him⟩ he r hr
      exact ⟨this.1, this.2.2.2⟩

/-- A count larger than the list: `IndexError` in the callback for the frames which do not exist. -/
theorem C68_list_short (frames : List F) (s : VideoView F β) (hs : s.video = .list frames) (v : Rat) (h0 : 0 ≤ v)
    (hv : frames.length ≤ frameNo v) : s.setVal prepare v = ({ s with val := v }, some .indexError) := by
  unfold VideoView.setVal
  dsimp only
  rw [hs]
  dsimp only
  have : resolveIdx frames.length (pyTrunc v) = none := by
    rw [pyTrunc_frameNo v h0]
    unfold resolveIdx
    rw [if_pos (by omega), if_neg (by omega)]
  rw [this]

/-- Taking frames from the generator up to frame `i`, or the last. -/
theorem advance_spec (frames : List F) (i : Nat) :
    ∀ (rest : List F) (idx : Nat) (cur : Option F), rest = frames.drop (idx + 1) → idx < i → idx < frames.length →
      cur = frames[idx]? ∨ cur = none →
      ∃ cur', advance (i : Int) (idx : Int) cur rest =
        (((min (frames.length - 1) i : Nat) : Int), cur', frames.drop (min (frames.length - 1) i + 1)) ∧
      (cur' = frames[min (frames.length - 1) i]? ∨ (cur' = none ∧ cur = none ∧ min (frames.length - 1) i = idx)) := by
  intro rest
  induction rest with
  | nil =>
    intro idx cur hr hi hl hcur
    have hlen : frames.length ≤ idx + 1 := List.drop_eq_nil_iff.mp hr.symm
    have hm : min (frames.length - 1) i = idx := by omega
    refine ⟨cur, ?_, ?_⟩
    · unfold advance
      rw [hm, ← hr]
    · rw [hm]
      rcases hcur with h | h
      · exact .inl h
      · exact .inr ⟨h, h, rfl⟩
  | cons f rest ih =>
    intro idx cur hr hi hl hcur
    have hlen : idx + 1 < frames.length := by
      by_contra hcon
      rw [List.drop_of_length_le (by omega)] at hr
      cases hr
    have hf : frames[idx + 1]? = some f ∧ rest = frames.drop (idx + 2) := by
      rw [List.drop_eq_getElem_cons hlen] at hr
      injection hr with a b
      exact ⟨by rw [List.getElem?_eq_getElem hlen, a], b⟩
    unfold advance
    by_cases hge : ((idx : Int) + 1 ≥ (i : Int))
    · rw [if_pos hge]
      have hm : min (frames.length - 1) i = idx + 1 := by omega
      refine ⟨some f, ?_, .inl (by rw [hm, hf.1])⟩
      rw [hm, hf.2]
      simp
    · rw [if_neg hge]
      obtain ⟨cur', h1, h2⟩ := ih (idx + 1) (some f) hf.2 (by omega) hlen (.inl hf.1.symm)
      refine ⟨cur', ?_, ?_⟩
      · rw [← h1]
        simp
      · rcases h2 with h2 | ⟨-, h2, -⟩
        · exact .inl h2
        · cases h2

/-- What setting the slider does with a generator that has given the frames up to `idx`. -/
theorem setVal_gen (frames : List F) (hprep : ∀ f ∈ frames, ∃ im, prepare f = .ok im) (s : VideoView F β) (M : Nat)
    (hs : s.video = .gen (frames.drop (min (frames.length - 1) M + 1)))
    (hi : s.index = (min (frames.length - 1) M : Nat)) (hne : frames ≠ [])
    (him : ∃ f, frames[min (frames.length - 1) M]? = some f ∧ prepare f = .ok s.image)
    (v : Rat) (h0 : 0 ≤ v) :
    ∃ im, s.setVal prepare v = (({ s with
        val := v
        index := (min (frames.length - 1) (max M (frameNo v)) : Nat)
        video := .gen (frames.drop (min (frames.length - 1) (max M (frameNo v)) + 1))
        image := im } : VideoView F β), none) ∧
      ∃ f, frames[min (frames.length - 1) (max M (frameNo v))]? = some f ∧ prepare f = .ok im := by
  have hpos : 0 < frames.length := List.length_pos_iff.mpr hne
  obtain ⟨sindex, svideo, simage, sval, splaying, sstep⟩ := s
  dsimp only at hs hi him
  subst hs hi
  unfold VideoView.setVal
  dsimp only
  rw [pyTrunc_frameNo v h0]
  by_cases hgt : (frameNo v : Int) > ((min (frames.length - 1) M : Nat) : Int)
  · rw [if_pos hgt]
    have hmm : min (frames.length - 1) (max M (frameNo v)) = min (frames.length - 1) (frameNo v) := by omega
    obtain ⟨cur', h1, h2⟩ := advance_spec frames (frameNo v) _ (min (frames.length - 1) M) none rfl (by omega) (by omega)
      (.inr rfl)
    rw [h1, hmm]
    rcases h2 with h2 | ⟨h2, -, h3⟩
    · have hlt : min (frames.length - 1) (frameNo v) < frames.length := by omega
      obtain ⟨im, him'⟩ := hprep _ (List.getElem_mem hlt)
      refine ⟨im, ?_, _, List.getElem?_eq_getElem hlt, him'⟩
      rw [h2, List.getElem?_eq_getElem hlt]
      unfold VideoView.draw
      dsimp only
      rw [him']
    · refine ⟨simage, ?_, ?_⟩
      · rw [h2]
        rfl
      · rw [h3]
        exact him
  · rw [if_neg hgt]
    have hmm : min (frames.length - 1) (max M (frameNo v)) = min (frames.length - 1) M := by omega
    rw [hmm]
    exact ⟨simage, rfl, him⟩

theorem foldl_max_init (l : List Nat) (a : Nat) : l.foldl max a = max a (l.foldl max 0) := by
  induction l generalizing a with
  | nil => simp
  | cons b l ih =>
    rw [List.foldl_cons, List.foldl_cons, ih, ih (max 0 b)]
    omega

theorem furthest_cons (v : Rat) (vs : List Rat) : furthest (v :: vs) = max (frameNo v) (furthest vs) := by
  unfold furthest
  rw [List.map_cons, List.foldl_cons, foldl_max_init]
  omega

/-- The invariant for a generator. -/
theorem history_gen (hc : 0 < count) (frames : List F) (hne : frames ≠ [])
    (hprep : ∀ f ∈ frames, ∃ im, prepare f = .ok im) (es : List ViewEvent) :
    ∀ (s : VideoView F β) (M : Nat), s.video = .gen (frames.drop (min (frames.length - 1) M + 1)) →
    s.index = (min (frames.length - 1) M : Nat) → 0 ≤ s.val → s.val < count → 0 ≤ s.step → frameNo s.val ≤ M →
    (∃ f, frames[min (frames.length - 1) M]? = some f ∧ prepare f = .ok s.image) → (∀ e ∈ es, OnSlider count e) →
    (∀ r ∈ s.history prepare count es, r.2 = none) ∧
    ∃ f, frames[min (frames.length - 1) (max M (furthest ((s.history prepare count es).map fun r => r.1.val)))]? = some f ∧
      prepare f = .ok (finalView s (s.history prepare count es)).image := by
  induction es with
  | nil =>
    intro s M hv hi h0 h1 hst hsel him he
    refine ⟨by simp [VideoView.history], ?_⟩
    simpa [VideoView.history, furthest, finalView] using him
  | cons e es ih =>
    intro s M hv hi h0 h1 hst hsel him he
    have key : ∃ s' : VideoView F β, s.handle prepare count e = (s', none) ∧
        s'.video = .gen (frames.drop (min (frames.length - 1) (max M (frameNo s'.val)) + 1)) ∧
        s'.index = (min (frames.length - 1) (max M (frameNo s'.val)) : Nat) ∧ 0 ≤ s'.val ∧ s'.val < count ∧ 0 ≤ s'.step ∧
        ∃ f, frames[min (frames.length - 1) (max M (frameNo s'.val))]? = some f ∧ prepare f = .ok s'.image := by
      rcases handle_cases prepare count hc s h0 h1 hst e (he e List.mem_cons_self) with ⟨v, hv0, hv1, heq⟩ | ⟨p, st, hst', heq⟩
      · obtain ⟨im, hset, himg⟩ := setVal_gen prepare frames hprep s M hv hi hne him v hv0
        exact ⟨_, heq.trans hset, rfl, rfl, hv0, hv1, hst, himg⟩
      · have hmax : max M (frameNo s.val) = M := by omega
        refine ⟨_, heq, ?_, ?_, h0, h1, hst', ?_⟩
        · dsimp only
          rw [hmax]
          exact hv
        · dsimp only
          rw [hmax]
          exact hi
        · dsimp only
          rw [hmax]
          exact him
    obtain ⟨s', hs', k1, k2, k3, k4, k5, k6⟩ := key
    obtain ⟨r1, r2⟩ := ih s' (max M (frameNo s'.val)) k1 k2 k3 k4 k5 (by omega) k6
      (fun e h => he e (List.mem_cons_of_mem _ h))
    unfold VideoView.history
    rw [hs']
    refine ⟨?_, ?_⟩
    · intro r hr
      rcases List.mem_cons.mp hr with rfl | hr
      · rfl
      · exact r1 r hr
    · rw [List.map_cons, furthest_cons, ← max_assoc]
      obtain ⟨f, hf, hf'⟩ := r2
      refine ⟨f, hf, ?_⟩
      rw [hf']
      congr 2
      unfold finalView
      rw [List.map_cons]
      generalize (s'.history prepare count es).map Prod.fst = l
      cases l <;> simp [List.getLastD]

/-- **C68, generators.**  After any history the image shown is that of the furthest frame selected so far (or of the
last frame, if the generator ended before), and no exception was raised. -/
theorem C68_generator (hc : 0 < count) (frames : List F) (hne : frames ≠ [])
    (hprep : ∀ f ∈ frames, ∃ im, prepare f = .ok im) (es : List ViewEvent) (he : ∀ e ∈ es, OnSlider count e) :
    ∃ s : VideoView F β, VideoView.start prepare (.gen frames) = .ok s ∧
      (∀ r ∈ s.history prepare count es, r.2 = none) ∧
      ∃ f, frames[min (frames.length - 1) (furthest ((s.history prepare count es).map fun r => r.1.val))]? = some f ∧
        prepare f = .ok (finalView s (s.history prepare count es)).image := by
  cases frames with
  | nil => exact absurd rfl hne
  | cons f fs =>
    obtain ⟨im, him⟩ := hprep f List.mem_cons_self
    refine ⟨⟨0, .gen fs, im, 0, false, 1⟩, ?_, ?_⟩
    · unfold VideoView.start
      dsimp only
      rw [him]
      rfl
    · have := history_gen prepare count hc (f :: fs) hne hprep es ⟨0, .gen fs, im, 0, false, 1⟩ 0 (by simp) (by simp) (le_refl _)
        (show (0 : Rat) < count by exact_mod_cast hc) (by norm_num) (by simp [frameNo]) ⟨f, by simp, him⟩ he
      simpa using this

theorem history_append (s : VideoView F β) (es es' : List ViewEvent) :
    s.history prepare count (es ++ es') =
      s.history prepare count es ++ (finalView s (s.history prepare count es)).history prepare count es' := by
  induction es generalizing s with
  | nil => rfl
  | cons e es ih =>
    rw [List.cons_append, VideoView.history, VideoView.history, ih, List.cons_append]
    congr 3
    unfold finalView
    rw [List.map_cons]
    generalize ((s.handle prepare count e).1.history prepare count es).map Prod.fst = l
    cases l <;> simp [List.getLastD]

theorem furthest_append (a b : List Rat) : furthest (a ++ b) = max (furthest a) (furthest b) := by
  induction a with
  | nil => simp [furthest]
  | cons v a ih => rw [List.cons_append, furthest_cons, furthest_cons, ih, max_assoc]

/-- **C68, generators, one step.**  Moving the slider beyond everything selected before shows the selected frame (if
the generator has so many); moving it back, or forward again without passing the furthest, leaves the image. -/
theorem C68_generator_step_partial (hc : 0 < count) (frames : List F) (hne : frames ≠ [])
    (hprep : ∀ f ∈ frames, ∃ im, prepare f = .ok im) (es : List ViewEvent) (e : ViewEvent)
    (he : ∀ e' ∈ es ++ [e], OnSlider count e') :
    ∃ s : VideoView F β, VideoView.start prepare (.gen frames) = .ok s ∧
      (let before := finalView s (s.history prepare count es)
       let after := (before.handle prepare count e).1
       let far := furthest ((s.history prepare count es).map fun r => r.1.val)
       (far ≤ frameNo after.val → frameNo after.val < frames.length →
         ∃ f, frames[frameNo after.val]? = some f ∧ prepare f = .ok after.image) ∧
       (frameNo after.val ≤ far → after.image = before.image)) := by
  obtain ⟨s, hs, -, f1, hf1, hp1⟩ := C68_generator prepare count hc frames hne hprep es
    (fun e h => he e (List.mem_append_left _ h))
  obtain ⟨s2, hs2, -, f2, hf2, hp2⟩ := C68_generator prepare count hc frames hne hprep (es ++ [e]) he
  rw [hs] at hs2
  cases hs2
  refine ⟨s, hs, ?_⟩
  dsimp only
  rw [history_append] at hf2 hp2
  set h := s.history prepare count es
  set before := finalView s h
  have hfin : finalView s (h ++ before.history prepare count [e]) = (before.handle prepare count e).1 := by
    unfold finalView
    simp [VideoView.history]
  rw [hfin] at hp2
  have hmap : (h ++ before.history prepare count [e]).map (fun r => r.1.val) =
      h.map (fun r => r.1.val) ++ [(before.handle prepare count e).1.val] := by
    simp [VideoView.history]
  rw [hmap, furthest_append] at hf2
  have hone : ∀ v, furthest [v] = frameNo v := fun v => by simp [furthest]
  rw [hone] at hf2
  constructor
  · intro h1 h2
    have : min (frames.length - 1) (max (furthest (h.map fun r => r.1.val)) (frameNo (before.handle prepare count e).1.val)) =
        frameNo (before.handle prepare count e).1.val := by omega
    rw [this] at hf2
    exact ⟨f2, hf2, hp2⟩
  · intro h1
    rw [max_eq_left h1, hf1] at hf2
    cases hf2
    rw [hp1] at hp2
    exact (Except.ok.inj hp2).symm

end video

/-- With a generator, moving forward does not always show the selected frame: to frame 3, back to 1 and forward to 2
leaves frame 3. -/
theorem C68_generator_forward_refuted :
    let prepare : Nat → Py Nat := fun f => .ok f
    ∃ s : VideoView Nat Nat, VideoView.start prepare (.gen [10, 11, 12, 13, 14]) = .ok s ∧
      (s.history prepare 5 [.drag 3, .drag 1, .drag 2]).map (fun r => (r.1.val, r.1.image)) = [(3, 13), (1, 13), (2, 13)] :=
  ⟨_, rfl, by decide +kernel⟩

/-- The same movements with a list. -/
example :
    let prepare : Nat → Py Nat := fun f => .ok f
    ∃ s : VideoView Nat Nat, VideoView.start prepare (.list [10, 11, 12, 13, 14]) = .ok s ∧
      (s.history prepare 5 [.drag 3, .drag 1, .drag 2]).map (fun r => (r.1.val, r.1.image)) = [(3, 13), (1, 11), (2, 12)] :=
  ⟨_, rfl, by decide +kernel⟩

/-- For multi-camera frames the image is that of the chosen camera. -/
theorem C68_camera {α β : Type} (norm : α → Py β) (ims : List α) (k : Nat) (im : α) (h : ims[k]? = some im) :
    prepareImage norm (k : Int) (.multi ims) = norm im ∧
    prepareImage norm ((k : Int) - ims.length) (.multi ims) = norm im := by
  have hk : k < ims.length := by
    by_contra hc
    rw [List.getElem?_eq_none (by omega)] at h
    cases h
  constructor
  · unfold prepareImage
    dsimp only
    rw [resolveIdx_natCast _ _ hk]
    dsimp only
    rw [h]
  · unfold prepareImage resolveIdx
    dsimp only
    rw [if_neg (by omega), if_pos (by omega), show ((k : Int) - ims.length + ims.length).toNat = k by omega]
    dsimp only
    rw [h]

/-! ## C69 -/

section corr
variable {C : Type}

/-- The boxes represent exactly the norms. -/
theorem checks_norm_ofNorm (n : Nat) (h : n ∈ allNorms) : (Checks.ofNorm n).norm = n := by
  revert n
  decide

theorem supports_allNorms (data : NormData C) (z : Int) (h : Supports data z) : z.toNat ∈ allNorms ∧ (z.toNat : Int) = z := by
  cases data with
  | corr cor count sq s1 s2 =>
    obtain ⟨h1, h2, h3, -, -⟩ := h
    refine ⟨?_, by omega⟩
    interval_cases z <;> first | decide | omega
  | diff dif count s1 s2 =>
    rcases h with rfl | ⟨rfl, -⟩ <;> decide
  | other => exact absurd h (by simp [Supports])

theorem normOf_ok (data : NormData C) (norm : Option Int) (n : Nat) (h : normOf data norm = .ok n) :
    Supports data (n : Int) := by
  cases norm with
  | some z =>
    obtain ⟨h1, h2⟩ := normOf_supports data z
    by_cases hz : Supports data z
    · rw [h1 hz] at h
      cases h
      rw [(supports_allNorms data z hz).2]
      exact hz
    · rw [h2 hz] at h
      cases h
  | none =>
    cases data with
    | corr cor count sq s1 s2 =>
      simp only [normOf, normFromCcorrData] at h
      cases h
      simp only [Supports]
      generalize sq.isSome = a
      generalize s1.isSome = b
      revert a b
      decide
    | diff dif count s1 s2 =>
      simp only [normOf, normFromCdiffData] at h
      cases h
      simp only [Supports]
      generalize s1.isSome = a
      generalize s2.isSome = b
      revert a b
      decide
    | other => cases h

theorem setNorm_supports (s : CorrView C) (z : Int) :
    (Supports s.data z → s.setNorm (some z) = .ok { s with norm := z.toNat }) ∧
    (¬ Supports s.data z → s.setNorm (some z) = .error .valueError) := by
  obtain ⟨h1, h2⟩ := normOf_supports s.data z
  unfold CorrView.setNorm
  exact ⟨fun h => by rw [h1 h], fun h => by rw [h2 h]⟩

theorem toggle_toggle (c : Checks) (b : CheckBox) : (c.toggle b).toggle b = c := by
  obtain ⟨a1, a2, a3, a4⟩ := c
  cases b <;> simp [Checks.toggle]

/-- **C69, a click.**  When the boxes show the norm in use, and it is supported: a click selects the norm of the
inverted box if it is supported; otherwise norm and boxes are as before.  The callback is called at most twice. -/
theorem C69_click (s : CorrView C) (fuel : Nat) (hf : 2 ≤ fuel) (hn : s.checks.norm = s.norm)
    (hs : Supports s.data (s.norm : Int)) (box : CheckBox) :
    (Supports s.data ((s.checks.toggle box).norm : Int) ∧ s.click fuel box =
      .ok { s with checks := s.checks.toggle box, norm := (s.checks.toggle box).norm }) ∨
    (¬ Supports s.data ((s.checks.toggle box).norm : Int) ∧ s.click fuel box = .ok s) := by
  obtain ⟨k, rfl⟩ : ∃ k, fuel = k + 2 := ⟨fuel - 2, by omega⟩
  by_cases h : Supports s.data ((s.checks.toggle box).norm : Int)
  · refine .inl ⟨h, ?_⟩
    have := (setNorm_supports ({ s with checks := s.checks.toggle box } : CorrView C) _).1 h
    unfold CorrView.click CorrView.update
    rw [this]
    simp
  · refine .inr ⟨h, ?_⟩
    have h1 := (setNorm_supports ({ s with checks := s.checks.toggle box } : CorrView C) _).2 h
    have h2 := (setNorm_supports s (s.checks.norm : Int)).1 (by rw [hn]; exact hs)
    unfold CorrView.click CorrView.update
    rw [h1]
    dsimp only
    unfold CorrView.update
    rw [toggle_toggle]
    dsimp only
    rw [h2, hn]
    simp

/-- **C69.**  After any clicks the norm is one supported by the data, and the boxes show it. -/
theorem C69_history (data : NormData C) (norm : Option Int) (s0 : CorrView C) (h0 : CorrView.start data norm = .ok s0)
    (fuel : Nat) (hf : 2 ≤ fuel) (boxes : List CheckBox) :
    ∃ s, s0.clicks fuel boxes = .ok s ∧ s.data = data ∧ Supports data (s.norm : Int) ∧ s.checks.norm = s.norm := by
  have hinit : s0.data = data ∧ Supports data (s0.norm : Int) ∧ s0.checks.norm = s0.norm := by
    unfold CorrView.start at h0
    cases hn : normOf data norm with
    | error e => rw [hn] at h0; cases h0
    | ok n =>
      rw [hn] at h0
      cases h0
      have hsup := normOf_ok data norm n hn
      have hall := (supports_allNorms data _ hsup).1
      exact ⟨rfl, hsup, checks_norm_ofNorm n (by simpa using hall)⟩
  clear h0
  induction boxes generalizing s0 with
  | nil => exact ⟨s0, rfl, hinit⟩
  | cons b bs ih =>
    obtain ⟨rfl, h2, h3⟩ := hinit
    unfold CorrView.clicks
    rcases C69_click s0 fuel hf h3 h2 b with ⟨hs, hc⟩ | ⟨hs, hc⟩
    · rw [hc]
      exact ih _ ⟨rfl, hs, rfl⟩
    · rw [hc]
      exact ih _ ⟨rfl, h2, h3⟩

/-- **C69, what the boxes mean.**  A norm is written `kind + 4 * subtracted + 8 * compensated`, with the kinds 1
(standard), 2 (structured) and 3 (weighted).  The box "weighted" prevails over "structured". -/
theorem C69_boxes (c : Checks) : ∃ kind : Nat,
    c.norm = kind + (if c.subtracted then 4 else 0) + (if c.compensated then 8 else 0) ∧
    (c.weighted = true → kind = 3) ∧ (c.weighted = false → c.structured = true → kind = 2) ∧
    (c.weighted = false → c.structured = false → kind = 1) := by
  obtain ⟨a1, a2, a3, a4⟩ := c
  cases a1 <;> cases a2 <;> cases a3 <;> cases a4 <;> simp [Checks.norm]

/-- "compensated" and "weighted" only: norm 11. -/
example : (⟨false, false, true, true⟩ : Checks).norm = 11 := rfl

/-- The viewer starts exactly when the norm given is supported (or none is given). -/
theorem C69_start (data : NormData C) (z : Int) :
    (Supports data z → ∃ s, CorrView.start data (some z) = .ok s ∧ s.norm = z.toNat) ∧
    (¬ Supports data z → CorrView.start data (some z) = .error .valueError) := by
  obtain ⟨h1, h2⟩ := normOf_supports data z
  unfold CorrView.start
  exact ⟨fun h => ⟨_, by rw [h1 h], rfl⟩, fun h => by rw [h2 h]⟩

/-- Every norm the data support can be selected: the boxes that show it are a state of the viewer. -/
theorem C69_reachable (data : NormData C) (z : Int) (h : Supports data z) :
    (Checks.ofNorm z.toNat).norm = z.toNat :=
  checks_norm_ofNorm _ (supports_allNorms data z h).1

end corr

/-- New data (`set_data`) are not checked against the norm: boxes and norm remain, and where neither the old nor the
inverted combination is supported the callback calls itself until the recursion limit. -/
theorem C69_set_data_refuted (fuel : Nat) (cor : List ℝ) (count : List Nat) :
    let s : CorrView ℝ := ⟨.corr cor count none none none, 7, Checks.ofNorm 7⟩
    ¬ Supports s.data (s.norm : Int) ∧ s.click fuel .compensated = .error .runtimeError := by
  have h7 : ¬ Supports (NormData.corr cor count none none none : NormData ℝ) 7 := by simp [Supports]
  have h15 : ¬ Supports (NormData.corr cor count none none none : NormData ℝ) 15 := by simp [Supports]
  refine ⟨h7, ?_⟩
  have key : ∀ (fuel : Nat) (c : Checks), c = Checks.ofNorm 7 ∨ c = Checks.ofNorm 15 →
      CorrView.update CheckBox.compensated fuel (⟨.corr cor count none none none, 7, c⟩ : CorrView ℝ) =
        .error .runtimeError := by
    intro fuel
    induction fuel with
    | zero => intro c _; rfl
    | succ k ih =>
      intro c hc
      have : (CorrView.setNorm (⟨.corr cor count none none none, 7, c⟩ : CorrView ℝ) (some (c.norm : Int))) =
          .error .valueError := by
        apply (setNorm_supports _ _).2
        rcases hc with rfl | rfl
        · exact h7
        · exact h15
      unfold CorrView.update
      dsimp only
      rw [this]
      dsimp only
      apply ih
      rcases hc with rfl | rfl
      · right; decide
      · left; decide
  exact key _ _ (.inr (by decide : (Checks.ofNorm 7).toggle CheckBox.compensated = Checks.ofNorm 15))

/-- After `set_norm` the boxes are not updated, so that a refused click also undoes it: with norm 1 set by the program
while the boxes show 5, the refused "structured" gives norm 5. -/
theorem C69_set_norm_refuted (cor : List ℝ) (s : List (Cx ℝ)) (count : List Nat) :
    let data : NormData ℝ := .corr cor count none (some s) (some s)
    ∃ v v' : CorrView ℝ, CorrView.start data none = .ok v ∧ v.norm = 5 ∧ v.setNorm (some 1) = .ok v' ∧ v'.norm = 1 ∧
      ¬ Supports data ((v'.checks.toggle .structured).norm : Int) ∧
      ∃ v'' : CorrView ℝ, v'.click 2 .structured = .ok v'' ∧ v''.norm = 5 := by
  refine ⟨⟨.corr cor count none (some s) (some s), 5, Checks.ofNorm 5⟩,
    ⟨.corr cor count none (some s) (some s), 1, Checks.ofNorm 5⟩, rfl, rfl,
    (setNorm_supports _ _).1 (by simp [Supports]), rfl, ?_,
    ⟨.corr cor count none (some s) (some s), 5, Checks.ofNorm 5⟩, ?_, rfl⟩
  · simp [Supports, Checks.ofNorm, Checks.toggle, Checks.norm]
  · simp [CorrView.click, CorrView.update, CorrView.setNorm, Checks.toggle, Checks.ofNorm, Checks.norm, normOf,
      normFromCcorrData, allNorms, ccorrNorms]

/-- Full data: starting with the default norm 7, "weighted" off and "compensated" on give 6 and 14. -/
example (cor sq : List ℝ) (s : List (Cx ℝ)) (count : List Nat) :
    ∃ v : CorrView ℝ, CorrView.start (.corr cor count (some sq) (some s) (some s)) none = .ok v ∧ v.norm = 7 ∧
      ∃ v' : CorrView ℝ, v.clicks 2 [.weighted, .compensated] = .ok v' ∧ v'.norm = 14 :=
  ⟨⟨_, 7, Checks.ofNorm 7⟩, rfl, rfl, ⟨.corr cor count (some sq) (some s) (some s), 14, ⟨true, true, false, true⟩⟩,
    by simp [CorrView.clicks, CorrView.click, CorrView.update, CorrView.setNorm, Checks.toggle, Checks.ofNorm,
      Checks.norm, normOf, normFromCcorrData, allNorms, ccorrNorms], rfl⟩

end Cddm
