import Verif.Lemmas.CamFrame
import Verif.Spec.Video
import Verif.Props.Video

/-!
# C111, C112: frames of unsigned integers
-/

namespace Cddm
open Spec

/-! ### C111: arithmetic -/

/-- **C111, two camera frames.**  Without `dtype`, or with a floating-point one, each pixel of the result is the difference, sum or
product up to a multiple of `2 ^ max a b`, for cameras of `a` and `b` bits, and it is right exactly where that number is one a camera of so
many bits can deliver. -/
theorem C111_camera_partial (op : FrameOp) (a b : Nat) (dtype : Option PixType) (hd : dtype = none ∨ dtype = some .float) (x w : CamFrame)
    (hx : IsCamera a x) (hw : IsCamera b w) (hl : frameSize x = frameSize w) :
    ∃ r, frameArith op false dtype x w = .ok r ∧ frameSize r = frameSize x ∧ ∀ i < frameSize x,
      (∃ k : Int, pixelAt r i = wanted op (pixelAt x i) (pixelAt w i) + k * 2 ^ max a b) ∧ 0 ≤ pixelAt r i ∧ pixelAt r i < 2 ^ max a b ∧
      (pixelAt r i = wanted op (pixelAt x i) (pixelAt w i) ↔
        0 ≤ wanted op (pixelAt x i) (pixelAt w i) ∧ wanted op (pixelAt x i) (pixelAt w i) < 2 ^ max a b) := by
  obtain ⟨px, rfl, hx'⟩ := isCamera_uint hx
  obtain ⟨pw, rfl, hw'⟩ := isCamera_uint hw
  have hl' : px.length = pw.length := hl
  have hpow : (0 : Int) < 2 ^ max a b := by positivity
  have key : ∃ r, frameArith op false dtype (.uint a px) (.uint b pw) = .ok r ∧ frameSize r = px.length ∧
      ∀ i < px.length, pixelAt r i = ((op.onInt (px.getD i 0) (pw.getD i 0) % 2 ^ max a b : Int) : ℝ) := by
    have hget : ∀ i < px.length, pixelAt (.uint (max a b) (List.zipWith (fun u v => op.onInt u v % 2 ^ max a b) px pw)) i
        = ((op.onInt (px.getD i 0) (pw.getD i 0) % 2 ^ max a b : Int) : ℝ) := by
      intro i hi
      unfold pixelAt
      dsimp only
      rw [getD_zipWith_int _ _ _ hl' i hi]
    rcases hd with rfl | rfl
    · refine ⟨_, ?_, ?_, hget⟩
      · unfold frameArith
        rw [npArith_uint2 op a b px pw hl']
        rfl
      · simp [frameSize, hl']
    · refine ⟨.float (CamFrame.reals (.uint (max a b) (List.zipWith (fun u v => op.onInt u v % 2 ^ max a b) px pw))), ?_, ?_, fun i hi => ?_⟩
      · unfold frameArith
        rw [npArith_uint2 op a b px pw hl']
        rfl
      · simp [frameSize, CamFrame.reals, hl']
      · rw [← hget i hi, ← pixelAt_reals (.uint (max a b) _)]
        rfl
  obtain ⟨r, h1, h2, h3⟩ := key
  refine ⟨r, h1, h2, fun i hi => ?_⟩
  have hw0 : wanted op (pixelAt (.uint a px) i) (pixelAt (.uint b pw) i) = ((op.onInt (px.getD i 0) (pw.getD i 0) : Int) : ℝ) :=
    wanted_int op _ _
  rw [hw0, h3 i hi]
  generalize op.onInt (px.getD i 0) (pw.getD i 0) = v
  have e1 := Int.emod_nonneg v hpow.ne'
  have e2 := Int.emod_lt_of_pos v hpow
  refine ⟨⟨-(v / 2 ^ max a b), ?_⟩, by exact_mod_cast e1, by exact_mod_cast e2, ?_⟩
  · have := Int.emod_add_mul_ediv v (2 ^ max a b)
    have h : v % 2 ^ max a b = v + -(v / 2 ^ max a b) * 2 ^ max a b := by linarith
    rw [h]
    push_cast
    ring
  · constructor
    · intro h
      have h' : v % 2 ^ max a b = v := by exact_mod_cast h
      rw [h'] at e1 e2
      exact ⟨by exact_mod_cast e1, by exact_mod_cast e2⟩
    · rintro ⟨l, u⟩
      have a' : 0 ≤ v := by exact_mod_cast l
      have b' : v < 2 ^ max a b := by exact_mod_cast u
      rw [Int.emod_eq_of_lt a' b']

/-- **C111, subtracting a background from a camera frame**: right where the background is not brighter, too large by `2 ^ max a b` elsewhere. -/
theorem C111_subtract_partial (a b : Nat) (dtype : Option PixType) (hd : dtype = none ∨ dtype = some .float) (x w : CamFrame)
    (hx : IsCamera a x) (hw : IsCamera b w) (hl : frameSize x = frameSize w) :
    ∃ r, frameArith .sub false dtype x w = .ok r ∧ frameSize r = frameSize x ∧ ∀ i < frameSize x,
      pixelAt r i = if pixelAt w i ≤ pixelAt x i then pixelAt x i - pixelAt w i else pixelAt x i - pixelAt w i + 2 ^ max a b := by
  obtain ⟨r, h1, h2, h3⟩ := C111_camera_partial .sub a b dtype hd x w hx hw hl
  refine ⟨r, h1, h2, fun i hi => ?_⟩
  obtain ⟨⟨k, hk⟩, h0, hlt, hiff⟩ := h3 i hi
  have bx := camera_pixel hx hi
  have bw := camera_pixel hw (i := i) (by omega)
  have pa : (2 : ℝ) ^ a ≤ 2 ^ max a b := pow_le_pow_right₀ (by norm_num) (le_max_left a b)
  have pb : (2 : ℝ) ^ b ≤ 2 ^ max a b := pow_le_pow_right₀ (by norm_num) (le_max_right a b)
  have hpow : (0 : ℝ) < 2 ^ max a b := by positivity
  simp only [wanted] at hk hiff
  split_ifs with c
  · exact hiff.2 ⟨by linarith, by linarith⟩
  · push Not at c
    rw [hk] at h0 hlt ⊢
    have k1 : (0 : ℝ) < k := by
      by_contra hc
      push Not at hc
      nlinarith
    have k2 : (k : ℝ) < 2 := by
      by_contra hc
      push Not at hc
      nlinarith
    have k1' : 0 < k := by exact_mod_cast k1
    have k2' : k < 2 := by exact_mod_cast k2
    have : k = 1 := by omega
    rw [this]
    push_cast
    ring

/-- **C111, with floating-point numbers.**  If one of the frames is of floating-point numbers, every pixel is right. -/
theorem C111_float (op : FrameOp) (dtype : Option PixType) (hd : dtype = none ∨ dtype = some .float) (x w : CamFrame)
    (hf : IsFloat x ∨ IsFloat w) (hl : frameSize x = frameSize w) :
    ∃ r, frameArith op false dtype x w = .ok r ∧ IsFloat r ∧ frameSize r = frameSize x ∧ ∀ i < frameSize x,
      pixelAt r i = wanted op (pixelAt x i) (pixelAt w i) := by
  have hr : x.reals.length = w.reals.length := by rw [size_reals, size_reals, hl]
  have hn : npArith op x w = .ok (.float (List.zipWith op.onReal x.reals w.reals)) := by
    exact npArith_float op x w hf hr
  refine ⟨.float (List.zipWith op.onReal x.reals w.reals), ?_, trivial, ?_, fun i hi => ?_⟩
  · unfold frameArith
    rw [hn]
    rcases hd with rfl | rfl <;> rfl
  · simp only [frameSize, List.length_zipWith, ← hr, Nat.min_self]
    exact size_reals x
  · have i1 : i < x.reals.length := by rw [size_reals]; exact hi
    have i2 : i < w.reals.length := by omega
    rw [← pixelAt_reals x, ← pixelAt_reals w, ← wanted_real]
    simp [pixelAt, List.getD_eq_getElem?_getD, List.getElem?_zipWith, List.getElem?_eq_getElem i1, List.getElem?_eq_getElem i2]

/-- **C111, an integer type asked for** of two camera frames: the pixels of the result without `dtype` modulo the size of that type, so
that a wider type does not help. -/
theorem C111_integer_type (op : FrameOp) (a b c : Nat) (x w : CamFrame) (hx : IsCamera a x) (hw : IsCamera b w)
    (hl : frameSize x = frameSize w) :
    ∃ r0 r, frameArith op false none x w = .ok r0 ∧ frameArith op false (some (.uint c)) x w = .ok r ∧ IsCamera c r ∧
      frameSize r = frameSize x ∧ (∀ i < frameSize x, ∃ k : Int, pixelAt r i = pixelAt r0 i + k * 2 ^ c) ∧
      (max a b ≤ c → ∀ i < frameSize x, pixelAt r i = pixelAt r0 i) := by
  obtain ⟨px, rfl, -⟩ := isCamera_uint hx
  obtain ⟨pw, rfl, -⟩ := isCamera_uint hw
  have hl' : px.length = pw.length := hl
  have hpow : ∀ n : Nat, (0 : Int) < 2 ^ n := fun n => by positivity
  have e0 : frameArith op false none (.uint a px) (.uint b pw)
      = .ok (.uint (max a b) (List.zipWith (fun u v => op.onInt u v % 2 ^ max a b) px pw)) := by
    unfold frameArith
    rw [npArith_uint2 op a b px pw hl']
    rfl
  have e1 : frameArith op false (some (.uint c)) (.uint a px) (.uint b pw)
      = .ok (.uint c ((List.zipWith (fun u v => op.onInt u v % 2 ^ max a b) px pw).map (· % 2 ^ c))) := by
    unfold frameArith
    rw [npArith_uint2 op a b px pw hl']
    rfl
  have hg : ∀ l : List Int, ∀ i, pixelAt (.uint c (l.map (· % 2 ^ c))) i = ((l.getD i 0 % 2 ^ c : Int) : ℝ) := by
    intro l i
    simp only [pixelAt, List.getD_eq_getElem?_getD, List.getElem?_map]
    cases l[i]? <;> simp
  refine ⟨_, _, e0, e1, ⟨rfl, fun v hv => ?_⟩, by simp [frameSize, hl'], fun i _ => ?_, fun hc i hi => ?_⟩
  · obtain ⟨u, -, rfl⟩ := List.mem_map.1 hv
    exact ⟨Int.emod_nonneg _ (hpow c).ne', Int.emod_lt_of_pos _ (hpow c)⟩
  · rw [hg]
    show ∃ k : Int, _ = (((List.zipWith (fun u v => op.onInt u v % 2 ^ max a b) px pw).getD i 0 : Int) : ℝ) + k * 2 ^ c
    generalize (List.zipWith (fun u v => op.onInt u v % 2 ^ max a b) px pw).getD i 0 = v
    refine ⟨-(v / 2 ^ c), ?_⟩
    have := Int.emod_add_mul_ediv v (2 ^ c)
    have h : v % 2 ^ c = v + -(v / 2 ^ c) * 2 ^ c := by linarith
    rw [h]
    push_cast
    ring
  · rw [hg, getD_zipWith_int _ _ _ hl' i hi]
    show _ = (((List.zipWith (fun u v => op.onInt u v % 2 ^ max a b) px pw).getD i 0 : Int) : ℝ)
    rw [getD_zipWith_int _ _ _ hl' i hi]
    congr 1
    have h1 := Int.emod_lt_of_pos (op.onInt (px.getD i 0) (pw.getD i 0)) (hpow (max a b))
    have h2 : (2 : Int) ^ max a b ≤ 2 ^ c := pow_le_pow_right₀ (by norm_num) hc
    exact Int.emod_eq_of_lt (Int.emod_nonneg _ (hpow _).ne') (by omega)

/-- **C111, in place.**  A camera frame combined in place with another of the same type gets the values of the operation that is not in
place; with floating-point numbers TypeError is raised.  A floating-point frame gets the exact values. -/
theorem C111_inplace (op : FrameOp) (dtype : Option PixType) (x w : CamFrame) (hl : frameSize x = frameSize w) :
    (∀ bits, IsCamera bits x → IsCamera bits w → frameArith op true dtype x w = frameArith op false none x w) ∧
    (∀ bits, IsCamera bits x → IsFloat w → frameArith op true dtype x w = .error .typeError) ∧
    (IsFloat x → frameArith op true dtype x w = frameArith op false none x w) := by
  refine ⟨fun bits hx hw => ?_, fun bits hx hw => ?_, fun hx => ?_⟩
  · obtain ⟨px, rfl, -⟩ := isCamera_uint hx
    obtain ⟨pw, rfl, -⟩ := isCamera_uint hw
    have hl' : px.length = pw.length := hl
    unfold frameArith arithInplace
    rw [npArith_uint op bits px pw hl']
    show Except.ok (CamFrame.uint bits _) = Except.ok (CamFrame.uint bits _)
    congr 2
    rw [List.map_zipWith]
    congr 1
    funext u v
    exact Int.emod_emod _ _
  · obtain ⟨px, rfl, -⟩ := isCamera_uint hx
    cases w with
    | uint b pw => exact absurd hw id
    | float pw =>
      have hr : (CamFrame.uint bits px).reals.length = (CamFrame.float pw).reals.length := by rw [size_reals, size_reals, hl]
      unfold frameArith arithInplace
      rw [npArith_float op _ _ (.inr (show IsFloat (.float pw) from trivial)) hr]
      rfl
  · cases x with
    | uint b px => exact absurd hx id
    | float px =>
      have hr : (CamFrame.float px).reals.length = w.reals.length := by rw [size_reals, size_reals, hl]
      unfold frameArith arithInplace
      rw [npArith_float op _ _ (.inl (show IsFloat (.float px) from trivial)) hr]
      rfl

/-- **C111, adding undoes subtracting**, also for camera frames: the wrong differences lead back to the right frames. -/
theorem C111_restores (bits : Nat) (x y : List (List CamFrame)) (hc : SameCameras x y) (hb : SameCamera bits x y) :
    (videoArith .sub false none x y).2 = none ∧
      videoArith .add false none (videoArith .sub false none x y).1 y = (x.take y.length, none) := by
  have multi : ∀ fs ws : List CamFrame, fs.length = ws.length →
      (∀ q ∈ fs.zip ws, IsCamera bits q.1 ∧ IsCamera bits q.2 ∧ frameSize q.1 = frameSize q.2) →
      ∃ r, (fs.zip ws).mapM (fun p => frameArith .sub false none p.1 p.2) = .ok r ∧ r.length = ws.length ∧
        (r.zip ws).mapM (fun p => frameArith .add false none p.1 p.2) = .ok fs := by
    intro fs
    induction fs with
    | nil =>
      intro ws hl _
      cases ws with
      | nil => exact ⟨[], rfl, rfl, rfl⟩
      | cons w ws => simp at hl
    | cons f fs ih =>
      intro ws hl hq
      cases ws with
      | nil => simp at hl
      | cons w ws =>
        obtain ⟨a, b, c⟩ := hq (f, w) (by simp)
        obtain ⟨r, e1, e2⟩ := frame_restores bits f w a b c
        obtain ⟨rs, e3, e4, e5⟩ := ih ws (by simpa using hl) fun q hq' => hq q (by simp only [List.zip_cons_cons, List.mem_cons]; exact .inr hq')
        refine ⟨r :: rs, ?_, by simp [e4], ?_⟩
        · rw [List.zip_cons_cons, List.mapM_cons]
          dsimp only
          rw [e1, e3]
          rfl
        · rw [List.zip_cons_cons, List.mapM_cons]
          dsimp only
          rw [e2, e5]
          rfl
  unfold videoArith
  induction x generalizing y with
  | nil => cases y <;> exact ⟨rfl, rfl⟩
  | cons fs x ih =>
    cases y with
    | nil => exact ⟨rfl, rfl⟩
    | cons ws y =>
      have l : fs.length = ws.length := hc (fs, ws) (by simp)
      obtain ⟨r, e1, e2, e3⟩ := multi fs ws l fun q hq => hb (fs, ws) (by simp) q hq
      obtain ⟨i1, i2⟩ := ih y (fun p hp => hc p (by simp [hp])) (fun p hp => hb p (by simp [hp]))
      have h : combine (frameArith .sub false none) (fs :: x) (ws :: y) =
          (r :: (combine (frameArith .sub false none) x y).1, none) := by
        rw [combine_ok l e1, i1]
      rw [h]
      refine ⟨rfl, ?_⟩
      dsimp only
      rw [combine_ok e2 e3, i2]
      rfl

/-- **C111, a background of floating-point numbers in place**: TypeError at the first frame, nothing is yielded. -/
theorem C111_inplace_background (op : FrameOp) (dtype : Option PixType) (bits : Nat) (f w : CamFrame) (fs ws : List CamFrame)
    (x y : List (List CamFrame)) (hf : IsCamera bits f) (hw : IsFloat w) (hl : frameSize f = frameSize w) (hc : fs.length = ws.length) :
    videoArith op true dtype ((f :: fs) :: x) ((w :: ws) :: y) = ([], some .typeError) := by
  unfold videoArith combine
  rw [if_neg (by simpa using hc), List.zip_cons_cons, List.mapM_cons]
  dsimp only
  rw [(C111_inplace op dtype f w hl).2.1 bits hf hw]
  rfl

/-- **C111 is false of the code for two camera frames**: a background of 150 subtracted from a pixel of 100 gives 206 instead of -50, also
where floating-point numbers are asked for; the sum of 200 and 100 is 44. -/
theorem C111_refuted : frameArith .sub false (some .float) (.uint 8 [100]) (.uint 8 [150]) = .ok (.float [206]) ∧
    frameArith .sub false none (.uint 8 [100]) (.uint 8 [150]) = .ok (.uint 8 [206]) ∧
    frameArith .add false none (.uint 8 [200]) (.uint 8 [100]) = .ok (.uint 8 [44]) := by
  refine ⟨?_, rfl, rfl⟩
  show Except.ok (CamFrame.float _) = _
  norm_num [CamFrame.reals, FrameOp.onInt]

-- Frames that meet the hypotheses.
example : IsCamera 8 (.uint 8 [0, 17, 255]) ∧ ¬ IsCamera 8 (.uint 8 [256]) ∧ IsFloat (.float [1 / 2]) := by
  refine ⟨⟨rfl, by decide⟩, fun h => ?_, trivial⟩
  have := h.2 256 (by simp)
  omega

example : SameCamera 8 [[.uint 8 [3, 200]], [.uint 8 [1, 2]]] [[.uint 8 [4, 100]], [.uint 8 [1, 3]]] := by
  intro p hp q hq
  simp only [List.zip_cons_cons, List.zip_nil_right, List.mem_cons, List.not_mem_nil, or_false] at hp
  rcases hp with rfl | rfl <;>
    (simp only [List.zip_cons_cons, List.zip_nil_right, List.mem_cons, List.not_mem_nil, or_false] at hq
     subst hq
     exact ⟨⟨rfl, by decide⟩, ⟨rfl, by decide⟩, rfl⟩)

-- The conversion of floating-point numbers to integers cuts the fraction and is undefined out of range.
example : asDtype (some (.uint 8)) (.float [5 / 2]) = .ok (.uint 8 [2]) ∧ asDtype (some (.uint 8)) (.float [-3]) = .error .undefined := by
  constructor
  · have : realToUint 8 (5 / 2) = some 2 := by
      unfold realToUint
      norm_num
    simp [asDtype, this, orUB, Except.map]
  · have : realToUint 8 (-3) = none := by
      unfold realToUint
      norm_num
    simp [asDtype, this, orUB, Except.map]

/-! ### C112: shown images -/

/-- **C112, before numpy 2** the difference image of camera frames is that of the numbers they hold. -/
theorem C112_difference (bits : Nat) (x y : Arr2 Int) : diffImageUint false bits x y = diffImage false (toReal2 x) (toReal2 y) := by
  unfold diffImageUint diffImage
  show (if x.h ≠ y.h ∨ x.w ≠ y.w then _ else if x.h = 0 ∨ x.w = 0 then _ else _)
    = (if x.h ≠ y.h ∨ x.w ≠ y.w then _ else if x.h = 0 ∨ x.w = 0 then _ else _)
  by_cases c1 : x.h ≠ y.h ∨ x.w ≠ y.w
  · rw [if_pos c1, if_pos c1]
  rw [if_neg c1, if_neg c1]
  by_cases c2 : x.h = 0 ∨ x.w = 0
  · rw [if_pos c2, if_pos c2]
  rw [if_neg c2, if_neg c2]
  · show Except.ok _ = Except.ok (diffLevels _ _)
    unfold diffLevels
    rw [frameMax_toReal2, frameMax_toReal2]
    congr 1
    unfold uintScale toReal2
    simp only [Bool.false_eq_true, if_false]
    congr 1
    funext i j
    have e : (2 * max (uintMax x : ℝ) (uintMax y : ℝ)) = ((2 * max (uintMax x) (uintMax y) : Int) : ℝ) := by push_cast; rfl
    rw [e]
    by_cases c : 2 * max (uintMax x) (uintMax y) = 0
    · rw [if_pos c, if_pos (by rw [c]; simp)]
    · rw [if_neg c, if_neg (by exact_mod_cast c)]

/-- **C112, from numpy 2 on** the image is the same if no pixel is brighter than half of the range. -/
theorem C112_keeps_partial (bits : Nat) (hb : 0 < bits) (x y : Arr2 Int) (hh : 0 < x.h) (hw : 0 < x.w) (e1 : x.h = y.h) (e2 : x.w = y.w)
    (hx : ∀ i j, i < x.h → j < x.w → 0 ≤ x.get i j ∧ x.get i j < 2 ^ (bits - 1))
    (hy : ∀ i j, i < x.h → j < x.w → 0 ≤ y.get i j ∧ y.get i j < 2 ^ (bits - 1)) :
    diffImageUint true bits x y = diffImage false (toReal2 x) (toReal2 y) := by
  rw [← C112_difference bits]
  have mx := frameMax_spec (toReal2 x) hh hw
  have my := frameMax_spec (toReal2 y) (by rw [← e1]; exact hh : 0 < y.h) (by rw [← e2]; exact hw : 0 < y.w)
  obtain ⟨⟨i, j, hi, hj, h1⟩, -⟩ := mx
  obtain ⟨⟨i', j', hi', hj', h2⟩, -⟩ := my
  rw [frameMax_toReal2] at h1 h2
  have h1' : x.get i j = uintMax x := Int.cast_injective (α := ℝ) h1
  have h2' : y.get i' j' = uintMax y := Int.cast_injective (α := ℝ) h2
  have b1 := hx i j hi hj
  have b2 := hy i' j' (by rw [e1]; exact hi') (by rw [e2]; exact hj')
  rw [h1'] at b1
  rw [h2'] at b2
  have hp : (2 : Int) ^ bits = 2 * 2 ^ (bits - 1) := by rw [← pow_succ', Nat.sub_add_cancel hb]
  have : uintScale true bits x y = uintScale false bits x y := by
    unfold uintScale
    simp only [if_true, Bool.false_eq_true, if_false]
    apply Int.emod_eq_of_lt
    · have := le_max_left (uintMax x) (uintMax y)
      omega
    · rw [hp]
      have := max_lt b1.2 b2.2
      omega
  unfold diffImageUint
  rw [this]

/-- **C112 is false of the code from numpy 2 on**: a pixel of 200 against a dark one is shown with a level above 1 (200/144 + 1/2). -/
theorem C112_keeps_refuted : ∃ out, diffImageUint true 8 ⟨1, 1, fun _ _ => 200⟩ ⟨1, 1, fun _ _ => 0⟩ = .ok out ∧
    out.get 0 0 = some (200 / 144 + 1 / 2) := by
  have hm : uintScale true 8 ⟨1, 1, fun _ _ => 200⟩ ⟨1, 1, fun _ _ => 0⟩ = 144 := by decide
  refine ⟨_, rfl, ?_⟩
  dsimp only
  rw [hm]
  norm_num

/-- **C112 is false of the code from numpy 2 on**: if the brightest pixel is just half of the range, no pixel is a number. -/
theorem C112_half_refuted : ∃ out, diffImageUint true 8 ⟨1, 1, fun _ _ => 128⟩ ⟨1, 1, fun _ _ => 5⟩ = .ok out ∧ out.get 0 0 = none := by
  have hm : uintScale true 8 ⟨1, 1, fun _ _ => 128⟩ ⟨1, 1, fun _ _ => 5⟩ = 0 := by decide
  refine ⟨_, rfl, ?_⟩
  dsimp only
  rw [hm]
  rfl

/-- **C112, OpenCV**: no pixel handed to OpenCV is above 1; an image with such a pixel is divided by its largest value, which becomes 1,
other images are left alone.  An image without pixels raises ValueError. -/
theorem C112_opencv (im : Arr2 ℝ) :
    (im.h = 0 ∨ im.w = 0 → cvImage im = .error .valueError) ∧
    (0 < im.h → 0 < im.w → ∃ out, cvImage im = .ok out ∧ out.h = im.h ∧ out.w = im.w ∧
      (∀ i j, i < im.h → j < im.w → out.get i j ≤ 1) ∧
      ((∀ i j, i < im.h → j < im.w → im.get i j ≤ 1) → out = im) ∧
      ∀ M, IsFrameMax im M → 1 < M → IsFrameMax out 1 ∧ ∀ i j, i < im.h → j < im.w → out.get i j = im.get i j / M) := by
  constructor
  · intro h
    unfold cvImage
    rw [if_pos h]
  · intro hh hw
    have mx := frameMax_spec im hh hw
    unfold cvImage
    rw [if_neg (by omega)]
    by_cases c : frameMax im > 1
    · have hpos : 0 < frameMax im := by linarith
      refine ⟨_, if_pos c, rfl, rfl, fun i j hi hj => ?_, fun h => ?_, fun M hM h1 => ?_⟩
      · dsimp only
        rw [div_le_one hpos]
        exact mx.2 i j hi hj
      · obtain ⟨i, j, hi, hj, e⟩ := mx.1
        have := h i j hi hj
        linarith
      · have e : M = frameMax im := by
          obtain ⟨i, j, hi, hj, e⟩ := mx.1
          obtain ⟨i', j', hi', hj', e'⟩ := hM.1
          have a := mx.2 i' j' hi' hj'
          have b := hM.2 i j hi hj
          linarith
        subst e
        obtain ⟨i, j, hi, hj, e⟩ := mx.1
        refine ⟨⟨⟨i, j, hi, hj, ?_⟩, fun i j hi hj => ?_⟩, fun i j _ _ => rfl⟩
        · dsimp only
          rw [e, div_self hpos.ne']
        · dsimp only
          rw [div_le_one hpos]
          exact mx.2 i j hi hj
    · refine ⟨im, if_neg c, rfl, rfl, fun i j hi hj => ?_, fun _ => rfl, fun M hM h1 => ?_⟩
      · exact le_trans (mx.2 i j hi hj) (not_lt.1 c)
      · obtain ⟨i, j, hi, hj, e⟩ := hM.1
        have := mx.2 i j hi hj
        exact absurd (lt_of_lt_of_le h1 (e ▸ this)) c

-- An image that is divided: the largest value is 4.
example : IsFrameMax ⟨1, 2, fun _ j => if j = 0 then 4 else 2⟩ 4 := by
  refine ⟨⟨0, 0, by simp, by simp, by simp⟩, fun i j _ _ => ?_⟩
  dsimp only
  split_ifs <;> norm_num

-- Frames below half of the range.
example : ∀ i j, i < 1 → j < 2 → 0 ≤ (⟨1, 2, fun _ j => if j = 0 then 100 else 3⟩ : Arr2 Int).get i j ∧
    (⟨1, 2, fun _ j => if j = 0 then 100 else 3⟩ : Arr2 Int).get i j < 2 ^ (8 - 1) := by
  intro i j _ _
  dsimp only
  split_ifs <;> decide

end Cddm
