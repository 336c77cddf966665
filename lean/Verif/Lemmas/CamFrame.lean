import Verif.Spec.CamFrame
import Verif.Props.FrameShow

/-!
# Lemmas for C111 and C112
-/

namespace Cddm
open Spec

theorem wanted_int (op : FrameOp) (a b : Int) : wanted op (a : ℝ) (b : ℝ) = ((op.onInt a b : Int) : ℝ) := by
  cases op <;> simp [wanted, FrameOp.onInt]

theorem wanted_real (op : FrameOp) (a b : ℝ) : op.onReal a b = wanted op a b := by
  cases op <;> rfl

theorem isCamera_uint {b : Nat} {x : CamFrame} (h : IsCamera b x) : ∃ px, x = .uint b px ∧ ∀ v ∈ px, 0 ≤ v ∧ v < 2 ^ b := by
  cases x with
  | uint b' px => obtain ⟨rfl, h⟩ := h; exact ⟨px, rfl, h⟩
  | float px => exact absurd h id

theorem npArith_uint2 (op : FrameOp) (a b : Nat) (x w : List Int) (hl : x.length = w.length) :
    npArith op (.uint a x) (.uint b w) = .ok (.uint (max a b) (List.zipWith (fun u v => op.onInt u v % 2 ^ max a b) x w)) := by
  unfold npArith
  simp [hl]

theorem npArith_uint (op : FrameOp) (b : Nat) (x w : List Int) (hl : x.length = w.length) :
    npArith op (.uint b x) (.uint b w) = .ok (.uint b (List.zipWith (fun u v => op.onInt u v % 2 ^ b) x w)) := by
  simpa using npArith_uint2 op b b x w hl

theorem getD_zipWith_int (f : Int → Int → Int) (x w : List Int) (hl : x.length = w.length) (i : Nat) (hi : i < x.length) :
    (List.zipWith f x w).getD i 0 = f (x.getD i 0) (w.getD i 0) := by
  have h2 : i < w.length := by omega
  simp [List.getD_eq_getElem?_getD, List.getElem?_zipWith, List.getElem?_eq_getElem hi, List.getElem?_eq_getElem h2]

theorem pixelAt_reals (f : CamFrame) (i : Nat) : f.reals.getD i 0 = pixelAt f i := by
  cases f with
  | uint b px =>
    simp only [CamFrame.reals, pixelAt, List.getD_eq_getElem?_getD, List.getElem?_map]
    cases px[i]? <;> simp
  | float px => rfl

theorem size_reals (f : CamFrame) : f.reals.length = frameSize f := by
  cases f <;> simp [CamFrame.reals, frameSize]

theorem npArith_float (op : FrameOp) (x w : CamFrame) (hf : IsFloat x ∨ IsFloat w) (hr : x.reals.length = w.reals.length) :
    npArith op x w = .ok (.float (List.zipWith op.onReal x.reals w.reals)) := by
  have h : npArith op x w = if x.reals.length ≠ w.reals.length then .error .notModelled
      else .ok (.float (List.zipWith op.onReal x.reals w.reals)) := by
    cases x with
    | uint a px =>
      cases w with
      | uint b pw => exact absurd hf (by simp [IsFloat])
      | float pw => rfl
    | float px => cases w <;> rfl
  rw [h, if_neg (by simpa using hr)]

theorem combine_ok {F : Type} {op : F → F → Py F} {fs ws r : List F} {x y : List (List F)} (l : fs.length = ws.length)
    (e : (fs.zip ws).mapM (fun p => op p.1 p.2) = .ok r) :
    combine op (fs :: x) (ws :: y) = (r :: (combine op x y).1, (combine op x y).2) := by
  rw [combine, if_neg (by simpa using l), e]

theorem frame_restores (bits : Nat) (x w : CamFrame) (hx : IsCamera bits x) (hw : IsCamera bits w) (hl : frameSize x = frameSize w) :
    ∃ r, frameArith .sub false none x w = .ok r ∧ frameArith .add false none r w = .ok x := by
  obtain ⟨px, rfl, hp⟩ := isCamera_uint hx
  obtain ⟨pw, rfl, -⟩ := isCamera_uint hw
  have hl' : px.length = pw.length := hl
  refine ⟨.uint bits (List.zipWith (fun u v => FrameOp.onInt .sub u v % 2 ^ bits) px pw), ?_, ?_⟩
  · unfold frameArith
    rw [npArith_uint _ bits px pw hl']
    rfl
  · unfold frameArith
    rw [npArith_uint _ bits _ pw (by simp [hl'])]
    show Except.ok (CamFrame.uint bits _) = Except.ok (CamFrame.uint bits _)
    congr 2
    apply List.ext_getElem
    · simp [hl']
    · intro i h1 h2
      simp only [List.getElem_zipWith, FrameOp.onInt]
      have := hp _ (List.getElem_mem h2)
      rw [Int.emod_add_emod, sub_add_cancel]
      exact Int.emod_eq_of_lt this.1 this.2

theorem frameMax_toReal2 (x : Arr2 Int) : frameMax (toReal2 x) = (uintMax x : ℝ) := by
  unfold frameMax uintMax toReal2
  dsimp only
  have : ∀ (l : List (Nat × Nat)) (a : Int), (l.map fun p => ((x.get p.1 p.2 : Int) : ℝ)).foldl max (a : ℝ)
      = (((l.map fun p => x.get p.1 p.2).foldl max a : Int) : ℝ) := by
    intro l
    induction l with
    | nil => exact fun a => rfl
    | cons p l ih =>
      intro a
      simp only [List.map_cons, List.foldl_cons]
      rw [← Int.cast_max]
      exact ih _
  exact this _ _

theorem camera_pixel {b : Nat} {f : CamFrame} (hf : IsCamera b f) {i : Nat} (hi : i < frameSize f) :
    0 ≤ pixelAt f i ∧ pixelAt f i < 2 ^ b := by
  obtain ⟨px, rfl, hp⟩ := isCamera_uint hf
  have hm : px.getD i 0 ∈ px := by
    rw [List.getD_eq_getElem?_getD, List.getElem?_eq_getElem (show i < px.length from hi)]
    exact List.getElem_mem _
  have := hp _ hm
  unfold pixelAt
  dsimp only
  exact ⟨by exact_mod_cast this.1, by exact_mod_cast this.2⟩

end Cddm
