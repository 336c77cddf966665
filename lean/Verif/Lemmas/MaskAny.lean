import Verif.Lemmas.IterAnyCore
import Verif.Lemmas.NormAny
import Verif.Spec.MaskAny

/-! # Selecting pixels and putting them back -/

namespace Cddm
open Spec

theorem selected_mem {mask : Tensor Bool} {p : List Nat} : p ∈ selectedBy mask ↔ Selected mask p := by
  simp [selectedBy, mem_positionsOf, Selected]

/-- The place of a selected pixel. -/
def placeOf (mask : Tensor Bool) (p : List Nat) : List Nat := [(selectedBy mask).idxOf p]

theorem placeOf_in {mask : Tensor Bool} {p : List Nat} (h : Selected mask p) :
    InShape (placeOf mask p) [(selectedBy mask).length] :=
  .cons (List.idxOf_lt_length_of_mem (selected_mem.2 h)) .nil

theorem placeOf_get {mask : Tensor Bool} {p : List Nat} (h : Selected mask p) :
    (selectedBy mask).getD ((selectedBy mask).idxOf p) [] = p := by
  have hlt := List.idxOf_lt_length_of_mem (selected_mem.2 h)
  rw [List.getD_eq_getElem?_getD, List.getElem?_eq_getElem hlt, Option.getD_some]
  exact List.getElem_idxOf hlt

theorem maskedShape_none (mask : Tensor Bool) : maskedShape mask none = .ok [(selectedBy mask).length] := by
  unfold maskedShape threadFrameShape
  simp [bind, Except.bind]

/-! ### One array -/

theorem unmaskOpt_ok {M : Type} {mask : Tensor Bool} (h2 : mask.shape.length = 2) (x : Option (Tensor M))
    (hx : OutFits [(selectedBy mask).length] x) :
    ∃ z, unmaskOpt [(selectedBy mask).length] mask x = .ok z ∧ NanElsewhere mask z ∧
      ∀ p, Selected mask p → outAt mask.shape z p = (outAt [(selectedBy mask).length] x (placeOf mask p)).map (List.map some) := by
  obtain ⟨y, e, fy, gy⟩ := reshapeOpt_ok (F := [(selectedBy mask).length]) rfl x hx
  unfold unmaskOpt
  rw [e]
  rcases y with _ | y
  · refine ⟨none, rfl, nofun, fun p hp => ?_⟩
    have := gy _ (placeOf_in hp)
    rw [movedPixel, unravel_ravel (placeOf_in hp)] at this
    rw [← this]
    rfl
  · obtain ⟨L, hL⟩ := fy y rfl
    have hlead : shapeHead y.shape mask.shape.length = [] := by
      rw [hL, h2]
      rfl
    have hlast : y.shape.getLastD 0 = L := by
      rw [hL]
      rfl
    refine ⟨some ⟨mask.shape ++ [L], fun p => if mask.get (p.take mask.shape.length) then
      some (y.get [(selectedBy mask).idxOf (p.take mask.shape.length), p.getLastD 0]) else none⟩, ?_, ?_, fun p hp => ?_⟩
    · show (unmaskAny mask y >>= _) = _
      unfold unmaskAny
      simp only [hlead, hlast, List.nil_append]
      rw [if_pos (show y.shape = [(selectedBy mask).length, L] from hL)]
      rfl
    · intro z hz
      cases hz
      refine ⟨⟨L, rfl⟩, fun p hp hm v hv => ?_⟩
      rw [along_eq_rowAt _ rfl (inShape_length hp)] at hv
      obtain ⟨i, -, rfl⟩ := List.mem_map.1 hv
      show (if mask.get ((p ++ [i]).take mask.shape.length) then _ else none) = none
      rw [← inShape_length hp, List.take_left, hm]
      rfl
    · have hin := placeOf_in hp
      have := gy _ hin
      rw [movedPixel, unravel_ravel hin] at this
      rw [← this]
      simp only [outAt, Option.map_some, Option.some.injEq]
      rw [along_eq_rowAt _ rfl (inShape_length hp.1), along_eq_rowAt y hL (inShape_length hin)]
      unfold rowAt
      rw [List.map_map]
      apply List.map_congr_left
      intro i hi
      show (if mask.get ((p ++ [i]).take mask.shape.length) then _ else none) = _
      rw [← inShape_length hp.1, List.take_left, hp.2, List.getLastD_concat]
      rfl

theorem unmaskArrays_ok {C : Type} {mask : Tensor Bool} (h2 : mask.shape.length = 2) (a : CorrAoutAny C)
    (ha : AoutFits [(selectedBy mask).length] a) :
    ∃ b, unmaskArrays [(selectedBy mask).length] mask a = .ok b ∧ AllNanElsewhere mask b ∧
      ∀ p, Selected mask p → HoldsAt mask p b (aoutAt [(selectedBy mask).length] a (placeOf mask p)) := by
  obtain ⟨a1, a2, a3, a4⟩ := ha
  obtain ⟨y1, e1, f1, g1⟩ := unmaskOpt_ok h2 a.cor a1
  obtain ⟨y2, e2, f2, g2⟩ := unmaskOpt_ok h2 a.sq a2
  obtain ⟨y3, e3, f3, g3⟩ := unmaskOpt_ok h2 a.ds1 a3
  obtain ⟨y4, e4, f4, g4⟩ := unmaskOpt_ok h2 a.ds2 a4
  refine ⟨⟨y1, a.count, y2, y3, y4⟩, ?_, ⟨f1, f2, f3, f4⟩, fun p hp => ⟨g1 p hp, rfl, g2 p hp, g3 p hp, g4 p hp⟩⟩
  unfold unmaskArrays
  rw [e1, e2, e3, e4]
  rfl

theorem unmaskLevels_ok {C : Type} {mask : Tensor Bool} (h2 : mask.shape.length = 2) (l : List (CorrAoutAny C))
    (hl : ∀ a ∈ l, AoutFits [(selectedBy mask).length] a) :
    ∃ l', l.mapM (unmaskArrays [(selectedBy mask).length] mask) = .ok l' ∧ (∀ b ∈ l', AllNanElsewhere mask b) ∧
      ∀ p, Selected mask p → List.Forall₂ (HoldsAt mask p) l' (l.map fun a => aoutAt [(selectedBy mask).length] a (placeOf mask p)) := by
  induction l with
  | nil => exact ⟨[], rfl, by simp, fun _ _ => .nil⟩
  | cons a l ih =>
    obtain ⟨b, e1, f1, g1⟩ := unmaskArrays_ok h2 a (hl a (by simp))
    obtain ⟨l', e2, f2, g2⟩ := ih fun x hx => hl x (by simp [hx])
    refine ⟨b :: l', ?_, ?_, fun p hp => .cons (g1 p hp) (g2 p hp)⟩
    · rw [List.mapM_cons, e1, e2]
      rfl
    · intro x hx
      rcases List.mem_cons.1 hx with rfl | hx
      · exact f1
      · exact f2 x hx

theorem unmaskMulti_ok {C : Type} {mask : Tensor Bool} (h2 : mask.shape.length = 2) (L1 L2 : Nat) (fast : CorrAoutAny C)
    (slow : List (CorrAoutAny C)) (hf : AoutFits [(selectedBy mask).length] fast)
    (hsl : ∀ a ∈ slow, AoutFits [(selectedBy mask).length] a) :
    ∃ b l, unmaskMulti mask ([(selectedBy mask).length] ++ [L1]) ([(selectedBy mask).length] ++ [L2]) (fast, slow) = .ok (b, l) ∧
      AllNanElsewhere mask b ∧ (∀ x ∈ l, AllNanElsewhere mask x) ∧
      ∀ p, Selected mask p → HoldsAt mask p b (aoutAt [(selectedBy mask).length] fast (placeOf mask p)) ∧
        List.Forall₂ (HoldsAt mask p) l (slow.map fun a => aoutAt [(selectedBy mask).length] a (placeOf mask p)) := by
  obtain ⟨b, e1, f1, g1⟩ := unmaskArrays_ok h2 fast hf
  obtain ⟨l, e2, f2, g2⟩ := unmaskLevels_ok h2 slow hsl
  refine ⟨b, l, ?_, f1, f2, fun p hp => ⟨g1 p hp, g2 p hp⟩⟩
  unfold unmaskMulti unmaskFast unmaskSlow
  have hl1 : shapeHead ([(selectedBy mask).length] ++ [L1]) mask.shape.length = [] := by rw [h2]; rfl
  have hl2 : shapeHead (slow.length :: ([(selectedBy mask).length] ++ [L2])) mask.shape.length = [slow.length] := by rw [h2]; rfl
  simp only [hl1, hl2, List.nil_append]
  rw [e1, if_neg (by simp), if_pos ⟨rfl, by simp, h2⟩]
  show (slow.mapM (unmaskArrays [(selectedBy mask).length] mask) >>= _) = _
  rw [e2]
  rfl

theorem maskedMulti_of_core {C : Type} {mask : Tensor Bool} (h2 : mask.shape.length = 2)
    {res : Py ((List Nat × List Nat) × CorrAoutAny C × List (CorrAoutAny C))} {one one' : List Nat → Py (CorrAout C × List (CorrAout C))}
    (hres : CoreRes [(selectedBy mask).length] res one) (hone : ∀ p, Selected mask p → one' p = one (placeOf mask p)) :
    MaskedMulti mask (res >>= fun out => unmaskMulti mask out.1.1 out.1.2 out.2) one' := by
  unfold CoreRes PW at hres
  rcases res with e | ⟨⟨s1, s2⟩, fast, slow⟩
  · intro p hp
    rw [hone p hp]
    exact hres _ (placeOf_in hp)
  · obtain ⟨⟨⟨L1, hL1⟩, ⟨L2, hL2⟩, hf, hsl⟩, hr⟩ := hres
    dsimp only at hL1 hL2 hf hsl hr
    obtain ⟨b, l, e, f1, f2, g⟩ := unmaskMulti_ok h2 L1 L2 fast slow hf hsl
    show MaskedMulti mask (unmaskMulti mask s1 s2 (fast, slow)) one'
    rw [hL1, hL2, e]
    exact ⟨f1, f2, fun p hp => ⟨_, (hone p hp).trans (hr _ (placeOf_in hp)), g p hp⟩⟩

/-! ### The statistics -/

theorem unmaskStat_ok (mask : Tensor Bool) (s : Option ((List Nat → Cx ℝ) × (List Nat → ℝ))) :
    ∃ z, unmaskStat mask [(selectedBy mask).length] s = .ok z ∧ StatNanElsewhere mask z ∧
      ∀ p, Selected mask p → StatHoldsAt p z (s.map fun s => (s.1 (placeOf mask p), s.2 (placeOf mask p))) := by
  rcases s with _ | s
  · exact ⟨none, rfl, nofun, fun p _ => rfl⟩
  · refine ⟨some (unmaskFrame mask ⟨[(selectedBy mask).length], fun p => s.1 (unravel [(selectedBy mask).length]
      (ravel [(selectedBy mask).length] p))⟩, unmaskFrame mask ⟨[(selectedBy mask).length], fun p => s.2 (unravel [(selectedBy mask).length]
      (ravel [(selectedBy mask).length] p))⟩), ?_, ?_, ?_⟩
    · unfold unmaskStat reshapeAny
      simp only [ne_eq, not_true, if_false]
      rfl
    · intro m v hmv
      cases hmv
      exact ⟨rfl, rfl, fun p hp hm => by simp [unmaskFrame, hm]⟩
    · intro p hp
      have := unravel_ravel (placeOf_in hp)
      unfold placeOf at this
      simp [StatHoldsAt, unmaskFrame, hp.2, this, placeOf]

theorem unmaskStats_ok (mask : Tensor Bool) (l : List (Option ((List Nat → Cx ℝ) × (List Nat → ℝ)))) :
    ∃ l', l.mapM (unmaskStat mask [(selectedBy mask).length]) = .ok l' ∧ (∀ s ∈ l', StatNanElsewhere mask s) ∧
      ∀ p, Selected mask p → List.Forall₂ (StatHoldsAt p) l'
        (l.map fun s => s.map fun s => (s.1 (placeOf mask p), s.2 (placeOf mask p))) := by
  induction l with
  | nil => exact ⟨[], rfl, by simp, fun _ _ => .nil⟩
  | cons a l ih =>
    obtain ⟨b, e1, f1, g1⟩ := unmaskStat_ok mask a
    obtain ⟨l', e2, f2, g2⟩ := ih
    refine ⟨b :: l', ?_, ?_, fun p hp => .cons (g1 p hp) (g2 p hp)⟩
    · rw [List.mapM_cons, e1, e2]
      rfl
    · intro x hx
      rcases List.mem_cons.1 hx with rfl | hx
      · exact f1
      · exact f2 x hx

theorem maskedIter_of_core {C : Type} {mask : Tensor Bool} (h2 : mask.shape.length = 2) {res : Py (IterRaw C)}
    {one one' : List Nat → Py (Nat × IterOut C)}
    (hres : PW [(selectedBy mask).length] (rawAt [(selectedBy mask).length]) (RawFits [(selectedBy mask).length]) res one)
    (hone : ∀ p, Selected mask p → one' p = one (placeOf mask p)) :
    MaskedIter mask (res >>= unmaskIter mask [(selectedBy mask).length]) one' := by
  rcases res with e | raw
  · intro p hp
    rw [hone p hp]
    exact hres _ (placeOf_in hp)
  · obtain ⟨⟨⟨L1, hL1⟩, ⟨L2, hL2⟩, hf, hsl⟩, hr⟩ := hres
    obtain ⟨b, l, e, f1, f2, g⟩ := unmaskMulti_ok h2 L1 L2 raw.fast raw.slow hf hsl
    obtain ⟨st, e', f3, g'⟩ := unmaskStats_ok mask raw.stats
    show MaskedIter mask (unmaskIter mask [(selectedBy mask).length] raw) one'
    unfold unmaskIter
    rw [hL1, hL2, e, e']
    exact ⟨f1, f2, f3, fun p hp => ⟨_, (hone p hp).trans (hr _ (placeOf_in hp)), (g p hp).1, (g p hp).2, g' p hp⟩⟩

/-! ### The input -/

theorem frameGet_masked {mask : Tensor Bool} {p : List Nat} (hp : Selected mask p) (x : Tensor (Cx ℝ)) :
    frameGet [(selectedBy mask).length] (placeOf mask p) (pickFrame mask x) = x.get p := by
  have h := unravel_ravel (placeOf_in hp)
  unfold frameGet
  show x.get ((selectedBy mask).getD ((unravel [(selectedBy mask).length] (ravel [(selectedBy mask).length] (placeOf mask p))).headD 0) []) = _
  rw [h]
  show x.get ((selectedBy mask).getD ((selectedBy mask).idxOf p) []) = _
  rw [placeOf_get hp]

theorem reshapeInMask_ok (f : Tensor (Cx ℝ)) {axis : Int} {N : Nat} {mask : Tensor Bool} (hs : f.shape = N :: mask.shape)
    (hax : NamesAxis f.shape.length axis 0) :
    ∃ y, reshapeInMask f axis none mask = .ok y ∧ y.shape = [N, (selectedBy mask).length] ∧
      ∀ p, Selected mask p → along y 0 (placeOf mask p) = along f 0 p := by
  refine ⟨⟨[N, (selectedBy mask).length], fun p => (maskedVideo mask f).get
    (unravel [N, (selectedBy mask).length] (ravel [N, (selectedBy mask).length] p))⟩, ?_, rfl, fun p hp => ?_⟩
  · unfold reshapeInMask
    rw [resolveIdx_axis hax]
    dsimp only
    rw [if_neg (by simp), maskCheck, hs]
    simp only [List.tail_cons, if_true, maskedShape_none]
    show reshapeAny _ _ = _
    unfold reshapeAny maskedVideo
    rw [hs]
    simp
  · unfold along
    rw [hs]
    apply List.map_congr_left
    intro i hi
    have hi' : i < N := by simpa using hi
    have hin : InShape (i :: placeOf mask p) [N, (selectedBy mask).length] := .cons hi' (placeOf_in hp)
    show (maskedVideo mask f).get (unravel _ (ravel _ (i :: placeOf mask p))) = f.get (i :: p)
    rw [unravel_ravel hin]
    show f.get (i :: (selectedBy mask).getD ((selectedBy mask).idxOf p) []) = _
    rw [placeOf_get hp]

end Cddm
