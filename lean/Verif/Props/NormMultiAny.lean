import Verif.Spec.NormMultiAny
import Verif.Props.NormAny
import Verif.Props.LogAny

/-! # C121: `normalize_multi` of arrays acts on every wave vector by itself -/

namespace Cddm
open Spec
variable {C : Type} [AddCommGroup C] [Module ℝ C]

omit [AddCommGroup C] [Module ℝ C] in
theorem multiNorm_dataAt (data : DataAny C) (norm : NormArg) (mode : String) (a b : List Nat) :
    multiNorm (dataAt data a b) norm mode = multiNorm (dataRow data 0 []) norm mode := by
  cases data <;> simp only [dataAt, dataRow, multiNorm, normOf, Option.isSome_map]

omit [AddCommGroup C] [Module ℝ C] in
theorem multiWise_congr {frame : List Nat} {n L m : Nat} {res : Py (Tensor (Option C) × Tensor (Option C))}
    {one one' : List Nat → Py (List (Option C) × List (List (Option C)))}
    (e : ∀ q, InShape q frame → one q = one' q) (h : MultiWise frame n L m res one) : MultiWise frame n L m res one' := by
  unfold MultiWise at *
  rcases res with x | ⟨a, b⟩
  · obtain ⟨q, e', hq, he⟩ := h
    exact ⟨q, e', hq, (e q hq).symm.trans he⟩
  · exact ⟨h.1, h.2.1, fun q hq => (e q hq).symm.trans (h.2.2 q hq)⟩

omit [AddCommGroup C] [Module ℝ C] in
/-- The two calls of `normalize`, given that each acts on every wave vector by itself. -/
theorem multiWise_of (frame : List Nat) (n L m : Nat) (N : Py Nat)
    (A B : Nat → Py (Tensor (Option C) × Option (Tensor C)))
    (a : Nat → List Nat → Py (List (Option C) × Option (List C)))
    (b : Nat → Nat → List Nat → Py (List (Option C) × Option (List C))) (hne : ∃ q, InShape q frame)
    (hA : ∀ z, WaveWise frame n (A z) (a z))
    (hB : ∀ z, WaveWise (L :: frame) m (B z) fun q => b z (q.headD 0) q.tail) :
    MultiWise frame n L m
      (N >>= fun z => A z >>= fun r => B z >>= fun s => .ok (r.1, s.1))
      fun q => N >>= fun z => a z q >>= fun r => ((List.range L).mapM fun l => b z l q >>= fun s => .ok s.1) >>= fun s =>
        .ok (r.1, s) := by
  cases N with
  | error e =>
    obtain ⟨q, hq⟩ := hne
    exact ⟨q, e, hq, rfl⟩
  | ok z =>
    have h1 := hA z
    have h2 := hB z
    show MultiWise frame n L m (A z >>= fun r => B z >>= fun s => .ok (r.1, s.1)) fun q =>
      a z q >>= fun r => ((List.range L).mapM fun l => b z l q >>= fun s => .ok s.1) >>= fun s => .ok (r.1, s)
    cases hAz : A z with
    | error e =>
      rw [hAz] at h1
      obtain ⟨q, hq, he⟩ := h1
      exact ⟨q, e, hq, by simp only [he]; rfl⟩
    | ok r =>
      rw [hAz] at h1
      obtain ⟨a1, -, a3⟩ := h1
      cases hBz : B z with
      | error e =>
        rw [hBz] at h2
        obtain ⟨q, hq, he⟩ := h2
        cases q with
        | nil => cases hq
        | cons l q =>
          cases hq with
          | cons hl hq =>
            rcases mapM_py_cases (List.range L) (fun l => b z l q >>= fun s => (.ok s.1 : Py (List (Option C)))) with
              ⟨e', l', -, -, g3⟩ | ⟨s, -, g2⟩
            · refine ⟨q, e', hq, ?_⟩
              simp only [a3 q hq, g3]
              rfl
            · exfalso
              obtain ⟨s', hs'⟩ := g2 l (List.mem_range.2 hl)
              simp only [List.headD_cons, List.tail_cons] at he
              rw [he] at hs'
              cases hs'
      | ok s =>
        rw [hBz] at h2
        obtain ⟨b1, -, b3⟩ := h2
        refine ⟨a1, b1, fun q hq => ?_⟩
        have hmap : ((List.range L).mapM fun l => b z l q >>= fun s => (.ok s.1 : Py (List (Option C)))) = .ok (levelsAt s.1 q) := by
          unfold levelsAt
          have hL : s.1.shape.headD 0 = L := by rw [b1]; rfl
          rw [hL]
          refine mapM_ok _ _ (fun l => curveAt s.1 (l :: q)) fun l hl => ?_
          have := b3 (l :: q) (List.Forall₂.cons (List.mem_range.1 hl) hq)
          simp only [List.headD_cons, List.tail_cons] at this
          rw [this]
          rfl
        simp only [a3 q hq, hmap]
        rfl

/-- `normalize_multi` without a mask.  Partial as C119: a single background or variance whose first axis has length two is left
out, and so are data without any wave vector. -/
theorem C121_normalize_multi_partial (ops : NormOps C) (lin multi : DataAny C) (bg : Option (FrameArg (Cx ℝ)))
    (var : Option (FrameArg ℝ)) (norm : NormArg) (mode : String) (scale : Bool) (frame : List Nat) (n L m : Nat)
    (hne : 0 ∉ frame) (hL : 1 ≤ L) (hd : DataFits [] frame n lin) (hd' : DataFits [L] frame m multi)
    (hb : ∀ x, bg = some x → ArgFits frame x ∨ ArgFits [] x) (hv : ∀ x, var = some x → ArgFits frame x ∨ ArgFits [] x) :
    MultiWise frame n L m (normalizeMultiAny ops lin multi bg var norm mode scale none) fun p =>
      normalizeMulti ops (dataAt lin [] p) (levelDataAt multi L p) (bg.map (backgroundAt · p)) (var.map (varianceAt · p)) norm
        mode scale := by
  have h1 := fun z : Nat => C119_each_wave_partial ops lin bg var (some (z : Int)) mode scale none [] frame n hne hd hb hv (by simp)
  have h2 := fun z : Nat => C119_each_wave_partial ops multi bg var (some (z : Int)) mode scale none [L] frame m
    (by simp only [List.singleton_append, List.mem_cons, not_or]; exact ⟨by omega, hne⟩) hd' hb hv (by simp)
  have h3 := multiWise_of frame n L m (multiNorm (dataRow lin 0 []) norm mode) _ _ _
    (fun z l q => normalize ops (dataAt multi [l] q) (bg.map (backgroundAt · q)) (var.map (varianceAt · q)) (some (z : Int)) mode
      scale none) ⟨_, inShape_zeros frame hne⟩ h1 (fun z => by
        refine waveWise_congr (fun q hq => ?_) (h2 z)
        cases q with
        | nil => cases hq
        | cons l q => rfl)
  unfold normalizeMultiAny
  refine multiWise_congr (fun q hq => ?_) h3
  unfold normalizeMulti levelDataAt
  simp only [multiNorm_dataAt, List.mapM_map]
  rfl

/-- With a mask: the results hold the selected wave vectors, in the order of numpy, each normalised by itself with its own
background and variance.  Partial in the same way. -/
theorem C121_mask_partial (ops : NormOps C) (lin multi : DataAny C) (bg : Option (FrameArg (Cx ℝ)))
    (var : Option (FrameArg ℝ)) (norm : NormArg) (mode : String) (scale : Bool) (mask : Tensor Bool) (sel : List (List Nat))
    (n L m : Nat) (hsel : MaskOrder mask sel) (hne : sel ≠ []) (hL : 1 ≤ L) (hd : DataFits [] mask.shape n lin)
    (hd' : DataFits [L] mask.shape m multi) (hb : ∀ x, bg = some x → ArgFits mask.shape x)
    (hv : ∀ x, var = some x → ArgFits mask.shape x) :
    MultiWise [sel.length] n L m (normalizeMultiAny ops lin multi bg var norm mode scale (some mask)) fun q =>
      normalizeMulti ops (dataAt lin [] (sel.getD (q.headD 0) [])) (levelDataAt multi L (sel.getD (q.headD 0) []))
        (bg.map (backgroundAt · (sel.getD (q.headD 0) []))) (var.map (varianceAt · (sel.getD (q.headD 0) []))) norm mode
        scale := by
  have h1 := fun z : Nat => C119_mask_partial ops lin bg var (some (z : Int)) mode scale mask none [] n sel hsel (by simp) hne hd
    hb hv (by simp)
  have h2 := fun z : Nat => C119_mask_partial ops multi bg var (some (z : Int)) mode scale mask none [L] m sel hsel
    (by simp; omega) hne hd' hb hv (by simp)
  have hpos : 0 ∉ [sel.length] := by
    simp only [List.mem_singleton]
    exact fun h => hne (List.eq_nil_of_length_eq_zero h.symm)
  have h3 := multiWise_of [sel.length] n L m (multiNorm (dataRow lin 0 []) norm mode) _ _ 
    (fun z q => normalize ops (dataAt lin [] (sel.getD (q.headD 0) [])) (bg.map (backgroundAt · (sel.getD (q.headD 0) [])))
      (var.map (varianceAt · (sel.getD (q.headD 0) []))) (some (z : Int)) mode scale none)
    (fun z l q => normalize ops (dataAt multi [l] (sel.getD (q.headD 0) [])) (bg.map (backgroundAt · (sel.getD (q.headD 0) [])))
      (var.map (varianceAt · (sel.getD (q.headD 0) []))) (some (z : Int)) mode scale none) ⟨_, inShape_zeros _ hpos⟩
    (fun z => by
      refine waveWise_congr (fun q hq => ?_) (h1 z)
      cases hq with
      | cons _ h => cases h; rfl)
    (fun z => by
      refine waveWise_congr (fun q hq => ?_) (h2 z)
      cases hq with
      | cons _ h =>
        cases h with
        | cons _ h => cases h; rfl)
  unfold normalizeMultiAny
  refine multiWise_congr (fun q hq => ?_) h3
  unfold normalizeMulti levelDataAt
  simp only [multiNorm_dataAt, List.mapM_map]
  rfl

/-! ## Examples -/

-- Three by two wave vectors, linear data of two delays and two levels of two delays, a background for each wave vector.
example : 0 ∉ [3, 2] ∧ DataFits [] [3, 2] 2 (DataAny.corr (C := ℝ) ⟨[3, 2, 2], fun p => (p.sum : ℝ)⟩ ⟨[2], fun _ => 5⟩ none none none) ∧
    DataFits [2] [3, 2] 2 (DataAny.corr (C := ℝ) ⟨[2, 3, 2, 2], fun p => (p.sum : ℝ)⟩ ⟨[2, 2], fun _ => 5⟩ none none none) ∧
    ArgFits [3, 2] (FrameArg.arr ⟨[3, 2], fun p => (⟨p.sum, 0⟩ : Cx ℝ)⟩) ∧
    (levelDataAt (DataAny.corr (C := ℝ) ⟨[2, 3, 2, 2], fun p => (p.sum : ℝ)⟩ ⟨[2, 2], fun _ => 5⟩ none none none) 2 [2, 1]).length = 2 := by
  refine ⟨by decide, ⟨rfl, rfl, by simp, by simp, by simp⟩, ⟨rfl, rfl, by simp, by simp, by simp⟩, ⟨rfl, by decide⟩, rfl⟩

end Cddm
