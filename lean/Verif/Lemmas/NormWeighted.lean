import Verif.Lemmas.NormModes
import Verif.Props.Filters

/-!
# The weighted branch of `normalize`
-/

namespace Cddm
open Spec

/-! ### Affine maps and the smoothing filter -/

theorem stencil_map {M N : Type} (f : M → M → M → M) (g : N → N → N → N) (φ : M → N)
    (h : ∀ x y z, φ (f x y z) = g (φ x) (φ y) (φ z)) (a : List M) :
    stencil g (a.map φ) = (stencil f a).map φ := by
  symm
  apply ext_stencil
  · simp
  · rw [List.getElem?_map, stencil_zero, List.getElem?_map]
  · rw [List.length_map, List.getElem?_map, stencil_last, List.getElem?_map]
  · intro k hk hk'
    rw [List.length_map] at hk'
    rw [List.getElem?_map, stencil_mid f a k hk hk']
    simp [h]

theorem med3_affine (a c x y z : ℝ) :
    a * med3 x y z + c = med3 (a * x + c) (a * y + c) (a * z + c) := by
  refine isMedian_unique ?_ (med3_isMedian _ _ _)
  have h := med3_isMedian x y z
  simp only [IsMedian, two_of_three, decide_eq_true_eq, List.mem_cons, List.not_mem_nil,
    or_false] at h ⊢
  obtain ⟨h1, h2, h3⟩ := h
  refine ⟨?_, ?_, ?_⟩
  · rcases h1 with h1 | h1 | h1 <;> rw [h1] <;> simp
  · rcases le_total 0 a with ha | ha
    · have hm : ∀ u v : ℝ, u ≤ v → a * u + c ≤ a * v + c := fun u v huv => by nlinarith
      rcases h2 with ⟨p, q⟩ | ⟨p, q⟩ | ⟨p, q⟩ <;> simp [hm _ _ p, hm _ _ q]
    · have hm : ∀ u v : ℝ, u ≤ v → a * v + c ≤ a * u + c := fun u v huv => by nlinarith
      rcases h3 with ⟨p, q⟩ | ⟨p, q⟩ | ⟨p, q⟩ <;> simp [hm _ _ p, hm _ _ q]
  · rcases le_total 0 a with ha | ha
    · have hm : ∀ u v : ℝ, u ≤ v → a * u + c ≤ a * v + c := fun u v huv => by nlinarith
      rcases h3 with ⟨p, q⟩ | ⟨p, q⟩ | ⟨p, q⟩ <;> simp [hm _ _ p, hm _ _ q]
    · have hm : ∀ u v : ℝ, u ≤ v → a * v + c ≤ a * u + c := fun u v huv => by nlinarith
      rcases h2 with ⟨p, q⟩ | ⟨p, q⟩ | ⟨p, q⟩ <;> simp [hm _ _ p, hm _ _ q]

theorem medianInto_affine (a c : ℝ) (x : List ℝ) :
    medianInto (x.map fun u => a * u + c) (x.map fun u => a * u + c)
      = (medianInto x x).map (List.map fun u => a * u + c) := by
  by_cases hn : 2 < x.length
  · rw [medianInto_eq _ _ rfl (by simpa using hn), medianInto_eq _ _ rfl hn,
      stencil_map med3 med3 (fun u => a * u + c) (med3_affine a c)]
    rfl
  · rw [medianInto, medianInto, if_neg (by simpa using hn), if_neg hn]
    rfl

theorem convolveInto_affine {V : Type} [AddCommGroup V] [Module ℝ V] (a : ℝ) (c : V) (x : List V) :
    convolveInto ℝ (x.map fun u => a • u + c) (x.map fun u => a • u + c)
      = (convolveInto ℝ x x).map (List.map fun u => a • u + c) := by
  by_cases hn : 2 < x.length
  · rw [convolveInto_eq ℝ _ _ rfl (by simpa using hn), convolveInto_eq ℝ _ _ rfl hn,
      stencil_map (conv3 ℝ) (conv3 ℝ) (fun u => a • u + c)]
    · rfl
    · intro p q r
      simp only [conv3]
      module
  · rw [convolveInto, convolveInto, if_neg (by simpa using hn), if_neg hn]
    rfl

theorem denoise_affine (a c : ℝ) (n : Nat) (x : List ℝ) :
    denoise (x.map fun u => a * u + c) n = (denoise x n).map (List.map fun u => a * u + c) := by
  induction n generalizing x with
  | zero => rfl
  | succ n ih =>
    simp only [denoise, medianInto_affine, bind, Except.bind]
    cases medianInto x x with
    | error => rfl
    | ok y =>
      simp only [Except.map]
      have h := convolveInto_affine a c y
      simp only [smul_eq_mul] at h
      rw [h]
      cases convolveInto ℝ y y with
      | error => rfl
      | ok z => exact ih z

theorem medianCx_affine (a c : ℝ) (x : List (Cx ℝ)) :
    medianCx (x.map fun u => a • u + Cx.ofR c) (x.map fun u => a • u + Cx.ofR c)
      = (medianCx x x).map (List.map fun u => a • u + Cx.ofR c) := by
  have e1 : (x.map fun u => a • u + Cx.ofR c).map Cx.re = (x.map Cx.re).map fun u => a * u + c := by
    simp [List.map_map, Function.comp_def]
  have e2 : (x.map fun u => a • u + Cx.ofR c).map Cx.im = (x.map Cx.im).map fun u => a * u + 0 := by
    simp [List.map_map, Function.comp_def]
  simp only [medianCx, e1, e2, medianInto_affine, bind, Except.bind]
  cases medianInto (x.map Cx.re) (x.map Cx.re) with
  | error => rfl
  | ok p =>
    cases medianInto (x.map Cx.im) (x.map Cx.im) with
    | error => rfl
    | ok q =>
      simp only [Except.map, List.zipWith_map, List.map_zipWith]
      congr 2

theorem denoiseCx_affine (a c : ℝ) (n : Nat) (x : List (Cx ℝ)) :
    denoiseCx (x.map fun u => a • u + Cx.ofR c) n
      = (denoiseCx x n).map (List.map fun u => a • u + Cx.ofR c) := by
  induction n generalizing x with
  | zero => rfl
  | succ n ih =>
    simp only [denoiseCx, medianCx_affine, bind, Except.bind]
    cases medianCx x x with
    | error => rfl
    | ok y =>
      simp only [Except.map]
      rw [convolveInto_affine a (Cx.ofR c) y]
      cases convolveInto ℝ y y with
      | error => rfl
      | ok z => exact ih z

/-! ### Transport of the weighted branch along an affine map -/

section
variable {C : Type}

theorem allFinite_map (φ : C → C) (x : List (Option C)) :
    allFinite (x.map (Option.map φ)) = (allFinite x).map (List.map φ) := by
  unfold allFinite
  have h : (x.map (Option.map φ)).mapM id = (x.mapM id).map (List.map φ) := by
    induction x with
    | nil => rfl
    | cons u l ih =>
      simp only [List.map_cons, List.mapM_cons, ih]
      cases u with
      | none => rfl
      | some u =>
        cases l.mapM id <;> rfl
  rw [h]
  cases x.mapM id <;> rfl

variable [AddCommGroup C] [Module ℝ C] (ops : NormOps C) (φ : C → C)

omit [AddCommGroup C] [Module ℝ C] in
theorem weightedCurve_map (hs : ∀ x y w, ops.weightedSum (φ x) (φ y) w = φ (ops.weightedSum x y w))
    (comp base : List (Option C)) (w : List C) :
    weightedCurve ops (comp.map (Option.map φ)) (base.map (Option.map φ)) w
      = (weightedCurve ops comp base w).map (List.map (Option.map φ)) := by
  simp only [weightedCurve, List.length_map]
  split
  · simp only [Except.map, List.map_zipWith, List.zip_map_left, List.zipWith_map]
    congr 2
    funext x p
    cases x with
    | none => rfl
    | some x =>
      obtain ⟨y, w⟩ := p
      cases y with
      | none => rfl
      | some y => exact congrArg some (hs _ _ _)
  · split <;> rfl

theorem weightFromData_map (hd : ∀ x, ops.denoise (x.map φ) = (ops.denoise x).map (List.map φ))
    (mode mode' : String) (hm : mode = "corr" ∨ mode = "diff") (hm' : mode' = "corr" ∨ mode' = "diff")
    (δ δ' s s' : ℝ) (h0 : s = 0 ↔ s' = 0)
    (hw : s ≠ 0 → ∀ x, (if mode' = "corr" then ops.weightFromG ((1 / s') • φ x) δ'
        else ops.weightFromD ((1 / s') • φ x) δ')
      = if mode = "corr" then ops.weightFromG ((1 / s) • x) δ
        else ops.weightFromD ((1 / s) • x) δ) (x : List C) :
    weightFromData ops (x.map φ) δ' s' mode' = weightFromData ops x δ s mode := by
  simp only [weightFromData, if_pos hm, if_pos hm', hd, bind, Except.bind]
  cases ops.denoise x with
  | error => rfl
  | ok y =>
    simp only [Except.map]
    by_cases h : s = 0
    · rw [if_pos (h0.mp h), if_pos h]
    · rw [if_neg (fun h' => h (h0.mpr h')), if_neg h, List.map_map]
      congr 1
      apply List.map_congr_left
      intro u _
      exact hw h u

/-- The result of the weighted branch, when the curves it combines are mapped by `φ` and the
weights computed from them are the same. -/
theorem normalizeWeighted_map (hd : ∀ x, ops.denoise (x.map φ) = (ops.denoise x).map (List.map φ))
    (hs : ∀ x y w, ops.weightedSum (φ x) (φ y) w = φ (ops.weightedSum x y w))
    (data : NormData C) (bg : Option Background) (v : Variance) (norm : Nat)
    (mode mode' : String) (hm : mode = "corr" ∨ mode = "diff") (hm' : mode' = "corr" ∨ mode' = "diff")
    (scale scale' : Bool)
    (hp : ∀ z, normalizePlain ops data bg (some v) z mode' scale'
      = (normalizePlain ops data bg (some v) z mode scale).map (List.map (Option.map φ)))
    (hn : noiseDelta v scale = none ↔ noiseDelta v scale' = none)
    (h0 : (if scale then 1 else v.offset) = 0 ↔ (if scale' then 1 else v.offset) = 0)
    (hw : ∀ δ δ', noiseDelta v scale = some δ → noiseDelta v scale' = some δ' →
      (if scale then 1 else v.offset) ≠ 0 → ∀ x,
      (if mode' = "corr" then ops.weightFromG ((1 / (if scale' then 1 else v.offset)) • φ x) δ'
        else ops.weightFromD ((1 / (if scale' then 1 else v.offset)) • φ x) δ')
      = if mode = "corr" then ops.weightFromG ((1 / (if scale then 1 else v.offset)) • x) δ
        else ops.weightFromD ((1 / (if scale then 1 else v.offset)) • x) δ)
    (weight : Option (List C)) :
    normalizeWeighted ops data bg (some v) norm mode' scale' weight
      = (normalizeWeighted ops data bg (some v) norm mode scale weight).map
          fun p => (p.1.map (Option.map φ), p.2) := by
  have e : ∀ b : Bool, (if b then .ok 1 else scaleFactor (some v) : Py ℝ)
      = .ok (if b then 1 else v.offset) := by
    intro b
    cases b <;> simp [scaleFactor_some]
  simp only [normalizeWeighted, hp, e, bind, Except.bind]
  cases inspectBackground bg norm with
  | error => rfl
  | ok b =>
    dsimp only
    cases normOf data (some (((norm &&& (4 ||| 8)) ||| 2 : Nat) : Int)) with
    | error => rfl
    | ok z1 =>
      dsimp only
      cases normalizePlain ops data bg (some v) z1 mode scale with
      | error => rfl
      | ok comp =>
        dsimp only [Except.map]
        cases normOf data (some (((norm &&& (4 ||| 8)) ||| 1 : Nat) : Int)) with
        | error => rfl
        | ok z2 =>
          dsimp only
          cases normalizePlain ops data bg (some v) z2 mode scale with
          | error => rfl
          | ok base =>
            dsimp only
            cases weight with
            | some w =>
              dsimp only
              rw [weightedCurve_map ops φ hs]
              cases weightedCurve ops comp base w <;> rfl
            | none =>
              dsimp only
              cases hδ : noiseDelta v scale with
              | none => rw [hn.mp hδ]
              | some δ =>
                cases hδ' : noiseDelta v scale' with
                | none => rw [hn.mpr hδ'] at hδ; cases hδ
                | some δ' =>
                  have hW := weightFromData_map ops φ hd mode mode' hm hm' δ δ' _ _ h0
                    (hw δ δ' hδ hδ')
                  dsimp only
                  rw [allFinite_map]
                  cases allFinite base with
                  | error => rfl
                  | ok x =>
                    dsimp only [Except.map]
                    rw [hW]
                    cases weightFromData ops x δ (if scale then 1 else v.offset) mode with
                    | error => rfl
                    | ok w =>
                      dsimp only
                      rw [weightedCurve_map ops φ hs]
                      cases weightedCurve ops comp base w with
                      | error => rfl
                      | ok r =>
                        dsimp only [Except.map]
                        rw [allFinite_map]
                        cases allFinite r with
                        | error => rfl
                        | ok x =>
                          dsimp only [Except.map]
                          rw [hW]
                          cases weightFromData ops x δ (if scale then 1 else v.offset) mode with
                          | error => rfl
                          | ok w =>
                            dsimp only
                            rw [weightedCurve_map ops φ hs]
                            cases weightedCurve ops comp base w with
                            | error => rfl
                            | ok r =>
                              dsimp only [Except.map]
                              rw [allFinite_map]
                              cases allFinite r with
                              | error => rfl
                              | ok x =>
                                dsimp only [Except.map]
                                rw [hW]
                                cases weightFromData ops x δ (if scale then 1 else v.offset) mode with
                                | error => rfl
                                | ok w =>
                                  dsimp only
                                  rw [weightedCurve_map ops φ hs]
                                  cases weightedCurve ops comp base w <;> rfl

/-- The plain curves in both modes. -/
theorem normalizePlain_mode (hof : ∀ r, ops.ofReal (r * 2) = (2 : ℝ) • ops.ofReal r)
    (data : NormData C) (bg : Option Background) (v : Variance) (z : Nat) :
    normalizePlain ops data bg (some v) z "diff" false
      = (normalizePlain ops data bg (some v) z "corr" false).map
          (List.map (Option.map (toDiff ops v.offset))) := by
  simp only [normalizePlain, bind, Except.bind]
  cases inspectBackground bg z with
  | error => rfl
  | ok b =>
    cases data with
    | other => rfl
    | corr cor count sq s1 s2 =>
      simp only [normCorr_mode ops hof]
      cases normCorr ops cor count sq s1 s2 b.1 b.2 (some v) z "corr" <;> rfl
    | diff dif count s1 s2 =>
      simp only [normDiff_mode ops]
      cases normDiff ops dif count s1 s2 b.1 b.2 (some v) z "corr" <;> rfl

theorem normalizePlain_scale (data : NormData C) (bg : Option Background) (v : Variance) (z : Nat)
    (mode : String) (hv : v.offset ≠ 0) :
    normalizePlain ops data bg (some v) z mode true
      = (normalizePlain ops data bg (some v) z mode false).map
          (List.map (Option.map fun x => (1 / v.offset) • x)) := by
  have e : ∀ r : List (Option C), finishScale (some v) true r
      = .ok (r.map (Option.map fun x => (1 / v.offset) • x)) := by
    intro r
    simp only [finishScale, if_true, scaleFactor_some, bind, Except.bind]
    congr 2
    funext x
    cases x with
    | none => rfl
    | some x => simp [hv]
  simp only [normalizePlain, bind, Except.bind, e]
  cases inspectBackground bg z with
  | error => rfl
  | ok b =>
    cases data with
    | other => rfl
    | corr cor count sq s1 s2 =>
      dsimp only
      cases normCorr ops cor count sq s1 s2 b.1 b.2 (some v) z mode <;> rfl
    | diff dif count s1 s2 =>
      dsimp only
      cases normDiff ops dif count s1 s2 b.1 b.2 (some v) z mode <;> rfl

end

end Cddm
