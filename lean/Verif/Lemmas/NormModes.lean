import Verif.Lemmas.NormGlue

/-!
# Modes, scaling, real parts and changes of the signals
-/

namespace Cddm
open Spec

/-! ### Curves -/

theorem isCurve_unique {α β α' β' M : Type} {n : Nat} {P : Nat → List (α × β)}
    {P' : Nat → List (α' × β')} {F : List (α × β) → M} {F' : List (α' × β') → M}
    {out out' : List (Option M)} (h : IsCurve n P F out) (h' : IsCurve n P' F' out')
    (h0 : ∀ k < n, P k = [] ↔ P' k = []) (hF : ∀ k < n, P k ≠ [] → F (P k) = F' (P' k)) :
    out = out' := by
  apply List.ext_getElem?
  intro k
  by_cases hk : k < n
  · by_cases e : P k = []
    · rw [(h.2 k hk).1 e, (h'.2 k hk).1 ((h0 k hk).mp e)]
    · rw [(h.2 k hk).2 e, (h'.2 k hk).2 (fun e' => e ((h0 k hk).mpr e')), hF k hk e]
  · rw [List.getElem?_eq_none (by rw [h.1]; omega), List.getElem?_eq_none (by rw [h'.1]; omega)]

/-- Every value of a curve comes from a delay with pairs. -/
theorem isCurve_mem {α β M : Type} {n : Nat} {P : Nat → List (α × β)} {F : List (α × β) → M}
    {out : List (Option M)} (h : IsCurve n P F out) {x : M} (hx : some x ∈ out) :
    ∃ k < n, P k ≠ [] ∧ x = F (P k) := by
  obtain ⟨k, hk, e⟩ := List.mem_iff_getElem.mp hx
  have hk' : k < n := by rw [← h.1]; exact hk
  have e' : out[k]? = some (some x) := by rw [List.getElem?_eq_getElem hk, e]
  refine ⟨k, hk', ?_, ?_⟩
  · intro hp
    rw [(h.2 k hk').1 hp] at e'
    simp at e'
  · by_cases hp : P k = []
    · rw [(h.2 k hk').1 hp] at e'
      simp at e'
    · rw [(h.2 k hk').2 hp] at e'
      simpa using e'.symm

theorem pairsAt_map {α β γ δ : Type} (full : Bool) (φ : α → γ) (ψ : β → δ) (s1 : Stream α)
    (s2 : Stream β) (L k : Nat) :
    pairsAt full (s1.map fun p => (p.1, φ p.2)) (s2.map fun p => (p.1, ψ p.2)) L k
      = (pairsAt full s1 s2 L k).map (Prod.map φ ψ) := by
  have e : (s1.map fun p => (p.1, φ p.2)) ×ˢ (s2.map fun p => (p.1, ψ p.2))
      = (s1 ×ˢ s2).map fun p => ((p.1.1, φ p.1.2), (p.2.1, ψ p.2.2)) := by
    simp only [SProd.sprod, List.product, List.flatMap_map, List.map_flatMap, List.map_map,
      Function.comp_def]
  unfold pairsAt
  rw [e]
  cases full <;> simp [List.filter_map, Function.comp_def, delay] <;> rfl

theorem pairsAt_stream_map {α β γ δ : Type} (full : Bool) (φ : α → γ) (ψ : β → δ) (f1 : List α)
    (f2 : List β) (t1 t2 : Option (List Int)) (L k : Nat) :
    pairsAt full (stream (f1.map φ) t1) (stream (f2.map ψ) t2) L k
      = (pairsAt full (stream f1 t1) (stream f2 t2) L k).map (Prod.map φ ψ) := by
  rw [stream_map, stream_map, pairsAt_map]

theorem selfPairsAt_map {α γ : Type} (φ : α → γ) (s : Stream α) (k : Nat) :
    selfPairsAt (s.map fun p => (p.1, φ p.2)) k = (selfPairsAt s k).map (Prod.map φ φ) := by
  unfold selfPairsAt
  rw [selfPairs_map]
  simp [List.filter_map, Function.comp_def, delay]
  rfl

theorem selfPairsAt_stream_map {α γ : Type} (φ : α → γ) (f : List α) (t : Option (List Int))
    (k : Nat) : selfPairsAt (stream (f.map φ) t) k
      = (selfPairsAt (stream f t) k).map (Prod.map φ φ) := by
  rw [stream_map, selfPairsAt_map]

theorem total_map {α β γ δ M : Type} [AddCommMonoid M] (g : γ → δ → M) (φ : α → γ) (ψ : β → δ)
    (P : List (α × β)) : total g (P.map (Prod.map φ ψ)) = total (fun a b => g (φ a) (ψ b)) P := by
  simp [total, Function.comp_def]

theorem mean_map {α β γ δ M : Type} [AddCommMonoid M] [SMul ℝ M] (g : γ → δ → M) (φ : α → γ)
    (ψ : β → δ) (P : List (α × β)) :
    mean g (P.map (Prod.map φ ψ)) = mean (fun a b => g (φ a) (ψ b)) P := by
  rw [mean, total_map, List.length_map, mean]

theorem mean_fst_add (P : List (Cx ℝ × Cx ℝ)) (h : P ≠ []) (c : Cx ℝ) :
    mean (fun a _ => a + c) P = mean (fun a _ => a) P + c := by
  have hN := len_ne h
  have e : total (fun a _ => a + c) P = total (fun a _ => a) P + (P.length : ℝ) • c := by
    clear h hN
    induction P with
    | nil => ext <;> simp
    | cons p P ih =>
      simp only [total_cons, List.length_cons]
      rw [ih]
      ext <;> simp <;> ring
  rw [mean, e, mean]
  ext <;> simp <;> field_simp

theorem mean_snd_add (P : List (Cx ℝ × Cx ℝ)) (h : P ≠ []) (c : Cx ℝ) :
    mean (fun _ b => b + c) P = mean (fun _ b => b) P + c := by
  have hN := len_ne h
  have e : total (fun _ b => b + c) P = total (fun _ b => b) P + (P.length : ℝ) • c := by
    clear h hN
    induction P with
    | nil => ext <;> simp
    | cons p P ih =>
      simp only [total_cons, List.length_cons]
      rw [ih]
      ext <;> simp <;> ring
  rw [mean, e, mean]
  ext <;> simp <;> field_simp

/-! ### Real parts -/

theorem divCount_re (x : Cx ℝ) (c : Nat) : (divCount x c).map Cx.re = divCount x.re c := by
  unfold divCount; split <;> simp

theorem corrBaselineC_re (d : Cx ℝ) (c : Nat) (b1 b2 : Cx ℝ) :
    (corrBaselineC d c b1 b2).map Cx.re = corrBaselineR d.re c b1 b2 := by
  unfold corrBaselineC corrBaselineR divCount; split <;> simp; ring

theorem structBaselineC_re (d : Cx ℝ) (c : Nat) (b1 b2 : Cx ℝ) (v q : ℝ) :
    (structBaselineC d c b1 b2 v q).map Cx.re = structBaselineR d.re c b1 b2 v q := by
  unfold structBaselineC structBaselineR divCount; split <;> simp [Cx.I]; ring

theorem corrSubtractedC_re (d : Cx ℝ) (c : Nat) (b1 b2 m1 m2 : Cx ℝ) :
    (corrSubtractedC d c b1 b2 m1 m2).map Cx.re = corrSubtractedR d.re c b1 b2 m1 m2 := by
  unfold corrSubtractedC corrSubtractedR divCount; split <;> simp; ring

theorem corrCompensatedC_re (d : Cx ℝ) (c : Nat) (m1 m2 : Cx ℝ) :
    (corrCompensatedC d c m1 m2).map Cx.re = corrCompensatedR d.re c m1 m2 := by
  unfold corrCompensatedC corrCompensatedR divCount; split <;> simp; left; ring

theorem structSubtractedC_re (d : Cx ℝ) (c : Nat) (b1 b2 : Cx ℝ) (v q : ℝ) (m1 m2 : Cx ℝ) :
    (structSubtractedC d c b1 b2 v q m1 m2).map Cx.re = structSubtractedR d.re c b1 b2 v q m1 m2 := by
  unfold structSubtractedC structSubtractedR divCount; split <;> simp [Cx.I]; ring

theorem structCompensatedC_re (d : Cx ℝ) (c : Nat) (v q : ℝ) (m1 m2 : Cx ℝ) :
    (structCompensatedC d c v q m1 m2).map Cx.re = structCompensatedR d.re c v q m1 m2 := by
  unfold structCompensatedC structCompensatedR divCount; split <;> simp [Cx.I]; ring

theorem zipWith_re {β : Type} (F : Cx ℝ → Nat → β → Option (Cx ℝ)) (G : ℝ → Nat → β → Option ℝ)
    (h : ∀ d c x, (F d c x).map Cx.re = G d.re c x) (cor : List (Cx ℝ)) (count : List Nat)
    (x : List β) :
    (List.zipWith (fun (d, c) x => F d c x) (cor.zip count) x).map (Option.map Cx.re)
      = List.zipWith (fun (d, c) x => G d c x) ((cor.map Cx.re).zip count) x := by
  rw [List.map_zipWith, List.zip_map_left, List.zipWith_map_left]
  simp only [h]
  rfl

theorem finishCorr_re (var : Option Variance) (mode : String) (r : List (Option (Cx ℝ))) :
    (finishCorr normOpsC var mode r).map (List.map (Option.map Cx.re))
      = finishCorr normOpsR var mode (r.map (Option.map Cx.re)) := by
  unfold finishCorr
  split
  · cases scaleFactor var with
    | error => rfl
    | ok s =>
      simp only [bind, Except.bind, Except.map, List.map_map]
      congr 2
      funext x
      cases x <;> simp [corr2diff, normOpsR, normOpsC]
  · rfl

theorem finishScale_re (var : Option Variance) (scale : Bool) (r : List (Option (Cx ℝ))) :
    (finishScale var scale r).map (List.map (Option.map Cx.re))
      = finishScale var scale (r.map (Option.map Cx.re)) := by
  unfold finishScale
  split
  · cases scaleFactor var with
    | error => rfl
    | ok s =>
      simp only [bind, Except.bind, Except.map, List.map_map]
      congr 2
      funext x
      cases x <;> simp
      split <;> simp
  · rfl

theorem normCorr_re (cor : List (Cx ℝ)) (count : List Nat) (sq : Option (List ℝ))
    (s1 s2 : Option (List (Cx ℝ))) (b1 b2 : Cx ℝ) (var : Option Variance) (z : Nat)
    (mode : String) :
    (normCorr normOpsC cor count sq s1 s2 b1 b2 var z mode).map (List.map (Option.map Cx.re))
      = normCorr normOpsR (cor.map Cx.re) count sq s1 s2 b1 b2 var z mode := by
  unfold normCorr
  simp only [List.length_map]
  cases needArray (some count) cor.length with
  | error => rfl
  | ok count =>
    simp only [bind, Except.bind]
    generalize (if s2.isSome then s2 else s1) = s2
    split
    · rw [finishCorr_re]
      congr 1
      rw [List.zip_map_left, List.map_map, List.map_map]
      congr 1
      funext p
      exact corrBaselineC_re _ _ _ _
    split
    · cases scaleFactor var with
      | error => rfl
      | ok s =>
        dsimp only
        cases needArray sq cor.length with
        | error => rfl
        | ok q =>
          dsimp only
          rw [finishCorr_re]
          congr 1
          exact zipWith_re (fun d c x => structBaselineC d c b1 b2 s x)
            (fun d c x => structBaselineR d c b1 b2 s x) (fun d c x => structBaselineC_re d c b1 b2 s x) _ _ _
    split
    · cases needArray s1 cor.length with
      | error => rfl
      | ok m1 =>
        dsimp only
        cases needArray s2 cor.length with
        | error => rfl
        | ok m2 =>
          dsimp only
          rw [finishCorr_re]
          congr 1
          exact zipWith_re (fun d c (x : Cx ℝ × Cx ℝ) => corrSubtractedC d c b1 b2 x.1 x.2)
            (fun d c (x : Cx ℝ × Cx ℝ) => corrSubtractedR d c b1 b2 x.1 x.2)
            (fun d c x => corrSubtractedC_re d c b1 b2 x.1 x.2) _ _ _
    split
    · cases needArray s1 cor.length with
      | error => rfl
      | ok m1 =>
        dsimp only
        cases needArray s2 cor.length with
        | error => rfl
        | ok m2 =>
          dsimp only
          rw [finishCorr_re]
          congr 1
          exact zipWith_re (fun d c (x : Cx ℝ × Cx ℝ) => corrCompensatedC d c x.1 x.2)
            (fun d c (x : Cx ℝ × Cx ℝ) => corrCompensatedR d c x.1 x.2)
            (fun d c x => corrCompensatedC_re d c x.1 x.2) _ _ _
    split
    · cases scaleFactor var with
      | error => rfl
      | ok s =>
        dsimp only
        cases needArray s1 cor.length with
        | error => rfl
        | ok m1 =>
          dsimp only
          cases needArray s2 cor.length with
          | error => rfl
          | ok m2 =>
            dsimp only
            cases needArray sq cor.length with
            | error => rfl
            | ok q =>
              dsimp only
              rw [finishCorr_re]
              congr 1
              exact zipWith_re (fun d c (x : ℝ × Cx ℝ × Cx ℝ) => structSubtractedC d c b1 b2 s x.1 x.2.1 x.2.2)
                (fun d c (x : ℝ × Cx ℝ × Cx ℝ) => structSubtractedR d c b1 b2 s x.1 x.2.1 x.2.2)
                (fun d c x => structSubtractedC_re d c b1 b2 s x.1 x.2.1 x.2.2) _ _ _
    split
    · cases scaleFactor var with
      | error => rfl
      | ok s =>
        dsimp only
        cases needArray s1 cor.length with
        | error => rfl
        | ok m1 =>
          dsimp only
          cases needArray s2 cor.length with
          | error => rfl
          | ok m2 =>
            dsimp only
            cases needArray sq cor.length with
            | error => rfl
            | ok q =>
              dsimp only
              rw [finishCorr_re]
              congr 1
              exact zipWith_re (fun d c (x : ℝ × Cx ℝ × Cx ℝ) => structCompensatedC d c s x.1 x.2.1 x.2.2)
                (fun d c (x : ℝ × Cx ℝ × Cx ℝ) => structCompensatedR d c s x.1 x.2.1 x.2.2)
                (fun d c x => structCompensatedC_re d c s x.1 x.2.1 x.2.2) _ _ _
    · rfl

/-- Is the number of a weighted norm (as an answer of `normOf`)? -/
theorem plain_of {C : Type} (data : NormData C) (z : Int)
    (hz : z ≠ 3 ∧ z ≠ 7 ∧ z ≠ 11 ∧ z ≠ 15) (x : Nat) (h : normOf data (some z) = .ok x) :
    ¬ x &&& 3 = 3 := by
  have key : x = z.toNat ∧ z ∈ allNorms.map Int.ofNat := by
    cases data with
    | corr cor count sq s1 s2 =>
      simp only [normOf, normFromCcorrData] at h
      split at h
      · simp at h
      · next hm =>
        split at h
        · exact ⟨(Except.ok.inj h).symm, not_not.mp hm⟩
        · simp at h
    | diff dif count s1 s2 =>
      simp only [normOf, normFromCdiffData] at h
      split at h
      · simp at h
      · next hm =>
        generalize (if s1.isSome = false ∨ s2.isSome = false then 2 else (2 ||| 4)) = d at h
        split at h
        · refine ⟨(Except.ok.inj h).symm, ?_⟩
          have := not_not.mp hm
          simp [allNorms] at this ⊢
          omega
        · simp at h
    | other => simp [normOf] at h
  obtain ⟨rfl, hm⟩ := key
  simp [allNorms] at hm
  obtain ⟨h1, h2, h3, h4⟩ := hz
  rcases hm with h | h | h | h | h | h | h | h | h | h | h | h <;> subst h <;>
    first | decide | (exfalso; first | exact h1 rfl | exact h2 rfl | exact h3 rfl | exact h4 rfl)

/-! ### Modes and scaling -/

section modes
variable {C : Type} [AddCommGroup C] [Module ℝ C] (ops : NormOps C)

/-- Correlation to difference. -/
noncomputable def toDiff (offset : ℝ) (x : C) : C := (2 : ℝ) • (ops.ofReal offset - x)

theorem corr2diff_eq (hof : ∀ r, ops.ofReal (r * 2) = (2 : ℝ) • ops.ofReal r) (o : ℝ) (x : C) :
    corr2diff ops o x = toDiff ops o x := by
  rw [corr2diff, hof, toDiff]; module

theorem toDiff_diff2corr (o : ℝ) (x : C) : toDiff ops o (diff2corr ops o x) = x := by
  rw [diff2corr, toDiff]; module

theorem diff2corr_toDiff (o : ℝ) (x : C) : diff2corr ops o (toDiff ops o x) = x := by
  rw [diff2corr, toDiff]; module

theorem finishCorr_mode (hof : ∀ r, ops.ofReal (r * 2) = (2 : ℝ) • ops.ofReal r) (v : Variance)
    (r : List (Option C)) :
    finishCorr ops (some v) "diff" r
      = (finishCorr ops (some v) "corr" r).map (List.map (Option.map (toDiff ops v.offset))) := by
  simp only [finishCorr, if_true, scaleFactor_some, bind, Except.bind,
    show ¬ "corr" = "diff" by decide, if_false, Except.map]
  congr 3
  funext x
  exact corr2diff_eq ops hof _ x

theorem finishDiff_mode (v : Variance) (r : List (Option C)) :
    finishDiff ops (some v) "diff" r
      = (finishDiff ops (some v) "corr" r).map (List.map (Option.map (toDiff ops v.offset))) := by
  simp only [finishDiff, if_true, scaleFactor_some, bind, Except.bind,
    show ¬ "diff" = "corr" by decide, if_false, Except.map, List.map_map]
  congr 1
  rw [List.map_congr_left (g := id), List.map_id]
  intro x _
  cases x <;> simp [toDiff_diff2corr]

theorem normCorr_mode (hof : ∀ r, ops.ofReal (r * 2) = (2 : ℝ) • ops.ofReal r) (v : Variance)
    (cor : List C) (count : List Nat) (sq : Option (List ℝ))
    (s1 s2 : Option (List (Cx ℝ))) (b1 b2 : Cx ℝ) (z : Nat) :
    normCorr ops cor count sq s1 s2 b1 b2 (some v) z "diff"
      = (normCorr ops cor count sq s1 s2 b1 b2 (some v) z "corr").map
          (List.map (Option.map (toDiff ops v.offset))) := by
  unfold normCorr
  simp only [scaleFactor_some, finishCorr_mode ops hof, bind, Except.bind]
  generalize (if s2.isSome then s2 else s1) = s2
  cases needArray (some count) cor.length with
  | error => rfl
  | ok count =>
    dsimp only
    cases needArray sq cor.length <;> cases needArray s1 cor.length <;>
      cases needArray s2 cor.length <;> dsimp only <;> (repeat' split) <;> rfl

theorem normDiff_mode (v : Variance) (dif : List C) (count : List Nat)
    (s1 s2 : Option (List (Cx ℝ))) (b1 b2 : Cx ℝ) (z : Nat) :
    normDiff ops dif count s1 s2 b1 b2 (some v) z "diff"
      = (normDiff ops dif count s1 s2 b1 b2 (some v) z "corr").map
          (List.map (Option.map (toDiff ops v.offset))) := by
  unfold normDiff
  simp only [finishDiff_mode ops, bind, Except.bind]
  cases needArray (some count) dif.length with
  | error => rfl
  | ok count =>
    dsimp only
    cases needArray s1 dif.length <;> cases needArray s2 dif.length <;>
      cases needLoop ops.cdiff1 <;> cases needLoop ops.cdiff3 <;> dsimp only <;>
      (repeat' split) <;> rfl

/-- `normalize` with a norm which is not weighted. -/
theorem normalize_plain (data : NormData C) (bg : Option Background) (var : Option Variance)
    (z : Int) (hz : z ≠ 3 ∧ z ≠ 7 ∧ z ≠ 11 ∧ z ≠ 15) (mode : String) (scale : Bool)
    (w : Option (List C)) :
    normalize ops data bg var (some z) mode scale w = (do
      let _ ← inspectMode mode
      let x ← normOf data (some z)
      let _ ← (if scale then (scaleFactor var).map some else .ok none)
      let r ← normalizePlain ops data bg var x mode scale
      .ok (r, w)) := by
  unfold normalize
  by_cases hm : mode = "corr" ∨ mode = "diff"
  · simp only [inspectMode, if_pos hm, bind, Except.bind]
    cases h : normOf data (some z) with
    | error => rfl
    | ok x =>
      dsimp only
      rw [if_neg (plain_of data z hz x h)]
  · simp only [inspectMode, if_neg hm, bind, Except.bind]

theorem normalize_mode (hof : ∀ r, ops.ofReal (r * 2) = (2 : ℝ) • ops.ofReal r)
    (data : NormData C) (bg : Option Background) (v : Variance) (z : Int)
    (hz : z ≠ 3 ∧ z ≠ 7 ∧ z ≠ 11 ∧ z ≠ 15) (w : Option (List C)) :
    normalize ops data bg (some v) (some z) "diff" false w
      = (normalize ops data bg (some v) (some z) "corr" false w).map
          fun p => (p.1.map (Option.map (toDiff ops v.offset)), p.2) := by
  rw [normalize_plain ops _ _ _ _ hz, normalize_plain ops _ _ _ _ hz]
  have e1 : inspectMode "diff" = .ok "diff" := by decide
  have e2 : inspectMode "corr" = .ok "corr" := by decide
  simp only [e1, e2, bind, Except.bind]
  cases normOf data (some z) with
  | error => rfl
  | ok x =>
    simp only [normalizePlain, bind, Except.bind]
    cases inspectBackground bg x with
    | error => rfl
    | ok b =>
      cases data with
      | other => rfl
      | corr cor count sq s1 s2 =>
        simp only [normCorr_mode ops hof]
        cases normCorr ops cor count sq s1 s2 b.1 b.2 (some v) x "corr" <;> rfl
      | diff dif count s1 s2 =>
        simp only [normDiff_mode ops]
        cases normDiff ops dif count s1 s2 b.1 b.2 (some v) x "corr" <;> rfl

/-- Division by the scale factor. -/
noncomputable def scaleBy (o : ℝ) (x : Option C) : Option C :=
  x.bind fun x => if o = 0 then none else some ((1 / o) • x)

theorem normalize_scale (data : NormData C) (bg : Option Background) (v : Variance) (z : Int)
    (hz : z ≠ 3 ∧ z ≠ 7 ∧ z ≠ 11 ∧ z ≠ 15) (mode : String) (w : Option (List C)) :
    normalize ops data bg (some v) (some z) mode true w
      = (normalize ops data bg (some v) (some z) mode false w).map
          fun p => (p.1.map (scaleBy v.offset), p.2) := by
  rw [normalize_plain ops _ _ _ _ hz, normalize_plain ops _ _ _ _ hz]
  simp only [bind, Except.bind, scaleFactor_some]
  cases inspectMode mode with
  | error => rfl
  | ok m =>
    cases normOf data (some z) with
    | error => rfl
    | ok x =>
      simp only [normalizePlain, bind, Except.bind]
      cases inspectBackground bg x with
      | error => rfl
      | ok b =>
        cases data with
        | other => rfl
        | corr cor count sq s1 s2 =>
          dsimp only [Except.map]
          cases normCorr ops cor count sq s1 s2 b.1 b.2 (some v) x mode with
          | error => rfl
          | ok r =>
            simp only [finishScale, if_true, scaleFactor_some, bind, Except.bind]
            rfl
        | diff dif count s1 s2 =>
          dsimp only [Except.map]
          cases normDiff ops dif count s1 s2 b.1 b.2 (some v) x mode with
          | error => rfl
          | ok r =>
            simp only [finishScale, if_true, scaleFactor_some, bind, Except.bind]
            rfl

theorem normalize_badMode (data : NormData C) (bg : Option Background) (var : Option Variance)
    (z : Option Int) (mode : String) (hm : mode ≠ "corr" ∧ mode ≠ "diff") (scale : Bool)
    (w : Option (List C)) :
    normalize ops data bg var z mode scale w = .error .valueError := by
  unfold normalize
  simp only [inspectMode, if_neg (show ¬ (mode = "corr" ∨ mode = "diff") by tauto), bind,
    Except.bind]

/-- Two data tuples whose normalised correlations agree agree in all modes. -/
theorem normalize_agree (hof : ∀ r, ops.ofReal (r * 2) = (2 : ℝ) • ops.ofReal r)
    (D D' : NormData C) (bg : Option Background) (v : Variance) (z : Int)
    (hz : z ≠ 3 ∧ z ≠ 7 ∧ z ≠ 11 ∧ z ≠ 15) (w : Option (List C))
    (h : normalize ops D bg (some v) (some z) "corr" false w
      = normalize ops D' bg (some v) (some z) "corr" false w) (mode : String) (scale : Bool) :
    normalize ops D bg (some v) (some z) mode scale w
      = normalize ops D' bg (some v) (some z) mode scale w := by
  have key : normalize ops D bg (some v) (some z) mode false w
      = normalize ops D' bg (some v) (some z) mode false w := by
    by_cases h1 : mode = "corr"
    · rw [h1, h]
    · by_cases h2 : mode = "diff"
      · rw [h2, normalize_mode ops hof _ _ _ _ hz, normalize_mode ops hof _ _ _ _ hz, h]
      · rw [normalize_badMode ops _ _ _ _ _ ⟨h1, h2⟩, normalize_badMode ops _ _ _ _ _ ⟨h1, h2⟩]
  cases scale
  · exact key
  · rw [normalize_scale ops _ _ _ _ hz, normalize_scale ops _ _ _ _ hz, key]

end modes

theorem ofReal_R (r : ℝ) : normOpsR.ofReal (r * 2) = (2 : ℝ) • normOpsR.ofReal r := by
  simp [normOpsR, mul_comm]

theorem ofReal_C (r : ℝ) : normOpsC.ofReal (r * 2) = (2 : ℝ) • normOpsC.ofReal r := by
  ext <;> simp [normOpsC, mul_comm]

theorem normalize_re (cor : List (Cx ℝ)) (count : List Nat) (sq : Option (List ℝ))
    (s1 s2 : Option (List (Cx ℝ))) (bg : Option Background) (var : Option Variance) (z : Int)
    (hz : z ≠ 3 ∧ z ≠ 7 ∧ z ≠ 11 ∧ z ≠ 15) (mode : String) (scale : Bool)
    (w : Option (List (Cx ℝ))) (w' : Option (List ℝ)) :
    (normalize normOpsC (.corr cor count sq s1 s2) bg var (some z) mode scale w).map
        (fun p => p.1.map (Option.map Cx.re))
      = (normalize normOpsR (.corr (cor.map Cx.re) count sq s1 s2) bg var (some z) mode scale
          w').map Prod.fst := by
  rw [normalize_plain _ _ _ _ _ hz, normalize_plain _ _ _ _ _ hz]
  have e : normOf (.corr (cor.map Cx.re) count sq s1 s2) (some z)
    = normOf (.corr cor count sq s1 s2) (some z) := rfl
  rw [e]
  simp only [bind, Except.bind]
  cases inspectMode mode with
  | error => rfl
  | ok m =>
    cases normOf (.corr cor count sq s1 s2) (some z) with
    | error => rfl
    | ok x =>
      dsimp only
      generalize (if scale = true then Except.map some (scaleFactor var) else .ok none
        : Py (Option ℝ)) = g
      cases g with
      | error => rfl
      | ok g =>
        simp only [normalizePlain, bind, Except.bind]
        cases inspectBackground bg x with
        | error => rfl
        | ok b =>
          dsimp only
          rw [← normCorr_re]
          cases normCorr normOpsC cor count sq s1 s2 b.1 b.2 var x mode with
          | error => rfl
          | ok r =>
            simp only [Except.map]
            rw [← finishScale_re]
            cases finishScale var scale r <;> rfl

/-- What reaches `normalize` from `ccorr` with method 'diff'. -/
theorem ccorrNormalized_diff_eq (f1 f2 : List (Cx ℝ)) (t1 t2 : Option (List Int)) (n : Option Nat)
    (norm : Option Int) (aligned : Bool) (n' : Nat)
    (call : CrossCall false f1.length f2.length t1 t2 n norm (some "diff") n') :
    ∃ s1 s2, (∀ bg var z mode scale,
      ccorrNormalized f1 f2 t1 t2 n norm (some "diff") aligned bg var z mode scale
        = (normalize normOpsR (.diff
          ((List.range n').map fun k =>
            total dist2 (pairsAt false (stream f1 t1) (stream f2 t2) n' k))
          ((List.range n').map fun k => (pairsAt false (stream f1 t1) (stream f2 t2) n' k).length)
          s1 s2) (some bg) var (some z) mode scale none).map Prod.fst) ∧
      (AskSums norm (some "diff") n true → s1 = some ((List.range n').map fun k =>
          total (fun a _ => a) (pairsAt false (stream f1 t1) (stream f2 t2) n' k)) ∧
        s2 = some ((List.range n').map fun k =>
          total (fun _ b => b) (pairsAt false (stream f1 t1) (stream f2 t2) n' k))) := by
  obtain ⟨r, hr, h1, h2, -, -, h5, -⟩ := ccorr_pairs f1 f2 t1 t2 n norm (some "diff") aligned _ _
    n' rfl rfl call.number call.accepted call.manageable
  refine ⟨r.ds1, r.ds2, ?_, h5⟩
  intro bg var z mode scale
  have hd : effMethod (some "diff") n = "diff" := rfl
  rw [hd] at h1
  rw [ccorrNormalized, hr]
  simp only [bind, Except.bind, CorrTuple.toData, hd, if_true, h1, h2]
  rfl

/-- What reaches `normalize` from `acorr` with method 'diff'. -/
theorem acorrNormalized_diff_eq (f : List (Cx ℝ)) (t : Option (List Int)) (n : Option Nat)
    (norm : Option Int) (aligned : Bool) (n' : Nat)
    (call : AutoCall f.length t n norm (some "diff") n') (bg : Background)
    (var : Option Variance) (z : Int) (mode : String) (scale : Bool) :
    acorrNormalized f t n norm (some "diff") aligned bg var z mode scale
        = (normalize normOpsR (.diff
          ((List.range n').map fun k => total dist2 (selfPairsAt (stream f t) k))
          ((List.range n').map fun k => (selfPairsAt (stream f t) k).length)
          none none) (some bg) var (some z) mode scale none).map Prod.fst := by
  obtain ⟨r, hr, h1, h2, -, -, -, h6, h7⟩ := acorr_pairs f t n norm (some "diff") aligned _ _ n'
    rfl rfl call.number call.accepted call.distinct call.manageable
  have hd : effMethod (some "diff") n = "diff" := rfl
  rw [hd] at h1 h6
  rw [acorrNormalized, hr]
  simp only [bind, Except.bind, CorrTuple.toData, hd, if_true, h1, h2, h6 (by simp), h7]
  rfl

theorem diff2corr_R (o x : ℝ) : diff2corr normOpsR o x = o - (1 / 2) * x := by
  simp [diff2corr, normOpsR]; ring

theorem total_half_dot (P : List (Cx ℝ × Cx ℝ)) (b : Cx ℝ) :
    dot b (total (fun a b => (1 / 2 : ℝ) • (a + b)) P)
        + dot b (total (fun a b => (1 / 2 : ℝ) • (a + b)) P)
      = dot b (total (fun _ b => b) P) + dot b (total (fun a _ => a) P) := by
  rw [total_half]
  simp [dot]
  ring

end Cddm
