import Verif.Lemmas.Fastmath

/-! # The expressions of C127 are those of the source: running them is running the kernel -/

namespace Cddm
open Spec

section
variable {A B : Type} (φ : A → B)

theorem foldlM_natural {ι : Type} (l : List ι) (step : List A → ι → Option (List A)) (step' : List B → ι → Option (List B))
    (h : ∀ out i, step' (out.map φ) i = (step out i).map (List.map φ)) (out : List A) :
    l.foldlM step' (out.map φ) = (l.foldlM step out).map (List.map φ) := by
  induction l generalizing out with
  | nil => rfl
  | cons a l ih =>
    rw [List.foldlM_cons, List.foldlM_cons, h]
    cases step out a with
    | none => rfl
    | some o => exact ih o

theorem forRange_natural (n : Nat) (step : List A → Nat → Option (List A)) (step' : List B → Nat → Option (List B))
    (h : ∀ out i, step' (out.map φ) i = (step out i).map (List.map φ)) (out : List A) :
    forRange n (out.map φ) step' = (forRange n out step).map (List.map φ) := foldlM_natural φ _ step step' h out

theorem forRange'_natural (a n : Nat) (step : List A → Nat → Option (List A)) (step' : List B → Nat → Option (List B))
    (h : ∀ out i, step' (out.map φ) i = (step out i).map (List.map φ)) (out : List A) :
    forRange' a n (out.map φ) step' = (forRange' a n out step).map (List.map φ) := foldlM_natural φ _ step step' h out

theorem addAt_natural [Add A] [Add B] (h : ∀ a b, φ (a + b) = φ a + φ b) (out : List A) (m : Int) (v : A) :
    addAt (out.map φ) m (φ v) = (addAt out m v).map (List.map φ) := by
  unfold addAt
  rw [List.length_map]
  cases pyIdx out.length m with
  | none => rfl
  | some k =>
    simp only [Option.bind_some, Option.map_some, Option.some.injEq]
    apply List.ext_getElem (by simp)
    intro i h1 h2
    simp only [List.getElem_modify, List.getElem_map]
    split <;> simp [h]

end

variable {rnd : ℝ → ℝ}

/-- Proof device: run an expression, as a machine number. -/
noncomputable def runFl (rnd : ℝ → ℝ) (e : Expr) : Fl rnd := ⟨e.run rnd⟩

/-- Proof device: both parts. -/
noncomputable def runCx (rnd : ℝ → ℝ) (z : Cx Expr) : Cx (Fl rnd) := ⟨runFl rnd z.re, runFl rnd z.im⟩

theorem runFl_termRe (a b : Cx Expr) : runFl rnd (termRe a b) = termRe (runCx rnd a) (runCx rnd b) := rfl

theorem crossCorr_run (x y : List (Cx Expr)) (t1 t2 : List Int) (out : List Expr) :
    crossCorr (x.map (runCx rnd)) (y.map (runCx rnd)) t1 t2 (out.map (runFl rnd)) =
      (crossCorr x y t1 t2 out).map (List.map (runFl rnd)) := by
  unfold crossCorr
  rw [List.length_map, List.length_map]
  refine forRange_natural _ _ _ _ (fun out i => forRange_natural _ _ _ _ (fun out j => ?_) out) out
  simp only [List.getElem?_map, List.length_map]
  cases t2[j]? with
  | none => rfl
  | some a =>
    cases t1[i]? with
    | none => rfl
    | some b =>
      simp only [bind, Option.bind]
      split
      · cases x[i]? with
        | none => rfl
        | some c =>
          cases y[j]? with
          | none => rfl
          | some d => exact addAt_natural (runFl rnd) (fun _ _ => rfl) out _ (termRe c d)
      · rfl

theorem crossCorrAdd_run (x y : List (Cx Expr)) (out : List Expr) (c : Nat) :
    crossCorrAdd (x.map (runCx rnd)) (y.map (runCx rnd)) (out.map (runFl rnd)) c =
      (crossCorrAdd x y out c).map (List.map (runFl rnd)) := by
  unfold crossCorrAdd
  rw [List.length_map]
  refine forRange_natural _ _ _ _ (fun out j => ?_) out
  simp only [List.getElem?_map]
  cases x[j]? with
  | none => rfl
  | some a =>
    cases y[j]? with
    | none => rfl
    | some b => exact addAt_natural (runFl rnd) (fun _ _ => rfl) out _ (termRe a b)

theorem pyTake_map (φ : Cx Expr → Cx (Fl rnd)) (x : List (Cx Expr)) (n : Int) : pyTake (x.map φ) n = (pyTake x n).map φ := by
  unfold pyTake
  simp only [List.length_map]
  split <;> simp [List.map_take]

theorem pyDrop_map (φ : Cx Expr → Cx (Fl rnd)) (x : List (Cx Expr)) (n : Nat) : pyDrop (x.map φ) n = (pyDrop x n).map φ := by
  unfold pyDrop
  simp [List.map_drop]

theorem crossCorrRegular_run (x y : List (Cx Expr)) (out : List Expr) :
    crossCorrRegular (x.map (runCx rnd)) (y.map (runCx rnd)) (out.map (runFl rnd)) =
      (crossCorrRegular x y out).map (List.map (runFl rnd)) := by
  unfold crossCorrRegular
  rw [List.length_map]
  refine forRange_natural _ _ _ _ (fun out i => ?_) out
  simp only [List.length_map, pyTake_map, pyDrop_map, crossCorrAdd_run]
  cases crossCorrAdd (pyTake x ((x.length : Int) - i)) (pyDrop y i) out i with
  | none => rfl
  | some o =>
    simp only [bind, Option.bind, Option.map_some]
    split
    · exact crossCorrAdd_run _ _ o i
    · rfl

theorem autoCorrRegular_run (x : List (Cx Expr)) (out : List Expr) :
    autoCorrRegular (x.map (runCx rnd)) (out.map (runFl rnd)) = (autoCorrRegular x out).map (List.map (runFl rnd)) := by
  unfold autoCorrRegular
  rw [List.length_map]
  refine forRange_natural _ _ _ _ (fun out i => ?_) out
  simp only [List.length_map, pyTake_map, pyDrop_map]
  exact crossCorrAdd_run _ _ out i

theorem orUB_run (x : Option (List Expr)) : orUB (x.map (List.map (runFl rnd))) = (orUB x).map (List.map (runFl rnd)) := by cases x <;> rfl

theorem defaultOut_run (aout : Option (List Expr)) (n : Nat) :
    defaultOut (aout.map (List.map (runFl rnd))) n false = (defaultOut aout n false).map (List.map (runFl rnd)) := by
  cases aout with
  | none =>
    simp only [defaultOut, Option.map_none, Bool.false_eq_true, if_false, Except.map, List.map_replicate]
    rfl
  | some o => rfl

/-- Running the expressions that `cross_correlate` returns is running `cross_correlate`. -/
theorem crossCorrelate_run (x y : List (Cx Expr)) (t1 t2 : Option (List Int)) (n : Option Nat) (aligned : Bool) (aout : Option (List Expr)) :
    crossCorrelate (x.map (runCx rnd)) (y.map (runCx rnd)) t1 t2 n aligned (aout.map (List.map (runFl rnd))) =
      (crossCorrelate x y t1 t2 n aligned aout).map (List.map (runFl rnd)) := by
  unfold crossCorrelate
  have e : (aout.map (List.map (runFl rnd))).map List.length = aout.map List.length := by cases aout <;> simp
  rw [List.length_map, List.length_map, e]
  cases inspectCross x.length y.length t1 t2 n (aout.map List.length) false with
  | error e => rfl
  | ok r =>
    obtain ⟨t, n'⟩ := r
    show (defaultOut _ n' false).bind _ = ((defaultOut _ n' false).bind _).map _
    rw [defaultOut_run]
    cases defaultOut aout n' false with
    | error e => rfl
    | ok out =>
      rcases t with _ | ⟨a, b⟩
      · cases aligned
        · exact (congrArg orUB (crossCorr_run x y _ _ out)).trans (orUB_run _)
        · exact (congrArg orUB (crossCorrRegular_run x y out)).trans (orUB_run _)
      · show (checkDims _).bind _ = ((checkDims _).bind _).map _
        cases checkDims (a.length = x.length ∧ b.length = y.length) with
        | error e => rfl
        | ok r => exact (congrArg orUB (crossCorr_run x y _ _ out)).trans (orUB_run _)

theorem autoCorr_run (x : List (Cx Expr)) (t : List Int) (out : List Expr) :
    autoCorr (x.map (runCx rnd)) t (out.map (runFl rnd)) = (autoCorr x t out).map (List.map (runFl rnd)) := by
  unfold autoCorr
  rw [List.length_map]
  refine forRange_natural _ _ _ _ (fun out i => forRange'_natural _ _ _ _ _ (fun out j => ?_) out) out
  simp only [List.getElem?_map, List.length_map]
  cases t[j]? with
  | none => rfl
  | some a =>
    cases t[i]? with
    | none => rfl
    | some b =>
      simp only [bind, Option.bind]
      split
      · cases x[i]? with
        | none => rfl
        | some c =>
          cases x[j]? with
          | none => rfl
          | some d => exact addAt_natural (runFl rnd) (fun _ _ => rfl) out _ (termRe c d)
      · rfl

/-- Running the expressions that `auto_correlate` returns is running `auto_correlate`. -/
theorem autoCorrelate_run (x : List (Cx Expr)) (t : Option (List Int)) (n : Option Nat) (aligned : Bool) (aout : Option (List Expr)) :
    autoCorrelate (x.map (runCx rnd)) t n aligned (aout.map (List.map (runFl rnd))) =
      (autoCorrelate x t n aligned aout).map (List.map (runFl rnd)) := by
  unfold autoCorrelate
  have e : (aout.map (List.map (runFl rnd))).map List.length = aout.map List.length := by cases aout <;> simp
  rw [List.length_map, e]
  cases inspectAuto x.length t n (aout.map List.length) with
  | error e => rfl
  | ok r =>
    obtain ⟨t, n'⟩ := r
    show (defaultOut _ n' false).bind _ = ((defaultOut _ n' false).bind _).map _
    rw [defaultOut_run]
    cases defaultOut aout n' false with
    | error e => rfl
    | ok out =>
      rcases t with _ | a
      · cases aligned
        · exact (congrArg orUB (autoCorr_run x _ out)).trans (orUB_run _)
        · exact (congrArg orUB (autoCorrRegular_run x out)).trans (orUB_run _)
      · show (checkDims _).bind _ = ((checkDims _).bind _).map _
        cases checkDims (a.length = x.length) with
        | error e => rfl
        | ok r => exact (congrArg orUB (autoCorr_run x _ out)).trans (orUB_run _)

end Cddm
