import Verif.Spec.NormAny
import Verif.Lemmas.AnyAxis

/-! # Lemmas about `normalize` on arrays -/

namespace Cddm
open Spec
variable {C : Type}

/-! ### Lengths of the curves -/

/-- If there is a result, it satisfies `P`. -/
def Yields {α : Type} (P : α → Prop) (x : Py α) : Prop := ∀ a, x = .ok a → P a

theorem yields_ok {α : Type} {P : α → Prop} {a : α} (h : P a) : Yields P (.ok a) := by
  intro b hb; cases hb; exact h

theorem yields_error {α : Type} {P : α → Prop} {e : PyErr} : Yields P (.error e : Py α) := by
  intro b hb; cases hb

theorem yields_bind {α β : Type} {P : β → Prop} {x : Py α} {k : α → Py β} (Q : α → Prop) (hx : Yields Q x)
    (h : ∀ a, Q a → Yields P (k a)) : Yields P (x >>= k) := by
  intro b hb
  cases x with
  | error e => cases hb
  | ok a => exact h a (hx a rfl) b hb

theorem yields_any {α : Type} (x : Py α) : Yields (fun _ => True) x := fun _ _ => trivial

theorem yields_ite {α : Type} {P : α → Prop} {c : Prop} [Decidable c] {x y : Py α} (hx : Yields P x) (hy : Yields P y) :
    Yields P (if c then x else y) := by
  by_cases h : c
  · rw [if_pos h]; exact hx
  · rw [if_neg h]; exact hy

theorem yields_needArray {α : Type} (x : Option (List α)) (n : Nat) : Yields (fun y => y.length = n) (needArray x n) := by
  cases x with
  | none => exact yields_error
  | some x =>
    unfold needArray
    by_cases h : x.length = n
    · simp only [h, if_true]; exact yields_ok h
    · simp only [h, if_false]; exact yields_error

section
variable [AddCommGroup C] [Module ℝ C]

theorem yields_finishCorr (ops : NormOps C) (v : Option Variance) (mode : String) {r : List (Option C)} {n : Nat}
    (h : r.length = n) : Yields (fun x => x.length = n) (finishCorr ops v mode r) := by
  unfold finishCorr
  exact yields_ite (yields_bind _ (yields_any _) fun a _ => yields_ok (by simpa using h)) (yields_ok h)

theorem yields_finishDiff (ops : NormOps C) (v : Option Variance) (mode : String) {r : List (Option C)} {n : Nat}
    (h : r.length = n) : Yields (fun x => x.length = n) (finishDiff ops v mode r) := by
  unfold finishDiff
  exact yields_ite (yields_bind _ (yields_any _) fun a _ => yields_ok (by simpa using h)) (yields_ok h)

theorem yields_finishScale (v : Option Variance) (scale : Bool) {r : List (Option C)} {n : Nat}
    (h : r.length = n) : Yields (fun x => x.length = n) (finishScale v scale r) := by
  unfold finishScale
  exact yields_ite (yields_bind _ (yields_any _) fun a _ => yields_ok (by simpa using h)) (yields_ok h)

theorem yields_normCorr (ops : NormOps C) (cor : List C) (count : List Nat) (sq : Option (List ℝ)) (s1 s2 : Option (List (Cx ℝ)))
    (bg1 bg2 : Cx ℝ) (v : Option Variance) (norm : Nat) (mode : String) :
    Yields (fun x => x.length = cor.length) (normCorr ops cor count sq s1 s2 bg1 bg2 v norm mode) := by
  unfold normCorr
  refine yields_bind _ (yields_needArray _ _) fun count hc => ?_
  refine yields_ite (yields_finishCorr _ _ _ (by simp [hc])) ?_
  refine yields_ite (yields_bind _ (yields_any _) fun _ _ => yields_bind _ (yields_needArray _ _) fun sq hsq =>
    yields_finishCorr _ _ _ (by simp [hc, hsq])) ?_
  refine yields_ite (yields_bind _ (yields_needArray _ _) fun m1 h1 => yields_bind _ (yields_needArray _ _) fun m2 h2 =>
    yields_finishCorr _ _ _ (by simp [hc, h1, h2])) ?_
  refine yields_ite (yields_bind _ (yields_needArray _ _) fun m1 h1 => yields_bind _ (yields_needArray _ _) fun m2 h2 =>
    yields_finishCorr _ _ _ (by simp [hc, h1, h2])) ?_
  refine yields_ite (yields_bind _ (yields_any _) fun _ _ => yields_bind _ (yields_needArray _ _) fun m1 h1 =>
    yields_bind _ (yields_needArray _ _) fun m2 h2 => yields_bind _ (yields_needArray _ _) fun sq hsq =>
    yields_finishCorr _ _ _ (by simp [hc, h1, h2, hsq])) ?_
  exact yields_ite (yields_bind _ (yields_any _) fun _ _ => yields_bind _ (yields_needArray _ _) fun m1 h1 =>
    yields_bind _ (yields_needArray _ _) fun m2 h2 => yields_bind _ (yields_needArray _ _) fun sq hsq =>
    yields_finishCorr _ _ _ (by simp [hc, h1, h2, hsq])) yields_error

theorem yields_normDiff (ops : NormOps C) (dif : List C) (count : List Nat) (s1 s2 : Option (List (Cx ℝ)))
    (bg1 bg2 : Cx ℝ) (v : Option Variance) (norm : Nat) (mode : String) :
    Yields (fun x => x.length = dif.length) (normDiff ops dif count s1 s2 bg1 bg2 v norm mode) := by
  unfold normDiff
  refine yields_bind _ (yields_needArray _ _) fun count hc => ?_
  refine yields_ite (yields_bind _ (yields_any _) fun f _ => yields_finishDiff _ _ _ (by simp [hc])) ?_
  exact yields_ite (yields_bind _ (yields_needArray _ _) fun m1 h1 => yields_bind _ (yields_needArray _ _) fun m2 h2 =>
    yields_bind _ (yields_any _) fun f _ => yields_finishDiff _ _ _ (by simp [hc, h1, h2])) yields_error

/-- The first entry has length `n`. -/
def FirstLen (n : Nat) (data : NormData C) : Prop :=
  match data with
  | .corr cor _ _ _ _ => cor.length = n
  | .diff dif _ _ _ => dif.length = n
  | .other => True

theorem yields_plain (ops : NormOps C) (data : NormData C) {n : Nat} (h : FirstLen n data) (bg : Option Background)
    (v : Option Variance) (norm : Nat) (mode : String) (scale : Bool) :
    Yields (fun x => x.length = n) (normalizePlain ops data bg v norm mode scale) := by
  unfold normalizePlain
  refine yields_bind _ (yields_any _) fun b _ => ?_
  cases data with
  | corr cor count sq s1 s2 =>
    simp only [FirstLen] at h
    refine yields_bind _ (yields_normCorr _ _ _ _ _ _ _ _ _ _ _) fun r hr => yields_finishScale _ _ (hr.trans h)
  | diff dif count s1 s2 =>
    simp only [FirstLen] at h
    refine yields_bind _ (yields_normDiff _ _ _ _ _ _ _ _ _ _) fun r hr => yields_finishScale _ _ (hr.trans h)
  | other => exact yields_error

theorem yields_weightedCurve (ops : NormOps C) (comp base : List (Option C)) (w : List C) :
    Yields (fun x => x.length = comp.length ∧ w.length = comp.length) (weightedCurve ops comp base w) := by
  unfold weightedCurve
  by_cases h : comp.length = w.length ∧ base.length = w.length
  · rw [if_pos h]
    exact yields_ok ⟨by simp [h.1, h.2], h.1.symm⟩
  · rw [if_neg h]
    exact yields_ite yields_error yields_error

theorem yields_weighted (ops : NormOps C) (data : NormData C) {n : Nat} (h : FirstLen n data) (bg : Option Background)
    (v : Option Variance) (norm : Nat) (mode : String) (scale : Bool) (weight : Option (List C)) :
    Yields (fun x => x.1.length = n ∧ x.2.length = n) (normalizeWeighted ops data bg v norm mode scale weight) := by
  unfold normalizeWeighted
  refine yields_bind _ (yields_any _) fun _ _ => yields_bind _ (yields_any _) fun _ _ =>
    yields_bind _ (yields_plain ops data h _ _ _ _ _) fun comp hc => yields_bind _ (yields_any _) fun _ _ =>
    yields_bind _ (yields_any _) fun base _ => yields_bind _ (yields_any _) fun s _ => ?_
  cases weight with
  | some w =>
    exact yields_bind _ (yields_weightedCurve _ _ _ _) fun r hr => yields_ok ⟨hr.1.trans hc, hr.2.trans hc⟩
  | none =>
    cases v with
    | none => exact yields_error
    | some v =>
      show Yields _ (match noiseDelta v scale with
        | none => _
        | some delta => _)
      cases noiseDelta v scale with
      | none => exact yields_error
      | some delta =>
        exact yields_bind _ (yields_any _) fun _ _ => yields_bind _ (yields_any _) fun _ _ =>
          yields_bind _ (yields_any _) fun _ _ => yields_bind _ (yields_any _) fun _ _ =>
          yields_bind _ (yields_any _) fun _ _ => yields_bind _ (yields_any _) fun _ _ =>
          yields_bind _ (yields_any _) fun _ _ => yields_bind _ (yields_any _) fun _ _ =>
          yields_bind _ (yields_weightedCurve _ _ _ _) fun r hr => yields_ok ⟨hr.1.trans hc, hr.2.trans hc⟩

/-- Whether `normalize` returns a weight. -/
def givesWeight (data : NormData C) (norm : Option Int) (given : Bool) : Bool :=
  match normOf data norm with
  | .ok v => (v &&& 3 == 3) || given
  | .error _ => false

theorem yields_normalize (ops : NormOps C) (data : NormData C) {n : Nat} (h : FirstLen n data) (bg : Option Background)
    (v : Option Variance) (norm : Option Int) (mode : String) (scale : Bool) (weight : Option (List C))
    (hw : ∀ w, weight = some w → w.length = n) :
    Yields (fun x => x.1.length = n ∧ x.2.isSome = givesWeight data norm weight.isSome ∧ ∀ w, x.2 = some w → w.length = n)
      (normalize ops data bg v norm mode scale weight) := by
  unfold normalize
  refine yields_bind _ (yields_any _) fun m _ => yields_bind (fun z => normOf data norm = .ok z) (fun a ha => ha) fun z hz =>
    yields_bind _ (yields_any _) fun _ _ => ?_
  by_cases h3 : z &&& 3 = 3
  · rw [if_pos h3]
    refine yields_bind _ (yields_weighted ops data h _ _ _ _ _ _) fun r hr => yields_ok ⟨hr.1, ?_, ?_⟩
    · simp [givesWeight, hz, h3]
    · rintro w e; cases e; exact hr.2
  · rw [if_neg h3]
    refine yields_bind _ (yields_plain ops data h _ _ _ _ _) fun r hr => yields_ok ⟨hr, ?_, hw⟩
    simp [givesWeight, hz, h3]

end

/-! ### All positions -/

theorem forM_unit {α β : Type} (F : α → Py β) (l : List α) :
    ((l.forM fun o => do
        let _ ← F o
        pure ()) = (.ok () : Py Unit) ∧ ∀ o ∈ l, ∃ a, F o = .ok a) ∨
    ∃ e, (l.forM fun o => do
        let _ ← F o
        pure ()) = (.error e : Py Unit) ∧ ∃ o ∈ l, F o = .error e := by
  induction l with
  | nil => exact .inl ⟨rfl, by simp⟩
  | cons o l ih =>
    cases ho : F o with
    | error e =>
      refine .inr ⟨e, ?_, o, by simp, ho⟩
      show (F o >>= fun _ => pure ()) >>= _ = _
      rw [ho]; rfl
    | ok a =>
      rcases ih with ⟨h1, h2⟩ | ⟨e, h1, o', h2, h3⟩
      · refine .inl ⟨?_, ?_⟩
        · show (F o >>= fun _ => pure ()) >>= _ = _
          rw [ho]; exact h1
        · intro o' h'
          rcases List.mem_cons.1 h' with rfl | h'
          · exact ⟨a, ho⟩
          · exact h2 _ h'
      · refine .inr ⟨e, ?_, o', List.mem_cons_of_mem _ h2, h3⟩
        show (F o >>= fun _ => pure ()) >>= _ = _
        rw [ho]; exact h1

theorem map_getD_range' {α : Type} {l : List α} {L : Nat} (d : α) (h : l.length = L) :
    (List.range L).map (fun i => l.getD i d) = l := by
  subst h
  refine List.ext_getElem (by simp) fun i h1 h2 => ?_
  simp [h2]

theorem overWaves_ok [Zero C] (outer : List Nat) (n : Nat) (F : List Nat → Py (List (Option C) × Option (List C))) (b : Bool)
    (hne : ∃ o, InShape o outer)
    (h : ∀ o, InShape o outer → Yields (fun x => x.1.length = n ∧ x.2.isSome = b ∧ ∀ w, x.2 = some w → w.length = n) (F o)) :
    WaveWise outer n (overWaves outer n F) F := by
  rcases forM_unit F (positionsOf outer) with ⟨h1, h2⟩ | ⟨e, h1, o, h2, h3⟩
  · obtain ⟨o0, ho0⟩ := hne
    have hm := mem_positionsOf.2 ho0
    unfold overWaves
    rw [h1]
    cases hp : positionsOf outer with
    | nil => rw [hp] at hm; simp at hm
    | cons o1 l =>
      have ho1 : o1 ∈ positionsOf outer := by rw [hp]; simp
      obtain ⟨⟨r1, w1⟩, h4⟩ := h2 o1 ho1
      have h5 := (h o1 (mem_positionsOf.1 ho1) _ h4).2.1
      simp only [bind, Except.bind, h4, WaveWise]
      refine ⟨trivial, ?_, ?_⟩
      · intro x hx
        obtain ⟨_, -, rfl⟩ := Option.map_eq_some_iff.1 hx
        rfl
      · intro q hq
        obtain ⟨⟨r, w⟩, h6⟩ := h2 q (mem_positionsOf.2 hq)
        obtain ⟨h7, h8, h9⟩ := h q hq _ h6
        rw [h6]
        congr 1
        refine Prod.ext ?_ ?_
        · simp only [curveAt, List.getLastD_concat, List.dropLast_concat, h6]
          exact (map_getD_range' none h7).symm
        · cases w with
          | none =>
            cases w1 with
            | none => rfl
            | some w1 => simp at h5 h8; rw [h5] at h8; cases h8
          | some w =>
            cases w1 with
            | none => simp at h5 h8; rw [h5] at h8; cases h8
            | some w1 =>
              simp only [Option.map_some, Option.some.injEq, curveAt, List.getLastD_concat, List.dropLast_concat, h6]
              exact (map_getD_range' 0 (h9 w rfl)).symm
  · unfold overWaves
    rw [h1]
    exact ⟨o, mem_positionsOf.1 h2, h3⟩

theorem waveWise_congr {outer : List Nat} {n : Nat} {res : Py (Tensor (Option C) × Option (Tensor C))}
    {one one' : List Nat → Py (List (Option C) × Option (List C))} (h : ∀ q, InShape q outer → one q = one' q)
    (hw : WaveWise outer n res one) : WaveWise outer n res one' := by
  unfold WaveWise at hw ⊢
  cases res with
  | error e =>
    obtain ⟨q, hq, he⟩ := hw
    exact ⟨q, hq, (h q hq).symm.trans he⟩
  | ok x => exact ⟨hw.1, hw.2.1, fun q hq => (h q hq).symm.trans (hw.2.2 q hq)⟩

/-! ### Stretching -/

theorem inShape_append {a b s t : List Nat} (ha : InShape a s) (hb : InShape b t) : InShape (a ++ b) (s ++ t) :=
  List.rel_append ha hb

theorem inShape_append_cases {q s t : List Nat} (h : InShape q (s ++ t)) :
    ∃ a b, q = a ++ b ∧ InShape a s ∧ InShape b t := by
  refine ⟨q.take s.length, q.drop s.length, (List.take_append_drop _ _).symm, ?_, ?_⟩
  · have := List.forall₂_take s.length h
    rwa [List.take_left] at this
  · have := List.forall₂_drop s.length h
    rwa [List.drop_left] at this

theorem stretch_self {a s : List Nat} (h : InShape a s) (b : List Nat) : List.zipWith stretchIndex s (a ++ b) = a := by
  unfold InShape at h
  induction h with
  | nil => simp
  | @cons i n a s hi _ ih =>
    simp only [List.cons_append, List.zipWith_cons_cons, ih]
    congr 1
    unfold stretchIndex
    split_ifs with h1
    · omega
    · rfl

theorem zip_self_all (s : List Nat) (f : Nat × Nat → Bool) (h : ∀ a, f (a, a) = true) : (List.zip s s).all f = true := by
  induction s with
  | nil => rfl
  | cons a s ih => simp [h, ih]

theorem stretchFrame_ok {α : Type} (x : Tensor α) (lev S : List Nat) (h : x.shape = S ∨ x.shape = []) :
    ∃ f, stretchFrame x (lev ++ S) = .ok f ∧ ∀ a b, InShape a lev → InShape b S → f (a ++ b) = valueAt x b := by
  unfold stretchFrame
  rcases h with h | h
  · rw [h]
    have hd : (lev ++ S).length - S.length = lev.length := by simp
    rw [if_neg (by simp), hd, List.drop_left, if_pos (zip_self_all _ _ (by simp))]
    refine ⟨_, rfl, fun a b ha hb => ?_⟩
    have e : (a ++ b).drop lev.length = b ++ [] := by
      rw [← inShape_length ha, List.drop_left, List.append_nil]
    simp only [e, stretch_self hb, valueAt]
    split_ifs with h0
    · have := inShape_length hb
      rw [← h, h0] at this
      rw [List.length_eq_zero_iff.1 this]
    · rfl
  · rw [h]
    refine ⟨fun _ => x.get [], ?_, fun a b _ _ => by simp [valueAt, h]⟩
    simp

/-- Shapes of a background or variance that is already unpacked. -/
def TakenFits {α : Type} (S : List Nat) (x : FrameArg α) : Prop :=
  match x with
  | .arr x => x.shape = S ∨ x.shape = []
  | .pair x y => y.shape = x.shape ∧ (x.shape = S ∨ x.shape = [])

theorem stretchBackground_ok (x : FrameArg (Cx ℝ)) (lev S : List Nat) (h : TakenFits S x) :
    ∃ f, stretchBackground x (lev ++ S) = .ok f ∧ ∀ a b, InShape a lev → InShape b S → f (a ++ b) = backgroundAt x b := by
  cases x with
  | arr x =>
    obtain ⟨f, h1, h2⟩ := stretchFrame_ok x lev S h
    exact ⟨_, by simp only [stretchBackground, h1]; rfl, fun a b ha hb => by simp only [backgroundAt, h2 a b ha hb]⟩
  | pair x y =>
    obtain ⟨f, h1, h2⟩ := stretchFrame_ok x lev S h.2
    obtain ⟨g, h3, h4⟩ := stretchFrame_ok y lev S (by rw [h.1]; exact h.2)
    exact ⟨_, by simp only [stretchBackground, h1, h3]; rfl,
      fun a b ha hb => by simp only [backgroundAt, h2 a b ha hb, h4 a b ha hb]⟩

theorem stretchVariance_ok (x : FrameArg ℝ) (lev S : List Nat) (h : TakenFits S x) :
    ∃ f, stretchVariance x (lev ++ S) = .ok f ∧ ∀ a b, InShape a lev → InShape b S → f (a ++ b) = varianceAt x b := by
  cases x with
  | arr x =>
    obtain ⟨f, h1, h2⟩ := stretchFrame_ok x lev S h
    exact ⟨_, by simp only [stretchVariance, h1]; rfl, fun a b ha hb => by simp only [varianceAt, h2 a b ha hb]⟩
  | pair x y =>
    obtain ⟨f, h1, h2⟩ := stretchFrame_ok x lev S h.2
    obtain ⟨g, h3, h4⟩ := stretchFrame_ok y lev S (by rw [h.1]; exact h.2)
    exact ⟨_, by simp only [stretchVariance, h1, h3, h.1, if_true]; rfl,
      fun a b ha hb => by simp only [varianceAt, h2 a b ha hb, h4 a b ha hb]⟩

/-! ### The data -/

theorem countFits_ok (count : Tensor Nat) (lev S : List Nat) (n : Nat) (h : count.shape = lev ++ [n]) :
    countFits count (lev ++ S ++ [n]) = true := by
  have hz : ∀ l t : List Nat, ((List.zip l (l ++ t)).all fun p => p.1 == p.2 || p.1 == 1) = true := by
    intro l t
    induction l with
    | nil => simp
    | cons a l ih => simp only [List.cons_append, List.zip_cons_cons, List.all_cons, ih]; simp
  unfold countFits
  rw [h, List.dropLast_concat, List.dropLast_concat, List.getLastD_concat, List.getLastD_concat, hz]
  simp

theorem rowOfCount_ok (count : Tensor Nat) (lev : List Nat) (n : Nat) (h : count.shape = lev ++ [n]) {a : List Nat}
    (ha : InShape a lev) (b : List Nat) : rowOfCount count n (a ++ b) = curveAt count a := by
  unfold rowOfCount curveAt rowAt
  rw [h, List.dropLast_concat, List.getLastD_concat, stretch_self ha]

theorem curveAt_row {α : Type} (x : Tensor α) (s : List Nat) (n : Nat) (h : x.shape = s ++ [n]) (q : List Nat) :
    rowAt x n q = curveAt x q := by
  unfold curveAt rowAt
  rw [h, List.getLastD_concat]

theorem map_row {α : Type} (x : Option (Tensor α)) (s : List Nat) (n : Nat) (h : ∀ y, x = some y → y.shape = s ++ [n])
    (q : List Nat) : (x.map fun x => rowAt x n q) = x.map (curveAt · q) := by
  cases x with
  | none => rfl
  | some x => simp only [Option.map_some, curveAt_row x s n (h x rfl)]

theorem dataRow_ok (data : DataAny C) (lev S : List Nat) (n : Nat) (h : DataFits lev S n data) {a : List Nat}
    (ha : InShape a lev) (b : List Nat) : dataRow data n (a ++ b) = dataAt data a b := by
  cases data with
  | corr cor count sq s1 s2 =>
    obtain ⟨h1, h2, h3, h4, h5⟩ := h
    simp only [dataRow, dataAt, curveAt_row cor _ n h1, rowOfCount_ok count lev n h2 ha, map_row sq _ n h3, map_row s1 _ n h4,
      map_row s2 _ n h5]
  | diff dif count s1 s2 =>
    obtain ⟨h1, h2, h4, h5⟩ := h
    simp only [dataRow, dataAt, curveAt_row dif _ n h1, rowOfCount_ok count lev n h2 ha, map_row s1 _ n h4,
      map_row s2 _ n h5]
  | other => rfl

theorem dataShape_ok (data : DataAny C) (lev S : List Nat) (n : Nat) (h : DataFits lev S n data) (ho : data ≠ .other) :
    dataShape data = .ok (lev ++ S ++ [n]) := by
  have hs : ∀ {α : Type} (x : Option (Tensor α)) (s : List Nat), (∀ y, x = some y → y.shape = s) →
      (x.map fun x => decide (x.shape = s)).getD true = true := by
    intro α x s hx
    cases x with
    | none => rfl
    | some x => simp [hx x rfl]
  cases data with
  | corr cor count sq s1 s2 =>
    obtain ⟨h1, h2, h3, h4, h5⟩ := h
    simp only [dataShape, h1, countFits_ok count lev S n h2, hs _ _ h3, hs _ _ h4, hs _ _ h5, Bool.and_self, if_true]
  | diff dif count s1 s2 =>
    obtain ⟨h1, h2, h4, h5⟩ := h
    simp only [dataShape, h1, countFits_ok count lev S n h2, hs _ _ h4, hs _ _ h5, Bool.and_self, if_true]
  | other => exact absurd rfl ho

theorem firstLen_at [AddCommGroup C] [Module ℝ C] (data : DataAny C) (lev S : List Nat) (n : Nat) (h : DataFits lev S n data) (a b : List Nat) :
    FirstLen n (dataAt data a b) := by
  cases data with
  | corr cor count sq s1 s2 => simp [dataAt, FirstLen, curveAt, h.1]
  | diff dif count s1 s2 => simp [dataAt, FirstLen, curveAt, h.1]
  | other => trivial

theorem normOf_dataAt (data : DataAny C) (norm : Option Int) (a b : List Nat) :
    normOf (dataAt data a b) norm = normOf (dataRow data 0 []) norm := by
  cases data <;> simp [dataAt, dataRow, normOf]

theorem normalizeTaken_ok [AddCommGroup C] [Module ℝ C] (ops : NormOps C) (data : DataAny C) (bg : Option (FrameArg (Cx ℝ)))
    (var : Option (FrameArg ℝ)) (norm : Option Int) (mode : String) (scale : Bool) (weight : Option (Tensor C))
    (lev S : List Nat) (n : Nat) (h : DataFits lev S n data) (ho : data ≠ .other)
    (hb : ∀ x, bg = some x → TakenFits S x) (hv : ∀ x, var = some x → TakenFits S x)
    (hw : ∀ x, weight = some x → x.shape = lev ++ S ++ [n]) (hne : ∃ q, InShape q (lev ++ S)) :
    WaveWise (lev ++ S) n (normalizeTaken ops data bg var norm mode scale weight) fun q =>
      normalize ops (dataAt data (q.take lev.length) (q.drop lev.length))
        (bg.map (backgroundAt · (q.drop lev.length))) (var.map (varianceAt · (q.drop lev.length))) norm mode scale
        (weight.map (curveAt · q)) := by
  obtain ⟨fb, hfb, hfb'⟩ : ∃ f, stretchOpt (fun b => stretchBackground b (lev ++ S)) bg = .ok f ∧
      ∀ a b, InShape a lev → InShape b S → f (a ++ b) = bg.map (backgroundAt · b) := by
    cases bg with
    | none => exact ⟨_, rfl, fun _ _ _ _ => rfl⟩
    | some x =>
      obtain ⟨f, h1, h2⟩ := stretchBackground_ok x lev S (hb x rfl)
      exact ⟨fun o => some (f o), by simp only [stretchOpt, h1]; rfl,
        fun a b h3 h4 => by simp only [h2 a b h3 h4, Option.map_some]⟩
  obtain ⟨fv, hfv, hfv'⟩ : ∃ f, ifUsed (stretchOpt (fun v => stretchVariance v (lev ++ S)) var) = .ok f ∧
      ∀ a b, InShape a lev → InShape b S → f (a ++ b) = var.map (varianceAt · b) := by
    cases var with
    | none => exact ⟨_, rfl, fun _ _ _ _ => rfl⟩
    | some x =>
      obtain ⟨f, h1, h2⟩ := stretchVariance_ok x lev S (hv x rfl)
      exact ⟨fun o => some (f o), by simp only [stretchOpt, h1]; rfl,
        fun a b h3 h4 => by simp only [h2 a b h3 h4, Option.map_some]⟩
  obtain ⟨fw, hfw, hfw'⟩ : ∃ f, stretchOpt (fun w => weightRows w (lev ++ S ++ [n])) weight = .ok f ∧
      ∀ q, f q = weight.map (curveAt · q) := by
    cases weight with
    | none => exact ⟨_, rfl, fun _ => rfl⟩
    | some x =>
      refine ⟨fun o => some (rowAt x n o), ?_, fun q => ?_⟩
      · simp only [stretchOpt, weightRows, hw x rfl, if_true, List.getLastD_concat]; rfl
      · simp only [curveAt_row x _ n (hw x rfl), Option.map_some]
  have e : normalizeTaken ops data bg var norm mode scale weight = overWaves (lev ++ S) n fun o =>
      normalize ops (dataRow data n o) (fb o) (fv o) norm mode scale (fw o) := by
    unfold normalizeTaken
    rw [dataShape_ok data lev S n h ho]
    have okb : ∀ {A B : Type} (a : A) (k : A → Py B), ((Except.ok a : Py A) >>= k) = k a := fun _ _ => rfl
    simp only [okb, List.dropLast_concat, List.getLastD_concat]
    rw [hfb, okb, hfv, okb, hfw, okb]
  rw [e]
  have hq : ∀ q, InShape q (lev ++ S) → normalize ops (dataRow data n q) (fb q) (fv q) norm mode scale (fw q) =
      normalize ops (dataAt data (q.take lev.length) (q.drop lev.length))
        (bg.map (backgroundAt · (q.drop lev.length))) (var.map (varianceAt · (q.drop lev.length))) norm mode scale
        (weight.map (curveAt · q)) := by
    intro q hq
    obtain ⟨a, b, rfl, ha, hb'⟩ := inShape_append_cases hq
    rw [dataRow_ok data lev S n h ha, hfb' a b ha hb', hfv' a b ha hb', hfw', ← inShape_length ha, List.take_left,
      List.drop_left]
  refine waveWise_congr hq (overWaves_ok _ _ _ (givesWeight (dataRow data 0 []) norm weight.isSome) hne ?_)
  intro q hq'
  simp only [hq q hq']
  have := yields_normalize ops _ (firstLen_at data lev S n h (q.take lev.length) (q.drop lev.length))
    (bg.map (backgroundAt · (q.drop lev.length))) (var.map (varianceAt · (q.drop lev.length))) norm mode scale
    (weight.map (curveAt · q)) (by
      intro w hw'
      obtain ⟨x, hx, rfl⟩ := Option.map_eq_some_iff.1 hw'
      simp [curveAt, hw x hx])
  have eg : givesWeight (dataAt data (q.take lev.length) (q.drop lev.length)) norm (weight.map (curveAt · q)).isSome =
      givesWeight (dataRow data 0 []) norm weight.isSome := by
    unfold givesWeight
    rw [normOf_dataAt, Option.isSome_map]
  rwa [eg] at this

/-! ### The mask -/

theorem positionsOf_sorted (s : List Nat) : (positionsOf s).Pairwise (· < ·) := by
  induction s with
  | nil => simp [positionsOf]
  | cons n s ih =>
    unfold positionsOf
    rw [List.pairwise_flatMap]
    refine ⟨fun i _ => ?_, ?_⟩
    · rw [List.pairwise_map]
      exact ih.imp fun h => List.cons_lt_cons_iff.2 (.inr ⟨rfl, h⟩)
    · refine List.pairwise_lt_range.imp fun {i j} hij x hx y hy => ?_
      obtain ⟨x, -, rfl⟩ := List.mem_map.1 hx
      obtain ⟨y, -, rfl⟩ := List.mem_map.1 hy
      exact List.cons_lt_cons_iff.2 (.inl hij)

theorem selectedBy_order (m : Tensor Bool) : MaskOrder m (selectedBy m) :=
  ⟨(positionsOf_sorted _).filter _, fun p => by simp [selectedBy, mem_positionsOf]⟩

theorem maskOrder_unique (m : Tensor Bool) {l l' : List (List Nat)} (h : MaskOrder m l) (h' : MaskOrder m l') : l = l' := by
  have nd : ∀ {l : List (List Nat)}, l.Pairwise (· < ·) → l.Nodup := fun h => h.imp fun hlt => ne_of_lt hlt
  refine List.Perm.eq_of_pairwise (le := (· < ·)) (fun a b _ _ h1 h2 => absurd h2 (lt_asymm h1)) h.1 h'.1 ?_
  exact (List.perm_ext_iff_of_nodup (nd h.1) (nd h'.1)).2 fun p => (h.2 p).trans (h'.2 p).symm

end Cddm
