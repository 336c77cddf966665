import Verif.Lemmas.Ccorr
import Verif.Props.Correlation
import Verif.Props.FftCorr

/-! # Refused arguments of `ccorr` and `acorr` -/

namespace Cddm
open Spec

theorem inspectCross_ok_invalid {N1 N2 : Nat} {t1 t2 : Option (List Int)} {n L : Option Nat}
    {full : Bool} {r : Option (List Int × List Int) × Nat}
    (hv : ¬ ValidCross N1 N2 t1 t2) (h : inspectCross N1 N2 t1 t2 n L full = .ok r) :
    ∃ a b, r.1 = some (a, b) ∧ a ≠ [] ∧ b ≠ [] ∧ N1 = N2 ∧ ¬ (a.length = N1 ∧ b.length = N2) := by
  by_cases hN : N1 = N2
  · rcases t1 with _ | a <;> rcases t2 with _ | b
    · exact absurd hN hv
    · simp [inspectCross, bind, Except.bind] at h
    · simp [inspectCross, bind, Except.bind] at h
    · have hne : a ≠ [] ∧ b ≠ [] := by
        constructor
        · rintro rfl
          cases n <;> cases L <;>
            simp [inspectCross, bind, Except.bind, hN, npMin_nil, fullLengthCross] at h
        · rintro rfl
          by_cases ha : a = []
          · subst ha
            cases n <;> cases L <;>
              simp [inspectCross, bind, Except.bind, hN, npMin_nil, fullLengthCross] at h
          · obtain ⟨m, hm, -, -⟩ := npMin_ok ha
            obtain ⟨m', hm', -, -⟩ := npMax_ok ha
            cases n <;> cases L <;>
              simp [inspectCross, bind, Except.bind, hN, npMin_nil, fullLengthCross, hm, hm'] at h
      obtain ⟨c, hc⟩ := inspectCross_some N1 hne.1 hne.2 n L full
      rw [← hN, hc] at h
      rw [← Except.ok.inj h]
      refine ⟨_, _, rfl, by simpa using hne.1, by simpa using hne.2, hN, ?_⟩
      rintro ⟨h1, h2⟩
      simp only [List.length_map] at h1 h2
      refine hv ⟨hN, h1, h2, ?_⟩
      rintro rfl
      exact hne.1 (List.length_eq_zero_iff.mp h1)
  · rcases t1 with _ | a <;> rcases t2 with _ | b <;>
      simp [inspectCross, bind, Except.bind, hN] at h

theorem crossCorrelateComplexFft_mismatch (f1 f2 : List (Cx ℝ)) {a b : List Int}
    (ha : a ≠ []) (hb : b ≠ []) (hN : f1.length = f2.length)
    (h : ¬ (a.length = f1.length ∧ b.length = f2.length)) (n : Nat)
    (aout : Option (List (Cx ℝ))) :
    crossCorrelateComplexFft f1 f2 (some a) (some b) (some n) aout = .error .valueError := by
  unfold crossCorrelateComplexFft
  obtain ⟨c, hc⟩ := inspectCross_some f1.length ha hb (some n) (aout.map List.length) true
  rw [← hN, hc]
  simp only [bind, Except.bind]
  rw [fullLengthCross_ok _ (by simpa using ha) (by simpa using hb)]
  dsimp only
  have e : checkDims (decide ((a.map (· - c)).length = f1.length ∧
      (b.map (· - c)).length = f1.length)) = .error .valueError := by
    rw [List.length_map, List.length_map, decide_eq_false (by rw [hN] at h ⊢; exact h)]; rfl
  rw [e]
  cases aout with
  | some o => rfl
  | none =>
    simp only [defaultOut, if_true, Option.getD_some]
    by_cases h0 : n = 0 <;> simp only [h0, if_true, if_false]

theorem inspectAuto_ok_invalid {N : Nat} {t : Option (List Int)} {n L : Option Nat}
    {r : Option (List Int) × Nat}
    (hv : ¬ ValidAuto N t) (h : inspectAuto N t n L = .ok r) :
    ∃ a, r.1 = some a ∧ a ≠ [] ∧ ¬ a.length = N := by
  rcases t with _ | a
  · exact absurd trivial hv
  · have hne : a ≠ [] := by
      rintro rfl
      cases n <;> cases L <;>
        simp [inspectAuto, bind, Except.bind, npMin_nil, fullLengthAuto] at h
    obtain ⟨c, hc⟩ := inspectAuto_some N hne n L
    rw [hc] at h
    rw [← Except.ok.inj h]
    refine ⟨_, rfl, by simpa using hne, ?_⟩
    intro h1
    simp only [List.length_map] at h1
    refine hv ⟨h1, ?_⟩
    rintro rfl
    exact hne (List.length_eq_zero_iff.mp h1)

theorem autoCorrelateFft_mismatch (f : List (Cx ℝ)) {a : List Int}
    (ha : a ≠ []) (h : ¬ a.length = f.length) (n : Nat) (aout : Option (List ℝ)) :
    autoCorrelateFft f (some a) (some n) aout = .error .valueError := by
  unfold autoCorrelateFft
  obtain ⟨c, hc⟩ := inspectAuto_some f.length ha (some n) (aout.map List.length)
  rw [hc]
  simp only [bind, Except.bind]
  rw [fullLengthAuto_ok _ (by simpa using ha)]
  dsimp only
  rw [defaultOut_auto]
  simp [checkDims, h]

theorem autoCorrelateComplexFft_mismatch (f : List (Cx ℝ)) {a : List Int}
    (ha : a ≠ []) (h : ¬ a.length = f.length) (n : Nat) (aout : Option (List (Cx ℝ))) :
    autoCorrelateComplexFft f (some a) (some n) aout = .error .valueError := by
  unfold autoCorrelateComplexFft
  obtain ⟨c, hc⟩ := inspectAuto_some f.length ha (some n) (aout.map List.length)
  rw [hc]
  simp only [bind, Except.bind]
  rw [fullLengthAuto_ok _ (by simpa using ha)]
  dsimp only
  rw [defaultOut_auto]
  simp [checkDims, h]

theorem inspectAuto_error {N : Nat} {t : Option (List Int)} {n L : Option Nat} {e : PyErr}
    (h : inspectAuto N t n L = .error e) : e = .valueError := by
  rcases t with _ | a
  · rw [inspectAuto_none] at h; simp at h
  · by_cases ha : a = []
    · subst ha
      cases n <;> cases L <;>
        simp [inspectAuto, bind, Except.bind, fullLengthAuto, npMin_nil] at h
      all_goals exact h.symm
    · obtain ⟨c, hc⟩ := inspectAuto_some N ha n L
      rw [hc] at h; simp at h

theorem crossCorrelateComplex_reject (f1 f2 : List (Cx ℝ)) (t1 t2 : Option (List Int))
    (n : Option Nat) (aligned : Bool) (aout : Option (List (Cx ℝ)))
    (hv : ¬ ValidCross f1.length f2.length t1 t2) :
    crossCorrelateComplex f1 f2 t1 t2 n aligned aout = .error .valueError := by
  refine crossApi_reject f1.length f2.length t1 t2 n true aout _ _ hv ?_
  intro a b out h
  have : ¬ (a.length = f1.length ∧ b.length = f2.length) := by tauto
  simp [checkDims, this, bind, Except.bind]

theorem crossDifference_reject (f1 f2 : List (Cx ℝ)) (t1 t2 : Option (List Int))
    (n : Option Nat) (aligned : Bool) (aout : Option (List ℝ))
    (hv : ¬ ValidCross f1.length f2.length t1 t2) :
    crossDifference f1 f2 t1 t2 n aligned aout = .error .valueError := by
  refine crossApi_reject f1.length f2.length t1 t2 n false aout _ _ hv ?_
  intro a b out h
  have : ¬ (a.length = f1.length ∧ b.length = f2.length) := by tauto
  simp [checkDims, this, bind, Except.bind]

theorem autoCorrelateComplex_reject (f : List (Cx ℝ)) (t : Option (List Int)) (n : Option Nat)
    (aligned : Bool) (aout : Option (List (Cx ℝ))) (hv : ¬ ValidAuto f.length t) :
    autoCorrelateComplex f t n aligned aout = .error .valueError := by
  refine autoApi_reject f.length t n aout _ _ hv ?_
  intro a out h
  simp [checkDims, h, bind, Except.bind]

theorem autoDifference_reject (f : List (Cx ℝ)) (t : Option (List Int)) (n : Option Nat)
    (aligned : Bool) (aout : Option (List ℝ)) (hv : ¬ ValidAuto f.length t) :
    autoDifference f t n aligned aout = .error .valueError := by
  refine autoApi_reject f.length t n aout _ _ hv ?_
  intro a out h
  simp [checkDims, h, bind, Except.bind]

theorem ccorrBody_reject {C : Type} (full : Bool)
    (kFft kCorr kDiff : List (Cx ℝ) → List (Cx ℝ) → Option (List Int) → Option (List Int) →
      Option Nat → Option (List C) → Py (List C))
    (f1 f2 : List (Cx ℝ)) (t1 t2 : Option (List Int)) (n : Option Nat) (norm : Option Int)
    (method : Option String) (f1s f2s : Option (List ℝ)) (aout : CorrAout C)
    (hk : ∀ (a b : List Int) (n : Nat), a ≠ [] → b ≠ [] → f1.length = f2.length →
      ¬ (a.length = f1.length ∧ b.length = f2.length) →
      kFft f1 f2 (some a) (some b) (some n) aout.cor = .error .valueError ∧
      kCorr f1 f2 (some a) (some b) (some n) aout.cor = .error .valueError ∧
      kDiff f1 f2 (some a) (some b) (some n) aout.cor = .error .valueError)
    (hbad : ¬ (effMethod method n = "corr" ∨ effMethod method n = "fft" ∨
        effMethod method n = "diff") ∨
      ¬ SupportedNorm (effMethod method n) true (effNorm norm (effMethod method n) true) ∨
      (effMethod method n = "diff" ∧ full = true) ∨ ¬ ValidCross f1.length f2.length t1 t2) :
    ccorrBody full kFft kCorr kDiff f1 f2 t1 t2 n norm method f1s f2s aout
      = .error .valueError := by
  unfold ccorrBody
  by_cases hm : effMethod method n = "corr" ∨ effMethod method n = "fft" ∨
      effMethod method n = "diff"
  · have hm' := (defaultMethod_ok_iff method n _).mpr ⟨rfl, hm⟩
    simp only [hm', bind, Except.bind]
    by_cases hn : SupportedNorm (effMethod method n) true (effNorm norm (effMethod method n) true)
    · rw [defaultNorm_ok hn]
      dsimp only
      by_cases hdf : effMethod method n = "diff" ∧ full = true
      · rw [if_pos hdf]
      · rw [if_neg hdf]
        have hv : ¬ ValidCross f1.length f2.length t1 t2 := by tauto
        cases h : inspectCross f1.length f2.length t1 t2 n (aout.cor.map List.length) full with
        | error e => rw [inspectCross_error h]
        | ok r =>
          obtain ⟨a, b, hr, ha, hb, hN, hlen⟩ := inspectCross_ok_invalid hv h
          obtain ⟨rt, rn⟩ := r
          simp only at hr
          subst hr
          obtain ⟨h1, h2, h3⟩ := hk a b rn ha hb hN hlen
          dsimp only
          simp only [Option.map_some]
          rw [h1, h2, h3]
          simp only [ite_self]
    · rw [defaultNorm_error hn]
  · rw [defaultMethod_error hm]
    rfl

theorem acorrBody_reject {C : Type}
    (kFft kCorr kDiff : List (Cx ℝ) → Option (List Int) →
      Option Nat → Option (List C) → Py (List C))
    (f : List (Cx ℝ)) (t : Option (List Int)) (n : Option Nat) (norm : Option Int)
    (method : Option String) (fs : Option (List ℝ)) (aout : CorrAout C)
    (hk : ∀ (a : List Int) (n : Nat), a ≠ [] → ¬ a.length = f.length →
      kFft f (some a) (some n) aout.cor = .error .valueError ∧
      kCorr f (some a) (some n) aout.cor = .error .valueError ∧
      kDiff f (some a) (some n) aout.cor = .error .valueError)
    (hbad : ¬ (effMethod method n = "corr" ∨ effMethod method n = "fft" ∨
        effMethod method n = "diff") ∨
      ¬ SupportedNorm (effMethod method n) false (effNorm norm (effMethod method n) false) ∨
      ¬ ValidAuto f.length t) :
    acorrBody kFft kCorr kDiff f t n norm method fs aout = .error .valueError := by
  unfold acorrBody
  by_cases hm : effMethod method n = "corr" ∨ effMethod method n = "fft" ∨
      effMethod method n = "diff"
  · have hm' := (defaultMethod_ok_iff method n _).mpr ⟨rfl, hm⟩
    simp only [hm', bind, Except.bind]
    by_cases hn : SupportedNorm (effMethod method n) false
        (effNorm norm (effMethod method n) false)
    · rw [defaultNorm_ok hn]
      dsimp only
      have hv : ¬ ValidAuto f.length t := by tauto
      cases h : inspectAuto f.length t n (aout.cor.map List.length) with
      | error e => rw [inspectAuto_error h]
      | ok r =>
        obtain ⟨a, hr, ha, hlen⟩ := inspectAuto_ok_invalid hv h
        obtain ⟨rt, rn⟩ := r
        simp only at hr
        subst hr
        obtain ⟨h1, h2, h3⟩ := hk a rn ha hlen
        dsimp only
        rw [h1, h2, h3]
        simp only [ite_self]
    · rw [defaultNorm_error hn]
  · rw [defaultMethod_error hm]
    rfl

end Cddm
