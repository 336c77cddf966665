import Verif.Spec.NormReject
import Verif.Props.WeightedNorm
import Verif.Props.NormString
import Mathlib.Tactic.IntervalCases

/-!
# C28: `normalize` rejects what it cannot compute
-/

namespace Cddm
open Spec

section
variable {C : Type}

theorem normOf_supports (data : NormData C) (z : Int) :
    (Supports data z → normOf data (some z) = .ok z.toNat) ∧
      (¬ Supports data z → normOf data (some z) = .error .valueError) := by
  cases data with
  | corr cor count sq s1 s2 =>
    by_cases hz : 1 ≤ z ∧ z ≤ 15
    · obtain ⟨h1, h2⟩ := hz
      simp only [Supports, normOf]
      generalize sq.isSome = a
      generalize s1.isSome = b
      interval_cases z <;> revert a b <;> decide
    · constructor
      · intro h
        exact absurd ⟨h.1, h.2.1⟩ hz
      · intro _
        simp only [normOf, normFromCcorrData]
        rw [if_pos]
        simp [allNorms]
        omega
  | diff dif count s1 s2 =>
    by_cases hz : z = 2 ∨ z = 6
    · simp only [Supports, normOf]
      generalize s1.isSome = a
      generalize s2.isSome = b
      rcases hz with rfl | rfl <;> revert a b <;> decide
    · constructor
      · intro h
        rcases h with h | h
        · exact absurd (Or.inl h) hz
        · exact absurd (Or.inr h.1) hz
      · intro _
        simp only [normOf, normFromCdiffData]
        rw [if_pos]
        simp
        omega
  | other => exact ⟨fun h => absurd h (by simp [Supports]), fun _ => rfl⟩

variable [AddCommGroup C] [Module ℝ C] (ops : NormOps C)

/-- `normalize` gives up with ValueError on every unmet need of a norm which is not weighted. -/
theorem normalizePlain_rejects (data : NormData C) (bg : Option Background)
    (var : Option Variance) (z : Int) (hz : z ≠ 3 ∧ z ≠ 7 ∧ z ≠ 11 ∧ z ≠ 15) (mode : String)
    (hl : ∀ dif count s1 s2, data = .diff dif count s1 s2 → ops.cdiff1.isSome ∧ ops.cdiff3.isSome)
    (hs : Supports data z)
    (scale : Bool) (h : bg = none ∨ (var = none ∧ NeedsVariance data z mode scale)) :
    normalizePlain ops data bg var z.toNat mode scale = .error .valueError := by
  have hz0 : 0 < z.toNat := by
    cases data with
    | corr => have := hs.1; omega
    | diff => rcases hs with h | h <;> omega
    | other => exact absurd hs (by simp [Supports])
  rcases h with rfl | ⟨rfl, hn⟩
  · simp only [normalizePlain, inspectBackground, if_pos hz0, bind, Except.bind]
  · have hb : ∃ b, inspectBackground bg z.toNat = .ok b ∨
        inspectBackground bg z.toNat = .error .valueError := by
      cases bg with
      | none => exact ⟨(0, 0), Or.inr (by simp only [inspectBackground, if_pos hz0])⟩
      | some b => exact ⟨(b.fst, b.snd), Or.inl (inspectBackground_some b _)⟩
    obtain ⟨b, hb | hb⟩ := hb
    swap
    · simp only [normalizePlain, hb, bind, Except.bind]
    have hna : ∀ {α : Type} (x : Option (List α)) (n : Nat), x.isSome →
        (∃ y, needArray x n = .ok y) ∨ needArray x n = .error .valueError := by
      intro α x n hx
      obtain ⟨x, rfl⟩ := Option.isSome_iff_exists.mp hx
      simp only [needArray]
      split
      · exact Or.inl ⟨_, rfl⟩
      · exact Or.inr rfl
    simp only [normalizePlain, hb, bind, Except.bind]
    cases data with
    | corr cor count sq s1 s2 =>
      obtain ⟨h1, h15, h4, hq, hm⟩ := hs
      have hm2 : z ≥ 4 → (if s2.isSome then s2 else s1).isSome := by
        intro h
        cases s2 with
        | none => simpa using hm h
        | some s => rfl
      simp only [normCorr, bind, Except.bind, scaleFactor]
      generalize (if s2.isSome then s2 else s1) = s2 at hm2
      rcases hna (some count) cor.length rfl with ⟨cc, hcc⟩ | hcc <;> rw [hcc]
      dsimp only
      have fin : ∀ r : List (Option C), (∃ r', finishCorr ops none mode r = .ok r') ∨
          finishCorr ops none mode r = .error .valueError := by
        intro r
        simp only [finishCorr, scaleFactor, bind, Except.bind]
        split
        · exact Or.inr rfl
        · exact Or.inl ⟨_, rfl⟩
      have key : ∀ (r : List (Option C)), z % 4 < 2 → (Except.bind (finishCorr ops none mode r)
          (finishScale none scale)) = .error .valueError := by
        intro r h2
        rcases hn with hn | hn | hn
        · rcases fin r with ⟨r', h⟩ | h <;> rw [h] <;> try rfl
          simp only [finishScale, if_pos hn, scaleFactor, bind, Except.bind]
        · simp only [finishCorr, if_pos hn, scaleFactor, bind, Except.bind]
        · omega
      have hA : z % 4 < 2 → z ≠ 1 → z.toNat ≠ 1 := by omega
      interval_cases z <;>
        (try simp (decide := true) only [if_true, if_false, Int.reduceToNat]) <;> first
        | omega
        | exact key _ (by decide)
        | (simp at h4; done)
        | (obtain ⟨hz1, hz2, hz3, hz4⟩ := hz; first | exact absurd rfl hz1 | exact absurd rfl hz2 | exact absurd rfl hz3 | exact absurd rfl hz4)
        | rfl
        | (rcases hna s1 cor.length (hm (by decide)) with ⟨c1, hc1⟩ | hc1 <;> rw [hc1] <;>
           rcases hna s2 cor.length (hm2 (by decide)) with ⟨c2, hc2⟩ | hc2 <;> rw [hc2] <;>
           first | rfl | exact key _ (by decide))
    | diff dif count s1 s2 =>
      obtain ⟨hl1, hl2⟩ := hl _ _ _ _ rfl
      obtain ⟨f1, hf1⟩ := Option.isSome_iff_exists.mp hl1
      obtain ⟨f3, hf3⟩ := Option.isSome_iff_exists.mp hl2
      simp only [normDiff, bind, Except.bind, hf1, hf3, needLoop]
      rcases hna (some count) dif.length rfl with ⟨cc, hcc⟩ | hcc <;> rw [hcc]
      dsimp only
      have fin : ∀ r : List (Option C), (∃ r', finishDiff ops none mode r = .ok r') ∨
          finishDiff ops none mode r = .error .valueError := by
        intro r
        simp only [finishDiff, scaleFactor, bind, Except.bind]
        split
        · exact Or.inr rfl
        · exact Or.inl ⟨_, rfl⟩
      have key : ∀ (r : List (Option C)), (Except.bind (finishDiff ops none mode r)
          (finishScale none scale)) = .error .valueError := by
        intro r
        rcases hn with hn | hn
        · rcases fin r with ⟨r', h⟩ | h <;> rw [h] <;> try rfl
          simp only [finishScale, if_pos hn, scaleFactor, bind, Except.bind]
        · have hn : mode = "corr" := hn
          simp only [finishDiff, if_pos hn, scaleFactor, bind, Except.bind]
      rcases hs with rfl | ⟨rfl, h1, h2⟩
      · exact key _
      · simp only [Int.reduceToNat]
        rcases hna s1 dif.length h1 with ⟨c1, hc1⟩ | hc1 <;> rw [hc1] <;>
          rcases hna s2 dif.length h2 with ⟨c2, hc2⟩ | hc2 <;> rw [hc2] <;>
          first | rfl | exact key _
    | other => rfl

/-- Whatever is missing, the answer is ValueError. -/
theorem normalize_rejects (data : NormData C) (bg : Option Background)
    (var : Option Variance) (z : Int) (mode : String) (scale : Bool) (w : Option (List C))
    (hl : ∀ dif count s1 s2, data = .diff dif count s1 s2 → ops.cdiff1.isSome ∧ ops.cdiff3.isSome)
    (h : ¬ Complete data bg var z mode scale) :
    normalize ops data bg var (some z) mode scale w = .error .valueError := by
  by_cases hm : mode = "corr" ∨ mode = "diff"
  swap
  · exact normalize_badMode ops data bg var _ mode (by tauto) scale w
  by_cases hs : Supports data z
  swap
  · simp only [normalize, inspectMode, if_pos hm, (normOf_supports data z).2 hs, bind, Except.bind]
  have h' : bg = none ∨ (var = none ∧ NeedsVariance data z mode scale) := by
    cases bg with
    | none => exact Or.inl rfl
    | some b =>
      right
      cases var with
      | none =>
        refine ⟨rfl, ?_⟩
        by_contra hn
        exact h ⟨hm, hs, rfl, fun h => absurd h hn⟩
      | some v => exact absurd ⟨hm, hs, rfl, fun _ => rfl⟩ h
  simp only [normalize, inspectMode, if_pos hm, (normOf_supports data z).1 hs, bind, Except.bind]
  have hsc : (∃ o, (if scale then (scaleFactor var).map some else .ok none : Py (Option ℝ)) = .ok o) ∨
      (if scale then (scaleFactor var).map some else .ok none : Py (Option ℝ)) = .error .valueError := by
    cases scale
    · exact Or.inl ⟨none, by simp⟩
    · cases var with
      | none => exact Or.inr (by simp [scaleFactor, Except.map])
      | some v => exact Or.inl ⟨some v.offset, by simp [scaleFactor_some, Except.map]⟩
  rcases hsc with ⟨o, ho⟩ | ho <;> simp only [ho]
  by_cases hz : z ≠ 3 ∧ z ≠ 7 ∧ z ≠ 11 ∧ z ≠ 15
  · rw [if_neg (plain_of data z hz _ ((normOf_supports data z).1 hs)),
      normalizePlain_rejects ops data bg var z hz mode hl hs scale h']
  · have hz' : z = 3 ∨ z = 7 ∨ z = 11 ∨ z = 15 := by omega
    have e3 : z.toNat &&& 3 = 3 := by rcases hz' with rfl | rfl | rfl | rfl <;> decide
    have e2 : (((z.toNat &&& (4 ||| 8)) ||| 2 : Nat) : Int) = z - 1 := by
      rcases hz' with rfl | rfl | rfl | rfl <;> decide
    have hz0 : 0 < z.toNat := by omega
    rw [if_pos e3]
    simp only [normalizeWeighted, e2, bind, Except.bind]
    cases hb : inspectBackground bg z.toNat with
    | error e =>
      cases bg with
      | none =>
        simp only [inspectBackground, if_pos hz0] at hb
        injection hb with hb
        rw [← hb]
      | some b => rw [inspectBackground_some] at hb; cases hb
    | ok b =>
      dsimp only
      have hs' : Supports data (z - 1) := by
        cases data with
        | corr cor count sq s1 s2 =>
          obtain ⟨h1, h2, h3, h4, h5⟩ := hs
          exact ⟨by omega, by omega, by omega, fun _ => h4 (by omega), fun _ => h5 (by omega)⟩
        | diff dif count s1 s2 =>
          rcases hs with h | h <;> omega
        | other => exact absurd hs (by simp [Supports])
      rw [(normOf_supports data (z - 1)).1 hs']
      dsimp only
      rw [normalizePlain_rejects ops data bg var (z - 1) (by omega) mode hl hs' scale]
      rcases h' with h' | ⟨h1, h2⟩
      · exact Or.inl h'
      · refine Or.inr ⟨h1, ?_⟩
        rcases h2 with h2 | h2
        · exact Or.inl h2
        · right
          cases data with
          | corr cor count sq s1 s2 =>
            right
            omega
          | diff dif count s1 s2 => exact h2
          | other => exact h2

/-- With everything there, a norm which is not weighted is computed. -/
theorem normalize_accepts (data : NormData C) (bg : Option Background)
    (var : Option Variance) (z : Int) (hz : z ≠ 3 ∧ z ≠ 7 ∧ z ≠ 11 ∧ z ≠ 15) (mode : String)
    (scale : Bool) (w : Option (List C))
    (hl : ∀ dif count s1 s2, data = .diff dif count s1 s2 → ops.cdiff1.isSome ∧ ops.cdiff3.isSome)
    (hlen : SameLengths data) (h : Complete data bg var z mode scale) :
    ∃ r, normalize ops data bg var (some z) mode scale w = .ok (r, w) := by
  obtain ⟨hm, hs, hbg, hv⟩ := h
  obtain ⟨b, rfl⟩ := Option.isSome_iff_exists.mp hbg
  rw [normalize_plain ops data _ var z hz]
  simp only [inspectMode, if_pos hm, (normOf_supports data z).1 hs, bind, Except.bind]
  have hsc : ∃ o, (if scale then (scaleFactor var).map some else .ok none : Py (Option ℝ)) = .ok o := by
    cases hsc : scale
    · exact ⟨none, by simp⟩
    · obtain ⟨v, rfl⟩ := Option.isSome_iff_exists.mp (hv (Or.inl hsc))
      exact ⟨some v.offset, by simp [scaleFactor_some, Except.map]⟩
  obtain ⟨o, ho⟩ := hsc
  simp only [ho, normalizePlain, inspectBackground_some, bind, Except.bind]
  have hfs : ∀ r : List (Option C), ∃ r', finishScale var scale r = .ok r' := by
    intro r
    cases hsc : scale
    · exact ⟨r, by simp [finishScale]⟩
    · obtain ⟨v, rfl⟩ := Option.isSome_iff_exists.mp (hv (Or.inl hsc))
      exact ⟨_, by simp [finishScale, scaleFactor_some, bind, Except.bind]; rfl⟩
  have hna : ∀ {α : Type} (x : Option (List α)) (n : Nat), x.isSome →
      (∀ s, x = some s → s.length = n) → ∃ y, needArray x n = .ok y := by
    intro α x n hx hs
    obtain ⟨x, rfl⟩ := Option.isSome_iff_exists.mp hx
    exact ⟨x, by simp [needArray, hs x rfl]⟩
  suffices hh : ∃ r, (match data with
      | .corr cor count sq s1 s2 => normCorr ops cor count sq s1 s2 b.fst b.snd var z.toNat mode
      | .diff dif count s1 s2 => normDiff ops dif count s1 s2 b.fst b.snd var z.toNat mode
      | .other => .error .valueError) = .ok r by
    obtain ⟨r, hr⟩ := hh
    obtain ⟨r', hr'⟩ := hfs r
    cases data with
    | corr cor count sq s1 s2 =>
      dsimp only at hr ⊢
      rw [hr]; dsimp only; rw [hr']; exact ⟨_, rfl⟩
    | diff dif count s1 s2 =>
      dsimp only at hr ⊢
      rw [hr]; dsimp only; rw [hr']; exact ⟨_, rfl⟩
    | other => cases hr
  cases data with
  | corr cor count sq s1 s2 =>
    dsimp only
    obtain ⟨hlc, hlq, hl1, hl2⟩ := hlen
    obtain ⟨h1, h15, h4, hq, hm1⟩ := hs
    have hfc : ∀ r : List (Option C), ∃ r', finishCorr ops var mode r = .ok r' := by
      intro r
      unfold finishCorr
      split
      · next hd =>
        obtain ⟨v, rfl⟩ := Option.isSome_iff_exists.mp (hv (Or.inr (Or.inl hd)))
        exact ⟨_, by simp [scaleFactor_some, bind, Except.bind]; rfl⟩
      · exact ⟨_, rfl⟩
    have hm2 : z ≥ 4 → (if s2.isSome then s2 else s1).isSome := by
      intro h
      cases s2 with
      | none => simpa using hm1 h
      | some s => rfl
    have hl2' : ∀ s, (if s2.isSome then s2 else s1) = some s → s.length = cor.length := by
      intro s hs
      cases s2 with
      | none => exact hl1 s (by simpa using hs)
      | some s' => exact hl2 s (by simpa using hs)
    simp only [normCorr, bind, Except.bind]
    generalize (if s2.isSome then s2 else s1) = s2' at hm2 hl2'
    obtain ⟨cc, hcc⟩ := hna (some count) cor.length rfl (by intro s hs; rw [← Option.some.inj hs]; exact hlc)
    rw [hcc]
    dsimp only
    have hof : z % 4 ≥ 2 → ∃ o, scaleFactor var = .ok o := by
      intro h
      obtain ⟨v, rfl⟩ := Option.isSome_iff_exists.mp (hv (Or.inr (Or.inr h)))
      exact ⟨_, scaleFactor_some v⟩
    have hQ : z % 4 ≥ 2 → ∃ q, needArray sq cor.length = .ok q := fun h => hna sq _ (hq h) hlq
    have h1' : z ≥ 4 → ∃ q, needArray s1 cor.length = .ok q := fun h => hna s1 _ (hm1 h) hl1
    have h2' : z ≥ 4 → ∃ q, needArray s2' cor.length = .ok q := fun h => hna s2' _ (hm2 h) hl2'
    interval_cases z <;>
        (try simp (decide := true) only [if_true, if_false, Int.reduceToNat]) <;> first
      | exact hfc _
      | (simp at h4; done)
      | (obtain ⟨hz1, hz2, hz3, hz4⟩ := hz; first | exact absurd rfl hz1 | exact absurd rfl hz2 | exact absurd rfl hz3 | exact absurd rfl hz4)
      | (obtain ⟨o, ho⟩ := hof (by decide)
         obtain ⟨q, hq⟩ := hQ (by decide)
         simp only [Int.reduceToNat, ho, hq]
         exact hfc _)
      | (obtain ⟨m1, hm1⟩ := h1' (by decide)
         obtain ⟨m2, hm2⟩ := h2' (by decide)
         simp only [Int.reduceToNat, hm1, hm2]
         exact hfc _)
      | (obtain ⟨m1, hm1⟩ := h1' (by decide)
         obtain ⟨m2, hm2⟩ := h2' (by decide)
         obtain ⟨o, ho⟩ := hof (by decide)
         obtain ⟨q, hq⟩ := hQ (by decide)
         simp only [Int.reduceToNat, ho, hq, hm1, hm2]
         exact hfc _)
  | diff dif count s1 s2 =>
    dsimp only
    obtain ⟨hlc, hl1, hl2⟩ := hlen
    obtain ⟨hc1, hc2⟩ := hl _ _ _ _ rfl
    obtain ⟨f1, hf1⟩ := Option.isSome_iff_exists.mp hc1
    obtain ⟨f3, hf3⟩ := Option.isSome_iff_exists.mp hc2
    have hfc : ∀ r : List (Option C), ∃ r', finishDiff ops var mode r = .ok r' := by
      intro r
      unfold finishDiff
      split
      · next hd =>
        obtain ⟨v, rfl⟩ := Option.isSome_iff_exists.mp (hv (Or.inr hd))
        exact ⟨_, by simp [scaleFactor_some, bind, Except.bind]; rfl⟩
      · exact ⟨_, rfl⟩
    obtain ⟨cc, hcc⟩ := hna (some count) dif.length rfl (by intro s hs; rw [← Option.some.inj hs]; exact hlc)
    simp only [normDiff, bind, Except.bind, hf1, hf3, needLoop, hcc]
    rcases hs with rfl | ⟨rfl, h1, h2⟩
    · exact hfc _
    · obtain ⟨m1, hm1⟩ := hna s1 dif.length h1 hl1
      obtain ⟨m2, hm2⟩ := hna s2 dif.length h2 hl2
      simp only [Int.reduceToNat, hm1, hm2]
      exact hfc _
  | other => exact absurd hs (by simp [Supports])

end

/-- Real data.  Unknown mode, unsupported norm, missing background or missing variance: ValueError. -/
theorem C28_rejects (data : NormData ℝ) (bg : Option Background) (var : Option Variance) (z : Int)
    (mode : String) (scale : Bool) (w : Option (List ℝ))
    (h : ¬ Complete data bg var z mode scale) :
    normalize normOpsR data bg var (some z) mode scale w = .error .valueError :=
  normalize_rejects normOpsR data bg var z mode scale w (fun _ _ _ _ _ => ⟨rfl, rfl⟩) h

/-- Complex correlation data. -/
theorem C28_rejects_complex (cor : List (Cx ℝ)) (count : List Nat) (sq : Option (List ℝ))
    (s1 s2 : Option (List (Cx ℝ))) (bg : Option Background) (var : Option Variance) (z : Int)
    (mode : String) (scale : Bool) (w : Option (List (Cx ℝ)))
    (h : ¬ Complete (.corr cor count sq s1 s2) bg var z mode scale) :
    normalize normOpsC (.corr cor count sq s1 s2) bg var (some z) mode scale w
      = .error .valueError :=
  normalize_rejects normOpsC _ bg var z mode scale w (by intro _ _ _ _ h; cases h) h

/-- So a result is never computed from absent entries, and never without what it depends on. -/
theorem C28_never_silent (data : NormData ℝ) (bg : Option Background) (var : Option Variance)
    (z : Int) (mode : String) (scale : Bool) (w : Option (List ℝ)) (r : List (Option ℝ) × Option (List ℝ))
    (h : normalize normOpsR data bg var (some z) mode scale w = .ok r) :
    Complete data bg var z mode scale := by
  by_contra hc
  rw [C28_rejects data bg var z mode scale w hc] at h
  cases h

/-- For a norm which is not weighted and arrays of equal lengths these are the only reasons to
refuse. -/
theorem C28_iff (data : NormData ℝ) (bg : Option Background) (var : Option Variance) (z : Int)
    (hz : z ≠ 3 ∧ z ≠ 7 ∧ z ≠ 11 ∧ z ≠ 15) (mode : String) (scale : Bool) (w : Option (List ℝ))
    (hlen : SameLengths data) :
    (∃ r, normalize normOpsR data bg var (some z) mode scale w = .ok r) ↔
      Complete data bg var z mode scale := by
  constructor
  · rintro ⟨r, h⟩
    exact C28_never_silent data bg var z mode scale w r h
  · intro h
    obtain ⟨r, hr⟩ := normalize_accepts normOpsR data bg var z hz mode scale w
      (fun _ _ _ _ _ => ⟨rfl, rfl⟩) hlen h
    exact ⟨_, hr⟩

theorem C28_iff_complex (cor : List (Cx ℝ)) (count : List Nat) (sq : Option (List ℝ))
    (s1 s2 : Option (List (Cx ℝ))) (bg : Option Background) (var : Option Variance) (z : Int)
    (hz : z ≠ 3 ∧ z ≠ 7 ∧ z ≠ 11 ∧ z ≠ 15)
    (mode : String) (scale : Bool) (w : Option (List (Cx ℝ)))
    (hlen : SameLengths (.corr cor count sq s1 s2)) :
    (∃ r, normalize normOpsC (.corr cor count sq s1 s2) bg var (some z) mode scale w = .ok r) ↔
      Complete (.corr cor count sq s1 s2) bg var z mode scale := by
  constructor
  · rintro ⟨r, h⟩
    by_contra hc
    rw [C28_rejects_complex _ _ _ _ _ bg var z mode scale w hc] at h
    cases h
  · intro h
    obtain ⟨r, hr⟩ := normalize_accepts normOpsC _ bg var z hz mode scale w
      (by intro _ _ _ _ h; cases h) hlen h
    exact ⟨_, hr⟩

/-- A structured norm of real data without sums of squares; without variance. -/
example : ¬ Complete (.corr [1, 2] [1, 1] none none none : NormData ℝ) (some (.one 0))
    (some (.one 1)) 2 "corr" false := by simp [Complete, Supports]
example : ¬ Complete (.corr [1, 2] [1, 1] (some [1, 1]) none none : NormData ℝ) (some (.one 0))
    none 2 "corr" false := by simp [Complete, Supports, NeedsVariance]
example : Complete (.corr [1, 2] [1, 1] (some [1, 1]) none none : NormData ℝ) (some (.one 0))
    (some (.one 1)) 2 "corr" true ∧ SameLengths (.corr [1, 2] [1, 1] (some [1, 1]) none none : NormData ℝ) := by
  simp [Complete, Supports, NeedsVariance, SameLengths]

/-- Without a norm, the default is used: everything the data support except compensation. -/
theorem C28_default (data : NormData ℝ) (bg : Option Background) (var : Option Variance)
    (mode : String) (scale : Bool) (w : Option (List ℝ)) :
    normalize normOpsR data bg var none mode scale w
        = normalize normOpsR data bg var (some (richestNorm data)) mode scale w ∧
      (data ≠ .other → Supports data (richestNorm data)) := by
  have e : normOf data none = normOf data (some (richestNorm data)) ∧
      (data ≠ .other → Supports data (richestNorm data)) := by
    cases data with
    | corr cor count sq s1 s2 =>
      simp only [normOf, richestNorm, Supports]
      generalize sq.isSome = a
      generalize s1.isSome = b
      refine ⟨?_, fun _ => ?_⟩ <;> revert a b <;> decide
    | diff dif count s1 s2 =>
      simp only [normOf, richestNorm, Supports]
      generalize s1.isSome = a
      generalize s2.isSome = b
      refine ⟨?_, fun _ => ?_⟩ <;> revert a b <;> decide
    | other => exact ⟨rfl, by simp⟩
  refine ⟨?_, e.2⟩
  simp only [normalize, e.1]

/-- Something that is neither a 4-tuple nor a 5-tuple is refused. -/
theorem C28_not_data (bg : Option Background) (var : Option Variance) (z : Option Int)
    (mode : String) (scale : Bool) (w : Option (List ℝ)) :
    normalize normOpsR .other bg var z mode scale w = .error .valueError := by
  cases z with
  | none =>
    rw [(C28_default _ _ _ _ _ _).1]
    exact C28_rejects _ _ _ _ _ _ _ (by simp [Complete, Supports])
  | some z => exact C28_rejects _ _ _ _ _ _ _ (by simp [Complete, Supports])

theorem normParts_error (ps : List (List Char)) (m : Nat) (e : PyErr)
    (h : normParts m ps = .error e) : e = .valueError := by
  induction ps generalizing m with
  | nil => simp [normParts] at h
  | cons p ps ih =>
    simp only [normParts] at h
    split at h
    · exact ih _ h
    · exact (Except.error.inj h).symm

/-- A norm given as a string: refused if the string is not a norm string, else the norm it names
(C20 says which strings name which norm). -/
theorem C28_string (data : NormData ℝ) (bg : Option Background) (var : Option Variance)
    (norm : List Char) (mode : String) (scale : Bool) (w : Option (List ℝ)) :
    (∀ e, normFromString norm = .error e →
      normalizeStr normOpsR data bg var norm mode scale w = .error .valueError) ∧
    (∀ z, normFromString norm = .ok z →
      normalizeStr normOpsR data bg var norm mode scale w
        = normalize normOpsR data bg var (some (z : Int)) mode scale w) := by
  constructor
  · intro e he
    have ee : e = .valueError := by
      simp only [normFromString, bind, Except.bind] at he
      split at he
      · next h => rw [← Except.error.inj he]; exact normParts_error _ _ _ h
      · cases he
    subst ee
    unfold normalizeStr inspectMode
    cases data with
    | other => rfl
    | corr =>
      simp only [bind, Except.bind]
      by_cases hm : mode = "corr" ∨ mode = "diff"
      · rw [if_pos hm]; dsimp only; rw [he]
      · rw [if_neg hm]
    | diff =>
      simp only [bind, Except.bind]
      by_cases hm : mode = "corr" ∨ mode = "diff"
      · rw [if_pos hm]; dsimp only; rw [he]
      · rw [if_neg hm]
  · intro z hz
    cases data with
    | other => rw [C28_not_data]; rfl
    | corr =>
      simp only [normalizeStr, normalize, inspectMode, bind, Except.bind]
      by_cases hm : mode = "corr" ∨ mode = "diff"
      · simp only [if_pos hm, hz]
      · simp only [if_neg hm]
    | diff =>
      simp only [normalizeStr, normalize, inspectMode, bind, Except.bind]
      by_cases hm : mode = "corr" ∨ mode = "diff"
      · simp only [if_pos hm, hz]
      · simp only [if_neg hm]

end Cddm
