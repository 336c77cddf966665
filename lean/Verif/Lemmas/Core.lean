import Verif.Model.Core
import Verif.Spec.Api
import Verif.Lemmas.RegularSum

/-! # Evaluation of the argument handling of `core.py` -/

namespace Cddm
open Spec

/-! ### Extremes of time arrays and the default length -/

theorem npMin_ok {t : List Int} (h : t ≠ []) :
    ∃ m, npMin t = .ok m ∧ m ∈ t ∧ ∀ a ∈ t, m ≤ a := by
  obtain ⟨m, hm⟩ : ∃ m, t.min? = some m := by
    rw [← Option.isSome_iff_exists, List.isSome_min?_iff]; exact h
  refine ⟨m, by simp [npMin, hm], List.min?_mem hm, fun a ha => ?_⟩
  exact (List.le_min?_iff hm).mp le_rfl a ha

theorem npMax_ok {t : List Int} (h : t ≠ []) :
    ∃ m, npMax t = .ok m ∧ m ∈ t ∧ ∀ a ∈ t, a ≤ m := by
  obtain ⟨m, hm⟩ : ∃ m, t.max? = some m := by
    rw [← Option.isSome_iff_exists, List.isSome_max?_iff]; exact h
  refine ⟨m, by simp [npMax, hm], List.max?_mem hm, fun a ha => ?_⟩
  exact (List.max?_le_iff hm).mp le_rfl a ha

theorem npMin_nil : npMin [] = .error .valueError := rfl
theorem npMax_nil : npMax [] = .error .valueError := rfl

theorem foldl_max_le (l : List Nat) (i : Nat) : i ≤ l.foldl max i ∧ ∀ a ∈ l, a ≤ l.foldl max i := by
  induction l generalizing i with
  | nil => simp
  | cons b l ih =>
    simp only [List.foldl_cons]
    have := ih (max i b)
    refine ⟨le_trans (le_max_left _ _) this.1, fun a ha => ?_⟩
    rcases List.mem_cons.mp ha with rfl | ha
    · exact le_trans (le_max_right _ _) this.1
    · exact this.2 a ha

theorem foldl_max_mem (l : List Nat) (i : Nat) : l.foldl max i = i ∨ l.foldl max i ∈ l := by
  induction l generalizing i with
  | nil => simp
  | cons b l ih =>
    simp only [List.foldl_cons]
    rcases ih (max i b) with h | h
    · rw [h]
      rcases le_total i b with h' | h'
      · right; simp [max_eq_right h']
      · left; exact max_eq_left h'
    · right; exact List.mem_cons_of_mem _ h

theorem fullLengthCross_ok (N : Nat) {t1 t2 : List Int} (h1 : t1 ≠ []) (h2 : t2 ≠ []) :
    fullLengthCross N (some (t1, t2)) = .ok (defaultN N (some t1) (some t2)) := by
  obtain ⟨a, ha, ham, hal⟩ := npMin_ok h1
  obtain ⟨b, hb, hbm, hbl⟩ := npMax_ok h1
  obtain ⟨c, hc, hcm, hcl⟩ := npMin_ok h2
  obtain ⟨d, hd, hdm, hdl⟩ := npMax_ok h2
  simp only [fullLengthCross, ha, hb, hc, hd]
  show Except.ok _ = _
  congr 1
  simp only [defaultN]
  set l := (t1.flatMap fun a => t2.map fun b => (b - a).natAbs) with hl
  have hmem : ∀ x ∈ t1, ∀ y ∈ t2, (y - x).natAbs ∈ l := by
    intro x hx y hy
    simp only [hl, List.mem_flatMap, List.mem_map]
    exact ⟨x, hx, y, hy, rfl⟩
  have hle := (foldl_max_le l 0).2
  have e1 := hle _ (hmem a ham d hdm)
  have e2 := hle _ (hmem b hbm c hcm)
  have g1 := hbl a ham
  have g2 := hdl c hcm
  have hub : ((l.foldl max 0 : Nat) : Int) ≤ max (d - a) (b - c) := by
    rcases foldl_max_mem l 0 with h | h
    · rw [h]; simp; omega
    · simp only [hl, List.mem_flatMap, List.mem_map] at h
      obtain ⟨x, hx, y, hy, hxy⟩ := h
      rw [← hl] at hxy
      rw [← hxy]
      have := hal x hx; have := hbl x hx; have := hcl y hy; have := hdl y hy
      omega
  omega

theorem fullLengthAuto_ok (N : Nat) {t : List Int} (h : t ≠ []) :
    fullLengthAuto N (some t) = .ok (defaultN N (some t) (some t)) := by
  rw [← fullLengthCross_ok N h h]
  obtain ⟨a, ha, -, hal⟩ := npMin_ok h
  obtain ⟨b, hb, hbm, hbl⟩ := npMax_ok h
  simp only [fullLengthAuto, fullLengthCross, ha, hb]
  show Except.ok _ = Except.ok _
  congr 2
  have := hal b hbm
  rw [max_self]; omega

/-! ### A common skeleton for the cross and auto functions -/

section
variable {M : Type} [Zero M]

/-- The skeleton shared by all cross functions. -/
def crossApi (N1 N2 : Nat) (t1 t2 : Option (List Int)) (n : Option Nat) (complex : Bool)
    (aout : Option (List M)) (kr : List M → Py (List M))
    (ki : List Int → List Int → List M → Py (List M)) : Py (List M) := do
  let (t, n) ← inspectCross N1 N2 t1 t2 n (aout.map List.length) complex
  let out ← defaultOut aout n complex
  match t with
  | none => kr out
  | some (t1, t2) => ki t1 t2 out

/-- The array the kernels start from. -/
def startOut (aout : Option (List M)) (L : Nat) : List M := aout.getD (List.replicate L 0)

theorem startOut_length (n : Option Nat) (aout : Option (List M)) (D : Nat) :
    (startOut aout (outLen n aout D)).length = outLen n aout D := by
  cases aout <;> simp [startOut, outLen]

theorem startOut_length_full (n : Option Nat) (aout : Option (List M)) (D : Nat) :
    (startOut aout (outLenFull n aout D)).length = outLenFull n aout D := by
  cases aout <;> simp [startOut, outLenFull]

theorem startOut_get (aout : Option (List M)) (L k : Nat) (h : k < (startOut aout L).length) :
    (startOut aout L)[k] = start aout k := by
  cases aout with
  | none => simp [startOut, start]
  | some o =>
    simp only [startOut, Option.getD_some] at h
    simp [startOut, start, h]

theorem inspectCross_none (N : Nat) (n L : Option Nat) (full : Bool) :
    inspectCross N N none none n L full = .ok (none,
      n.getD (match L with | some L => if full then (L + 1) / 2 else L | none => N)) := by
  cases n <;> cases L <;> simp [inspectCross, fullLengthCross, bind, Except.bind]

theorem inspectCross_some (N : Nat) {a b : List Int} (ha : a ≠ []) (hb : b ≠ [])
    (n L : Option Nat) (full : Bool) :
    ∃ c : Int, inspectCross N N (some a) (some b) n L full = .ok (some (a.map (· - c), b.map (· - c)),
      n.getD (match L with
        | some L => if full then (L + 1) / 2 else L
        | none => defaultN N (some a) (some b))) := by
  obtain ⟨m1, h1, -, -⟩ := npMin_ok ha
  obtain ⟨m2, h2, -, -⟩ := npMin_ok hb
  refine ⟨min m1 m2, ?_⟩
  cases n <;> cases L <;>
    simp [inspectCross, bind, Except.bind, h1, h2, fullLengthCross_ok N ha hb]

theorem inspectCross_some' (N : Nat) {a b : List Int} (ha : a ≠ []) (hb : b ≠ [])
    (n L : Option Nat) (full : Bool) :
    ∃ c : Int, (∀ x ∈ a, c ≤ x) ∧ (∀ x ∈ b, c ≤ x) ∧ (c ∈ a ∨ c ∈ b) ∧
      inspectCross N N (some a) (some b) n L full = .ok (some (a.map (· - c), b.map (· - c)),
      n.getD (match L with
        | some L => if full then (L + 1) / 2 else L
        | none => defaultN N (some a) (some b))) := by
  obtain ⟨m1, h1, h1m, h1l⟩ := npMin_ok ha
  obtain ⟨m2, h2, h2m, h2l⟩ := npMin_ok hb
  refine ⟨min m1 m2, ?_, ?_, ?_, ?_⟩
  · intro x hx; have := h1l x hx; omega
  · intro x hx; have := h2l x hx; omega
  · rcases min_choice m1 m2 with h | h <;> rw [h]
    · exact Or.inl h1m
    · exact Or.inr h2m
  · cases n <;> cases L <;>
      simp [inspectCross, bind, Except.bind, h1, h2, fullLengthCross_ok N ha hb]

theorem inspectAuto_none (N : Nat) (n L : Option Nat) :
    inspectAuto N none n L = .ok (none, n.getD (L.getD N)) := by
  cases n <;> cases L <;> simp [inspectAuto, fullLengthAuto, bind, Except.bind]

theorem inspectAuto_some (N : Nat) {a : List Int} (ha : a ≠ []) (n L : Option Nat) :
    ∃ c : Int, inspectAuto N (some a) n L
      = .ok (some (a.map (· - c)), n.getD (L.getD (defaultN N (some a) (some a)))) := by
  obtain ⟨m1, h1, -, -⟩ := npMin_ok ha
  refine ⟨m1, ?_⟩
  cases n <;> cases L <;> simp [inspectAuto, bind, Except.bind, h1, fullLengthAuto_ok N ha]

theorem defaultOut_real (n : Option Nat) (aout : Option (List M)) (D : Nat) (full : Bool) :
    defaultOut aout (n.getD (match aout.map List.length with
      | some L => if full then (L + 1) / 2 else L | none => D)) false
      = .ok (startOut aout (outLen n aout D)) := by
  cases aout <;> cases n <;> simp [defaultOut, startOut, outLen]

theorem defaultOut_auto (n : Option Nat) (aout : Option (List M)) (D : Nat) :
    defaultOut aout (n.getD ((aout.map List.length).getD D)) false
      = .ok (startOut aout (outLen n aout D)) := by
  cases aout <;> cases n <;> simp [defaultOut, startOut, outLen]

theorem defaultOut_full (n : Option Nat) (aout : Option (List M)) (D : Nat)
    (h : outLenFull n aout D % 2 = 1) :
    defaultOut aout (n.getD (match aout.map List.length with
      | some L => if true then (L + 1) / 2 else L | none => D)) true
      = .ok (startOut aout (outLenFull n aout D)) := by
  cases aout <;> cases n <;> simp [defaultOut, startOut, outLenFull] at h ⊢ <;> omega

/-- The skeleton shared by all auto functions. -/
def autoApi (N : Nat) (t : Option (List Int)) (n : Option Nat)
    (aout : Option (List M)) (kr : List M → Py (List M))
    (ki : List Int → List M → Py (List M)) : Py (List M) := do
  let (t, n) ← inspectAuto N t n (aout.map List.length)
  let out ← defaultOut aout n false
  match t with
  | none => kr out
  | some t => ki t out

/-! ### Rejection -/

omit [Zero M] in
/-- The argument inspection raises nothing but ValueError. -/
theorem inspectCross_error {N1 N2 : Nat} {t1 t2 : Option (List Int)} {n L : Option Nat}
    {full : Bool} {e : PyErr} (h : inspectCross N1 N2 t1 t2 n L full = .error e) :
    e = .valueError := by
  rcases t1 with _ | t1 <;> rcases t2 with _ | t2
  · by_cases hN : N1 = N2
    · subst hN
      rw [inspectCross_none] at h
      simp at h
    · simpa [inspectCross, hN, bind, Except.bind, eq_comm] using h
  · simpa [inspectCross, bind, Except.bind, eq_comm] using h
  · simpa [inspectCross, bind, Except.bind, eq_comm] using h
  · by_cases hN : N1 = N2
    · subst hN
      by_cases ha : t1 = []
      · subst ha
        cases n <;> cases L <;>
          simpa [inspectCross, bind, Except.bind, fullLengthCross, npMin_nil, eq_comm] using h
      by_cases hb : t2 = []
      · subst hb
        obtain ⟨m1, h1, -, -⟩ := npMin_ok ha
        obtain ⟨m2, h2, -, -⟩ := npMax_ok ha
        cases n <;> cases L <;>
          simpa [inspectCross, bind, Except.bind, fullLengthCross, npMin_nil, h1, h2, eq_comm]
            using h
      obtain ⟨c, hc⟩ := inspectCross_some N1 ha hb n L full
      rw [hc] at h
      simp at h
    · simpa [inspectCross, hN, bind, Except.bind, eq_comm] using h

theorem crossApi_reject (N1 N2 : Nat) (t1 t2 : Option (List Int)) (n : Option Nat) (cx : Bool)
    (aout : Option (List M)) (kr : List M → Py (List M))
    (ki : List Int → List Int → List M → Py (List M))
    (hv : ¬ ValidCross N1 N2 t1 t2)
    (hi : ∀ a b out, a.length ≠ N1 ∨ b.length ≠ N2 → ki a b out = .error .valueError) :
    crossApi N1 N2 t1 t2 n cx aout kr ki = .error .valueError := by
  unfold crossApi
  rcases t1 with _ | a <;> rcases t2 with _ | b <;> simp only [ValidCross] at hv
  · simp [inspectCross, hv, bind, Except.bind]
  · simp [inspectCross, bind, Except.bind]
  · simp [inspectCross, bind, Except.bind]
  · by_cases hN : N1 = N2
    · subst hN
      by_cases ha : a = []
      · subst ha
        cases n <;> rcases aout with _ | o <;>
          simp [inspectCross, bind, Except.bind, fullLengthCross, npMin_nil]
      by_cases hb : b = []
      · subst hb
        obtain ⟨m1, h1, -, -⟩ := npMin_ok ha
        obtain ⟨m2, h2, -, -⟩ := npMax_ok ha
        cases n <;> rcases aout with _ | o <;>
          simp [inspectCross, bind, Except.bind, fullLengthCross, npMin_nil, h1, h2]
      obtain ⟨c, hc⟩ := inspectCross_some N1 ha hb n (aout.map List.length) cx
      rw [hc]
      simp only [bind, Except.bind]
      rcases hd : defaultOut aout _ cx with e | out
      · simp only
        simp only [defaultOut] at hd
        split at hd
        · simp at hd
        · split_ifs at hd
          simp_all
      · simp only
        apply hi
        simp only [List.length_map]
        by_contra hcon
        push Not at hcon
        have : N1 ≠ 0 := by
          rw [← hcon.1]; simpa using ha
        exact hv ⟨rfl, hcon.1, hcon.2, this⟩
    · simp [inspectCross, hN, bind, Except.bind]

theorem autoApi_reject (N : Nat) (t : Option (List Int)) (n : Option Nat)
    (aout : Option (List M)) (kr : List M → Py (List M)) (ki : List Int → List M → Py (List M))
    (hv : ¬ ValidAuto N t)
    (hi : ∀ a out, a.length ≠ N → ki a out = .error .valueError) :
    autoApi N t n aout kr ki = .error .valueError := by
  unfold autoApi
  rcases t with _ | a
  · simp [ValidAuto] at hv
  · by_cases ha : a = []
    · subst ha
      cases n <;> rcases aout with _ | o <;>
        simp [inspectAuto, bind, Except.bind, fullLengthAuto, npMin_nil]
    obtain ⟨c, hc⟩ := inspectAuto_some N ha n (aout.map List.length)
    rw [hc]
    simp only [bind, Except.bind]
    rw [defaultOut_auto]
    simp only
    apply hi
    simp only [List.length_map]
    intro hcon
    apply hv
    refine ⟨hcon, ?_⟩
    rw [← hcon]; simpa using ha

end

section
variable {M : Type} [AddCommMonoid M]

theorem crossApi_real (N1 N2 : Nat) (t1 t2 : Option (List Int)) (n : Option Nat)
    (aout : Option (List M)) (kr : List M → Py (List M))
    (ki : List Int → List Int → List M → Py (List M)) (δ : Nat → M)
    (hv : ValidCross N1 N2 t1 t2)
    (hr : t1 = none → ∀ out : List M, out.length = outLen n aout (defaultN N1 t1 t2) →
      kr out = .ok (addSeq out δ))
    (hi : ∀ (c : Int) a b, t1 = some a → t2 = some b → ∀ out : List M,
      ki (a.map (· - c)) (b.map (· - c)) out = .ok (addSeq out δ)) :
    crossApi N1 N2 t1 t2 n false aout kr ki
      = .ok (addSeq (startOut aout (outLen n aout (defaultN N1 t1 t2))) δ) := by
  unfold crossApi
  rcases t1 with _ | a <;> rcases t2 with _ | b <;> simp only [ValidCross] at hv
  · subst hv
    rw [inspectCross_none]
    simp only [bind, Except.bind]
    rw [defaultOut_real]
    exact hr rfl _ (startOut_length _ _ _)
  · obtain ⟨rfl, h1, h2, h0⟩ := hv
    obtain ⟨c, hc⟩ := inspectCross_some (a := a) (b := b) N1
      (by rintro rfl; simp at h1; omega) (by rintro rfl; simp at h2; omega) n
      (aout.map List.length) false
    rw [hc]
    simp only [bind, Except.bind]
    rw [defaultOut_real]
    exact hi c a b rfl rfl _

theorem crossApi_full (N1 N2 : Nat) (t1 t2 : Option (List Int)) (n : Option Nat)
    (aout : Option (List M)) (kr : List M → Py (List M))
    (ki : List Int → List Int → List M → Py (List M)) (δ : Nat → M)
    (hv : ValidCross N1 N2 t1 t2)
    (hodd : outLenFull n aout (defaultN N1 t1 t2) % 2 = 1)
    (hr : t1 = none → ∀ out : List M, out.length = outLenFull n aout (defaultN N1 t1 t2) →
      kr out = .ok (addSeq out δ))
    (hi : ∀ (c : Int) a b, t1 = some a → t2 = some b → ∀ out : List M,
      out.length = outLenFull n aout (defaultN N1 t1 t2) →
      ki (a.map (· - c)) (b.map (· - c)) out = .ok (addSeq out δ)) :
    crossApi N1 N2 t1 t2 n true aout kr ki
      = .ok (addSeq (startOut aout (outLenFull n aout (defaultN N1 t1 t2))) δ) := by
  unfold crossApi
  rcases t1 with _ | a <;> rcases t2 with _ | b <;> simp only [ValidCross] at hv
  · subst hv
    have hd := defaultOut_full n aout N1 hodd
    rw [inspectCross_none]
    simp only [bind, Except.bind, if_true] at hd ⊢
    rw [hd]
    exact hr rfl _ (startOut_length_full _ _ _)
  · obtain ⟨rfl, h1, h2, h0⟩ := hv
    obtain ⟨c, hc⟩ := inspectCross_some (a := a) (b := b) N1
      (by rintro rfl; simp at h1; omega) (by rintro rfl; simp at h2; omega) n
      (aout.map List.length) true
    have hd := defaultOut_full n aout _ hodd
    rw [hc]
    simp only [bind, Except.bind, if_true] at hd ⊢
    rw [hd]
    exact hi c a b rfl rfl _ (startOut_length_full _ _ _)

theorem autoApi_eq (N : Nat) (t : Option (List Int)) (n : Option Nat)
    (aout : Option (List M)) (kr : List M → Py (List M))
    (ki : List Int → List M → Py (List M)) (δ : Nat → M)
    (hv : ValidAuto N t)
    (hr : t = none → ∀ out : List M, out.length = outLen n aout (defaultN N t t) →
      kr out = .ok (addSeq out δ))
    (hi : ∀ (c : Int) a, t = some a → ∀ out : List M,
      ki (a.map (· - c)) out = .ok (addSeq out δ)) :
    autoApi N t n aout kr ki
      = .ok (addSeq (startOut aout (outLen n aout (defaultN N t t))) δ) := by
  unfold autoApi
  rcases t with _ | a
  · rw [inspectAuto_none]
    simp only [bind, Except.bind]
    rw [defaultOut_auto]
    exact hr rfl _ (startOut_length _ _ _)
  · obtain ⟨h1, h0⟩ := hv
    obtain ⟨c, hc⟩ := inspectAuto_some (a := a) N (by rintro rfl; simp at h1; omega) n
      (aout.map List.length)
    rw [hc]
    simp only [bind, Except.bind]
    rw [defaultOut_auto]
    exact hi c a rfl _

end
end Cddm
