import Verif.Lemmas.Rounding
import Mathlib.Algebra.Order.Group.Abs
import Mathlib.Algebra.Order.Ring.Abs
import Mathlib.Tactic.Ring
import Mathlib.Tactic.Linarith
import Mathlib.Tactic.GCongr

/-!
# The functions of `core.py` over any arithmetic, and the calculus of rounding errors
-/

namespace Cddm
open Spec

section api
variable {M N : Type} [Zero M] [AddCommMonoid N] {Q : M → N → Prop}

theorem run_tracks {L : Nat} {f : List M → Option (List M)} {δ : Nat → N} (h : Tracks Q L f δ) (aout : Option (List M))
    (hL : (startOut aout L).length = L) (s : Nat → N) (hs : ∀ k, k < L → Q (start aout k) (s k)) :
    ∃ out, orUB (f (startOut aout L)) = .ok out ∧ out.length = L ∧ ∀ k (hk : k < out.length), Q out[k] (s k + δ k) := by
  obtain ⟨out, h1, h2, h3⟩ := h _ s hL fun k hk => by
    rw [startOut_get]
    exact hs k (hL ▸ hk)
  exact ⟨out, by rw [h1]; rfl, h2, h3⟩

theorem crossApi_tracks (N1 N2 : Nat) (t1 t2 : Option (List Int)) (n : Option Nat) (aout : Option (List M))
    (kr : List M → Py (List M)) (ki : List Int → List Int → List M → Py (List M)) (δ : Nat → N) (s : Nat → N)
    (hv : ValidCross N1 N2 t1 t2) (hs : ∀ k, k < outLen n aout (defaultN N1 t1 t2) → Q (start aout k) (s k))
    (hr : t1 = none → ∃ f, Tracks Q (outLen n aout (defaultN N1 t1 t2)) f δ ∧ ∀ out, kr out = orUB (f out))
    (hi : ∀ (c : Int) a b, t1 = some a → t2 = some b → ∃ f, Tracks Q (outLen n aout (defaultN N1 t1 t2)) f δ ∧
      ∀ out, ki (a.map (· - c)) (b.map (· - c)) out = orUB (f out)) :
    ∃ out, crossApi N1 N2 t1 t2 n false aout kr ki = .ok out ∧ out.length = outLen n aout (defaultN N1 t1 t2) ∧
      ∀ k (hk : k < out.length), Q out[k] (s k + δ k) := by
  unfold crossApi
  rcases t1 with _ | a <;> rcases t2 with _ | b <;> simp only [ValidCross] at hv
  · subst hv
    obtain ⟨f, hf, e⟩ := hr rfl
    rw [inspectCross_none]
    simp only [bind, Except.bind]
    rw [defaultOut_real]
    simp only [e]
    exact run_tracks hf aout (startOut_length _ _ _) s hs
  · obtain ⟨rfl, h1, h2, h0⟩ := hv
    obtain ⟨c, hc⟩ := inspectCross_some (a := a) (b := b) N1
      (by rintro rfl; simp at h1; omega) (by rintro rfl; simp at h2; omega) n
      (aout.map List.length) false
    obtain ⟨f, hf, e⟩ := hi c a b rfl rfl
    rw [hc]
    simp only [bind, Except.bind]
    rw [defaultOut_real]
    simp only [e]
    exact run_tracks hf aout (startOut_length _ _ _) s hs

theorem crossApi_tracks_full (N1 N2 : Nat) (t1 t2 : Option (List Int)) (n : Option Nat) (aout : Option (List M))
    (kr : List M → Py (List M)) (ki : List Int → List Int → List M → Py (List M)) (δ : Nat → N) (s : Nat → N)
    (hv : ValidCross N1 N2 t1 t2) (hodd : outLenFull n aout (defaultN N1 t1 t2) % 2 = 1)
    (hs : ∀ k, k < outLenFull n aout (defaultN N1 t1 t2) → Q (start aout k) (s k))
    (hr : t1 = none → ∃ f, Tracks Q (outLenFull n aout (defaultN N1 t1 t2)) f δ ∧ ∀ out, kr out = orUB (f out))
    (hi : ∀ (c : Int) a b, t1 = some a → t2 = some b → ∃ f, Tracks Q (outLenFull n aout (defaultN N1 t1 t2)) f δ ∧
      ∀ out, ki (a.map (· - c)) (b.map (· - c)) out = orUB (f out)) :
    ∃ out, crossApi N1 N2 t1 t2 n true aout kr ki = .ok out ∧ out.length = outLenFull n aout (defaultN N1 t1 t2) ∧
      ∀ k (hk : k < out.length), Q out[k] (s k + δ k) := by
  unfold crossApi
  rcases t1 with _ | a <;> rcases t2 with _ | b <;> simp only [ValidCross] at hv
  · subst hv
    have hd := defaultOut_full n aout N1 hodd
    obtain ⟨f, hf, e⟩ := hr rfl
    rw [inspectCross_none]
    simp only [bind, Except.bind, if_true] at hd ⊢
    rw [hd]
    simp only [e]
    exact run_tracks hf aout (startOut_length_full _ _ _) s hs
  · obtain ⟨rfl, h1, h2, h0⟩ := hv
    obtain ⟨c, hc⟩ := inspectCross_some (a := a) (b := b) N1
      (by rintro rfl; simp at h1; omega) (by rintro rfl; simp at h2; omega) n
      (aout.map List.length) true
    have hd := defaultOut_full n aout _ hodd
    obtain ⟨f, hf, e⟩ := hi c a b rfl rfl
    rw [hc]
    simp only [bind, Except.bind, if_true] at hd ⊢
    rw [hd]
    simp only [e]
    exact run_tracks hf aout (startOut_length_full _ _ _) s hs

theorem autoApi_tracks (N' : Nat) (t : Option (List Int)) (n : Option Nat) (aout : Option (List M))
    (kr : List M → Py (List M)) (ki : List Int → List M → Py (List M)) (δ : Nat → N) (s : Nat → N)
    (hv : ValidAuto N' t) (hs : ∀ k, k < outLen n aout (defaultN N' t t) → Q (start aout k) (s k))
    (hr : t = none → ∃ f, Tracks Q (outLen n aout (defaultN N' t t)) f δ ∧ ∀ out, kr out = orUB (f out))
    (hi : ∀ (c : Int) a, t = some a → ∃ f, Tracks Q (outLen n aout (defaultN N' t t)) f δ ∧
      ∀ out, ki (a.map (· - c)) out = orUB (f out)) :
    ∃ out, autoApi N' t n aout kr ki = .ok out ∧ out.length = outLen n aout (defaultN N' t t) ∧
      ∀ k (hk : k < out.length), Q out[k] (s k + δ k) := by
  unfold autoApi
  rcases t with _ | a
  · obtain ⟨f, hf, e⟩ := hr rfl
    rw [inspectAuto_none]
    simp only [bind, Except.bind]
    rw [defaultOut_auto]
    simp only [e]
    exact run_tracks hf aout (startOut_length _ _ _) s hs
  · obtain ⟨h1, h0⟩ := hv
    obtain ⟨c, hc⟩ := inspectAuto_some (a := a) N' (by rintro rfl; simp at h1; omega) n
      (aout.map List.length)
    obtain ⟨f, hf, e⟩ := hi c a rfl
    rw [hc]
    simp only [bind, Except.bind]
    rw [defaultOut_auto]
    simp only [e]
    exact run_tracks hf aout (startOut_length _ _ _) s hs

end api

section functions
variable {R N : Type} [Zero R] [Add R] [Sub R] [Neg R] [Mul R] [AddCommMonoid N] {Q : R → N → Prop}

theorem crossCorrelate_tracks (f1 f2 : List (Cx R)) (t1 t2 : Option (List Int)) (n : Option Nat)
    (aligned : Bool) (aout : Option (List R)) (hv : ValidCross f1.length f2.length t1 t2)
    (hfast : t1 = none → aligned = true → outLen n aout f1.length ≤ f1.length + 1)
    (g : Cx R → Cx R → N) (hs1 : ∀ a ∈ f1, ∀ b ∈ f2, Steps Q (termRe a b) (g a b))
    (hs2 : ∀ a ∈ f1, ∀ b ∈ f2, Steps Q (termRe b a) (g a b)) (s : Nat → N) (hs : ∀ k, Q (start aout k) (s k)) :
    ∃ out, crossCorrelate f1 f2 t1 t2 n aligned aout = .ok out
      ∧ out.length = outLen n aout (defaultN f1.length t1 t2)
      ∧ ∀ k (hk : k < out.length), Q out[k] (s k + pairSum g (stream f1 t1) (stream f2 t2) k) := by
  refine crossApi_tracks f1.length f2.length t1 t2 n aout _ _ _ s hv (fun k _ => hs k) ?_ ?_
  · rintro rfl
    rcases t2 with _ | b
    · simp only [ValidCross] at hv
      cases aligned
      · refine ⟨_, ?_, fun out => rfl⟩
        have := crossCorr_tracks (Q := Q) (L := outLen n aout f1.length) f1 f2 (arange f1.length) (arange f1.length) g
          (arange_length _) (by rw [arange_length, hv]) hs1
        rw [arange_zip, hv, arange_zip, ← hv] at this
        exact this
      · exact ⟨_, crossCorrRegular_tracks f1 f2 g hv (hfast rfl rfl) hs1 hs2, fun out => rfl⟩
    · simp [ValidCross] at hv
  · rintro c a b rfl rfl
    simp only [ValidCross] at hv
    obtain ⟨h, h1, h2, -⟩ := hv
    refine ⟨fun out => crossCorr f1 f2 (a.map (· - c)) (b.map (· - c)) out, ?_, fun out => ?_⟩
    · refine (crossCorr_tracks f1 f2 _ _ g (by simp [h1]) (by simp [h2]) hs1).congr fun k _ => ?_
      rw [zip_map_sub, zip_map_sub, pairSum_shift]
      rfl
    · simp only [List.length_map, h1, h2, and_self, decide_true, checkDims, if_true]
      rfl

theorem crossDifference_tracks (f1 f2 : List (Cx R)) (t1 t2 : Option (List Int)) (n : Option Nat)
    (aligned : Bool) (aout : Option (List R)) (hv : ValidCross f1.length f2.length t1 t2)
    (hfast : t1 = none → aligned = true → outLen n aout f1.length ≤ f1.length + 1)
    (g : Cx R → Cx R → N) (hs1 : ∀ a ∈ f1, ∀ b ∈ f2, Steps Q (termDiff a b) (g a b))
    (s : Nat → N) (hs : ∀ k, Q (start aout k) (s k)) :
    ∃ out, crossDifference f1 f2 t1 t2 n aligned aout = .ok out
      ∧ out.length = outLen n aout (defaultN f1.length t1 t2)
      ∧ ∀ k (hk : k < out.length), Q out[k] (s k + pairSum g (stream f1 t1) (stream f2 t2) k) := by
  refine crossApi_tracks f1.length f2.length t1 t2 n aout _ _ _ s hv (fun k _ => hs k) ?_ ?_
  · rintro rfl
    rcases t2 with _ | b
    · simp only [ValidCross] at hv
      cases aligned
      · refine ⟨_, ?_, fun out => rfl⟩
        have := crossDiff_tracks (Q := Q) (L := outLen n aout f1.length) f1 f2 (arange f1.length) (arange f1.length) g
          (arange_length _) (by rw [arange_length, hv]) hs1
        rw [arange_zip, hv, arange_zip, ← hv] at this
        exact this
      · exact ⟨_, crossDiffRegular_tracks f1 f2 g hv (hfast rfl rfl) hs1, fun out => rfl⟩
    · simp [ValidCross] at hv
  · rintro c a b rfl rfl
    simp only [ValidCross] at hv
    obtain ⟨h, h1, h2, -⟩ := hv
    refine ⟨fun out => crossDiff f1 f2 (a.map (· - c)) (b.map (· - c)) out, ?_, fun out => ?_⟩
    · refine (crossDiff_tracks f1 f2 _ _ g (by simp [h1]) (by simp [h2]) hs1).congr fun k _ => ?_
      rw [zip_map_sub, zip_map_sub, pairSum_shift]
      rfl
    · simp only [List.length_map, h1, h2, and_self, decide_true, checkDims, if_true]
      rfl

theorem crossCorrelateComplex_tracks {Q : Cx R → N → Prop} (f1 f2 : List (Cx R)) (t1 t2 : Option (List Int)) (n : Option Nat)
    (aligned : Bool) (aout : Option (List (Cx R))) (hv : ValidCross f1.length f2.length t1 t2)
    (hodd : outLenFull n aout (defaultN f1.length t1 t2) % 2 = 1)
    (hfast : t1 = none → aligned = true → (outLenFull n aout f1.length + 1) / 2 ≤ f1.length + 1)
    (g : Cx R → Cx R → N) (hs1 : ∀ a ∈ f1, ∀ b ∈ f2, Steps Q (a.conj * b) (g a b))
    (hs2 : ∀ a ∈ f1, ∀ b ∈ f2, Steps Q (b * a.conj) (g a b)) (s : Nat → N) (hs : ∀ k, Q (start aout k) (s k)) :
    ∃ out, crossCorrelateComplex f1 f2 t1 t2 n aligned aout = .ok out
      ∧ out.length = outLenFull n aout (defaultN f1.length t1 t2)
      ∧ ∀ k (hk : k < out.length), Q out[k] (s k + pairSumAt g (stream f1 t1) (stream f2 t2) (cellDelay out.length k)) := by
  suffices h : ∃ out, crossCorrelateComplex f1 f2 t1 t2 n aligned aout = .ok out
      ∧ out.length = outLenFull n aout (defaultN f1.length t1 t2)
      ∧ ∀ k (hk : k < out.length), Q out[k] (s k + pairSumAt g (stream f1 t1) (stream f2 t2)
        (cellDelay (outLenFull n aout (defaultN f1.length t1 t2)) k)) by
    obtain ⟨out, h1, h2, h3⟩ := h
    exact ⟨out, h1, h2, fun k hk => by rw [h2]; exact h3 k hk⟩
  refine crossApi_tracks_full f1.length f2.length t1 t2 n aout _ _ _ s hv hodd (fun k _ => hs k) ?_ ?_
  · rintro rfl
    rcases t2 with _ | b
    · simp only [ValidCross] at hv
      cases aligned
      · refine ⟨_, ?_, fun out => rfl⟩
        have := crossCorrComplex_tracks (Q := Q) (L := outLenFull n aout f1.length) f1 f2 (arange f1.length)
          (arange f1.length) g (arange_length _) (by rw [arange_length, hv]) hodd hs1
        rw [arange_zip, hv, arange_zip, ← hv] at this
        exact this
      · exact ⟨_, crossCorrComplexRegular_tracks f1 f2 g hv hodd (hfast rfl rfl) hs2, fun out => rfl⟩
    · simp [ValidCross] at hv
  · rintro c a b rfl rfl
    simp only [ValidCross] at hv
    obtain ⟨h, h1, h2, -⟩ := hv
    refine ⟨fun out => crossCorrComplex f1 f2 (a.map (· - c)) (b.map (· - c)) out, ?_, fun out => ?_⟩
    · refine (crossCorrComplex_tracks f1 f2 _ _ g (by simp [h1]) (by simp [h2]) hodd hs1).congr fun k _ => ?_
      rw [zip_map_sub, zip_map_sub, pairSumAt_shift]
      rfl
    · simp only [List.length_map, h1, h2, and_self, decide_true, checkDims, if_true]
      rfl

theorem autoCorrelate_tracks (f : List (Cx R)) (t : Option (List Int)) (n : Option Nat)
    (aligned : Bool) (aout : Option (List R)) (hv : ValidAuto f.length t)
    (g : Cx R → Cx R → N) (hs1 : ∀ a ∈ f, ∀ b ∈ f, Steps Q (termRe a b) (g a b))
    (hs2 : ∀ a ∈ f, ∀ b ∈ f, Steps Q (termRe b a) (g a b)) (s : Nat → N) (hs : ∀ k, Q (start aout k) (s k)) :
    ∃ out, autoCorrelate f t n aligned aout = .ok out ∧ out.length = outLen n aout (defaultN f.length t t)
      ∧ ∀ k (hk : k < out.length), Q out[k] (s k + selfSum g (stream f t) k) := by
  refine autoApi_tracks f.length t n aout _ _ _ s hv (fun k _ => hs k) ?_ ?_
  · rintro rfl
    cases aligned
    · refine ⟨_, ?_, fun out => rfl⟩
      have := autoCorr_tracks (Q := Q) (L := outLen n aout f.length) f (arange f.length) g (arange_length _) hs1
      rw [arange_zip] at this
      exact this
    · exact ⟨_, autoCorrRegular_tracks f g hs2, fun out => rfl⟩
  · rintro c a rfl
    simp only [ValidAuto] at hv
    refine ⟨fun out => autoCorr f (a.map (· - c)) out, ?_, fun out => ?_⟩
    · refine (autoCorr_tracks f _ g (by simp [hv.1]) hs1).congr fun k _ => ?_
      rw [zip_map_sub, selfSum_shift]
      rfl
    · simp only [List.length_map, hv.1, decide_true, checkDims, if_true]
      rfl

theorem autoDifference_tracks (f : List (Cx R)) (t : Option (List Int)) (n : Option Nat)
    (aligned : Bool) (aout : Option (List R)) (hv : ValidAuto f.length t)
    (g : Cx R → Cx R → N) (hs1 : ∀ a ∈ f, ∀ b ∈ f, Steps Q (termDiff a b) (g a b))
    (s : Nat → N) (hs : ∀ k, Q (start aout k) (s k)) :
    ∃ out, autoDifference f t n aligned aout = .ok out ∧ out.length = outLen n aout (defaultN f.length t t)
      ∧ ∀ k (hk : k < out.length), Q out[k] (s k + selfSum g (stream f t) k) := by
  refine autoApi_tracks f.length t n aout _ _ _ s hv (fun k _ => hs k) ?_ ?_
  · rintro rfl
    cases aligned
    · refine ⟨_, ?_, fun out => rfl⟩
      have := autoDiff_tracks (Q := Q) (L := outLen n aout f.length) f (arange f.length) g (arange_length _) hs1
      rw [arange_zip] at this
      exact this
    · exact ⟨_, autoDiffRegular_tracks f g hs1, fun out => rfl⟩
  · rintro c a rfl
    simp only [ValidAuto] at hv
    refine ⟨fun out => autoDiff f (a.map (· - c)) out, ?_, fun out => ?_⟩
    · refine (autoDiff_tracks f _ g (by simp [hv.1]) hs1).congr fun k _ => ?_
      rw [zip_map_sub, selfSum_shift]
      rfl
    · simp only [List.length_map, hv.1, decide_true, checkDims, if_true]
      rfl

theorem autoCorrelateComplex_tracks {Q : Cx R → N → Prop} (f : List (Cx R)) (t : Option (List Int)) (n : Option Nat)
    (aligned : Bool) (aout : Option (List (Cx R))) (hv : ValidAuto f.length t)
    (hfast : t = none → aligned = true → outLen n aout f.length ≤ f.length + 1)
    (g : Cx R → Cx R → N) (hs1 : ∀ a ∈ f, ∀ b ∈ f, Steps Q (a.conj * b) (g a b))
    (hs2 : ∀ a ∈ f, ∀ b ∈ f, Steps Q (b * a.conj) (g a b)) (s : Nat → N) (hs : ∀ k, Q (start aout k) (s k)) :
    ∃ out, autoCorrelateComplex f t n aligned aout = .ok out ∧ out.length = outLen n aout (defaultN f.length t t)
      ∧ ∀ k (hk : k < out.length), Q out[k] (s k + selfSumFwd g (stream f t) k) := by
  refine autoApi_tracks f.length t n aout _ _ _ s hv (fun k _ => hs k) ?_ ?_
  · rintro rfl
    cases aligned
    · refine ⟨_, ?_, fun out => rfl⟩
      have := autoCorrComplex_tracks (Q := Q) (L := outLen n aout f.length) f (arange f.length) g (arange_length _) hs1
        (fun a ha b hb => hs2 b hb a ha)
      rw [arange_zip] at this
      exact this
    · exact ⟨_, autoCorrComplexRegular_tracks f g (hfast rfl rfl) hs2, fun out => rfl⟩
  · rintro c a rfl
    simp only [ValidAuto] at hv
    refine ⟨fun out => autoCorrComplex f (a.map (· - c)) out, ?_, fun out => ?_⟩
    · refine (autoCorrComplex_tracks f _ g (by simp [hv.1]) hs1 fun a ha b hb => hs2 b hb a ha).congr fun k _ => ?_
      rw [zip_map_sub, selfSumFwd_shift]
      rfl
    · simp only [List.length_map, hv.1, decide_true, checkDims, if_true]
      rfl

end functions

/-! ### Sums of several quantities at once -/

section hom
variable {α β N P : Type} [AddCommMonoid N] [AddCommMonoid P]

theorem pairSum_hom_fl (φ : N →+ P) (g : α → β → N) (s1 : Stream α) (s2 : Stream β) (k : Nat) :
    φ (pairSum g s1 s2 k) = pairSum (fun a b => φ (g a b)) s1 s2 k := by
  simp only [pairSum, map_list_sum, List.map_map, Function.comp_def]

theorem pairSumAt_hom_fl (φ : N →+ P) (g : α → β → N) (s1 : Stream α) (s2 : Stream β) (d : Int) :
    φ (pairSumAt g s1 s2 d) = pairSumAt (fun a b => φ (g a b)) s1 s2 d := by
  simp only [pairSumAt, map_list_sum, List.map_map, Function.comp_def]

theorem selfSum_hom_fl (φ : N →+ P) (g : α → α → N) (s : Stream α) (k : Nat) :
    φ (selfSum g s k) = selfSum (fun a b => φ (g a b)) s k := by
  simp only [selfSum, map_list_sum, List.map_map, Function.comp_def]

theorem selfSumFwd_hom_fl (φ : N →+ P) (g : α → α → N) (s : Stream α) (k : Nat) :
    φ (selfSumFwd g s k) = selfSumFwd (fun a b => φ (g a b)) s k := by
  simp only [selfSumFwd, map_list_sum, List.map_map, Function.comp_def, apply_ite]

theorem pairSum_prod (g : α → β → N) (g' : α → β → P) (s1 : Stream α) (s2 : Stream β) (k : Nat) :
    pairSum (fun a b => (g a b, g' a b)) s1 s2 k = (pairSum g s1 s2 k, pairSum g' s1 s2 k) :=
  Prod.ext (pairSum_hom_fl (AddMonoidHom.fst N P) (fun a b => (g a b, g' a b)) s1 s2 k)
    (pairSum_hom_fl (AddMonoidHom.snd N P) (fun a b => (g a b, g' a b)) s1 s2 k)

theorem pairSumAt_prod (g : α → β → N) (g' : α → β → P) (s1 : Stream α) (s2 : Stream β) (k : Int) :
    pairSumAt (fun a b => (g a b, g' a b)) s1 s2 k = (pairSumAt g s1 s2 k, pairSumAt g' s1 s2 k) :=
  Prod.ext (pairSumAt_hom_fl (AddMonoidHom.fst N P) (fun a b => (g a b, g' a b)) s1 s2 k)
    (pairSumAt_hom_fl (AddMonoidHom.snd N P) (fun a b => (g a b, g' a b)) s1 s2 k)

theorem selfSum_prod (g : α → α → N) (g' : α → α → P) (s : Stream α) (k : Nat) :
    selfSum (fun a b => (g a b, g' a b)) s k = (selfSum g s k, selfSum g' s k) :=
  Prod.ext (selfSum_hom_fl (AddMonoidHom.fst N P) (fun a b => (g a b, g' a b)) s k)
    (selfSum_hom_fl (AddMonoidHom.snd N P) (fun a b => (g a b, g' a b)) s k)

theorem selfSumFwd_prod (g : α → α → N) (g' : α → α → P) (s : Stream α) (k : Nat) :
    selfSumFwd (fun a b => (g a b, g' a b)) s k = (selfSumFwd g s k, selfSumFwd g' s k) :=
  Prod.ext (selfSumFwd_hom_fl (AddMonoidHom.fst N P) (fun a b => (g a b, g' a b)) s k)
    (selfSumFwd_hom_fl (AddMonoidHom.snd N P) (fun a b => (g a b, g' a b)) s k)

end hom

section maps
variable {α β γ ε N : Type} [AddCommMonoid N]

/-- Proof device: samples replaced, time stamps kept. -/
def mapStream (e : α → γ) (s : Stream α) : Stream γ := s.map fun p => (p.1, e p.2)

theorem stream_map_fl (e : α → γ) (f : List α) (t : Option (List Int)) : stream (f.map e) t = mapStream e (stream f t) := by
  rcases t with _ | t
  · simp only [stream, regular, mapStream]
    apply List.ext_getElem <;> simp
  · simp only [stream, mapStream, List.zip_map_right]
    rfl

theorem pairSum_mapStream (g : γ → ε → N) (e : α → γ) (e' : β → ε) (s1 : Stream α) (s2 : Stream β) (k : Nat) :
    pairSum g (mapStream e s1) (mapStream e' s2) k = pairSum (fun a b => g (e a) (e' b)) s1 s2 k := by
  simp only [pairSum_eq, mapStream, List.map_map, Function.comp_def]

theorem pairSumAt_mapStream (g : γ → ε → N) (e : α → γ) (e' : β → ε) (s1 : Stream α) (s2 : Stream β) (d : Int) :
    pairSumAt g (mapStream e s1) (mapStream e' s2) d = pairSumAt (fun a b => g (e a) (e' b)) s1 s2 d := by
  simp only [pairSumAt_eq, mapStream, List.map_map, Function.comp_def]

theorem selfSum_mapStream (g : γ → γ → N) (e : α → γ) (s : Stream α) (k : Nat) :
    selfSum g (mapStream e s) k = selfSum (fun a b => g (e a) (e b)) s k := by
  simp only [selfSum_eq, mapStream, selfPairs_map, List.map_map, Function.comp_def, Prod.map_fst, Prod.map_snd]

theorem selfSumFwd_mapStream (g : γ → γ → N) (e : α → γ) (s : Stream α) (k : Nat) :
    selfSumFwd g (mapStream e s) k = selfSumFwd (fun a b => g (e a) (e b)) s k := by
  simp only [selfSumFwd_eq, mapStream, selfPairs_map, List.map_map, Function.comp_def, Prod.map_fst, Prod.map_snd]

end maps

/-! ### Errors -/

section errors
variable {u : ℝ}

/-- Proof device: `x'` computed instead of `x`, with an error of `m` roundings relative to the size `X`. -/
def Near (u : ℝ) (m : Nat) (x' x X : ℝ) : Prop := |x| ≤ X ∧ |x' - x| ≤ ((1 + u) ^ m - 1) * X

theorem Near.nonneg {m : Nat} {x' x X : ℝ} (h : Near u m x' x X) : 0 ≤ X := le_trans (abs_nonneg _) h.1

theorem Near.refl (x : ℝ) : Near u 0 x x |x| := ⟨le_rfl, by simp⟩

theorem Near.mono {m m' : Nat} {x' x X : ℝ} (hu : 0 ≤ u) (h : Near u m x' x X) (hm : m ≤ m') : Near u m' x' x X := by
  refine ⟨h.1, h.2.trans ?_⟩
  have h0 := h.nonneg
  have : (1 + u) ^ m ≤ (1 + u) ^ m' := pow_le_pow_right₀ (by linarith) hm
  exact mul_le_mul_of_nonneg_right (by linarith) h0

theorem Near.widen {m : Nat} {x' x X Y : ℝ} (hu : 0 ≤ u) (h : Near u m x' x X) (hX : X ≤ Y) : Near u m x' x Y := by
  refine ⟨h.1.trans hX, h.2.trans ?_⟩
  have : 1 ≤ (1 + u) ^ m := one_le_pow₀ (by linarith)
  exact mul_le_mul_of_nonneg_left hX (by linarith)

theorem Near.abs_le {m : Nat} {x' x X : ℝ} (h : Near u m x' x X) : |x'| ≤ (1 + u) ^ m * X := by
  have : |x'| ≤ |x| + |x' - x| := by
    calc |x'| = |x + (x' - x)| := by ring_nf
      _ ≤ _ := abs_add_le _ _
  nlinarith [h.1, h.2]

theorem Near.round {rnd : ℝ → ℝ} (hr : Rounds rnd u) {m : Nat} {x' x X : ℝ} (h : Near u m x' x X) :
    Near u (m + 1) (rnd x') x X := by
  refine ⟨h.1, ?_⟩
  have h1 := hr.2 x'
  have h2 : u * |x'| ≤ u * ((1 + u) ^ m * X) := mul_le_mul_of_nonneg_left h.abs_le hr.1
  have h3 : |rnd x' - x| ≤ |rnd x' - x'| + |x' - x| := abs_sub_le _ _ _
  have h4 := h.2
  rw [pow_succ]
  nlinarith

theorem Near.add {m : Nat} {x' x X y' y Y : ℝ} (h : Near u m x' x X) (h' : Near u m y' y Y) :
    Near u m (x' + y') (x + y) (X + Y) := by
  refine ⟨(abs_add_le _ _).trans (add_le_add h.1 h'.1), ?_⟩
  have : |x' + y' - (x + y)| ≤ |x' - x| + |y' - y| := by
    calc |x' + y' - (x + y)| = |(x' - x) + (y' - y)| := by ring_nf
      _ ≤ _ := abs_add_le _ _
  have h1 := h.2
  have h2 := h'.2
  linarith

theorem Near.neg {m : Nat} {x' x X : ℝ} (h : Near u m x' x X) : Near u m (-x') (-x) X := by
  refine ⟨by rw [abs_neg]; exact h.1, ?_⟩
  rw [show -x' - -x = -(x' - x) by ring, abs_neg]
  exact h.2

theorem Near.sub {m : Nat} {x' x X y' y Y : ℝ} (h : Near u m x' x X) (h' : Near u m y' y Y) :
    Near u m (x' - y') (x - y) (X + Y) := by
  rw [sub_eq_add_neg, sub_eq_add_neg]
  exact h.add h'.neg

theorem Near.mul {m l : Nat} {x' x X y' y Y : ℝ} (hu : 0 ≤ u) (h : Near u m x' x X) (h' : Near u l y' y Y) :
    Near u (m + l) (x' * y') (x * y) (X * Y) := by
  refine ⟨by rw [abs_mul]; exact mul_le_mul h.1 h'.1 (abs_nonneg _) h.nonneg, ?_⟩
  have e : x' * y' - x * y = (x' - x) * y' + x * (y' - y) := by ring
  have h1 : |x' * y' - x * y| ≤ |x' - x| * |y'| + |x| * |y' - y| := by
    rw [e, ← abs_mul, ← abs_mul]
    exact abs_add_le _ _
  have hm : 1 ≤ (1 + u) ^ m := one_le_pow₀ (by linarith)
  have hl : 1 ≤ (1 + u) ^ l := one_le_pow₀ (by linarith)
  have h2 : |x' - x| * |y'| ≤ (((1 + u) ^ m - 1) * X) * ((1 + u) ^ l * Y) :=
    mul_le_mul h.2 h'.abs_le (abs_nonneg _) (mul_nonneg (by linarith) h.nonneg)
  have h3 : |x| * |y' - y| ≤ X * (((1 + u) ^ l - 1) * Y) := mul_le_mul h.1 h'.2 (abs_nonneg _) h.nonneg
  rw [pow_add]
  nlinarith

end errors

section machine
variable {rnd : ℝ → ℝ} {u : ℝ}

/-- Proof device: a cell against (exact value, size, number of terms), with `E` roundings in each term. -/
def Cell (u : ℝ) (E : Nat) (a : Fl rnd) (s : ℝ × ℝ × ℕ) : Prop := Near u (s.2.2 + E) a.val s.1 s.2.1

theorem Cell.steps (hr : Rounds rnd u) {E : Nat} {v : Fl rnd} {w W : ℝ} (h : Near u E v.val w W) :
    Steps (Cell (rnd := rnd) u E) v (w, W, 1) := by
  intro a s hs
  have h1 := (Near.add hs (h.mono hr.1 (show E ≤ s.2.2 + E by omega))).round hr
  unfold Cell
  have e : (s + (w, W, 1)).2.2 + E = s.2.2 + E + 1 := by
    show s.2.2 + 1 + E = _
    omega
  rw [e]
  exact h1

theorem termRe_near (hr : Rounds rnd u) (a b : Cx (Fl rnd)) :
    Near u 2 (termRe a b).val (reProd (exact a) (exact b)) (absProd (exact a) (exact b)) := by
  have h1 := (Near.refl (u := u) (a.re.val * b.re.val)).round hr
  have h2 := (Near.refl (u := u) (a.im.val * b.im.val)).round hr
  have h := (h1.add h2).round hr
  have e : reProd (exact a) (exact b) = a.re.val * b.re.val + a.im.val * b.im.val := by
    simp [reProd, exact, Cx.conj]
  rw [e]
  exact h

theorem absProd_comm (a b : Cx ℝ) : absProd a b = absProd b a := by
  simp only [absProd, mul_comm]

theorem reProd_comm' (a b : Cx ℝ) : reProd a b = reProd b a := by
  simp only [reProd, Cx.conj, Cx.mul_re]
  ring

theorem termDiff_near (hr : Rounds rnd u) (a b : Cx (Fl rnd)) :
    Near u 4 (termDiff a b).val (dist2 (exact a) (exact b)) (dist2 (exact a) (exact b)) := by
  have h1 := (Near.refl (u := u) (b.re.val - a.re.val)).round hr
  have h2 := (Near.refl (u := u) (b.im.val - a.im.val)).round hr
  have h3 := (h1.mul hr.1 h1).round hr
  have h4 := (h2.mul hr.1 h2).round hr
  have h := (h3.add h4).round hr
  rw [abs_mul_abs_self, abs_mul_abs_self] at h
  exact h

theorem conjMul_near (hr : Rounds rnd u) (a b : Cx (Fl rnd)) :
    Near u 2 (a.conj * b).re.val (reProd (exact a) (exact b)) (absProd (exact a) (exact b)) ∧
    Near u 2 (a.conj * b).im.val (cxProd (exact a) (exact b)).im (absProdIm (exact a) (exact b)) := by
  constructor
  · have h1 := (Near.refl (u := u) (a.re.val * b.re.val)).round hr
    have h2 := (Near.refl (u := u) (-a.im.val * b.im.val)).round hr
    have h := (h1.sub h2).round hr
    rw [neg_mul, abs_neg] at h
    have e : reProd (exact a) (exact b) = a.re.val * b.re.val - -(a.im.val * b.im.val) := by
      simp [reProd, exact, Cx.conj]
    rw [e]
    have e' : (a.conj * b).re.val = rnd (rnd (a.re.val * b.re.val) - rnd (-(a.im.val * b.im.val))) := by
      rw [← neg_mul]
      rfl
    rw [e']
    exact h
  · have h1 := (Near.refl (u := u) (a.re.val * b.im.val)).round hr
    have h2 := (Near.refl (u := u) (-a.im.val * b.re.val)).round hr
    have h := (h1.add h2).round hr
    rw [neg_mul, abs_neg] at h
    have e : (cxProd (exact a) (exact b)).im = a.re.val * b.im.val + -(a.im.val * b.re.val) := by
      simp [cxProd, exact, Cx.conj]
    rw [e]
    have e' : (a.conj * b).im.val = rnd (rnd (a.re.val * b.im.val) + rnd (-(a.im.val * b.re.val))) := by
      rw [← neg_mul]
      rfl
    rw [e']
    exact h

theorem mulConj_near (hr : Rounds rnd u) (a b : Cx (Fl rnd)) :
    Near u 2 (b * a.conj).re.val (reProd (exact a) (exact b)) (absProd (exact a) (exact b)) ∧
    Near u 2 (b * a.conj).im.val (cxProd (exact a) (exact b)).im (absProdIm (exact a) (exact b)) := by
  constructor
  · have h1 := (Near.refl (u := u) (b.re.val * a.re.val)).round hr
    have h2 := (Near.refl (u := u) (b.im.val * -a.im.val)).round hr
    have h := (h1.sub h2).round hr
    rw [mul_neg, abs_neg] at h
    have e : reProd (exact a) (exact b) = b.re.val * a.re.val - -(b.im.val * a.im.val) := by
      simp [reProd, exact, Cx.conj]
      ring
    have e2 : absProd (exact a) (exact b) = |b.re.val * a.re.val| + |b.im.val * a.im.val| := by
      rw [absProd_comm]
      rfl
    rw [e, e2]
    have e' : (b * a.conj).re.val = rnd (rnd (b.re.val * a.re.val) - rnd (-(b.im.val * a.im.val))) := by
      rw [← mul_neg]
      rfl
    rw [e']
    exact h
  · have h1 := (Near.refl (u := u) (b.re.val * -a.im.val)).round hr
    have h2 := (Near.refl (u := u) (b.im.val * a.re.val)).round hr
    have h := (h1.add h2).round hr
    rw [mul_neg, abs_neg] at h
    have e : (cxProd (exact a) (exact b)).im = -(b.re.val * a.im.val) + b.im.val * a.re.val := by
      simp [cxProd, exact, Cx.conj]
      ring
    have e2 : absProdIm (exact a) (exact b) = |b.re.val * a.im.val| + |b.im.val * a.re.val| := by
      simp only [absProdIm, exact]
      rw [add_comm, mul_comm a.im.val, mul_comm a.re.val]
    rw [e, e2]
    have e' : (b * a.conj).im.val = rnd (rnd (-(b.re.val * a.im.val)) + rnd (b.im.val * a.re.val)) := by
      rw [← mul_neg]
      rfl
    rw [e']
    exact h

/-- Proof device: both components of a complex cell. -/
def CxCell (u : ℝ) (z : Cx (Fl rnd)) (s : (ℝ × ℝ × ℕ) × (ℝ × ℝ × ℕ)) : Prop := Cell u 2 z.re s.1 ∧ Cell u 2 z.im s.2

theorem CxCell.steps (hr : Rounds rnd u) {v : Cx (Fl rnd)} {w W w' W' : ℝ} (h : Near u 2 v.re.val w W)
    (h' : Near u 2 v.im.val w' W') : Steps (CxCell (rnd := rnd) u) v ((w, W, 1), (w', W', 1)) := by
  intro a s hs
  exact ⟨Cell.steps hr h _ _ hs.1, Cell.steps hr h' _ _ hs.2⟩

/-! ### Whole numbers -/

/-- Proof device: a cell that is exact while the sizes stay below `B`. -/
def IntCell (B : ℝ) (a : Fl rnd) (s : ℝ × ℝ) : Prop :=
  0 ≤ s.2 ∧ (s.2 ≤ B → a.val = s.1 ∧ |s.1| ≤ s.2 ∧ ∃ m : ℤ, s.1 = m)

theorem IntCell.steps {B : ℝ} (hk : KeepsIntegers rnd B) {v : Fl rnd} {w W : ℝ} (h : IntCell B v (w, W)) :
    Steps (IntCell (rnd := rnd) B) v (w, W) := by
  intro a s hs
  refine ⟨add_nonneg hs.1 h.1, fun hB => ?_⟩
  have hB' : s.2 + W ≤ B := hB
  have h0 : 0 ≤ W := h.1
  have h0' : 0 ≤ s.2 := hs.1
  obtain ⟨a1, a2, m, a3⟩ := hs.2 (by linarith)
  obtain ⟨b1, b2, l, b3⟩ := h.2 (show W ≤ B by linarith)
  have b2' : |w| ≤ W := b2
  have b1' : v.val = w := b1
  have b3' : w = l := b3
  have hle : |s.1 + w| ≤ s.2 + W := (abs_add_le _ _).trans (add_le_add a2 b2')
  have e : s.1 + w = ((m + l : ℤ) : ℝ) := by rw [a3, b3']; push_cast; ring
  refine ⟨?_, hle, m + l, e⟩
  show rnd (a.val + v.val) = s.1 + w
  rw [a1, b1', e]
  apply hk
  rw [← e]
  linarith

theorem IntCell.round {B : ℝ} (hk : KeepsIntegers rnd B) {w W : ℝ} (h0 : 0 ≤ W) (h1 : |w| ≤ W) (h2 : ∃ m : ℤ, w = m) :
    IntCell (rnd := rnd) B ⟨rnd w⟩ (w, W) := by
  refine ⟨h0, fun hB => ?_⟩
  obtain ⟨m, rfl⟩ := h2
  exact ⟨hk m (h1.trans hB), h1, m, rfl⟩

theorem IntCell.add {B : ℝ} (hk : KeepsIntegers rnd B) {v v' : Fl rnd} {w W w' W' : ℝ} (h : IntCell B v (w, W))
    (h' : IntCell B v' (w', W')) : IntCell B (v + v') (w + w', W + W') := IntCell.steps hk h' v (w, W) h

theorem IntCell.neg {B : ℝ} {v : Fl rnd} {w W : ℝ} (h : IntCell B v (w, W)) : IntCell B (-v) (-w, W) := by
  refine ⟨h.1, fun hB => ?_⟩
  obtain ⟨a1, a2, m, a3⟩ := h.2 hB
  have a1' : v.val = w := a1
  have a2' : |w| ≤ W := a2
  have a3' : w = m := a3
  refine ⟨?_, ?_, -m, ?_⟩
  · show -v.val = -w
    rw [a1']
  · show |-w| ≤ W
    rw [abs_neg]
    exact a2'
  · show -w = _
    rw [a3']
    push_cast
    ring

theorem whole_mul {x y : ℝ} (hx : ∃ m : ℤ, x = m) (hy : ∃ m : ℤ, y = m) : ∃ m : ℤ, x * y = m := by
  obtain ⟨m, rfl⟩ := hx
  obtain ⟨l, rfl⟩ := hy
  exact ⟨m * l, by push_cast; ring⟩

theorem whole_sub {x y : ℝ} (hx : ∃ m : ℤ, x = m) (hy : ∃ m : ℤ, y = m) : ∃ m : ℤ, x - y = m := by
  obtain ⟨m, rfl⟩ := hx
  obtain ⟨l, rfl⟩ := hy
  exact ⟨m - l, by push_cast; ring⟩

theorem whole_neg {x : ℝ} (hx : ∃ m : ℤ, x = m) : ∃ m : ℤ, -x = m := by
  obtain ⟨m, rfl⟩ := hx
  exact ⟨-m, by push_cast; ring⟩

theorem termRe_int {B : ℝ} (hk : KeepsIntegers rnd B) (a b : Cx (Fl rnd)) (ha : Whole (exact a)) (hb : Whole (exact b)) :
    IntCell B (termRe a b) (reProd (exact a) (exact b), absProd (exact a) (exact b)) := by
  have h1 := IntCell.round hk (abs_nonneg (a.re.val * b.re.val)) le_rfl (whole_mul ha.1 hb.1)
  have h2 := IntCell.round hk (abs_nonneg (a.im.val * b.im.val)) le_rfl (whole_mul ha.2 hb.2)
  have h := h1.add hk h2
  have e : reProd (exact a) (exact b) = a.re.val * b.re.val + a.im.val * b.im.val := by
    simp [reProd, exact, Cx.conj]
  rw [e]
  exact h

theorem self_le_sq_of_whole {x : ℝ} (hx : ∃ m : ℤ, x = m) : |x| ≤ x * x := by
  obtain ⟨m, rfl⟩ := hx
  have h : |m| ≤ m * m := by
    rw [← abs_mul_abs_self m]
    rcases eq_or_ne m 0 with rfl | h
    · simp
    · have : 1 ≤ |m| := Int.one_le_abs h
      nlinarith
  have h' : ((|m| : ℤ) : ℝ) ≤ ((m * m : ℤ) : ℝ) := by exact_mod_cast h
  push_cast at h'
  exact h'

theorem square_int {B : ℝ} (hk : KeepsIntegers rnd B) {x : ℝ} (hx : ∃ m : ℤ, x = m) :
    IntCell (rnd := rnd) B ⟨rnd (rnd x * rnd x)⟩ (x * x, x * x) := by
  refine ⟨mul_self_nonneg x, fun hB => ?_⟩
  have hB' : x * x ≤ B := hB
  have h1 := self_le_sq_of_whole hx
  have hw := whole_mul hx hx
  have e : rnd x = x := by
    obtain ⟨m, rfl⟩ := hx
    exact hk m (h1.trans hB')
  refine ⟨?_, by rw [abs_mul_self], hw⟩
  show rnd (rnd x * rnd x) = x * x
  rw [e]
  obtain ⟨l, hl⟩ := hw
  rw [hl]
  apply hk
  rw [← hl, abs_mul_self]
  exact hB'

theorem termDiff_int {B : ℝ} (hk : KeepsIntegers rnd B) (a b : Cx (Fl rnd)) (ha : Whole (exact a)) (hb : Whole (exact b)) :
    IntCell B (termDiff a b) (dist2 (exact a) (exact b), dist2 (exact a) (exact b)) :=
  (square_int hk (whole_sub hb.1 ha.1)).add hk (square_int hk (whole_sub hb.2 ha.2))

theorem conjMul_int {B : ℝ} (hk : KeepsIntegers rnd B) (a b : Cx (Fl rnd)) (ha : Whole (exact a)) (hb : Whole (exact b)) :
    IntCell B (a.conj * b).re (reProd (exact a) (exact b), absProd (exact a) (exact b)) ∧
    IntCell B (a.conj * b).im ((cxProd (exact a) (exact b)).im, absProdIm (exact a) (exact b)) := by
  constructor
  · have h1 := IntCell.round hk (abs_nonneg (a.re.val * b.re.val)) le_rfl (whole_mul ha.1 hb.1)
    have h2 := (IntCell.round hk (abs_nonneg (-a.im.val * b.im.val)) le_rfl (whole_mul (whole_neg ha.2) hb.2)).neg
    have h := h1.add hk h2
    have e : reProd (exact a) (exact b) = a.re.val * b.re.val + -(-a.im.val * b.im.val) := by
      simp [reProd, exact, Cx.conj]
    have e2 : absProd (exact a) (exact b) = |a.re.val * b.re.val| + |-a.im.val * b.im.val| := by
      rw [neg_mul, abs_neg]
      rfl
    rw [e, e2]
    have e' : (a.conj * b).re = (⟨rnd (a.re.val * b.re.val)⟩ : Fl rnd) + -⟨rnd (-a.im.val * b.im.val)⟩ := by
      show (⟨rnd (rnd (a.re.val * b.re.val) - rnd (-a.im.val * b.im.val))⟩ : Fl rnd) = ⟨rnd (_ + -_)⟩
      rw [sub_eq_add_neg]
    rw [e']
    exact h
  · have h1 := IntCell.round hk (abs_nonneg (a.re.val * b.im.val)) le_rfl (whole_mul ha.1 hb.2)
    have h2 := IntCell.round hk (abs_nonneg (-a.im.val * b.re.val)) le_rfl (whole_mul (whole_neg ha.2) hb.1)
    have h := h1.add hk h2
    have e : (cxProd (exact a) (exact b)).im = a.re.val * b.im.val + (-a.im.val * b.re.val) := by
      simp [cxProd, exact, Cx.conj]
    have e2 : absProdIm (exact a) (exact b) = |a.re.val * b.im.val| + |-a.im.val * b.re.val| := by
      rw [neg_mul, abs_neg]
      rfl
    rw [e, e2]
    exact h

theorem mulConj_int {B : ℝ} (hk : KeepsIntegers rnd B) (a b : Cx (Fl rnd)) (ha : Whole (exact a)) (hb : Whole (exact b)) :
    IntCell B (b * a.conj).re (reProd (exact a) (exact b), absProd (exact a) (exact b)) ∧
    IntCell B (b * a.conj).im ((cxProd (exact a) (exact b)).im, absProdIm (exact a) (exact b)) := by
  obtain ⟨h1, h2⟩ := conjMul_int hk a b ha hb
  constructor
  · have e : (b * a.conj).re = (a.conj * b).re := by
      show (⟨rnd (rnd (b.re.val * a.re.val) - rnd (b.im.val * -a.im.val))⟩ : Fl rnd)
        = ⟨rnd (rnd (a.re.val * b.re.val) - rnd (-a.im.val * b.im.val))⟩
      rw [mul_comm b.re.val, mul_comm b.im.val]
    rw [e]
    exact h1
  · have e : (b * a.conj).im = (a.conj * b).im := by
      show (⟨rnd (rnd (b.re.val * -a.im.val) + rnd (b.im.val * a.re.val))⟩ : Fl rnd)
        = ⟨rnd (rnd (a.re.val * b.im.val) + rnd (-a.im.val * b.re.val))⟩
      rw [mul_comm b.re.val, mul_comm b.im.val, add_comm]
    rw [e]
    exact h2

/-- Proof device: both components of a complex cell. -/
def CxIntCell (B : ℝ) (z : Cx (Fl rnd)) (s : (ℝ × ℝ) × (ℝ × ℝ)) : Prop := IntCell B z.re s.1 ∧ IntCell B z.im s.2

theorem CxIntCell.steps {B : ℝ} (hk : KeepsIntegers rnd B) {v : Cx (Fl rnd)} {w W w' W' : ℝ} (h : IntCell B v.re (w, W))
    (h' : IntCell B v.im (w', W')) : Steps (CxIntCell (rnd := rnd) B) v ((w, W), (w', W')) := by
  intro a s hs
  exact ⟨IntCell.steps hk h _ _ hs.1, IntCell.steps hk h' _ _ hs.2⟩

end machine

section cells
variable {M : Type}

/-- From cells of a full-size array to signed delays. -/
theorem cells_delays {out : List M} (P : M → Nat → Int → Prop) (hodd : out.length % 2 = 1)
    (h : ∀ k (hk : k < out.length), P out[k] k (cellDelay out.length k)) (d : Int)
    (hd : |d| < ((out.length + 1) / 2 : Nat)) :
    ∃ k z, pyIdx out.length d = some k ∧ pyGet out d = some z ∧ P z k d := by
  rw [abs_lt] at hd
  by_cases h0 : 0 ≤ d
  · have hi := pyIdx_nonneg (len := out.length) h0 (by omega)
    have hlt : d.toNat < out.length := by omega
    refine ⟨d.toNat, out[d.toNat], hi, ?_, ?_⟩
    · rw [pyGet, hi, Option.bind_some, List.getElem?_eq_getElem hlt]
    · have := h d.toNat hlt
      rwa [cellDelay, if_pos (by omega), show ((d.toNat : Nat) : Int) = d by omega] at this
  · have hi := pyIdx_neg (len := out.length) (show d < 0 by omega) (by omega)
    have hlt : ((out.length : Int) + d).toNat < out.length := by omega
    refine ⟨_, out[((out.length : Int) + d).toNat], hi, ?_, ?_⟩
    · rw [pyGet, hi, Option.bind_some, List.getElem?_eq_getElem hlt]
    · have := h _ hlt
      rwa [cellDelay, if_neg (by omega), show ((((out.length : Int) + d).toNat : Nat) : Int) - out.length = d by omega] at this

end cells

end Cddm
