import Verif.Lemmas.Core

/-! # Closed forms of the API functions -/

namespace Cddm
open Spec

section
variable {M α : Type} [AddCommMonoid M]

theorem ok_entries {aout : Option (List M)} {L : Nat} {δ : Nat → M} {e : Py (List M)}
    (h : e = .ok (addSeq (startOut aout L) δ)) (hL : (startOut aout L).length = L) :
    ∃ out, e = .ok out ∧ out.length = L ∧
      ∀ k (hk : k < out.length), out[k] = start aout k + δ k := by
  refine ⟨_, h, by simp [hL], fun k hk => ?_⟩
  have hk' : k < (startOut aout L).length := by simpa using hk
  simp only [addSeq, List.getElem_mapIdx]
  rw [startOut_get]

theorem ok_entries_full {aout : Option (List M)} {L : Nat} {δ : Nat → M} {e : Py (List M)}
    (S : Int → M)
    (h : e = .ok (addSeq (startOut aout L) δ)) (hL : (startOut aout L).length = L)
    (hδ : ∀ k, k < L → δ k = S (cellDelay L k)) (hodd : L % 2 = 1) :
    ∃ out, e = .ok out ∧ out.length = L ∧
      (∀ d : Int, |d| < ((L + 1) / 2 : Nat) →
        ∃ k, pyIdx out.length d = some k ∧ pyGet out d = some (start aout k + S d)) := by
  obtain ⟨out, h1, h2, h3⟩ := ok_entries h hL
  refine ⟨out, h1, h2, fun d hd => ?_⟩
  rw [abs_lt] at hd
  by_cases h0 : 0 ≤ d
  · have hi := pyIdx_nonneg (len := out.length) h0 (by omega)
    refine ⟨d.toNat, hi, ?_⟩
    have hlt : d.toNat < out.length := by omega
    rw [pyGet, hi, Option.bind_some, List.getElem?_eq_getElem hlt, h3, hδ _ (by omega), cellDelay,
      if_pos (by omega), show ((d.toNat : Nat) : Int) = d by omega]
  · have hi := pyIdx_neg (len := out.length) (show d < 0 by omega) (by omega)
    refine ⟨_, hi, ?_⟩
    have hlt : ((out.length : Int) + d).toNat < out.length := by omega
    rw [pyGet, hi, Option.bind_some, List.getElem?_eq_getElem hlt, h3, hδ _ (by omega), cellDelay,
      if_neg (by omega), show ((((out.length : Int) + d).toNat : Nat) : Int) - L = d by omega]

theorem zip_map_sub (a : List Int) (f : List α) (c : Int) :
    (a.map (· - c)).zip f = shiftStream (-c) (a.zip f) := by
  rw [shiftStream, List.zip_map_left]
  rfl

theorem stamps_map_sub (a : List Int) (c : Int) :
    stamps (a.map (· - c)) = shiftStream (-c) (stamps a) := by
  simp [shiftStream, stamps, sub_eq_add_neg]

theorem arange_length (n : Nat) : (arange n).length = n := by simp [arange]

theorem arange_zip (x : List α) : (arange x.length).zip x = regular x := range_zip x

theorem arange_stamps (n : Nat) : stamps (arange n) = regular (List.replicate n ()) :=
  stamps_range n

end

section
variable {R : Type} [CommRing R]

theorem crossCorrelate_ok (f1 f2 : List (Cx R)) (t1 t2 : Option (List Int)) (n : Option Nat)
    (aligned : Bool) (aout : Option (List R)) (hv : ValidCross f1.length f2.length t1 t2)
    (hfast : t1 = none → aligned = true → outLen n aout f1.length ≤ f1.length + 1) :
    crossCorrelate f1 f2 t1 t2 n aligned aout
      = .ok (addSeq (startOut aout (outLen n aout (defaultN f1.length t1 t2)))
          fun k => pairSum reProd (stream f1 t1) (stream f2 t2) k) := by
  refine crossApi_real f1.length f2.length t1 t2 n aout _ _ _ hv ?_ ?_
  · rintro rfl out hout
    rcases t2 with _ | b
    · simp only [ValidCross] at hv
      simp only [defaultN] at hout
      cases aligned
      · simp only [Bool.false_eq_true, if_false]
        rw [crossCorr_eq _ _ _ _ _ (arange_length _) (by rw [arange_length, hv]), arange_zip,
          hv, arange_zip]
        rfl
      · simp only [if_true]
        rw [crossCorrRegular_eq _ _ _ hv (by rw [hout]; exact hfast rfl rfl)]
        rfl
    · simp [ValidCross] at hv
  · rintro c a b rfl rfl out
    simp only [ValidCross] at hv
    obtain ⟨h, h1, h2, -⟩ := hv
    simp only [List.length_map, h1, h2, and_self, decide_true, checkDims, if_true]
    show orUB _ = _
    rw [crossCorr_eq _ _ _ _ _ (by simp [h1]) (by simp [h2]), zip_map_sub, zip_map_sub]
    simp only [pairSum_shift]
    rfl

theorem crossDifference_ok (f1 f2 : List (Cx R)) (t1 t2 : Option (List Int)) (n : Option Nat)
    (aligned : Bool) (aout : Option (List R)) (hv : ValidCross f1.length f2.length t1 t2)
    (hfast : t1 = none → aligned = true → outLen n aout f1.length ≤ f1.length + 1) :
    crossDifference f1 f2 t1 t2 n aligned aout
      = .ok (addSeq (startOut aout (outLen n aout (defaultN f1.length t1 t2)))
          fun k => pairSum dist2 (stream f1 t1) (stream f2 t2) k) := by
  refine crossApi_real f1.length f2.length t1 t2 n aout _ _ _ hv ?_ ?_
  · rintro rfl out hout
    rcases t2 with _ | b
    · simp only [ValidCross] at hv
      simp only [defaultN] at hout
      cases aligned
      · simp only [Bool.false_eq_true, if_false]
        rw [crossDiff_eq _ _ _ _ _ (arange_length _) (by rw [arange_length, hv]), arange_zip,
          hv, arange_zip]
        rfl
      · simp only [if_true]
        rw [crossDiffRegular_eq _ _ _ hv (by rw [hout]; exact hfast rfl rfl)]
        rfl
    · simp [ValidCross] at hv
  · rintro c a b rfl rfl out
    simp only [ValidCross] at hv
    obtain ⟨h, h1, h2, -⟩ := hv
    simp only [List.length_map, h1, h2, and_self, decide_true, checkDims, if_true]
    show orUB _ = _
    rw [crossDiff_eq _ _ _ _ _ (by simp [h1]) (by simp [h2]), zip_map_sub, zip_map_sub]
    simp only [pairSum_shift]
    rfl

theorem crossCorrelateComplex_ok (f1 f2 : List (Cx R)) (t1 t2 : Option (List Int))
    (n : Option Nat) (aligned : Bool) (aout : Option (List (Cx R)))
    (hv : ValidCross f1.length f2.length t1 t2)
    (hodd : outLenFull n aout (defaultN f1.length t1 t2) % 2 = 1)
    (hfast : t1 = none → aligned = true →
      (outLenFull n aout f1.length + 1) / 2 ≤ f1.length + 1) :
    crossCorrelateComplex f1 f2 t1 t2 n aligned aout
      = .ok (addSeq (startOut aout (outLenFull n aout (defaultN f1.length t1 t2)))
          fun k => pairSumAt cxProd (stream f1 t1) (stream f2 t2)
            (cellDelay (outLenFull n aout (defaultN f1.length t1 t2)) k)) := by
  refine crossApi_full f1.length f2.length t1 t2 n aout _ _ _ hv hodd ?_ ?_
  · rintro rfl out hout
    rcases t2 with _ | b
    · simp only [ValidCross] at hv
      simp only [defaultN] at hout hodd ⊢
      rw [← hout]
      rw [← hout] at hodd
      cases aligned
      · simp only [Bool.false_eq_true, if_false]
        rw [crossCorrComplex_eq _ _ _ _ _ (arange_length _) (by rw [arange_length, hv]) hodd,
          arange_zip, hv, arange_zip]
        rfl
      · simp only [if_true]
        rw [crossCorrComplexRegular_eq _ _ _ hv hodd (by rw [hout]; exact hfast rfl rfl)]
        rfl
    · simp [ValidCross] at hv
  · rintro c a b rfl rfl out hout
    rw [← hout]
    rw [← hout] at hodd
    simp only [ValidCross] at hv
    obtain ⟨h, h1, h2, -⟩ := hv
    simp only [List.length_map, h1, h2, and_self, decide_true, checkDims, if_true]
    show orUB _ = _
    rw [crossCorrComplex_eq _ _ _ _ _ (by simp [h1]) (by simp [h2]) hodd, zip_map_sub, zip_map_sub]
    simp only [pairSumAt_shift]
    rfl

theorem autoCorrelate_ok (f : List (Cx R)) (t : Option (List Int)) (n : Option Nat)
    (aligned : Bool) (aout : Option (List R)) (hv : ValidAuto f.length t) :
    autoCorrelate f t n aligned aout
      = .ok (addSeq (startOut aout (outLen n aout (defaultN f.length t t)))
          fun k => selfSum reProd (stream f t) k) := by
  refine autoApi_eq f.length t n aout _ _ _ hv ?_ ?_
  · rintro rfl out hout
    cases aligned
    · simp only [Bool.false_eq_true, if_false]
      rw [autoCorr_eq _ _ _ (arange_length _), arange_zip]
      rfl
    · simp only [if_true]
      rw [autoCorrRegular_eq]
      rfl
  · rintro c a rfl out
    simp only [ValidAuto] at hv
    simp only [List.length_map, hv.1, decide_true, checkDims, if_true]
    show orUB _ = _
    rw [autoCorr_eq _ _ _ (by simp [hv.1]), zip_map_sub]
    simp only [selfSum_shift]
    rfl

theorem autoDifference_ok (f : List (Cx R)) (t : Option (List Int)) (n : Option Nat)
    (aligned : Bool) (aout : Option (List R)) (hv : ValidAuto f.length t) :
    autoDifference f t n aligned aout
      = .ok (addSeq (startOut aout (outLen n aout (defaultN f.length t t)))
          fun k => selfSum dist2 (stream f t) k) := by
  refine autoApi_eq f.length t n aout _ _ _ hv ?_ ?_
  · rintro rfl out hout
    cases aligned
    · simp only [Bool.false_eq_true, if_false]
      rw [autoDiff_eq _ _ _ (arange_length _), arange_zip]
      rfl
    · simp only [if_true]
      rw [autoDiffRegular_eq]
      rfl
  · rintro c a rfl out
    simp only [ValidAuto] at hv
    simp only [List.length_map, hv.1, decide_true, checkDims, if_true]
    show orUB _ = _
    rw [autoDiff_eq _ _ _ (by simp [hv.1]), zip_map_sub]
    simp only [selfSum_shift]
    rfl

theorem autoCorrelateComplex_ok (f : List (Cx R)) (t : Option (List Int)) (n : Option Nat)
    (aligned : Bool) (aout : Option (List (Cx R))) (hv : ValidAuto f.length t)
    (hfast : t = none → aligned = true → outLen n aout f.length ≤ f.length + 1) :
    autoCorrelateComplex f t n aligned aout
      = .ok (addSeq (startOut aout (outLen n aout (defaultN f.length t t)))
          fun k => selfSumFwd cxProd (stream f t) k) := by
  refine autoApi_eq f.length t n aout _ _ _ hv ?_ ?_
  · rintro rfl out hout
    cases aligned
    · simp only [Bool.false_eq_true, if_false]
      rw [autoCorrComplex_eq _ _ _ (arange_length _), arange_zip]
      rfl
    · simp only [if_true]
      rw [autoCorrComplexRegular_eq _ _ (by rw [hout]; exact hfast rfl rfl)]
      rfl
  · rintro c a rfl out
    simp only [ValidAuto] at hv
    simp only [List.length_map, hv.1, decide_true, checkDims, if_true]
    show orUB _ = _
    rw [autoCorrComplex_eq _ _ _ (by simp [hv.1]), zip_map_sub]
    simp only [selfSumFwd_shift]
    rfl

end

section sums
variable {M : Type} [AddCommGroup M]

theorem pairSum_neg {α β : Type} (g : α → β → M) (s1 : Stream α) (s2 : Stream β) (k : Nat) :
    pairSum g (s1.map fun a => (-a.1, a.2)) (s2.map fun a => (-a.1, a.2)) k
      = pairSum g s1 s2 k := by
  simp only [pairSum_eq, List.map_map, Function.comp_def]
  congr 1
  apply List.map_congr_left
  intro a _
  congr 1
  apply List.map_congr_left
  intro b _
  rw [show -b.1 - -a.1 = a.1 - b.1 by ring, abs_sub_comm]

theorem pairSumAt_neg {α β : Type} (g : α → β → M) (s1 : Stream α) (s2 : Stream β) (d : Int) :
    pairSumAt g (s1.map fun a => (-a.1, a.2)) (s2.map fun a => (-a.1, a.2)) d
      = pairSumAt g s1 s2 (-d) := by
  simp only [pairSumAt_eq, List.map_map, Function.comp_def]
  congr 1
  apply List.map_congr_left
  intro a _
  congr 1
  apply List.map_congr_left
  intro b _
  congr 1
  apply propext
  omega

theorem zip_neg {α : Type} (a : List Int) (f : List α) :
    (a.map (- ·)).zip f = (a.zip f).map fun a => (-a.1, a.2) := by
  rw [List.zip_map_left]; rfl

theorem stamps_neg (a : List Int) :
    stamps (a.map (- ·)) = (stamps a).map fun a => (-a.1, a.2) := by
  simp [stamps]

theorem crossSumApi_real_ok (f : List M) (t1 t2 : Option (List Int))
    (n : Option Nat) (inv : Bool) (aout : Option (List M)) (hv : ValidSum f.length t1 t2)
    (hfast : t1 = none → outLen n aout f.length ≤ f.length + 1) :
    crossSumApi f t1 t2 n false inv aout
      = .ok (addSeq (startOut aout (outLen n aout (defaultN f.length t1 t2)))
          fun k => pairSum (fun a _ => a) (stream f t1) (otherStream f.length t2) k) := by
  unfold crossSumApi
  rcases t1 with _ | a <;> rcases t2 with _ | b <;> simp only [ValidSum] at hv
  · rw [inspectCross_none]
    simp only [bind, Except.bind]
    rw [defaultOut_real]
    simp only [Bool.false_eq_true, if_false]
    rw [crossSumRegular_eq _ _ (by rw [startOut_length]; exact hfast rfl)]
    rfl
  · obtain ⟨h1, h0, hb⟩ := hv
    obtain ⟨c, hc⟩ := inspectCross_some (a := a) (b := b) f.length
      (by rintro rfl; simp at h1; omega) hb n (aout.map List.length) false
    rw [hc]
    simp only [bind, Except.bind]
    rw [defaultOut_real]
    simp only [Bool.false_eq_true, if_false]
    cases inv
    · simp only [Bool.false_eq_true, if_false, List.length_map, h1, decide_true, checkDims, if_true]
      rw [crossSum_eq _ _ _ _ (by simp [h1]), zip_map_sub, stamps_map_sub]
      simp only [pairSum_shift]
      rfl
    · simp only [List.length_map, h1, decide_true, checkDims, if_true]
      rw [crossSum_eq _ _ _ _ (by simp [h1]), zip_neg, stamps_neg, zip_map_sub, stamps_map_sub]
      simp only [pairSum_neg, pairSum_shift]
      rfl

theorem crossSumApi_full_ok (f : List M) (t1 t2 : Option (List Int))
    (n : Option Nat) (inv : Bool) (aout : Option (List M)) (hv : ValidSum f.length t1 t2)
    (hodd : outLenFull n aout (defaultN f.length t1 t2) % 2 = 1)
    (hfast : t1 = none → (outLenFull n aout f.length + 1) / 2 ≤ f.length + 1) :
    crossSumApi f t1 t2 n true inv aout
      = .ok (addSeq (startOut aout (outLenFull n aout (defaultN f.length t1 t2)))
          fun k => pairSumAt (fun a _ => a) (stream f t1) (otherStream f.length t2)
            (if inv then -cellDelay (outLenFull n aout (defaultN f.length t1 t2)) k
             else cellDelay (outLenFull n aout (defaultN f.length t1 t2)) k)) := by
  have hlen := startOut_length_full n aout (defaultN f.length t1 t2)
  unfold crossSumApi
  rcases t1 with _ | a <;> rcases t2 with _ | b <;> simp only [ValidSum] at hv
  · have hd := defaultOut_full n aout f.length hodd
    rw [inspectCross_none]
    simp only [bind, Except.bind, if_true] at hd ⊢
    rw [hd]
    simp only [defaultN] at hlen hodd ⊢
    cases inv
    · simp only [Bool.false_eq_true, if_false]
      rw [crossSumComplexRegular_eq _ _ (by rw [hlen]; exact hodd)
        (by rw [hlen]; exact hfast rfl), hlen]
      rfl
    · simp only [if_true]
      rw [crossSumComplexRegularInverted_eq _ _ (by rw [hlen]; exact hodd)
        (by rw [hlen]; exact hfast rfl), hlen]
      rfl
  · obtain ⟨h1, h0, hb⟩ := hv
    obtain ⟨c, hc⟩ := inspectCross_some (a := a) (b := b) f.length
      (by rintro rfl; simp at h1; omega) hb n (aout.map List.length) true
    have hd := defaultOut_full n aout _ hodd
    rw [hc]
    simp only [bind, Except.bind, if_true] at hd ⊢
    rw [hd]
    cases inv
    · simp only [Bool.false_eq_true, if_false, List.length_map, h1, decide_true, checkDims, if_true]
      rw [crossSumComplex_eq _ _ _ _ (by simp [h1]) (by rw [hlen]; exact hodd), zip_map_sub,
        stamps_map_sub, hlen]
      simp only [pairSumAt_shift]
      rfl
    · simp only [List.length_map, h1, decide_true, checkDims, if_true]
      rw [crossSumComplex_eq _ _ _ _ (by simp [h1]) (by rw [hlen]; exact hodd), zip_neg,
        stamps_neg, zip_map_sub, stamps_map_sub, hlen]
      simp only [pairSumAt_neg, pairSumAt_shift]
      rfl

theorem addSeq_replicate (L : Nat) (δ : Nat → M) :
    addSeq (List.replicate L 0) δ = (List.range L).map δ := by
  apply List.ext_getElem
  · simp
  · intro k h1 h2
    simp [addSeq]

theorem zipWith_addSeq (out : List M) (L : Nat) (hL : L = out.length) (δ : Nat → M) :
    List.zipWith (· + ·) out ((List.range L).map δ) = addSeq out δ := by
  subst hL
  apply List.ext_getElem
  · simp
  · intro k h1 h2
    simp [addSeq]

omit [AddCommGroup M] in
theorem mapIdx_range (L : Nat) (δ : Nat → M) (F : Nat → M → M) :
    ((List.range L).map δ).mapIdx F = (List.range L).map fun k => F k (δ k) := by
  apply List.ext_getElem
  · simp
  · intro k h1 h2
    simp

theorem autoSumApi_ok (K : Type) [Field K] [Module K M] (f : List M) (t : Option (List Int))
    (n : Option Nat) (aout : Option (List M)) (hv : ValidAuto f.length t)
    (hfast : t = none → outLen n aout f.length ≤ f.length + 1) :
    autoSumApi K f t n aout
      = .ok (addSeq (startOut aout (outLen n aout (defaultN f.length t t))) fun k =>
          if k = 0 then pairSum (fun a _ => a) (stream f t) (otherStream f.length t) k
          else (1 / 2 : K) • pairSum (fun a _ => a) (stream f t) (otherStream f.length t) k) := by
  unfold autoSumApi autoSumWith
  have hlen := startOut_length n aout (defaultN f.length t t)
  rcases t with _ | a
  · rw [inspectAuto_none]
    simp only [bind, Except.bind]
    rw [defaultOut_auto]
    simp only
    rw [crossSumRegular_eq _ _ (by
      simp only [List.length_replicate]
      rw [startOut_length]; exact hfast rfl)]
    simp only [orUB, addSeq_replicate, mapIdx_range]
    rw [zipWith_addSeq _ _ rfl]
    rfl
  · obtain ⟨h1, h0⟩ := hv
    obtain ⟨c, hc⟩ := inspectAuto_some (a := a) f.length (by rintro rfl; simp at h1; omega) n
      (aout.map List.length)
    rw [hc]
    simp only [bind, Except.bind]
    rw [defaultOut_auto]
    simp only [List.length_map, h1, decide_true, checkDims, if_true]
    rw [crossSum_eq _ _ _ _ (by simp [h1]), zip_map_sub, stamps_map_sub]
    simp only [pairSum_shift, orUB, addSeq_replicate, mapIdx_range]
    rw [zipWith_addSeq _ _ rfl]
    rfl

end sums

/-! ### Counts -/

theorem defaultCount_real (a b : List Int) (n : Option Nat) (aout : Option (List Nat))
    (h : aout = none → n = none → a ≠ [] ∧ b ≠ []) (N : Nat) :
    defaultCount a b n aout false
      = .ok (startOut aout (outLen n aout (defaultN N (some a) (some b)))) := by
  rcases aout with _ | o
  · rcases n with _ | n
    · obtain ⟨ha, hb⟩ := h rfl rfl
      have := fullLengthCross_ok N ha hb
      simp only [fullLengthCross, bind] at this
      simp only [defaultCount, bind]
      rw [this]
      simp [Except.bind, startOut, outLen]
    · simp [defaultCount, startOut, outLen, bind, Except.bind]
  · simp [defaultCount, startOut, outLen]

theorem defaultCount_full (a b : List Int) (n : Option Nat) (aout : Option (List Nat))
    (h : aout = none → n = none → a ≠ [] ∧ b ≠ []) (N : Nat)
    (hodd : outLenFull n aout (defaultN N (some a) (some b)) % 2 = 1) :
    defaultCount a b n aout true
      = .ok (startOut aout (outLenFull n aout (defaultN N (some a) (some b)))) := by
  rcases aout with _ | o
  · rcases n with _ | n
    · obtain ⟨ha, hb⟩ := h rfl rfl
      have := fullLengthCross_ok N ha hb
      simp only [fullLengthCross, bind] at this
      simp only [defaultCount, bind]
      rw [this]
      simp [Except.bind, startOut, outLenFull, defaultN]
    · simp only [outLenFull] at hodd
      have : n ≠ 0 := by omega
      simp [defaultCount, startOut, outLenFull, bind, Except.bind, this]
  · simp [defaultCount, startOut, outLenFull]

theorem crossCount_ok (t1 : TimeArg) (t2 : Option TimeArg) (n : Option Nat)
    (aout : Option (List Nat)) (h : aout = none → n = none → t1.times ≠ [] ∧ (t2.getD t1).times ≠ []) :
    crossCount t1 t2 n false aout
      = .ok (addSeq (startOut aout (outLen n aout
            (defaultN 0 (some t1.times) (some (t2.getD t1).times))))
          fun k => pairSum (fun _ _ => 1) (stamps t1.times) (stamps (t2.getD t1).times) k) := by
  have e : crossCount t1 t2 n false aout
      = (defaultCount t1.times (t2.getD t1).times n aout false).bind fun out =>
        orUB (addCountCross t1.times (t2.getD t1).times out) := by cases t2 <;> rfl
  rw [e, defaultCount_real _ _ _ _ h 0]
  simp only [Except.bind, addCountCross_eq]
  rfl

theorem crossCountComplex_ok (t1 : TimeArg) (t2 : Option TimeArg) (n : Option Nat)
    (aout : Option (List Nat)) (h : aout = none → n = none → t1.times ≠ [] ∧ (t2.getD t1).times ≠ [])
    (hodd : outLenFull n aout (defaultN 0 (some t1.times) (some (t2.getD t1).times)) % 2 = 1) :
    crossCount t1 t2 n true aout
      = .ok (addSeq (startOut aout (outLenFull n aout
            (defaultN 0 (some t1.times) (some (t2.getD t1).times))))
          fun k => pairSumAt (fun _ _ => 1) (stamps t1.times) (stamps (t2.getD t1).times)
            (cellDelay (outLenFull n aout
              (defaultN 0 (some t1.times) (some (t2.getD t1).times))) k)) := by
  have e : crossCount t1 t2 n true aout
      = (defaultCount t1.times (t2.getD t1).times n aout true).bind fun out =>
        orUB (addCountCrossComplex t1.times (t2.getD t1).times out) := by cases t2 <;> rfl
  rw [e, defaultCount_full _ _ _ _ h 0 hodd]
  have hlen := startOut_length_full n aout (defaultN 0 (some t1.times) (some (t2.getD t1).times))
  simp only [Except.bind]
  rw [addCountCrossComplex_eq _ _ _ (by rw [hlen]; exact hodd), hlen]
  rfl

theorem autoCount_ok (t : TimeArg) (n : Option Nat)
    (aout : Option (List Nat)) (h : aout = none → n = none → t.times ≠ []) :
    autoCount t n aout
      = .ok (addSeq (startOut aout (outLen n aout (defaultN 0 (some t.times) (some t.times))))
          fun k => selfSum (fun _ _ => 1) (stamps t.times) k) := by
  unfold autoCount
  simp only [bind, Except.bind]
  rw [defaultCount_real _ _ _ _ (fun h1 h2 => ⟨h h1 h2, h h1 h2⟩) 0]
  simp only [addCountAuto_eq]
  rfl

end Cddm

namespace Cddm
open Spec

theorem sum_ones {α : Type} (l : List α) (p : α → Prop) [DecidablePred p] :
    (l.map fun a => if p a then 1 else 0).sum = (l.filter fun a => p a).length := by
  induction l with
  | nil => simp
  | cons a l ih =>
    by_cases h : p a
    · simp [h, ih, add_comm]
    · simp [h, ih]

theorem pairSum_stamps (t1 t2 : List Int) (k : Nat) :
    pairSum (fun _ _ => 1) (stamps t1) (stamps t2) k
      = ((t1 ×ˢ t2).filter fun p => (p.2 - p.1).natAbs = k).length := by
  rw [← sum_ones, sum_product, pairSum_eq]
  simp only [stamps, List.map_map, Function.comp_def]
  congr 1
  apply List.map_congr_left
  intro a _
  congr 1
  apply List.map_congr_left
  intro b _
  congr 1
  apply propext
  rw [Int.abs_eq_natAbs]
  omega

theorem pairSumAt_stamps (t1 t2 : List Int) (d : Int) :
    pairSumAt (fun _ _ => 1) (stamps t1) (stamps t2) d
      = ((t1 ×ˢ t2).filter fun p => p.2 - p.1 = d).length := by
  rw [← sum_ones, sum_product, pairSumAt_eq]
  simp only [stamps, List.map_map, Function.comp_def]

theorem selfSum_stamps (t : List Int) (k : Nat) :
    selfSum (fun _ _ => 1) (stamps t) k
      = ((selfPairs t).filter fun p => (p.2 - p.1).natAbs = k).length := by
  rw [← sum_ones, selfSum_eq]
  simp only [stamps, selfPairs_map, List.map_map, Function.comp_def, Prod.map]
  congr 1
  apply List.map_congr_left
  intro a _
  congr 1
  apply propext
  rw [Int.abs_eq_natAbs]
  omega

end Cddm
