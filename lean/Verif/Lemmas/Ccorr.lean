import Verif.Model.Ccorr
import Verif.Spec.Ccorr
import Verif.Lemmas.FftApi

/-! # Closed forms of `ccorr` and `acorr` -/

namespace Cddm
open Spec

section
variable {α β γ δ M : Type} [AddCommMonoid M]

theorem pairSum_map' (g : γ → δ → M) (φ : α → γ) (ψ : β → δ) (s1 : Stream α) (s2 : Stream β)
    (k : Nat) :
    pairSum g (s1.map fun p => (p.1, φ p.2)) (s2.map fun p => (p.1, ψ p.2)) k
      = pairSum (fun a b => g (φ a) (ψ b)) s1 s2 k := by
  simp [pairSum_eq, Function.comp_def]

theorem pairSumAt_map' (g : γ → δ → M) (φ : α → γ) (ψ : β → δ) (s1 : Stream α) (s2 : Stream β)
    (k : Int) :
    pairSumAt g (s1.map fun p => (p.1, φ p.2)) (s2.map fun p => (p.1, ψ p.2)) k
      = pairSumAt (fun a b => g (φ a) (ψ b)) s1 s2 k := by
  simp [pairSumAt_eq, Function.comp_def]

theorem cellSum_map (full : Bool) (g : γ → δ → M) (φ : α → γ) (ψ : β → δ) (s1 : Stream α)
    (s2 : Stream β) (L k : Nat) :
    cellSum full g (s1.map fun p => (p.1, φ p.2)) (s2.map fun p => (p.1, ψ p.2)) L k
      = cellSum full (fun a b => g (φ a) (ψ b)) s1 s2 L k := by
  unfold cellSum
  rw [pairSum_map', pairSumAt_map']

theorem cellSum_shift (full : Bool) (g : α → β → M) (s1 : Stream α) (s2 : Stream β) (c : Int)
    (L k : Nat) :
    cellSum full g (shiftStream c s1) (shiftStream c s2) L k = cellSum full g s1 s2 L k := by
  unfold cellSum
  rw [pairSum_shift, pairSumAt_shift]

theorem cellSum_add (full : Bool) (g h : α → β → M) (s1 : Stream α) (s2 : Stream β) (L k : Nat) :
    cellSum full (fun a b => g a b + h a b) s1 s2 L k
      = cellSum full g s1 s2 L k + cellSum full h s1 s2 L k := by
  unfold cellSum
  rw [pairSum_add, pairSumAt_add]
  split <;> rfl

theorem addSeq_add (out : List M) (δ ε : Nat → M) :
    addSeq (addSeq out δ) ε = addSeq out fun k => δ k + ε k := by
  apply List.ext_getElem
  · simp
  · intro k h1 h2
    simp only [addSeq, List.getElem_mapIdx, add_assoc]

end

/-- Shift optional times. -/
def subT (c : Int) (t : Option (List Int)) : Option (List Int) := t.map (List.map (· - c))

theorem stream_subT {α : Type} (f : List α) (t : Option (List Int)) (c : Int) (h : t.isSome) :
    stream f (subT c t) = shiftStream (-c) (stream f t) := by
  cases t with
  | none => simp at h
  | some a => exact zip_map_sub a f c

theorem cellSum_stream {α β M : Type} [AddCommMonoid M] (full : Bool) (g : α → β → M)
    (f1 : List α) (f2 : List β) {t1 t2 : Option (List Int)} {N1 N2 : Nat}
    (hv : ValidCross N1 N2 t1 t2) (c : Int) (L k : Nat) :
    cellSum full g (stream f1 (subT c t1)) (stream f2 (subT c t2)) L k
      = cellSum full g (stream f1 t1) (stream f2 t2) L k := by
  rcases t1 with _ | a <;> rcases t2 with _ | b <;> try (simp only [ValidCross] at hv)
  · rfl
  · rw [stream_subT _ _ _ rfl, stream_subT _ _ _ rfl, cellSum_shift]

theorem otherStream_eq' {β : Type} (f : List β) (t : Option (List Int)) (N : Nat)
    (hN : N = f.length) (h : ∀ a, t = some a → a.length = f.length) :
    otherStream N t = (stream f t).map fun p => (p.1, ()) := by
  subst hN
  cases t with
  | none =>
    apply List.ext_getElem
    · simp [otherStream, stream, regular]
    · intro i h1 h2
      simp [otherStream, stream, regular]
  | some a =>
    have := h a rfl
    apply List.ext_getElem
    · simp [otherStream, stream, stamps, this]
    · intro i h1 h2
      simp [otherStream, stream, stamps]

theorem map_pair_id {α : Type} (s : Stream α) : (s.map fun p => (p.1, p.2)) = s := by simp

theorem Spec.ValidCross.subT {N1 N2 : Nat} {t1 t2 : Option (List Int)}
    (h : ValidCross N1 N2 t1 t2) (c : Int) :
    ValidCross N1 N2 (Cddm.subT c t1) (Cddm.subT c t2) := by
  rcases t1 with _ | a <;> rcases t2 with _ | b <;>
    simp [ValidCross, Cddm.subT] at h ⊢ <;> exact h

theorem Spec.Distinct.subT {t : Option (List Int)} (h : Distinct t) (c : Int) :
    Distinct (Cddm.subT c t) := by
  intro l hl
  rcases t with _ | a
  · simp [Cddm.subT] at hl
  · rw [← Option.some.inj hl]
    exact (h a rfl).map sub_left_injective

theorem defaultN_subT (N : Nat) (t1 t2 : Option (List Int)) (c : Int) :
    defaultN N (subT c t1) (subT c t2) = defaultN N t1 t2 := by
  rcases t1 with _ | a <;> rcases t2 with _ | b <;> try rfl
  exact defaultN_map_sub N a b c

theorem Spec.ValidCross.len1 {N1 N2 : Nat} {t1 t2 : Option (List Int)}
    (h : ValidCross N1 N2 t1 t2) : ∀ a, t1 = some a → a.length = N1 := by
  rintro a rfl
  rcases t2 with _ | b
  · exact h.elim
  · exact h.2.1

theorem Spec.ValidCross.len2 {N1 N2 : Nat} {t1 t2 : Option (List Int)}
    (h : ValidCross N1 N2 t1 t2) : ∀ a, t2 = some a → a.length = N2 := by
  rintro a rfl
  rcases t1 with _ | b
  · exact h.elim
  · exact h.2.2.1

theorem Spec.ValidCross.eqLen {N1 N2 : Nat} {t1 t2 : Option (List Int)}
    (h : ValidCross N1 N2 t1 t2) : N1 = N2 := by
  rcases t1 with _ | a <;> rcases t2 with _ | b
  · exact h
  · exact h.elim
  · exact h.elim
  · exact h.1

theorem Spec.ValidCross.symm' {N1 N2 : Nat} {t1 t2 : Option (List Int)}
    (h : ValidCross N1 N2 t1 t2) : ValidCross N2 N1 t2 t1 := by
  rcases t1 with _ | a <;> rcases t2 with _ | b
  · exact (show N1 = N2 from h).symm
  · exact h.elim
  · exact h.elim
  · obtain ⟨h1, h2, h3, h4⟩ := h
    exact ⟨h1.symm, h3, h2, h1 ▸ h4⟩

theorem lenFor_real {M : Type} (n : Nat) (aout : Option (List M)) (D : Nat) :
    outLen (some n) aout D = fieldLen false n aout := by
  cases aout <;> rfl

theorem lenFor_full {M : Type} (n : Nat) (aout : Option (List M)) (D : Nat) :
    outLenFull (some n) aout D = fieldLen true n aout := by
  cases aout <;> rfl

theorem defaultN_comm (N N' : Nat) (t1 t2 : Option (List Int)) (h : N = N') :
    defaultN N t1 t2 = defaultN N' t2 t1 := by
  subst h
  rcases t1 with _ | a <;> rcases t2 with _ | b <;> try rfl
  have hle : ∀ (a b : List Int), defaultN N (some a) (some b) ≤ defaultN N (some b) (some a) := by
    intro a b
    simp only [defaultN]
    apply Nat.add_le_add_left
    rcases foldl_max_mem (a.flatMap fun x => b.map fun y => (y - x).natAbs) 0 with h | h
    · rw [h]; exact Nat.zero_le _
    · refine (foldl_max_le _ 0).2 _ ?_
      simp only [List.mem_flatMap, List.mem_map] at h ⊢
      obtain ⟨x, hx, y, hy, e⟩ := h
      exact ⟨y, hy, x, hx, by rw [← e]; omega⟩
  exact le_antisymm (hle a b) (hle b a)

section sum
variable {M : Type} [AddCommGroup M]
  {kR kC : List M → List (Cx ℝ) → List Int → Nat → List M → Py (List M)}

/-- The tau sum of the first data. -/
theorem sum1_ok {β : Type} (K : SumKernels kR kC) (full : Bool) (m : String) (g : List M) (f2 : List β)
    (t1 t2 : Option (List Int)) (c : Int) (n : Nat) (aout : Option (List M))
    (hv : ValidCross g.length f2.length t1 t2)
    (hd : m = "fft" → Distinct t1 ∧ Distinct t2)
    (hs : SafeLen full m t1 (defaultN g.length t1 t2) (fieldLen full n aout)) (useFft : Bool)
    (hu : useFft = decide (m = "fft" ∧ t1.isSome)) :
    (if useFft = true then
        crossSumFftApi kR kC g (subT c t1) (subT c t2) (some n) full false aout
      else crossSumApi g (subT c t1) (subT c t2) (some n) full false aout)
      = .ok (addSeq (startOut aout (fieldLen full n aout))
          (cellSum full (fun a _ => a) (stream g t1) (stream f2 t2) (fieldLen full n aout))) := by
  subst hu
  obtain ⟨hs1, hs2, hs3⟩ := hs
  have hvs := hv.subT c
  have key : ∀ k, cellSum full (fun a _ => a) (stream g (subT c t1))
      (otherStream g.length (subT c t2)) (fieldLen full n aout) k
      = cellSum full (fun a _ => a) (stream g t1) (stream f2 t2) (fieldLen full n aout) k := by
    intro k
    rw [otherStream_eq' f2 _ _ hv.eqLen hvs.len2]
    have := cellSum_map full (fun (a : M) (_ : Unit) => a) (fun a => a) (fun (_ : β) => ())
      (stream g (subT c t1)) (stream f2 (subT c t2)) (fieldLen full n aout) k
    rw [map_pair_id] at this
    rw [this, cellSum_stream _ _ _ _ hv]
  by_cases hu : m = "fft" ∧ t1.isSome
  · simp only [hu, and_self, decide_true, if_true]
    obtain ⟨hd1, hd2⟩ := hd hu.1
    have hd1 := hd1.subT c
    have hd2 := hd2.subT c
    have hs3 := hs3 (Or.inl hu.1)
    have hs2 := hs2 hu.1
    rw [← defaultN_subT _ _ _ c] at hs3
    obtain ⟨a, ha⟩ : ∃ a, t1 = some a := Option.isSome_iff_exists.mp hu.2
    obtain ⟨b, hb⟩ : ∃ b, t2 = some b := by
      subst ha; rcases t2 with _ | b
      · exact hv.elim
      · exact ⟨b, rfl⟩
    subst ha hb
    simp only [subT, Option.map_some] at *
    cases full
    · rw [crossSumFftApi_real_ok K g _ _ (some n) false aout hvs.sum (hd1 _ rfl) (hd2 _ rfl)
        (by rw [lenFor_real]; exact hs2) (by rw [lenFor_real]; simpa using hs3), lenFor_real]
      congr 2
      funext k
      exact key k
    · rw [crossSumFftApi_full_ok K g _ _ (some n) false aout hvs.sum (hd1 _ rfl) (hd2 _ rfl)
        (by rw [lenFor_full]; exact hs1 rfl) (by rw [lenFor_full]; simpa using hs3), lenFor_full]
      congr 2
      funext k
      exact key k
  · simp only [hu, decide_false, Bool.false_eq_true, if_false]
    have hfast : subT c t1 = none → (if full then (fieldLen full n aout + 1) / 2
        else fieldLen full n aout) ≤ g.length + 1 := by
      intro h
      have ht : t1 = none := by simpa [subT] using h
      have := hs3 (Or.inr ht)
      subst ht
      simpa [defaultN] using this
    cases full
    · rw [crossSumApi_real_ok g _ _ (some n) false aout hvs.sum
        (by rw [lenFor_real]; simpa using hfast), lenFor_real]
      congr 2
      funext k
      exact key k
    · rw [crossSumApi_full_ok g _ _ (some n) false aout hvs.sum
        (by rw [lenFor_full]; exact hs1 rfl) (by rw [lenFor_full]; simpa using hfast), lenFor_full]
      congr 2
      funext k
      exact key k

/-- The tau sum of the second data (inverted times). -/
theorem sum2_ok {β : Type} (K : SumKernels kR kC) (full : Bool) (m : String) (g : List M) (f1 : List β)
    (t1 t2 : Option (List Int)) (c : Int) (n : Nat) (aout : Option (List M))
    (hv : ValidCross f1.length g.length t1 t2)
    (hd : m = "fft" → Distinct t1 ∧ Distinct t2)
    (hs : SafeLen full m t1 (defaultN f1.length t1 t2) (fieldLen full n aout)) (useFft : Bool)
    (hu : useFft = decide (m = "fft" ∧ t1.isSome)) :
    (if useFft = true then
        crossSumFftApi kR kC g (subT c t2) (subT c t1) (some n) full true aout
      else crossSumApi g (subT c t2) (subT c t1) (some n) full true aout)
      = .ok (addSeq (startOut aout (fieldLen full n aout))
          (cellSum full (fun _ b => b) (stream f1 t1) (stream g t2) (fieldLen full n aout))) := by
  subst hu
  obtain ⟨hs1, hs2, hs3⟩ := hs
  have hvs := hv.subT c
  rw [defaultN_comm _ _ _ _ hv.eqLen] at hs3
  have key1 : ∀ k, pairSum (fun a _ => a) (stream g (subT c t2))
      (otherStream g.length (subT c t1)) k
      = pairSum (fun _ b => b) (stream f1 t1) (stream g t2) k := by
    intro k
    rw [otherStream_eq' f1 _ _ hv.eqLen.symm hvs.len1]
    have := pairSum_map' (fun (a : M) (_ : Unit) => a) (fun a => a) (fun (_ : β) => ())
      (stream g (subT c t2)) (stream f1 (subT c t1)) k
    rw [map_pair_id] at this
    rw [this, pairSum_swap]
    exact cellSum_stream false (fun (_ : β) (b : M) => b) f1 g hv c 0 k
  have key2 : ∀ d, pairSumAt (fun a _ => a) (stream g (subT c t2))
      (otherStream g.length (subT c t1)) (-cellDelay (fieldLen full n aout) d)
      = pairSumAt (fun _ b => b) (stream f1 t1) (stream g t2)
        (cellDelay (fieldLen full n aout) d) := by
    intro k
    rw [otherStream_eq' f1 _ _ hv.eqLen.symm hvs.len1]
    have := pairSumAt_map' (fun (a : M) (_ : Unit) => a) (fun a => a) (fun (_ : β) => ())
      (stream g (subT c t2)) (stream f1 (subT c t1)) (-cellDelay (fieldLen full n aout) k)
    rw [map_pair_id] at this
    rw [this, pairSumAt_swap, neg_neg]
    exact cellSum_stream true (fun (_ : β) (b : M) => b) f1 g hv c (fieldLen full n aout) k
  by_cases hu : m = "fft" ∧ t1.isSome
  · simp only [hu, and_self, decide_true, if_true]
    obtain ⟨hd1, hd2⟩ := hd hu.1
    have hd1 := hd1.subT c
    have hd2 := hd2.subT c
    have hs3 := hs3 (Or.inl hu.1)
    have hs2 := hs2 hu.1
    rw [← defaultN_subT _ _ _ c] at hs3
    obtain ⟨a, ha⟩ : ∃ a, t1 = some a := Option.isSome_iff_exists.mp hu.2
    obtain ⟨b, hb⟩ : ∃ b, t2 = some b := by
      subst ha; rcases t2 with _ | b
      · exact hv.elim
      · exact ⟨b, rfl⟩
    subst ha hb
    simp only [subT, Option.map_some] at *
    cases full
    · rw [crossSumFftApi_real_ok K g _ _ (some n) true aout hvs.symm'.sum (hd2 _ rfl) (hd1 _ rfl)
        (by rw [lenFor_real]; exact hs2) (by rw [lenFor_real]; simpa using hs3), lenFor_real]
      congr 2
      funext k
      exact key1 k
    · rw [crossSumFftApi_full_ok K g _ _ (some n) true aout hvs.symm'.sum (hd2 _ rfl) (hd1 _ rfl)
        (by rw [lenFor_full]; exact hs1 rfl) (by rw [lenFor_full]; simpa using hs3), lenFor_full]
      congr 2
      funext k
      exact key2 k
  · simp only [hu, decide_false, Bool.false_eq_true, if_false]
    have hfast : subT c t2 = none → (if full then (fieldLen full n aout + 1) / 2
        else fieldLen full n aout) ≤ g.length + 1 := by
      intro h
      have ht2 : t2 = none := by simpa [subT] using h
      have ht : t1 = none := by
        subst ht2
        rcases t1 with _ | a
        · rfl
        · exact hv.elim
      have := hs3 (Or.inr ht)
      subst ht ht2
      simpa [defaultN] using this
    cases full
    · rw [crossSumApi_real_ok g _ _ (some n) true aout hvs.symm'.sum
        (by rw [lenFor_real]; simpa using hfast), lenFor_real]
      congr 2
      funext k
      exact key1 k
    · rw [crossSumApi_full_ok g _ _ (some n) true aout hvs.symm'.sum
        (by rw [lenFor_full]; exact hs1 rfl) (by rw [lenFor_full]; simpa using hfast), lenFor_full]
      congr 2
      funext k
      exact key2 k

end sum

theorem inspectCross_sub (N1 N2 : Nat) (t1 t2 : Option (List Int)) (n L : Option Nat)
    (full : Bool) (D : Nat) (hD : D = defaultN N1 t1 t2)
    (hv : ValidCross N1 N2 t1 t2) :
    ∃ c t, inspectCross N1 N2 t1 t2 n L full = .ok (t, delays full n L D) ∧
      t.map Prod.fst = subT c t1 ∧ t.map Prod.snd = subT c t2 ∧ t.isSome = t1.isSome := by
  subst hD
  rcases t1 with _ | a <;> rcases t2 with _ | b <;> try (simp only [ValidCross] at hv)
  · subst hv
    exact ⟨0, none, inspectCross_none N1 n L full, rfl, rfl, rfl⟩
  · obtain ⟨hane, hbne⟩ := Spec.ValidCross.ne hv
    obtain ⟨c, hc⟩ := inspectCross_some N1 hane hbne n L full
    obtain ⟨rfl, -⟩ := hv
    exact ⟨c, _, hc, rfl, rfl, rfl⟩

theorem count_ok {α β : Type} (full : Bool) (f1 : List α) (f2 : List β) (t1 t2 : Option (List Int))
    (c : Int) (n : Nat) (aout : Option (List Nat)) (hv : ValidCross f1.length f2.length t1 t2)
    (hodd : full = true → fieldLen full n aout % 2 = 1) :
    crossCount (.array ((subT c t1).getD (arange f1.length)))
      (some (.array ((subT c t2).getD (arange f1.length)))) (some n) full aout
      = .ok (addSeq (startOut aout (fieldLen full n aout))
          (cellSum full (fun _ _ => 1) (stream f1 t1) (stream f2 t2) (fieldLen full n aout))) := by
  have hvs := hv.subT c
  have e1 : stamps ((subT c t1).getD (arange f1.length))
      = (stream f1 (subT c t1)).map fun p => (p.1, ()) := by
    rw [← otherStream_eq' f1 _ _ rfl hvs.len1]
    cases t1
    · exact arange_stamps _
    · rfl
  have e2 : stamps ((subT c t2).getD (arange f1.length))
      = (stream f2 (subT c t2)).map fun p => (p.1, ()) := by
    rw [← otherStream_eq' f2 _ _ hv.eqLen hvs.len2]
    cases t2
    · exact arange_stamps _
    · rfl
  have key : ∀ k, cellSum full (fun _ _ => 1) (stamps ((subT c t1).getD (arange f1.length)))
      (stamps ((subT c t2).getD (arange f1.length))) (fieldLen full n aout) k
      = cellSum full (fun _ _ => (1 : Nat)) (stream f1 t1) (stream f2 t2) (fieldLen full n aout) k := by
    intro k
    rw [e1, e2]
    refine Eq.trans (cellSum_map full _ (fun _ => ()) (fun _ => ()) _ _ _ k) ?_
    exact cellSum_stream _ _ _ _ hv _ _ _
  cases full
  · rw [crossCount_ok _ _ _ _ (by simp), lenFor_real]
    congr 2
    funext k
    exact key k
  · rw [crossCountComplex_ok _ _ _ _ (by simp) (by rw [lenFor_full]; exact hodd rfl), lenFor_full]
    congr 2
    funext k
    exact key k

/-- The tuple `ccorr` returns, as sums over pairs. -/
noncomputable def ccorrSpec {C : Type} [AddCommMonoid C] (full : Bool) (prod : Cx ℝ → Cx ℝ → C)
    (m : String) (nm n : Nat) (s1 s2 : Stream (Cx ℝ)) (q1 q2 : Stream ℝ) (aout : CorrAout C) :
    CorrTuple C where
  cor := addSeq (startOut aout.cor (fieldLen full n aout.cor))
    (cellSum full prod s1 s2 (fieldLen full n aout.cor))
  count := addSeq (startOut aout.count (fieldLen full n aout.count))
    (cellSum full (fun _ _ => 1) s1 s2 (fieldLen full n aout.count))
  sq := if needsSquares nm ∧ m ≠ "diff" then
      some (addSeq (startOut aout.sq (fieldLen full n aout.sq))
        (cellSum full (fun a b => a + b) q1 q2 (fieldLen full n aout.sq)))
    else if m = "diff" then none else aout.sq
  ds1 := if needsSums nm then
      some (addSeq (startOut aout.ds1 (fieldLen full n aout.ds1))
        (cellSum full (fun a _ => a) s1 s2 (fieldLen full n aout.ds1)))
    else aout.ds1
  ds2 := if needsSums nm then
      some (addSeq (startOut aout.ds2 (fieldLen full n aout.ds2))
        (cellSum full (fun _ b => b) s1 s2 (fieldLen full n aout.ds2)))
    else aout.ds2

theorem fieldLen_some {M : Type} (full : Bool) (n : Nat) (o : List M) :
    fieldLen full n (some o) = o.length := rfl

theorem startOut_len {M : Type} [AddCommMonoid M] (full : Bool) (n : Nat) (aout : Option (List M)) :
    (startOut aout (fieldLen full n aout)).length = fieldLen full n aout := by
  cases aout <;> simp [startOut, fieldLen]

theorem ccorrBody_ok {C : Type} [AddCommMonoid C] (full : Bool)
    (kFft kCorr kDiff : List (Cx ℝ) → List (Cx ℝ) → Option (List Int) → Option (List Int) →
      Option Nat → Option (List C) → Py (List C))
    (f1 f2 : List (Cx ℝ)) (t1 t2 : Option (List Int)) (n : Option Nat) (norm : Option Int)
    (method : Option String) (f1s f2s : Option (List ℝ)) (aout : CorrAout C)
    (m : String) (nm n' D : Nat) (prod : Cx ℝ → Cx ℝ → C)
    (hm : defaultMethod method n = .ok m) (hnm : defaultNorm norm m true = .ok nm)
    (hdf : ¬ (m = "diff" ∧ full = true)) (hv : ValidCross f1.length f2.length t1 t2)
    (hD : D = defaultN f1.length t1 t2)
    (hn' : n' = delays full n (aout.cor.map List.length) D)
    (hf1s : ∀ g, f1s = some g → g.length = f1.length)
    (hf2s : ∀ g, f2s = some g → g.length = f2.length)
    (hd : m = "fft" → Distinct t1 ∧ Distinct t2)
    (hscount : full = true → fieldLen full n' aout.count % 2 = 1)
    (hssq : needsSquares nm → m ≠ "diff" → SafeLen full m t1 D (fieldLen full n' aout.sq))
    (hsds1 : needsSums nm → SafeLen full m t1 D (fieldLen full n' aout.ds1))
    (hsds2 : needsSums nm → SafeLen full m t1 D (fieldLen full n' aout.ds2))
    (hk : ∀ c, (if m = "fft" then kFft f1 f2 (subT c t1) (subT c t2) (some n') aout.cor
        else if m = "corr" then kCorr f1 f2 (subT c t1) (subT c t2) (some n') aout.cor
        else kDiff f1 f2 (subT c t1) (subT c t2) (some n') aout.cor)
      = .ok (addSeq (startOut aout.cor (fieldLen full n' aout.cor))
          (cellSum full prod (stream f1 t1) (stream f2 t2) (fieldLen full n' aout.cor)))) :
    ccorrBody full kFft kCorr kDiff f1 f2 t1 t2 n norm method f1s f2s aout
      = .ok (ccorrSpec full prod m nm n' (stream f1 t1) (stream f2 t2)
          (stream (f1s.getD (f1.map Cx.abs2)) t1) (stream (f2s.getD (f2.map Cx.abs2)) t2) aout) := by
  unfold ccorrBody
  obtain ⟨c, t, hi, ht1, ht2, hti⟩ := inspectCross_sub f1.length f2.length t1 t2 n
    (aout.cor.map List.length) full D hD hv
  have hg1 : (f1s.getD (f1.map Cx.abs2)).length = f1.length := by
    cases f1s
    · simp
    · exact hf1s _ rfl
  have hg2 : (f2s.getD (f2.map Cx.abs2)).length = f2.length := by
    cases f2s
    · simp
    · exact hf2s _ rfl
  simp only [hm, hnm, bind, Except.bind, if_neg hdf, hi, ht1, ht2, hti, ← hn']
  rw [hk c]
  dsimp only
  rw [count_ok full f1 f2 t1 t2 c n' aout.count hv hscount]
  dsimp only
  have hq1 : ∀ ao : Option (List ℝ), SafeLen full m t1 D (fieldLen full n' ao) → _ := fun ao hs =>
    sum1_ok sumKernelsR full m (f1s.getD (f1.map Cx.abs2)) (f2s.getD (f2.map Cx.abs2)) t1 t2 c n' ao
      (by rw [hg1, hg2]; exact hv) hd (by rw [hg1, ← hD]; exact hs) _ rfl
  have hq2 : ∀ ao : Option (List ℝ), SafeLen full m t1 D (fieldLen full n' ao) → _ := fun ao hs =>
    sum2_ok sumKernelsR full m (f2s.getD (f2.map Cx.abs2)) (f1s.getD (f1.map Cx.abs2)) t1 t2 c n' ao
      (by rw [hg1, hg2]; exact hv) hd (by rw [hg1, ← hD]; exact hs) _ rfl
  have hq1' : ∀ ao : Option (List (Cx ℝ)), SafeLen full m t1 D (fieldLen full n' ao) → _ := fun ao hs =>
    sum1_ok sumKernelsC full m f1 f2 t1 t2 c n' ao hv hd (hD ▸ hs) _ rfl
  have hq2' : ∀ ao : Option (List (Cx ℝ)), SafeLen full m t1 D (fieldLen full n' ao) → _ := fun ao hs =>
    sum2_ok sumKernelsC full m f2 f1 t1 t2 c n' ao hv hd (hD ▸ hs) _ rfl
  have hSq : ccorrSquares m nm (decide (m = "fft" ∧ t1.isSome = true)) (f1s.getD (f1.map Cx.abs2))
      (f2s.getD (f2.map Cx.abs2)) (subT c t1) (subT c t2) n' full aout.sq
      = .ok (ccorrSpec full prod m nm n' (stream f1 t1) (stream f2 t2)
          (stream (f1s.getD (f1.map Cx.abs2)) t1) (stream (f2s.getD (f2.map Cx.abs2)) t2) aout).sq := by
    unfold ccorrSquares ccorrSpec
    dsimp only
    split
    · next h =>
      have hs := hssq h.1 h.2
      simp only [sumSelR, bind, Except.bind]
      rw [hq1 aout.sq hs]
      dsimp only
      rw [hq2 _ (by
        rw [fieldLen_some, addSeq_length, startOut_len]; exact hs)]
      simp only [fieldLen_some, addSeq_length, startOut_len]
      simp only [startOut, Option.getD_some, addSeq_add]
      congr 3
      funext k
      exact (cellSum_add full (fun (a : ℝ) (_ : ℝ) => a) (fun _ b => b) _ _ _ k).symm
    · rfl
  rw [hSq]
  dsimp only
  have h1 : ccorrSums nm (decide (m = "fft" ∧ t1.isSome = true)) f1 (subT c t1) (subT c t2) n' full
      false aout.ds1 = .ok (ccorrSpec full prod m nm n' (stream f1 t1) (stream f2 t2)
          (stream (f1s.getD (f1.map Cx.abs2)) t1) (stream (f2s.getD (f2.map Cx.abs2)) t2) aout).ds1 := by
    unfold ccorrSums ccorrSpec
    dsimp only
    split
    · next h =>
      simp only [sumSelC]
      rw [hq1' aout.ds1 (hsds1 h)]
      rfl
    · rfl
  have h2 : ccorrSums nm (decide (m = "fft" ∧ t1.isSome = true)) f2 (subT c t2) (subT c t1) n' full
      true aout.ds2 = .ok (ccorrSpec full prod m nm n' (stream f1 t1) (stream f2 t2)
          (stream (f1s.getD (f1.map Cx.abs2)) t1) (stream (f2s.getD (f2.map Cx.abs2)) t2) aout).ds2 := by
    unfold ccorrSums ccorrSpec
    dsimp only
    split
    · next h =>
      simp only [sumSelC]
      rw [hq2' aout.ds2 (hsds2 h)]
      rfl
    · rfl
  rw [h1, h2]
  rfl

end Cddm

namespace Cddm
open Spec

theorem SafeLen_cor_fast {full : Bool} {m : String} {t1 t2 : Option (List Int)} {N L : Nat} {c : Int}
    (h : SafeLen full m t1 (defaultN N t1 t2) L) (ht : subT c t1 = none) :
    (if full then (L + 1) / 2 else L) ≤ N + 1 := by
  have h1 : t1 = none := by simpa [subT] using ht
  have := h.2.2 (Or.inr h1)
  subst h1
  simpa [defaultN] using this

theorem ccorr_ok (f1 f2 : List (Cx ℝ)) (t1 t2 : Option (List Int)) (n : Option Nat)
    (norm : Option Int) (method : Option String) (aligned : Bool) (f1s f2s : Option (List ℝ))
    (aout : CorrAout ℝ) (m : String) (nm n' D : Nat)
    (hm : defaultMethod method n = .ok m) (hnm : defaultNorm norm m true = .ok nm)
    (hv : ValidCross f1.length f2.length t1 t2)
    (hD : D = defaultN f1.length t1 t2)
    (hn' : n' = delays false n (aout.cor.map List.length) D)
    (hf1s : ∀ g, f1s = some g → g.length = f1.length)
    (hf2s : ∀ g, f2s = some g → g.length = f2.length)
    (hd : m = "fft" → Distinct t1 ∧ Distinct t2) (hne : m = "fft" → f1 ≠ [])
    (hscor : SafeLen false m t1 D (fieldLen false n' aout.cor))
    (hssq : needsSquares nm → m ≠ "diff" → SafeLen false m t1 D (fieldLen false n' aout.sq))
    (hsds1 : needsSums nm → SafeLen false m t1 D (fieldLen false n' aout.ds1))
    (hsds2 : needsSums nm → SafeLen false m t1 D (fieldLen false n' aout.ds2)) :
    ccorr f1 f2 t1 t2 n norm method aligned f1s f2s aout
      = .ok (ccorrSpec false (if m = "diff" then dist2 else reProd) m nm n' (stream f1 t1)
          (stream f2 t2) (stream (f1s.getD (f1.map Cx.abs2)) t1)
          (stream (f2s.getD (f2.map Cx.abs2)) t2) aout) := by
  refine ccorrBody_ok false _ _ _ f1 f2 t1 t2 n norm method f1s f2s aout m nm n' D _ hm hnm
    (by simp) hv hD hn' hf1s hf2s hd (by simp) hssq hsds1 hsds2 ?_
  intro c
  have hvs := hv.subT c
  have hfast : subT c t1 = none → fieldLen false n' aout.cor ≤ f1.length + 1 := fun h =>
    SafeLen_cor_fast (hD ▸ hscor) h
  by_cases h1 : m = "fft"
  · obtain ⟨hd1, hd2⟩ := hd h1
    obtain ⟨-, hs2, hs3⟩ := hscor
    have hs2 := hs2 h1
    have hs3 := hs3 (Or.inl h1)
    rw [if_pos h1, crossCorrelateFft_ok f1 f2 _ _ (some n') aout.cor hvs (hne h1) (hd1.subT c)
      (hd2.subT c) (by rw [lenFor_real]; exact hs2)
      (by rw [lenFor_real, defaultN_subT, ← hD]; simpa using hs3), lenFor_real]
    congr 2
    funext k
    rw [if_neg (by rw [h1]; decide)]
    exact cellSum_stream false reProd f1 f2 hv c 0 k
  · rw [if_neg h1]
    by_cases h2 : m = "corr"
    · rw [if_pos h2, crossCorrelate_ok f1 f2 _ _ (some n') aligned aout.cor hvs
        (by rw [lenFor_real]; exact fun h _ => hfast h), lenFor_real]
      congr 2
      funext k
      rw [if_neg (by rw [h2]; decide)]
      exact cellSum_stream false reProd f1 f2 hv c 0 k
    · rw [if_neg h2, crossDifference_ok f1 f2 _ _ (some n') aligned aout.cor hvs
        (by rw [lenFor_real]; exact fun h _ => hfast h), lenFor_real]
      have h3 : m = "diff" := by
        unfold defaultMethod at hm
        cases method with
        | none =>
          simp only [Except.ok.injEq] at hm
          split at hm <;> simp_all
        | some x =>
          simp only at hm
          split at hm
          · simp_all
          · simp at hm
      congr 2
      funext k
      rw [if_pos h3]
      exact cellSum_stream false dist2 f1 f2 hv c 0 k

theorem ccorrComplex_ok (f1 f2 : List (Cx ℝ)) (t1 t2 : Option (List Int)) (n : Option Nat)
    (norm : Option Int) (method : Option String) (aligned : Bool) (f1s f2s : Option (List ℝ))
    (aout : CorrAout (Cx ℝ)) (m : String) (nm n' D : Nat)
    (hm : defaultMethod method n = .ok m) (hnm : defaultNorm norm m true = .ok nm)
    (hdiff : m ≠ "diff") (hv : ValidCross f1.length f2.length t1 t2)
    (hD : D = defaultN f1.length t1 t2)
    (hn' : n' = delays true n (aout.cor.map List.length) D)
    (hf1s : ∀ g, f1s = some g → g.length = f1.length)
    (hf2s : ∀ g, f2s = some g → g.length = f2.length)
    (hd : m = "fft" → Distinct t1 ∧ Distinct t2) (hne : m = "fft" → f1 ≠ [])
    (hscor : SafeLen true m t1 D (fieldLen true n' aout.cor))
    (hscount : fieldLen true n' aout.count % 2 = 1)
    (hssq : needsSquares nm → m ≠ "diff" → SafeLen true m t1 D (fieldLen true n' aout.sq))
    (hsds1 : needsSums nm → SafeLen true m t1 D (fieldLen true n' aout.ds1))
    (hsds2 : needsSums nm → SafeLen true m t1 D (fieldLen true n' aout.ds2)) :
    ccorrComplex f1 f2 t1 t2 n norm method aligned f1s f2s aout
      = .ok (ccorrSpec true cxProd m nm n' (stream f1 t1)
          (stream f2 t2) (stream (f1s.getD (f1.map Cx.abs2)) t1)
          (stream (f2s.getD (f2.map Cx.abs2)) t2) aout) := by
  refine ccorrBody_ok true _ _ _ f1 f2 t1 t2 n norm method f1s f2s aout m nm n' D _ hm hnm
    (by simp [hdiff]) hv hD hn' hf1s hf2s hd (fun _ => hscount) hssq hsds1 hsds2 ?_
  intro c
  have hvs := hv.subT c
  have hfast : subT c t1 = none → (fieldLen true n' aout.cor + 1) / 2 ≤ f1.length + 1 := fun h =>
    SafeLen_cor_fast (hD ▸ hscor) h
  obtain ⟨hs1, hs2, hs3⟩ := hscor
  by_cases h1 : m = "fft"
  · obtain ⟨hd1, hd2⟩ := hd h1
    have hs3 := hs3 (Or.inl h1)
    rw [if_pos h1, crossCorrelateComplexFft_ok f1 f2 _ _ (some n') aout.cor hvs (hne h1)
      (hd1.subT c) (hd2.subT c) (by rw [lenFor_full]; exact hs1 rfl)
      (by rw [lenFor_full, defaultN_subT, ← hD]; simpa using hs3), lenFor_full]
    congr 2
    funext k
    exact cellSum_stream true cxProd f1 f2 hv c _ k
  · rw [if_neg h1]
    have h2 : m = "corr" := by
      unfold defaultMethod at hm
      cases method with
      | none =>
        simp only [Except.ok.injEq] at hm
        split at hm <;> simp_all
      | some x =>
        simp only at hm
        split at hm
        · simp_all
        · simp at hm
    rw [if_pos h2, crossCorrelateComplex_ok f1 f2 _ _ (some n') aligned aout.cor hvs
        (by rw [lenFor_full]; exact hs1 rfl)
        (by rw [lenFor_full]; exact fun h _ => hfast h), lenFor_full]
    congr 2
    funext k
    exact cellSum_stream true cxProd f1 f2 hv c _ k

theorem added_of {M : Type} [AddCommMonoid M] (full : Bool) (n : Nat) (aout : Option (List M))
    (δ : Nat → Nat → M) :
    Added full n aout δ (addSeq (startOut aout (fieldLen full n aout)) (δ (fieldLen full n aout))) := by
  refine ⟨by rw [addSeq_length, startOut_len], ?_⟩
  intro k hk
  have hk' : k < (startOut aout (fieldLen full n aout)).length := by simpa using hk
  simp only [addSeq, List.getElem_mapIdx, List.length_mapIdx, startOut_len]
  rw [startOut_get]

/-! ### Method and norm -/

theorem defaultMethod_ok_iff (method : Option String) (n : Option Nat) (m : String) :
    defaultMethod method n = .ok m ↔
      m = effMethod method n ∧ (m = "corr" ∨ m = "fft" ∨ m = "diff") := by
  unfold defaultMethod effMethod
  cases method with
  | none =>
    cases n with
    | none => simp; constructor <;> · intro h; simp_all
    | some n => simp; constructor <;> · intro h; simp_all
  | some x =>
    simp only [List.mem_cons, List.not_mem_nil, or_false, Option.getD_some]
    split
    · next h =>
      simp only [Except.ok.injEq]
      constructor
      · rintro rfl; exact ⟨rfl, h⟩
      · rintro ⟨rfl, -⟩; rfl
    · next h =>
      simp only [reduceCtorEq, false_iff]
      rintro ⟨rfl, h'⟩
      exact h h'

theorem defaultMethod_error {method : Option String} {n : Option Nat}
    (h : ¬ (effMethod method n = "corr" ∨ effMethod method n = "fft" ∨
      effMethod method n = "diff")) :
    defaultMethod method n = .error .valueError := by
  cases e : defaultMethod method n with
  | ok m =>
    obtain ⟨rfl, h'⟩ := (defaultMethod_ok_iff method n m).mp e
    exact absurd h' h
  | error e' =>
    unfold defaultMethod at e
    cases method with
    | none => simp at e
    | some x =>
      simp only at e
      split at e
      · simp at e
      · rw [← Except.error.inj e]

theorem defaultNorm_ok {norm : Option Int} {m : String} {cross : Bool}
    (h : SupportedNorm m cross (effNorm norm m cross)) :
    defaultNorm norm m cross = .ok (effNorm norm m cross).toNat := by
  unfold defaultNorm
  have e : norm.getD ((supportedNorms m cross).getLast?.getD 0 : Nat) = effNorm norm m cross := by
    unfold effNorm supportedNorms
    cases norm
    · by_cases hm : m = "diff" <;> cases cross <;> simp [hm]
    · rfl
  rw [e]
  dsimp only
  rw [if_pos]
  unfold SupportedNorm at h
  unfold supportedNorms
  by_cases hm : m = "diff"
  · cases cross <;> simp [hm] at h ⊢ <;> omega
  · simp [hm] at h ⊢; omega

theorem defaultNorm_error {norm : Option Int} {m : String} {cross : Bool}
    (h : ¬ SupportedNorm m cross (effNorm norm m cross)) :
    defaultNorm norm m cross = .error .valueError := by
  unfold defaultNorm
  have e : norm.getD ((supportedNorms m cross).getLast?.getD 0 : Nat) = effNorm norm m cross := by
    unfold effNorm supportedNorms
    cases norm
    · by_cases hm : m = "diff" <;> cases cross <;> simp [hm]
    · rfl
  rw [e]
  dsimp only
  rw [if_neg]
  unfold SupportedNorm at h
  unfold supportedNorms
  by_cases hm : m = "diff"
  · cases cross <;> simp [hm] at h ⊢ <;> omega
  · simp [hm] at h ⊢; omega

/-! ### acorr -/

/-- The tau sum of `auto_sum`. -/
noncomputable def autoTau {M : Type} [AddCommGroup M] [Module ℝ M] (s : Stream M) (k : Nat) : M :=
  if k = 0 then pairSum (fun a _ => a) s s k else (1 / 2 : ℝ) • pairSum (fun a _ => a) s s k

theorem Spec.ValidAuto.subT {N : Nat} {t : Option (List Int)} (h : ValidAuto N t) (c : Int) :
    ValidAuto N (Cddm.subT c t) := by
  rcases t with _ | a
  · trivial
  · exact ⟨by simpa using h.1, h.2⟩

theorem Spec.ValidAuto.len {N : Nat} {t : Option (List Int)} (h : ValidAuto N t) :
    ∀ a, t = some a → a.length = N := by
  rintro a rfl
  exact h.1

theorem selfSum_subT {α M : Type} [AddCommMonoid M] (g : α → α → M) (f : List α)
    (t : Option (List Int)) (c : Int) (k : Nat) :
    selfSum g (stream f (subT c t)) k = selfSum g (stream f t) k := by
  cases t with
  | none => rfl
  | some a => rw [stream_subT _ _ _ rfl, selfSum_shift]

theorem selfSumFwd_subT {α M : Type} [AddCommMonoid M] (g : α → α → M) (f : List α)
    (t : Option (List Int)) (c : Int) (k : Nat) :
    selfSumFwd g (stream f (subT c t)) k = selfSumFwd g (stream f t) k := by
  cases t with
  | none => rfl
  | some a => rw [stream_subT _ _ _ rfl, selfSumFwd_shift]

theorem inspectAuto_sub (N : Nat) (t : Option (List Int)) (n L : Option Nat)
    (D : Nat) (hD : D = defaultN N t t) (hv : ValidAuto N t) :
    ∃ c, inspectAuto N t n L = .ok (subT c t, delays false n L D) := by
  subst hD
  rcases t with _ | a
  · refine ⟨0, ?_⟩
    rw [inspectAuto_none]
    cases n <;> cases L <;> rfl
  · obtain ⟨c, hc⟩ := inspectAuto_some N (Spec.ValidAuto.ne hv) n L
    refine ⟨c, ?_⟩
    rw [hc]
    cases n <;> cases L <;> rfl

theorem autoCount_sub {α : Type} (f : List α) (t : Option (List Int)) (c : Int) (n : Nat)
    (aout : Option (List Nat)) (hv : ValidAuto f.length t) :
    autoCount (.array ((subT c t).getD (arange f.length))) (some n) aout
      = .ok (addSeq (startOut aout (fieldLen false n aout))
          fun k => selfSum (fun _ _ => 1) (stream f t) k) := by
  rw [autoCount_ok _ _ _ (by simp), lenFor_real]
  congr 2
  funext k
  have e1 : stamps ((subT c t).getD (arange f.length))
      = (stream f (subT c t)).map fun p => (p.1, ()) := by
    rw [← otherStream_eq' f _ _ rfl (hv.subT c).len]
    cases t
    · exact arange_stamps _
    · rfl
  show selfSum (fun _ _ => 1) (stamps ((subT c t).getD (arange f.length))) k = _
  rw [e1, ← selfSum_subT _ f t c]
  simp [selfSum_eq, selfPairs_map, Function.comp_def]

section
variable {M : Type} [AddCommGroup M] [Module ℝ M]
  {kR kC : List M → List (Cx ℝ) → List Int → Nat → List M → Py (List M)}

theorem acorrSum_ok (K : SumKernels kR kC) (m : String) (needed : Bool) (g : List M)
    (t : Option (List Int)) (c : Int) (n : Nat) (aout : Option (List M))
    (hv : ValidAuto g.length t) (hd : m = "fft" → Distinct t)
    (hs : needed = true → m ≠ "diff" →
      SafeLen false m t (defaultN g.length t t) (fieldLen false n aout)) :
    acorrSum kR m needed (decide (m = "fft" ∧ (subT c t).isSome)) g (subT c t) n aout
      = .ok (if needed = true ∧ m ≠ "diff" then
          some (addSeq (startOut aout (fieldLen false n aout)) (autoTau (stream g t)))
        else if m = "diff" then none else aout) := by
  unfold acorrSum
  split
  · next h =>
    obtain ⟨hs1, hs2, hs3⟩ := hs h.1 h.2
    have hvs := hv.subT c
    have key : ∀ k, (if k = 0 then pairSum (fun a _ => a) (stream g (subT c t))
          (otherStream g.length (subT c t)) k
        else (1 / 2 : ℝ) • pairSum (fun a _ => a) (stream g (subT c t))
          (otherStream g.length (subT c t)) k) = autoTau (stream g t) k := by
      intro k
      have : pairSum (fun a _ => a) (stream g (subT c t)) (otherStream g.length (subT c t)) k
          = pairSum (fun a _ => a) (stream g t) (stream g t) k := by
        rw [otherStream_eq' g _ _ rfl hvs.len]
        have := pairSum_map' (fun (a : M) (_ : Unit) => a) (fun a => a) (fun (_ : M) => ())
          (stream g (subT c t)) (stream g (subT c t)) k
        rw [map_pair_id] at this
        rw [this]
        exact cellSum_stream false (fun (a : M) (_ : M) => a) g g hv.cross c 0 k
      rw [this]
      rfl
    by_cases hu : m = "fft" ∧ (subT c t).isSome
    · obtain ⟨a, ha⟩ : ∃ a, t = some a := by
        have := hu.2
        simp only [subT, Option.isSome_map] at this
        exact Option.isSome_iff_exists.mp this
      have hd' := (hd hu.1).subT c
      have hs3 := hs3 (Or.inl hu.1)
      rw [← defaultN_subT _ _ _ c] at hs3
      subst ha
      simp only [hu, and_self, decide_true, if_true, Except.map]
      simp only [subT, Option.map_some] at *
      rw [autoSumFftApi_ok K g _ (some n) aout hvs (hd' _ rfl) (by rw [lenFor_real]; exact hs2 hu.1)
        (by rw [lenFor_real]; simpa using hs3), lenFor_real]
      simp only
      congr 3
      funext k
      exact key k
    · simp only [hu, decide_false, Bool.false_eq_true, if_false, Except.map]
      rw [autoSumApi_ok ℝ g _ (some n) aout hvs (by
        rw [lenFor_real]
        exact fun h => SafeLen_cor_fast (full := false) ⟨hs1, hs2, hs3⟩ h), lenFor_real]
      simp only
      congr 3
      funext k
      exact key k
  · rfl

end

/-- The tuple `acorr` returns, as sums over pairs. -/
noncomputable def acorrSpec {C : Type} [AddCommMonoid C] (cor : Nat → C)
    (m : String) (nm n : Nat) (s : Stream (Cx ℝ)) (q : Stream ℝ) (aout : CorrAout C) :
    CorrTuple C where
  cor := addSeq (startOut aout.cor (fieldLen false n aout.cor)) cor
  count := addSeq (startOut aout.count (fieldLen false n aout.count))
    fun k => selfSum (fun _ _ => 1) s k
  sq := if needsSquares nm = true ∧ m ≠ "diff" then
      some (addSeq (startOut aout.sq (fieldLen false n aout.sq)) (autoTau q))
    else if m = "diff" then none else aout.sq
  ds1 := if needsSums nm = true ∧ m ≠ "diff" then
      some (addSeq (startOut aout.ds1 (fieldLen false n aout.ds1)) (autoTau s))
    else if m = "diff" then none else aout.ds1
  ds2 := none

theorem acorrBody_ok {C : Type} [AddCommMonoid C]
    (kFft kCorr kDiff : List (Cx ℝ) → Option (List Int) →
      Option Nat → Option (List C) → Py (List C))
    (f : List (Cx ℝ)) (t : Option (List Int)) (n : Option Nat) (norm : Option Int)
    (method : Option String) (fs : Option (List ℝ)) (aout : CorrAout C)
    (m : String) (nm n' D : Nat) (cor : Nat → C)
    (hm : defaultMethod method n = .ok m) (hnm : defaultNorm norm m false = .ok nm)
    (hv : ValidAuto f.length t) (hD : D = defaultN f.length t t)
    (hn' : n' = delays false n (aout.cor.map List.length) D)
    (hfs : ∀ g, fs = some g → g.length = f.length)
    (hd : m = "fft" → Distinct t)
    (hssq : needsSquares nm → m ≠ "diff" → SafeLen false m t D (fieldLen false n' aout.sq))
    (hsds1 : needsSums nm → m ≠ "diff" → SafeLen false m t D (fieldLen false n' aout.ds1))
    (hk : ∀ c, (if m = "fft" then kFft f (subT c t) (some n') aout.cor
        else if m = "corr" then kCorr f (subT c t) (some n') aout.cor
        else kDiff f (subT c t) (some n') aout.cor)
      = .ok (addSeq (startOut aout.cor (fieldLen false n' aout.cor)) cor)) :
    acorrBody kFft kCorr kDiff f t n norm method fs aout
      = .ok (acorrSpec cor m nm n' (stream f t)
          (stream ((fs.getD (f.map Cx.abs2)).map (2 * ·)) t) aout) := by
  unfold acorrBody
  obtain ⟨c, hi⟩ := inspectAuto_sub f.length t n (aout.cor.map List.length) D hD hv
  have hg : ((fs.getD (f.map Cx.abs2)).map (2 * ·)).length = f.length := by
    rw [List.length_map]
    cases fs
    · simp
    · exact hfs _ rfl
  simp only [hm, hnm, bind, Except.bind, hi, ← hn']
  rw [hk c]
  dsimp only
  rw [autoCount_sub f t c n' aout.count hv]
  dsimp only
  rw [acorrSum_ok sumKernelsR m (needsSquares nm) _ t c n' aout.sq (by rw [hg]; exact hv) hd
    (by rw [hg, ← hD]; exact hssq)]
  dsimp only
  rw [acorrSum_ok sumKernelsC m (needsSums nm) _ t c n' aout.ds1 hv hd
    (by rw [← hD]; exact hsds1)]
  rfl

theorem method_cases {method : Option String} {n : Option Nat} {m : String}
    (hm : defaultMethod method n = .ok m) : m = "corr" ∨ m = "fft" ∨ m = "diff" :=
  ((defaultMethod_ok_iff method n m).mp hm).2

theorem acorr_ok (f : List (Cx ℝ)) (t : Option (List Int)) (n : Option Nat) (norm : Option Int)
    (method : Option String) (aligned : Bool) (fs : Option (List ℝ)) (aout : CorrAout ℝ)
    (m : String) (nm n' D : Nat)
    (hm : defaultMethod method n = .ok m) (hnm : defaultNorm norm m false = .ok nm)
    (hv : ValidAuto f.length t) (hD : D = defaultN f.length t t)
    (hn' : n' = delays false n (aout.cor.map List.length) D)
    (hfs : ∀ g, fs = some g → g.length = f.length)
    (hd : m = "fft" → Distinct t) (hne : m = "fft" → f ≠ [])
    (hscor : m = "fft" → SafeLen false m t D (fieldLen false n' aout.cor))
    (hssq : needsSquares nm → m ≠ "diff" → SafeLen false m t D (fieldLen false n' aout.sq))
    (hsds1 : needsSums nm → m ≠ "diff" → SafeLen false m t D (fieldLen false n' aout.ds1)) :
    acorr f t n norm method aligned fs aout
      = .ok (acorrSpec (selfSum (if m = "diff" then dist2 else reProd) (stream f t)) m nm n'
          (stream f t) (stream ((fs.getD (f.map Cx.abs2)).map (2 * ·)) t) aout) := by
  refine acorrBody_ok _ _ _ f t n norm method fs aout m nm n' D _ hm hnm hv hD hn' hfs hd
    hssq hsds1 ?_
  intro c
  have hvs := hv.subT c
  rcases method_cases hm with h | h | h <;> subst h
  · simp only [show ¬ "corr" = "fft" by decide, if_false, if_true,
      show ¬ "corr" = "diff" by decide]
    rw [autoCorrelate_ok f _ (some n') aligned aout.cor hvs, lenFor_real]
    congr 2
    funext k
    exact selfSum_subT _ f t c k
  · simp only [if_true, show ¬ "fft" = "diff" by decide, if_false]
    rw [autoCorrelateFft_ok f _ (some n') aout.cor hvs (hne rfl) ((hd rfl).subT c) (by
      rw [lenFor_real, defaultN_subT, ← hD]
      simpa using (hscor rfl).2.2 (Or.inl rfl)), lenFor_real]
    congr 2
    funext k
    exact selfSum_subT _ f t c k
  · simp only [show ¬ "diff" = "fft" by decide, if_false, if_true,
      show ¬ "diff" = "corr" by decide]
    rw [autoDifference_ok f _ (some n') aligned aout.cor hvs, lenFor_real]
    congr 2
    funext k
    exact selfSum_subT _ f t c k

theorem acorrComplex_ok (f : List (Cx ℝ)) (t : Option (List Int)) (n : Option Nat)
    (norm : Option Int) (method : Option String) (aligned : Bool) (fs : Option (List ℝ))
    (aout : CorrAout (Cx ℝ)) (m : String) (nm n' D : Nat)
    (hm : defaultMethod method n = .ok m) (hnm : defaultNorm norm m false = .ok nm)
    (hv : ValidAuto f.length t) (hD : D = defaultN f.length t t)
    (hn' : n' = delays false n (aout.cor.map List.length) D)
    (hfs : ∀ g, fs = some g → g.length = f.length) (hdiff : m ≠ "diff")
    (hd : m = "fft" → Distinct t) (hne : m = "fft" → f ≠ [])
    (hscor : SafeLen false m t D (fieldLen false n' aout.cor))
    (hssq : needsSquares nm → m ≠ "diff" → SafeLen false m t D (fieldLen false n' aout.sq))
    (hsds1 : needsSums nm → m ≠ "diff" → SafeLen false m t D (fieldLen false n' aout.ds1)) :
    acorrComplex f t n norm method aligned fs aout
      = .ok (acorrSpec (selfSumFwd cxProd (stream f t)) m nm n'
          (stream f t) (stream ((fs.getD (f.map Cx.abs2)).map (2 * ·)) t) aout) := by
  refine acorrBody_ok _ _ _ f t n norm method fs aout m nm n' D _ hm hnm hv hD hn' hfs hd
    hssq hsds1 ?_
  intro c
  have hvs := hv.subT c
  rcases method_cases hm with h | h | h <;> subst h
  · simp only [show ¬ "corr" = "fft" by decide, if_false, if_true]
    rw [autoCorrelateComplex_ok f _ (some n') aligned aout.cor hvs (by
      rw [lenFor_real]
      exact fun h _ => SafeLen_cor_fast (full := false) (hD ▸ hscor) h), lenFor_real]
    congr 2
    funext k
    exact selfSumFwd_subT _ f t c k
  · simp only [if_true]
    rw [autoCorrelateComplexFft_ok f _ (some n') aout.cor hvs (hne rfl) ((hd rfl).subT c) (by
      rw [lenFor_real, defaultN_subT, ← hD]
      simpa using hscor.2.2 (Or.inl rfl)), lenFor_real]
    congr 2
    funext k
    exact selfSumFwd_subT _ f t c k
  · exact absurd rfl hdiff

/-- For distinct times the tau sum of `auto_sum` is a sum over unordered pairs. -/
theorem autoTau_eq {M : Type} [AddCommGroup M] [Module ℝ M] (s : Stream M)
    (hs : (s.map Prod.fst).Nodup) (k : Nat) :
    autoTau s k = selfSum (fun a b => (1 / 2 : ℝ) • (a + b)) s k := by
  have hom := selfSum_hom (DistribSMul.toAddMonoidHom M (1 / 2 : ℝ)) (fun a b : M => a + b) s k
  simp only [DistribSMul.toAddMonoidHom_apply] at hom
  rw [← hom]
  unfold autoTau
  split
  · next h =>
    subst h
    rw [pairSum_self_zero _ _ hs, selfSum_zero _ _ hs, selfSum_zero _ _ hs]
    rw [List.smul_sum]
    simp only [List.map_map]
    congr 1
    apply List.map_congr_left
    intro a _
    simp only [Function.comp]
    rw [← two_smul ℝ a.2, smul_smul]
    norm_num
  · next h =>
    rw [pairSum_self_pos _ _ _ h]

theorem supported_cases {m : String} {cross : Bool} {v : Int} (h : SupportedNorm m cross v) :
    (WantsSquares v ↔ needsSquares v.toNat = true) ∧ (WantsSums v ↔ needsSums v.toNat = true) := by
  have hv : v = 1 ∨ v = 2 ∨ v = 3 ∨ v = 5 ∨ v = 6 ∨ v = 7 := by
    unfold SupportedNorm at h
    split at h <;> omega
  rcases hv with rfl | rfl | rfl | rfl | rfl | rfl <;>
    simp [WantsSquares, WantsSums, needsSquares, needsSums]

end Cddm
