import Verif.Model.KSelectAny
import Verif.Spec.KSelectAny
import Verif.Lemmas.LogAny
import Verif.Lemmas.KSelect

/-! # Lemmas on k-selection of arrays -/

namespace Cddm
open Spec
variable {V : Type}

theorem pos_concat {lead p : List Nat} {n : Nat} (h : InShape p (lead ++ [n])) :
    ∃ q t, p = q ++ [t] ∧ q.length = lead.length ∧ InShape q lead ∧ t < n := by
  have hl := h.length_eq
  rcases List.eq_nil_or_concat p with rfl | ⟨q, t, rfl⟩
  · simp at hl
  · refine ⟨q, t, by simp, ?_, ?_, ?_⟩
    · simpa using hl
    · have := List.forall₂_take lead.length h
      have e : q.length = lead.length := by simpa using hl
      rw [← e] at this
      simp only [List.concat_eq_append, List.take_left] at this
      rw [e, List.take_left] at this
      exact this
    · have := List.forall₂_drop lead.length h
      have e : q.length = lead.length := by simpa using hl
      rw [← e] at this
      simp only [List.concat_eq_append, List.drop_left] at this
      rw [e, List.drop_left] at this
      cases this
      assumption

theorem boolIndex1_eq {α : Type} (f : Nat → α) (n : Nat) (l : List Bool) (h : n = l.length) :
    boolIndex1 ((List.range n).map f) l = .ok ((whereTrue1 l).map f) := by
  subst h
  unfold boolIndex1 whereTrue1
  rw [if_pos (by simp)]
  congr 1
  have : l = (List.range l.length).map fun i => l.getD i false := by
    apply List.ext_getElem (by simp)
    intro i h1 h2
    simp [h1]
  conv_lhs => rw [this]
  simp only [List.length_map, List.length_range]
  rw [List.zip_map', List.filterMap_map]
  induction List.range l.length with
  | nil => rfl
  | cons i r ih =>
    rw [List.filterMap_cons, List.filter_cons]
    simp only [Function.comp]
    cases l.getD i false
    · simpa using ih
    · simpa using ih

theorem getLastD_append {lead : List Nat} {a b : Nat} : (lead ++ [a, b]).getLastD 0 = b := by
  rw [List.append_cons, List.getLastD_concat]

theorem getLastD_append3 {lead : List Nat} {a b c : Nat} : (lead ++ [a, b, c]).getLastD 0 = c := by
  rw [List.append_cons, List.append_cons, List.getLastD_concat]

/-- The value at a position of the selection. -/
abbrev SelRes (lead : List Nat) (n : Nat) (res : Py (Tensor (Option V))) (one : List Nat → Py (List (Option V))) : Prop :=
  PW (lead ++ [n]) (fun p d => pixelsAt d (d.shape.getD lead.length 0) p) (fun d => ∃ c, d.shape = lead ++ [c, n]) res one

theorem selectDataAny_grid {lead : List Nat} {h w n : Nat} {data : Tensor (Option V)} (hd : data.shape = lead ++ [h, w, n])
    (m : Arr2 Bool) :
    SelRes lead n (selectDataAny data (.grid m)) fun p => selectData (.grid (gridAt data h w p)) (.grid m) := by
  have e1 : data.shape.length = lead.length + 3 := by rw [hd]; simp
  have e2 : frameSizes data.shape = [h, w] := by
    unfold frameSizes
    rw [hd]
    simp
  have e3 : data.shape.getLastD 0 = n := by rw [hd, getLastD_append3]
  unfold selectDataAny selectData boolIndex
  simp only [e1, e2, e3]
  by_cases hm : h = m.h ∧ w = m.w
  · obtain ⟨rfl, rfl⟩ := hm
    rw [if_pos ⟨by omega, rfl⟩]
    refine ⟨⟨_, by simp [hd]; rfl⟩, fun p hp => ?_⟩
    obtain ⟨q, t, rfl, hq, -, -⟩ := pos_concat hp
    simp only [gridAt, and_self, if_true]
    congr 1
    unfold pixelsAt
    rw [hd]
    simp only [Nat.add_sub_cancel, List.take_left, List.dropLast_concat, List.getLastD_concat]
    have hs : (lead ++ [(whereTrue m).length, n]).getD lead.length 0 = (whereTrue m).length := by simp
    rw [hs]
    apply List.ext_getElem (by simp)
    intro i h1 h2
    simp only [List.getElem_map, List.getElem_range]
    have a1 : (q ++ [i, t]).take lead.length = q := by rw [← hq, List.take_left]
    have a2 : (q ++ [i, t]).getD lead.length 0 = i := by rw [← hq]; simp
    have a3 : (q ++ [i, t]).getD (lead.length + 3 - 2) 0 = t := by rw [← hq]; simp
    have a4 : (whereTrue m).getD i (0, 0) = (whereTrue m)[i]'(by simpa using h1) := by
      rw [List.getD, List.getElem?_eq_getElem (by simpa using h1)]
      rfl
    rw [a1, a2, a3, a4]
  · rw [if_neg]
    · intro p hp
      simp only [gridAt, hm, if_false]
    · rintro ⟨-, e⟩
      simp only [List.cons.injEq, and_true] at e
      exact hm e

theorem selectDataAny_flat {lead : List Nat} {c n : Nat} {data : Tensor (Option V)} (hd : data.shape = lead ++ [c, n])
    (l : List Bool) :
    SelRes lead n (selectDataAny data (.flat l)) fun p => selectData (.flat (pixelsAt data c p)) (.flat l) := by
  have e1 : data.shape.length = lead.length + 2 := by rw [hd]; simp
  have e2 : data.shape.getD lead.length 0 = c := by rw [hd]; simp
  have e3 : data.shape.getLastD 0 = n := by rw [hd, getLastD_append]
  unfold selectDataAny selectData
  simp only [e1, Nat.add_sub_cancel, e2, e3]
  by_cases hm : c = l.length
  · rw [if_pos ⟨by omega, hm⟩]
    refine ⟨⟨_, by simp [hd]; rfl⟩, fun p hp => ?_⟩
    obtain ⟨q, t, rfl, hq, -, -⟩ := pos_concat hp
    simp only [pixelsAt]
    rw [boolIndex1_eq _ _ _ hm]
    congr 1
    rw [hd]
    simp only [List.take_left, List.dropLast_concat, List.getLastD_concat]
    have hs : (lead ++ [(whereTrue1 l).length, n]).getD lead.length 0 = (whereTrue1 l).length := by simp
    rw [hs]
    apply List.ext_getElem (by simp)
    intro i h1 h2
    simp only [List.getElem_map, List.getElem_range]
    have a1 : (q ++ [i, t]).take lead.length = q := by rw [← hq, List.take_left]
    have a2 : (q ++ [i, t]).getD lead.length 0 = i := by rw [← hq]; simp
    have a3 : (q ++ [i, t]).getD (lead.length + 2 - 1) 0 = t := by rw [← hq]; simp
    have a4 : (whereTrue1 l).getD i 0 = (whereTrue1 l)[i]'(by simpa using h1) := by
      rw [List.getD, List.getElem?_eq_getElem (by simpa using h1)]
      rfl
    rw [a1, a2, a3, a4]
  · rw [if_neg (fun e => hm e.2)]
    intro p hp
    have : ¬ (pixelsAt data c p).length = l.length := by simpa [pixelsAt] using hm
    simp only [boolIndex1, this, if_false]

/-- One bin. -/
abbrev BinRes (lead : List Nat) (n : Nat) (res : Py (Option (ℝ × Tensor (Option V))))
    (one : List Nat → Py (Option (ℝ × Option V))) : Prop :=
  PW (lead ++ [n]) (fun p r => r.map fun x => (x.1, x.2.get p)) (fun r => ∀ x, r = some x → x.2.shape = lead ++ [n]) res one

theorem nanMeanAny_get [AddCommGroup V] [Module ℝ V] {lead : List Nat} {c n : Nat} {d : Tensor (Option V)}
    (hd : d.shape = lead ++ [c, n]) (p : List Nat) :
    (nanMeanAny d).get p = nanMean (pixelsAt d (d.shape.getD lead.length 0) p) := by
  unfold nanMeanAny pixelsAt
  have : d.shape.length - 2 = lead.length := by rw [hd]; simp
  simp only [this]

theorem nanMeanAny_shape [AddCommGroup V] [Module ℝ V] {lead : List Nat} {c n : Nat} {d : Tensor (Option V)}
    (hd : d.shape = lead ++ [c, n]) : (nanMeanAny d).shape = lead ++ [n] := by
  unfold nanMeanAny
  simp only [hd, List.length_append, List.length_cons, List.length_nil, Nat.add_sub_cancel]
  rw [List.eraseIdx_append_of_length_le (by omega)]
  simp

theorem pixelsAt_conjWhere (conj : V → V) (c : List Bool) {lead : List Nat} {k n : Nat} {d : Tensor (Option V)}
    (hd : d.shape = lead ++ [k, n]) (hc : c.length = k) {p : List Nat} (hp : InShape p (lead ++ [n])) :
    pixelsAt (conjWhere conj c d) k p = ((pixelsAt d k p).zip c).map fun x => if x.2 then x.1.map conj else x.1 := by
  subst hc
  obtain ⟨q, t, rfl, hq, -, -⟩ := pos_concat hp
  unfold pixelsAt conjWhere
  apply List.ext_getElem (by simp)
  intro i h1 h2
  have e1 : d.shape.length - 2 = lead.length := by rw [hd]; simp
  have hi : i < c.length := by simpa using h1
  simp only [List.getElem_map, List.getElem_range, List.getElem_zip, List.dropLast_concat, List.getLastD_concat, e1]
  have a2 : (q ++ [i, t]).getD lead.length 0 = i := by rw [← hq]; simp
  have a4 : c.getD i false = c[i] := by
    rw [List.getD, List.getElem?_eq_getElem hi]
    rfl
  rw [a2, a4]

theorem zip_filterMap_length {α : Type} : ∀ (x : List α) (m : List Bool), x.length = m.length →
    ((x.zip m).filterMap fun p => if p.2 then some p.1 else none).length = m.count true
  | [], [], _ => rfl
  | a :: x, b :: m, h => by
    have ih := zip_filterMap_length x m (by simpa using h)
    cases b
    · simpa using ih
    · simpa using ih

theorem selectData_length_of {data : KData V} {m : KMask} {x : List (Option V)} {c : KMask} {z : List Bool}
    (h1 : selectData data m = .ok x) (h2 : indexMask c m = .ok z) : z.length = x.length := by
  cases data <;> cases m <;> cases c <;> simp only [selectData, indexMask] at h1 h2
  all_goals try (cases h1; done)
  all_goals try (cases h2; done)
  · unfold boolIndex at h1 h2
    split at h1
    · split at h2
      · cases h1
        cases h2
        simp
      · cases h2
    · cases h1
  · unfold boolIndex1 at h1 h2
    split at h1
    · split at h2
      · rename_i a b
        cases h1
        cases h2
        rw [zip_filterMap_length _ _ a, zip_filterMap_length _ _ b]
      · cases h2
    · cases h1

/-- What is selected from the array against what is selected from its frames. -/
def SelOk (lead : List Nat) (n : Nat) (data : Tensor (Option V)) (frame : List Nat → KData V) (m : KMask) : Prop :=
  SelRes lead n (selectDataAny data m) fun p => selectData (frame p) m

theorem kSelectComplexAny_ok [AddCommGroup V] [Module ℝ V] {lead : List Nat} {n : Nat} {data : Tensor (Option V)}
    {frame : List Nat → KData V} (k : ℝ) (imap : Arr2 Int) (kmap : Arr2 ℝ) (cm : Option (Arr2 Bool)) (masked : Bool)
    (hs : ∀ mask m, reduceMask mask cm masked = .ok m → SelOk lead n data frame m) :
    BinRes lead n (kSelectComplexAny data k imap kmap cm masked) fun p => kSelectComplex (frame p) k imap kmap cm masked := by
  unfold kSelectComplexAny kSelectComplex
  have okb : ∀ {A B} (a : A) (k : A → Py B), ((Except.ok a : Py A) >>= k) = k a := fun _ _ => rfl
  cases h1 : andMaskOpt (binMask imap k) cm with
  | error e => exact fun p hp => rfl
  | ok mask =>
  simp only [okb]
  cases h2 : boolIndex kmap mask with
  | error e => exact fun p hp => rfl
  | ok ks =>
  simp only [okb]
  cases hm : reduceMask mask cm masked with
  | error e => exact fun p hp => rfl
  | ok m =>
  simp only [okb]
  by_cases hl : ks.length > 0
  · simp only [hl, if_true]
    refine PW.bind (hs mask m hm) (k' := fun _ d => .ok (some (ks.sum / ks.length, nanMean d))) fun d _ hd => ?_
    obtain ⟨c, hd⟩ := hd
    refine PW.ok ?_ ?_
    · rintro x ⟨⟩
      exact nanMeanAny_shape hd
    · intro p hp
      simp only [Option.map_some]
      rw [nanMeanAny_get hd]
  · simp only [hl, if_false]
    exact PW.ok (by rintro x ⟨⟩) fun p hp => rfl

theorem kSelectRealAny_ok [AddCommGroup V] [Module ℝ V] (conj : V → V) {lead : List Nat} {n : Nat} {data : Tensor (Option V)}
    {frame : List Nat → KData V} (k : ℝ) (imap : Arr2 Int) (kmap : Arr2 ℝ) (cm : Option (Arr2 Bool)) (masked : Bool)
    (hs : ∀ mask m, reduceMask mask cm masked = .ok m → SelOk lead n data frame m) :
    BinRes lead n (kSelectRealAny conj data k imap kmap cm masked)
      fun p => kSelectReal conj (frame p) k imap kmap cm masked := by
  unfold kSelectRealAny kSelectReal
  have okb : ∀ {A B} (a : A) (k : A → Py B), ((Except.ok a : Py A) >>= k) = k a := fun _ _ => rfl
  simp only
  cases h1 : boolIndex kmap (binMask imap k) with
  | error e => exact fun p hp => rfl
  | ok ks =>
  simp only [okb]
  cases h2 : asRfft2Mask (binMask imap k) with
  | error e => exact fun p hp => rfl
  | ok mask =>
  simp only [okb]
  cases h3 : asRfft2Conj false mask with
  | error e => exact fun p hp => rfl
  | ok cmask =>
  simp only [okb]
  cases h4 : andMaskOpt mask cm with
  | error e => exact fun p hp => rfl
  | ok mask' =>
  simp only [okb]
  cases h5 : andMaskOpt cmask cm with
  | error e => exact fun p hp => rfl
  | ok cmask' =>
  simp only [okb]
  cases h6 : reduceMask mask' cm masked with
  | error e => exact fun p hp => rfl
  | ok m =>
  simp only [okb]
  cases h7 : reduceMask cmask' cm masked with
  | error e => exact fun p hp => rfl
  | ok c =>
  simp only [okb]
  by_cases hl : ks.length > 0
  · simp only [hl, if_true]
    cases h8 : indexMask c m with
    | error e => exact fun p hp => rfl
    | ok z =>
    simp only [okb]
    refine PW.bind' (hs mask' m h6) (k' := fun _ d =>
      .ok (some (ks.sum / ks.length, nanMean ((d.zip z).map fun p => if p.2 then p.1.map conj else p.1)))) fun d h9 hd => ?_
    obtain ⟨cnt, hd⟩ := hd
    have hcnt : d.shape.getD lead.length 0 = cnt := by rw [hd]; simp
    refine PW.ok ?_ ?_
    · rintro x ⟨⟩
      exact nanMeanAny_shape (d := conjWhere conj z d) hd
    · intro p hp
      have hz := selectData_length_of (h9 p hp) h8
      simp only [Option.map_some]
      rw [nanMeanAny_get (d := conjWhere conj z d) hd]
      have : (conjWhere conj z d).shape.getD lead.length 0 = cnt := hcnt
      rw [this, hcnt, pixelsAt_conjWhere conj z hd (by rw [hz, hcnt]; simp [pixelsAt]) hp]
  · simp only [hl, if_false]
    exact PW.ok (by rintro x ⟨⟩) fun p hp => rfl

/-- The list of bins. -/
abbrev BinsRes (lead : List Nat) (n : Nat) (res : Py (List (ℝ × Tensor (Option V))))
    (one : List Nat → Py (List (ℝ × Option V))) : Prop :=
  PW (lead ++ [n]) (fun p r => r.map fun x => (x.1, x.2.get p)) (fun r => ∀ x ∈ r, x.2.shape = lead ++ [n]) res one

theorem collectSome_ok' {lead : List Nat} {n : Nat} (f : ℝ → Py (Option (ℝ × Tensor (Option V))))
    (g : ℝ → List Nat → Py (Option (ℝ × Option V))) (h : ∀ k, BinRes lead n (f k) (g k)) (ks : List ℝ) :
    BinsRes lead n (collectSome (ks.map f)) fun p => collectSome (ks.map fun k => g k p) := by
  induction ks with
  | nil => exact PW.ok (by simp) fun p hp => rfl
  | cons k ks ih =>
    have hk := h k
    simp only [List.map_cons, collectSome]
    revert hk ih
    cases f k with
    | error e =>
      intro _ hk p hp
      have : g k p = .error e := hk p hp
      simp only [this]
      rfl
    | ok a =>
    cases collectSome (ks.map f) with
    | error e =>
      intro ih hk p hp
      have e1 : g k p = .ok (a.map fun x => (x.1, x.2.get p)) := hk.2 p hp
      have e2 : collectSome (ks.map fun k => g k p) = .error e := ih p hp
      simp only [e1, e2]
      rfl
    | ok r =>
      intro ih hk
      have e1 : ∀ p, InShape p (lead ++ [n]) → g k p = .ok (a.map fun x => (x.1, x.2.get p)) := hk.2
      have e2 : ∀ p, InShape p (lead ++ [n]) → collectSome (ks.map fun k => g k p) = .ok (r.map fun x => (x.1, x.2.get p)) :=
        ih.2
      cases a with
      | none =>
        refine ⟨ih.1, fun p hp => ?_⟩
        simp only [e1 p hp, e2 p hp]
        rfl
      | some a =>
        refine ⟨?_, fun p hp => ?_⟩
        · intro x hx
          rcases List.mem_cons.mp hx with rfl | hx
          · exact hk.1 _ rfl
          · exact ih.1 _ hx
        · simp only [e1 p hp, e2 p hp]
          rfl

/-- The whole of k_select, from the agreement on the size and on the selections. -/
theorem kSelectAny_ok [AddCommGroup V] [Module ℝ V] (conj : V → V) {lead : List Nat} {n : Nat} {data : Tensor (Option V)}
    {frame : List Nat → KData V} (angle sector kstep : ℝ) (k : KArg) (shape : Option (Nat × Nat))
    (mask : Option (Arr2 Bool)) (rfft2 : Bool) (size : (Nat × Nat) × Bool) (hz : kSelectSizeAny data mask = .ok size)
    (hz' : ∀ p, InShape p (lead ++ [n]) → kSelectSize (frame p) mask = .ok size)
    (hs : ∀ x m, reduceMask x mask size.2 = .ok m → SelOk lead n data frame m) :
    FrameWise (lead ++ [n]) (kSelectAny conj data angle sector kstep k shape mask rfft2)
      fun p => kSelect conj (frame p) angle sector kstep k shape mask rfft2 := by
  have okb : ∀ {A B} (a : A) (k : A → Py B), ((Except.ok a : Py A) >>= k) = k a := fun _ _ => rfl
  have main : PW (lead ++ [n]) (fun p (r : List (ℝ × Tensor (Option V))) => KResult.pairs (r.map fun x => (x.1, x.2.get p)))
      (fun r => ∀ x ∈ r, x.2.shape = lead ++ [n]) (kSelectAny conj data angle sector kstep k shape mask rfft2)
      fun p => kSelect conj (frame p) angle sector kstep k shape mask rfft2 := by
    unfold kSelectAny kSelect
    by_cases h0 : sector > 0
    · simp only [h0, not_true_eq_false, if_false, hz, okb]
      refine PW.congr (one := fun p => (do
        let fullShape ← kSelectShape size.1 shape rfft2
        let maps ← fft2Kangle fullShape.1 fullShape.2 shape
        let indexmap ← fft2SectorIndexmap maps.1 maps.2 angle sector kstep
        kSelectLoop (fun kk =>
          if rfft2 then kSelectReal conj (frame p) kk indexmap maps.1 mask size.2
          else kSelectComplex (frame p) kk indexmap maps.1 mask size.2) indexmap k)) ?_
        fun p hp => by simp only [hz' p hp, okb]
      cases h1 : kSelectShape size.1 shape rfft2 with
      | error e => exact fun p hp => rfl
      | ok fs =>
      simp only [okb]
      cases h2 : fft2Kangle fs.1 fs.2 shape with
      | error e => exact fun p hp => rfl
      | ok maps =>
      simp only [okb]
      cases h3 : fft2SectorIndexmap maps.1 maps.2 angle sector kstep with
      | error e => exact fun p hp => rfl
      | ok imap =>
      simp only [okb]
      have hb : ∀ kk, BinRes lead n
          (if rfft2 then kSelectRealAny conj data kk imap maps.1 mask size.2
          else kSelectComplexAny data kk imap maps.1 mask size.2)
          fun p => if rfft2 then kSelectReal conj (frame p) kk imap maps.1 mask size.2
            else kSelectComplex (frame p) kk imap maps.1 mask size.2 := by
        intro kk
        cases rfft2
        · exact kSelectComplexAny_ok kk imap maps.1 mask size.2 hs
        · exact kSelectRealAny_ok conj kk imap maps.1 mask size.2 hs
      have hl : ∀ ks : List ℝ, PW (lead ++ [n])
          (fun p (r : List (ℝ × Tensor (Option V))) => KResult.pairs (r.map fun x => (x.1, x.2.get p)))
          (fun r => ∀ x ∈ r, x.2.shape = lead ++ [n])
          (collectSome (ks.map fun kk => if rfft2 then kSelectRealAny conj data kk imap maps.1 mask size.2
            else kSelectComplexAny data kk imap maps.1 mask size.2))
          fun p => (collectSome (ks.map fun kk => if rfft2 then kSelectReal conj (frame p) kk imap maps.1 mask size.2
            else kSelectComplex (frame p) kk imap maps.1 mask size.2)).map KResult.pairs := by
        intro ks
        have := collectSome_ok' _ _ hb ks
        revert this
        cases collectSome (ks.map fun kk => if rfft2 then kSelectRealAny conj data kk imap maps.1 mask size.2
            else kSelectComplexAny data kk imap maps.1 mask size.2) with
        | error e =>
          intro this p hp
          simp only [show _ = _ from this p hp]
          rfl
        | ok r =>
          intro this
          refine ⟨this.1, fun p hp => ?_⟩
          simp only [show _ = _ from this.2 p hp]
          rfl
      cases k with
      | one _ => exact fun p hp => rfl
      | many ks => exact hl ks
      | all => exact hl _
    · simp only [h0, not_false_eq_true, if_true]
      exact fun p hp => rfl
  unfold PW at main
  unfold FrameWise
  revert main
  cases kSelectAny conj data angle sector kstep k shape mask rfft2 <;> exact id

end Cddm
