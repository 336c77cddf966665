import Verif.Lemmas.FftCorr

/-! # Closed forms of the FFT correlation functions -/

namespace Cddm
open Spec

theorem regular_close {α β : Type} (x : List α) (y : List β) (h : x.length = y.length) :
    ∀ a ∈ regular x, ∀ b ∈ regular y, |b.1 - a.1| < ((x.length : Nat) : Int) := by
  intro a ha b hb
  simp only [regular, List.mem_iff_getElem, List.length_mapIdx, List.getElem_mapIdx] at ha hb
  obtain ⟨i, hi, rfl⟩ := ha
  obtain ⟨j, hj, rfl⟩ := hb
  rw [abs_lt]
  dsimp only
  omega

theorem regular_nodup {α : Type} (x : List α) : ((regular x).map Prod.fst).Nodup := by
  have : (regular x).map Prod.fst = arange x.length := by
    apply List.ext_getElem
    · simp [regular, arange]
    · intro i h1 h2
      simp [regular, arange]
  rw [this, arange]
  exact List.nodup_range.map Int.ofNat_injective

theorem zip_close {α β : Type} {D : Nat} {a b : List Int} (h : Shifted D a b) (x : List α)
    (y : List β) : ∀ p ∈ a.zip x, ∀ q ∈ b.zip y, |q.1 - p.1| < ((D : Nat) : Int) :=
  fun _ hp _ hq => h.close _ (mem_zip_fst hp) _ (mem_zip_fst hq)

/-- What `foldReal` does with a circular correlation. -/
theorem foldReal_circ (s1 s2 : Stream (Cx ℝ)) (L : Nat) (out : List ℝ)
    (hb : ∀ a ∈ s1, ∀ b ∈ s2, |b.1 - a.1| < L) (hL : 1 ≤ L)
    (h1 : 1 ≤ out.length) (h2 : out.length ≤ L + 1) :
    foldReal ((List.range (L * 2)).map (circSum cxProd (L * 2) s1 s2)) out
      = .ok (addSeq out fun k => pairSum reProd s1 s2 k) := by
  have := fold_real_eq s1 s2 reProd L out hb hL h1 h2
  unfold foldReal
  dsimp only
  have e : ((List.range (L * 2)).map (circSum cxProd (L * 2) s1 s2)).map Cx.re
      = (List.range (L * 2)).map (circSum reProd (L * 2) s1 s2) := by
    rw [List.map_map]
    apply List.map_congr_left
    intro m _
    exact circSum_hom Cx.reHom cxProd (L * 2) s1 s2 m
  rw [List.map_take, revSlice_map, e]
  exact this

theorem foldFull_circ (s1 s2 : Stream (Cx ℝ)) (L : Nat) (out : List (Cx ℝ))
    (hb : ∀ a ∈ s1, ∀ b ∈ s2, |b.1 - a.1| < L) (hL : 1 ≤ L)
    (h1 : out.length % 2 = 1) (h2 : (out.length + 1) / 2 ≤ L + 1) :
    foldFull ((List.range (L * 2)).map (circSum cxProd (L * 2) s1 s2)) out
      = .ok (addSeq out fun k => pairSumAt cxProd s1 s2 (cellDelay out.length k)) :=
  fold_full_eq s1 s2 cxProd L out hb hL h1 h2

theorem Spec.ValidCross.ne {N1 N2 : Nat} {a b : List Int}
    (h : ValidCross N1 N2 (some a) (some b)) : a ≠ [] ∧ b ≠ [] := by
  obtain ⟨h, h1, h2, h0⟩ := h
  constructor
  · rintro rfl; simp at h1; omega
  · rintro rfl; simp at h2; omega

theorem crossCorrelateFft_ok (f1 f2 : List (Cx ℝ)) (t1 t2 : Option (List Int)) (n : Option Nat)
    (aout : Option (List ℝ)) (hv : ValidCross f1.length f2.length t1 t2) (hne : f1 ≠ [])
    (hd1 : Distinct t1) (hd2 : Distinct t2)
    (h1 : 1 ≤ outLen n aout (defaultN f1.length t1 t2))
    (h2 : outLen n aout (defaultN f1.length t1 t2) ≤ defaultN f1.length t1 t2 + 1) :
    crossCorrelateFft f1 f2 t1 t2 n aout
      = .ok (addSeq (startOut aout (outLen n aout (defaultN f1.length t1 t2)))
          fun k => pairSum reProd (stream f1 t1) (stream f2 t2) k) := by
  unfold crossCorrelateFft
  have hlen := startOut_length n aout (defaultN f1.length t1 t2)
  have hpos : 1 ≤ f1.length := List.length_pos_iff.mpr hne
  rcases t1 with _ | a <;> rcases t2 with _ | b <;> try (simp only [ValidCross] at hv)
  · simp only [defaultN] at *
    rw [← hv, inspectCross_none]
    simp only [bind, Except.bind, fullLengthCross]
    rw [defaultOut_real]
    simp only
    unfold crossCorrFftRegular
    have ha := regular_holds f1 hne rfl
    have hb := regular_holds f2 (by rintro rfl; exact hne (List.length_eq_zero_iff.mp hv)) rfl
    rw [← hv] at hb
    rw [fftProduct_holds (by omega) ha hb]
    exact foldReal_circ _ _ _ _ (regular_close f1 f2 hv) hpos (by rw [hlen]; exact h1)
      (by rw [hlen]; exact h2)
  · obtain ⟨hane, hbne⟩ := Spec.ValidCross.ne hv
    obtain ⟨hN, hl1, hl2, h0⟩ := hv
    obtain ⟨c, hc1, hc2, hc3, hc⟩ := inspectCross_some' f1.length hane hbne n
      (aout.map List.length) false
    rw [← hN, hc]
    have hs := shifted_of f1.length hane hbne hc1 hc2 hc3
    simp only [bind, Except.bind]
    rw [fullLengthCross_ok _ hs.ne1 hs.ne2, defaultN_map_sub]
    dsimp only
    rw [defaultOut_real]
    simp only [List.length_map, hl1, hl2, hN, and_self, decide_true, checkDims, if_true]
    unfold crossCorrFft
    rw [← hN]
    obtain ⟨A, hA, hA'⟩ := fillData_holds (N := defaultN f1.length (some a) (some b) * 2)
      (by have := hs.pos; omega) f1 (a.map (· - c)) (by simp [hl1])
      (hs.fits ((hd1 a rfl).map sub_left_injective))
    obtain ⟨B, hB, hB'⟩ := fillData_holds (N := defaultN f1.length (some a) (some b) * 2)
      (by have := hs.pos; omega) f2 (b.map (· - c)) (by simp [hl2])
      (hs.symm.fits ((hd2 b rfl).map sub_left_injective))
    simp only [hA, hB, orUB, bind, Except.bind]
    rw [fftProduct_holds (by have := hs.pos; omega) hA' hB']
    simp only
    rw [foldReal_circ _ _ _ _ (zip_close hs f1 f2) hs.pos (by rw [hlen]; exact h1)
      (by rw [hlen]; exact h2), zip_map_sub, zip_map_sub]
    simp only [pairSum_shift]
    rfl

theorem crossCorrelateComplexFft_ok (f1 f2 : List (Cx ℝ)) (t1 t2 : Option (List Int))
    (n : Option Nat) (aout : Option (List (Cx ℝ)))
    (hv : ValidCross f1.length f2.length t1 t2) (hne : f1 ≠ [])
    (hd1 : Distinct t1) (hd2 : Distinct t2)
    (hodd : outLenFull n aout (defaultN f1.length t1 t2) % 2 = 1)
    (h2 : (outLenFull n aout (defaultN f1.length t1 t2) + 1) / 2 ≤ defaultN f1.length t1 t2 + 1) :
    crossCorrelateComplexFft f1 f2 t1 t2 n aout
      = .ok (addSeq (startOut aout (outLenFull n aout (defaultN f1.length t1 t2)))
          fun k => pairSumAt cxProd (stream f1 t1) (stream f2 t2)
            (cellDelay (outLenFull n aout (defaultN f1.length t1 t2)) k)) := by
  unfold crossCorrelateComplexFft
  have hlen := startOut_length_full n aout (defaultN f1.length t1 t2)
  have hpos : 1 ≤ f1.length := List.length_pos_iff.mpr hne
  have hd := defaultOut_full n aout _ hodd
  rcases t1 with _ | a <;> rcases t2 with _ | b <;> try (simp only [ValidCross] at hv)
  · simp only [defaultN] at *
    rw [← hv, inspectCross_none]
    simp only [bind, Except.bind, fullLengthCross, if_true] at hd ⊢
    rw [hd]
    simp only
    unfold crossCorrComplexFftRegular
    have ha := regular_holds f1 hne rfl
    have hb := regular_holds f2 (by rintro rfl; exact hne (List.length_eq_zero_iff.mp hv)) rfl
    rw [← hv] at hb
    rw [fftProduct_holds (by omega) ha hb]
    simp only [bind, Except.bind]
    rw [foldFull_circ _ _ _ _ (regular_close f1 f2 hv) hpos (by rw [hlen]; exact hodd)
      (by rw [hlen]; exact h2), hlen]
    rfl
  · obtain ⟨hane, hbne⟩ := Spec.ValidCross.ne hv
    obtain ⟨hN, hl1, hl2, h0⟩ := hv
    obtain ⟨c, hc1, hc2, hc3, hc⟩ := inspectCross_some' f1.length hane hbne n
      (aout.map List.length) true
    rw [← hN, hc]
    have hs := shifted_of f1.length hane hbne hc1 hc2 hc3
    simp only [bind, Except.bind, if_true] at hd ⊢
    rw [fullLengthCross_ok _ hs.ne1 hs.ne2, defaultN_map_sub]
    dsimp only
    rw [hd]
    simp only [List.length_map, hl1, hl2, hN, and_self, decide_true, checkDims, if_true]
    unfold crossCorrComplexFft
    rw [← hN]
    obtain ⟨A, hA, hA'⟩ := fillData_holds (N := defaultN f1.length (some a) (some b) * 2)
      (by have := hs.pos; omega) f1 (a.map (· - c)) (by simp [hl1])
      (hs.fits ((hd1 a rfl).map sub_left_injective))
    obtain ⟨B, hB, hB'⟩ := fillData_holds (N := defaultN f1.length (some a) (some b) * 2)
      (by have := hs.pos; omega) f2 (b.map (· - c)) (by simp [hl2])
      (hs.symm.fits ((hd2 b rfl).map sub_left_injective))
    simp only [hA, hB, orUB, bind, Except.bind]
    rw [fftProduct_holds (by have := hs.pos; omega) hA' hB']
    simp only
    rw [foldFull_circ _ _ _ _ (zip_close hs f1 f2) hs.pos (by rw [hlen]; exact hodd)
      (by rw [hlen]; exact h2), zip_map_sub, zip_map_sub, hlen]
    simp only [pairSumAt_shift]
    rfl

theorem Spec.ValidAuto.ne {N : Nat} {a : List Int} (h : ValidAuto N (some a)) : a ≠ [] := by
  obtain ⟨h1, h0⟩ := h
  rintro rfl; simp at h1; omega

theorem foldAutoReal_circ (s : Stream (Cx ℝ)) (hs : (s.map Prod.fst).Nodup) (L : Nat)
    (out : List ℝ) (hb : ∀ a ∈ s, ∀ b ∈ s, |b.1 - a.1| < L) (hL : 1 ≤ L)
    (h2 : out.length ≤ L + 1) :
    npIadd out ((((List.range (L * 2)).map (circSum cxProd (L * 2) s s)).take out.length).map Cx.re)
      = .ok (addSeq out fun k => selfSum reProd s k) := by
  have e : ((List.range (L * 2)).map (circSum cxProd (L * 2) s s)).map Cx.re
      = (List.range (L * 2)).map (circSum reProd (L * 2) s s) := by
    rw [List.map_map]
    apply List.map_congr_left
    intro m _
    exact circSum_hom Cx.reHom cxProd (L * 2) s s m
  rw [List.map_take, e, fold_auto_eq s s reProd L out hb hL h2]
  congr 1
  apply addSeq_congr
  intro k _
  rw [pairSumAt_self _ _ hs, selfSumFwd_symm]
  intro a b
  simp [reProd]; ring

theorem foldAutoFull_circ (s : Stream (Cx ℝ)) (hs : (s.map Prod.fst).Nodup) (L : Nat)
    (out : List (Cx ℝ)) (hb : ∀ a ∈ s, ∀ b ∈ s, |b.1 - a.1| < L) (hL : 1 ≤ L)
    (h2 : out.length ≤ L + 1) :
    npIadd out (((List.range (L * 2)).map (circSum cxProd (L * 2) s s)).take out.length)
      = .ok (addSeq out fun k => selfSumFwd cxProd s k) := by
  rw [fold_auto_eq s s cxProd L out hb hL h2]
  congr 1
  apply addSeq_congr
  intro k _
  rw [pairSumAt_self _ _ hs]

theorem autoCorrelateFft_ok (f : List (Cx ℝ)) (t : Option (List Int)) (n : Option Nat)
    (aout : Option (List ℝ)) (hv : ValidAuto f.length t) (hne : f ≠ []) (hd : Distinct t)
    (h2 : outLen n aout (defaultN f.length t t) ≤ defaultN f.length t t + 1) :
    autoCorrelateFft f t n aout
      = .ok (addSeq (startOut aout (outLen n aout (defaultN f.length t t)))
          fun k => selfSum reProd (stream f t) k) := by
  unfold autoCorrelateFft
  have hlen := startOut_length n aout (defaultN f.length t t)
  have hpos : 1 ≤ f.length := List.length_pos_iff.mpr hne
  rcases t with _ | a
  · simp only [defaultN] at *
    rw [inspectAuto_none]
    simp only [bind, Except.bind, fullLengthAuto]
    rw [defaultOut_auto]
    simp only
    unfold autoCorrFftRegular
    rw [fftPower_holds (by omega) (regular_holds f hne rfl)]
    exact foldAutoReal_circ _ (regular_nodup f) _ _ (regular_close f f rfl) hpos
      (by rw [hlen]; exact h2)
  · have hane := Spec.ValidAuto.ne hv
    obtain ⟨hl, h0⟩ := hv
    obtain ⟨c, hc1, hc2, hc⟩ := inspectAuto_some' f.length hane n (aout.map List.length)
    rw [hc]
    have hs := shifted_of f.length hane hane hc1 hc1 (Or.inl hc2)
    simp only [bind, Except.bind]
    rw [fullLengthAuto_ok _ hs.ne1, defaultN_map_sub]
    dsimp only
    rw [defaultOut_auto]
    simp only [List.length_map, hl, decide_true, checkDims, if_true]
    unfold autoCorrFft
    have hnd : (a.map (· - c)).Nodup := (hd a rfl).map sub_left_injective
    obtain ⟨A, hA, hA'⟩ := fillData_holds (N := defaultN f.length (some a) (some a) * 2)
      (by have := hs.pos; omega) f (a.map (· - c)) (by simp [hl]) (hs.fits hnd)
    simp only [hA, orUB, bind, Except.bind]
    rw [fftPower_holds (by have := hs.pos; omega) hA']
    simp only
    rw [foldAutoReal_circ _ (nodup_zip hnd f) _ _ (zip_close hs f f) hs.pos
      (by rw [hlen]; exact h2), zip_map_sub]
    simp only [selfSum_shift]
    rfl

theorem autoCorrelateComplexFft_ok (f : List (Cx ℝ)) (t : Option (List Int)) (n : Option Nat)
    (aout : Option (List (Cx ℝ))) (hv : ValidAuto f.length t) (hne : f ≠ []) (hd : Distinct t)
    (h2 : outLen n aout (defaultN f.length t t) ≤ defaultN f.length t t + 1) :
    autoCorrelateComplexFft f t n aout
      = .ok (addSeq (startOut aout (outLen n aout (defaultN f.length t t)))
          fun k => selfSumFwd cxProd (stream f t) k) := by
  unfold autoCorrelateComplexFft
  have hlen := startOut_length n aout (defaultN f.length t t)
  have hpos : 1 ≤ f.length := List.length_pos_iff.mpr hne
  rcases t with _ | a
  · simp only [defaultN] at *
    rw [inspectAuto_none]
    simp only [bind, Except.bind, fullLengthAuto]
    rw [defaultOut_auto]
    simp only
    unfold autoCorrComplexFftRegular
    rw [fftPower_holds (by omega) (regular_holds f hne rfl)]
    exact foldAutoFull_circ _ (regular_nodup f) _ _ (regular_close f f rfl) hpos
      (by rw [hlen]; exact h2)
  · have hane := Spec.ValidAuto.ne hv
    obtain ⟨hl, h0⟩ := hv
    obtain ⟨c, hc1, hc2, hc⟩ := inspectAuto_some' f.length hane n (aout.map List.length)
    rw [hc]
    have hs := shifted_of f.length hane hane hc1 hc1 (Or.inl hc2)
    simp only [bind, Except.bind]
    rw [fullLengthAuto_ok _ hs.ne1, defaultN_map_sub]
    dsimp only
    rw [defaultOut_auto]
    simp only [List.length_map, hl, decide_true, checkDims, if_true]
    unfold autoCorrComplexFft
    have hnd : (a.map (· - c)).Nodup := (hd a rfl).map sub_left_injective
    obtain ⟨A, hA, hA'⟩ := fillData_holds (N := defaultN f.length (some a) (some a) * 2)
      (by have := hs.pos; omega) f (a.map (· - c)) (by simp [hl]) (hs.fits hnd)
    simp only [hA, orUB, bind, Except.bind]
    rw [fftPower_holds (by have := hs.pos; omega) hA']
    simp only
    rw [foldAutoFull_circ _ (nodup_zip hnd f) _ _ (zip_close hs f f) hs.pos
      (by rw [hlen]; exact h2), zip_map_sub]
    simp only [selfSumFwd_shift]
    rfl

/-! ### Sums -/

section sums
variable {M : Type} [AddCommGroup M]

/-- Common shape of the sum kernels: data embedded by `emb`, result read out by `φ`. -/
structure SumKernels (kR kC : List M → List (Cx ℝ) → List Int → Nat → List M → Py (List M)) where
  emb : M → Cx ℝ
  φ : Cx ℝ →+ M
  inv : ∀ a, φ ((emb a).conj) = a
  realEq : ∀ x y t length out, kR x y t length out = (do
    let a ← orUB (fillData (x.map emb) t (List.replicate (length * 2) 0))
    let X ← npFft a
    let o ← npIfft (List.zipWith (fun x y => x.conj * y) X y)
    let out' ← npIadd out ((o.map φ).take out.length)
    iaddTail out' (revSlice (o.map φ) out.length))
  fullEq : ∀ x y t length out, kC x y t length out = (do
    let a ← orUB (fillData (x.map emb) t (List.replicate (length * 2) 0))
    let X ← npFft a
    let o ← npIfft (List.zipWith (fun x y => x.conj * y) X y)
    let out' ← iaddHead out ((out.length + 1) / 2) ((o.map φ).take ((out.length + 1) / 2))
    iaddRev out' ((out.length + 1) / 2) (revSlice (o.map φ) ((out.length + 1) / 2)))

/-- The kernels for real data. -/
noncomputable def sumKernelsR : SumKernels crossSumFftR crossSumComplexFftR :=
  { emb := Cx.ofR
    φ := Cx.reHom
    inv := fun _ => rfl
    realEq := fun x y t length out => by
      simp only [← List.map_take, ← revSlice_map]; rfl
    fullEq := fun x y t length out => by
      simp only [← List.map_take, ← revSlice_map]; rfl }

/-- The kernels for complex data. -/
noncomputable def sumKernelsC : SumKernels crossSumFftC crossSumComplexFftC :=
  { emb := id
    φ := Cx.conjHom
    inv := fun a => Cx.conj_conj a
    realEq := fun x y t length out => by
      simp only [← List.map_take, ← revSlice_map, List.map_id]; rfl
    fullEq := fun x y t length out => by
      simp only [← List.map_take, ← revSlice_map, List.map_id]; rfl }

variable {kR kC : List M → List (Cx ℝ) → List Int → Nat → List M → Py (List M)}

/-- The circular sum computed by the sum kernels. -/
theorem sum_inverse (K : SumKernels kR kC) (x : List M) (t1 t2 : List Int) (N : Nat) (hN : 0 < N)
    (hlen : t1.length = x.length) (h1 : Fits N t1) (h2 : Fits N t2) :
    ∃ A B y X o, fillData (x.map K.emb) t1 (List.replicate N 0) = some A ∧
      fillOnes t2 (List.replicate N (0 : Cx ℝ)) = some B ∧ npFft B = .ok y ∧ npFft A = .ok X ∧
      npIfft (List.zipWith (fun x y => x.conj * y) X y) = .ok o ∧
      o.map K.φ = (List.range N).map
        (circSum (fun a _ => a) N (t1.zip x) (stamps t2)) := by
  obtain ⟨A, hA, hA'⟩ := fillData_holds hN (x.map K.emb) t1 (by simp [hlen]) h1
  obtain ⟨B, hB, hB'⟩ := fillData_holds hN (List.replicate t2.length 1) t2 (by simp) h2
  rw [← fillOnes_eq] at hB
  refine ⟨A, B, _, _, _, hA, hB, hB', hA', inverse_product hN _ _, ?_⟩
  rw [List.map_map]
  apply List.map_congr_left
  intro m _
  have e1 : t1.zip (x.map K.emb) = (t1.zip x).map fun a => (a.1, K.emb a.2) := by
    rw [List.zip_map_right]; rfl
  have e2 : t2.zip (List.replicate t2.length 1)
      = (stamps t2).map fun a => (a.1, (fun _ => (1 : Cx ℝ)) a.2) := by
    apply List.ext_getElem
    · simp [stamps]
    · intro i h1 h2; simp [stamps]
  simp only [Function.comp]
  rw [circSum_hom, e1, e2]
  refine Eq.trans (circSum_map _ K.emb (fun _ => 1) N _ _ m) ?_
  simp only [cxProd, mul_one, K.inv]

theorem Spec.ValidSum.ne {N : Nat} {a b : List Int}
    (h : ValidSum N (some a) (some b)) : a ≠ [] ∧ b ≠ [] := by
  obtain ⟨h1, h0, h2⟩ := h
  exact ⟨by rintro rfl; simp at h1; omega, h2⟩

/-- `t1`, `t2` as seen by the kernel, possibly time inverted. -/
def invT (inv : Bool) (t : List Int) : List Int := if inv then t.map (- ·) else t

theorem Shifted.fits_inv {D : Nat} {a b : List Int} (h : Shifted D a b) (hn : a.Nodup)
    (inv : Bool) : Fits (D * 2) (invT inv a) := by
  cases inv
  · exact h.fits hn
  · exact h.fits_neg hn

theorem Shifted.close_inv {D : Nat} {a b : List Int} (h : Shifted D a b)
    (inv : Bool) : ∀ x ∈ invT inv a, ∀ y ∈ invT inv b, |y - x| < (D : Int) := by
  cases inv
  · exact h.close
  · simp only [invT, if_true, List.mem_map]
    rintro _ ⟨x, hx, rfl⟩ _ ⟨y, hy, rfl⟩
    rw [show -y - -x = x - y by ring, abs_sub_comm]
    exact h.close x hx y hy

theorem invT_length (inv : Bool) (a : List Int) : (invT inv a).length = a.length := by
  cases inv <;> simp [invT]

theorem mem_stamps {t : List Int} {p : Int × Unit} (h : p ∈ stamps t) : p.1 ∈ t := by
  simp only [stamps, List.mem_map] at h
  obtain ⟨x, hx, rfl⟩ := h
  exact hx

theorem crossSumFftApi_real_ok (K : SumKernels kR kC) (f : List M) (a b : List Int)
    (n : Option Nat) (inv : Bool) (aout : Option (List M))
    (hv : ValidSum f.length (some a) (some b)) (hd1 : a.Nodup) (hd2 : b.Nodup)
    (h1 : 1 ≤ outLen n aout (defaultN f.length (some a) (some b)))
    (h2 : outLen n aout (defaultN f.length (some a) (some b))
      ≤ defaultN f.length (some a) (some b) + 1) :
    crossSumFftApi kR kC f (some a) (some b) n false inv aout
      = .ok (addSeq (startOut aout (outLen n aout (defaultN f.length (some a) (some b))))
          fun k => pairSum (fun a _ => a) (stream f (some a)) (otherStream f.length (some b)) k) := by
  unfold crossSumFftApi
  have hlen := startOut_length n aout (defaultN f.length (some a) (some b))
  obtain ⟨hane, hbne⟩ := Spec.ValidSum.ne hv
  obtain ⟨hl, h0, -⟩ := hv
  obtain ⟨c, hc1, hc2, hc3, hc⟩ := inspectCross_some' f.length hane hbne n
    (aout.map List.length) false
  rw [hc]
  have hs := shifted_of f.length hane hbne hc1 hc2 hc3
  simp only [bind, Except.bind]
  rw [fullLengthCross_ok _ hs.ne1 hs.ne2, defaultN_map_sub]
  dsimp only
  rw [defaultOut_real]
  have hn1 : (a.map (· - c)).Nodup := hd1.map sub_left_injective
  have hn2 : (b.map (· - c)).Nodup := hd2.map sub_left_injective
  obtain ⟨A, B, y, X, o, hA, hB, hy, hX, ho, hφ⟩ := sum_inverse K f
    (invT inv (a.map (· - c))) (invT inv (b.map (· - c)))
    (defaultN f.length (some a) (some b) * 2) (by have := hs.pos; omega)
    (by rw [invT_length]; simp [hl]) (hs.fits_inv hn1 inv) (hs.symm.fits_inv hn2 inv)
  have hB2 : fillOnes (if inv = true then List.map (- ·) (List.map (· - c) b)
      else List.map (· - c) b)
      (List.replicate (defaultN f.length (some a) (some b) * 2) (0 : Cx ℝ)) = some B := hB
  dsimp only
  rw [hB2]
  simp only [orUB, hy]
  have hlen1 : (invT inv (a.map (· - c))).length = f.length := by rw [invT_length]; simp [hl]
  have hlen1' : (if inv = true then List.map (- ·) (List.map (· - c) a)
      else List.map (· - c) a).length = f.length := hlen1
  simp only [hlen1', decide_true, checkDims, if_true, Bool.false_eq_true, if_false]
  show kR f y (invT inv (a.map (· - c))) _ _ = _
  rw [K.realEq, hA]
  simp only [orUB, bind, Except.bind, hX, ho, hφ]
  have := fold_real_eq ((invT inv (a.map (· - c))).zip f) (stamps (invT inv (b.map (· - c))))
    (fun a _ => a) (defaultN f.length (some a) (some b))
    (startOut aout (outLen n aout (defaultN f.length (some a) (some b))))
    (fun p hp q hq => hs.close_inv inv _ (mem_zip_fst hp) _ (mem_stamps hq)) hs.pos
    (by rw [hlen]; exact h1) (by rw [hlen]; exact h2)
  simp only [bind, Except.bind] at this
  rw [this]
  cases inv
  · simp only [invT, Bool.false_eq_true, if_false]
    rw [zip_map_sub, stamps_map_sub]
    simp only [pairSum_shift]
    rfl
  · simp only [invT, if_true]
    rw [zip_neg, stamps_neg, zip_map_sub, stamps_map_sub]
    simp only [pairSum_neg, pairSum_shift]
    rfl

theorem crossSumFftApi_full_ok (K : SumKernels kR kC) (f : List M) (a b : List Int)
    (n : Option Nat) (inv : Bool) (aout : Option (List M))
    (hv : ValidSum f.length (some a) (some b)) (hd1 : a.Nodup) (hd2 : b.Nodup)
    (hodd : outLenFull n aout (defaultN f.length (some a) (some b)) % 2 = 1)
    (h2 : (outLenFull n aout (defaultN f.length (some a) (some b)) + 1) / 2
      ≤ defaultN f.length (some a) (some b) + 1) :
    crossSumFftApi kR kC f (some a) (some b) n true inv aout
      = .ok (addSeq (startOut aout (outLenFull n aout (defaultN f.length (some a) (some b))))
          fun k => pairSumAt (fun a _ => a) (stream f (some a)) (otherStream f.length (some b))
            (if inv then -cellDelay (outLenFull n aout (defaultN f.length (some a) (some b))) k
             else cellDelay (outLenFull n aout (defaultN f.length (some a) (some b))) k)) := by
  unfold crossSumFftApi
  have hlen := startOut_length_full n aout (defaultN f.length (some a) (some b))
  obtain ⟨hane, hbne⟩ := Spec.ValidSum.ne hv
  obtain ⟨hl, h0, -⟩ := hv
  obtain ⟨c, hc1, hc2, hc3, hc⟩ := inspectCross_some' f.length hane hbne n
    (aout.map List.length) true
  rw [hc]
  have hs := shifted_of f.length hane hbne hc1 hc2 hc3
  have hd := defaultOut_full n aout _ hodd
  simp only [bind, Except.bind, if_true] at hd ⊢
  rw [fullLengthCross_ok _ hs.ne1 hs.ne2, defaultN_map_sub]
  dsimp only
  rw [hd]
  have hn1 : (a.map (· - c)).Nodup := hd1.map sub_left_injective
  have hn2 : (b.map (· - c)).Nodup := hd2.map sub_left_injective
  obtain ⟨A, B, y, X, o, hA, hB, hy, hX, ho, hφ⟩ := sum_inverse K f
    (invT inv (a.map (· - c))) (invT inv (b.map (· - c)))
    (defaultN f.length (some a) (some b) * 2) (by have := hs.pos; omega)
    (by rw [invT_length]; simp [hl]) (hs.fits_inv hn1 inv) (hs.symm.fits_inv hn2 inv)
  have hB2 : fillOnes (if inv = true then List.map (- ·) (List.map (· - c) b)
      else List.map (· - c) b)
      (List.replicate (defaultN f.length (some a) (some b) * 2) (0 : Cx ℝ)) = some B := hB
  dsimp only
  rw [hB2]
  simp only [orUB, hy]
  have hlen1 : (invT inv (a.map (· - c))).length = f.length := by rw [invT_length]; simp [hl]
  have hlen1' : (if inv = true then List.map (- ·) (List.map (· - c) a)
      else List.map (· - c) a).length = f.length := hlen1
  simp only [hlen1', decide_true, checkDims, if_true]
  show kC f y (invT inv (a.map (· - c))) _ _ = _
  rw [K.fullEq, hA]
  simp only [orUB, bind, Except.bind, hX, ho, hφ]
  have := fold_full_eq ((invT inv (a.map (· - c))).zip f) (stamps (invT inv (b.map (· - c))))
    (fun a _ => a) (defaultN f.length (some a) (some b))
    (startOut aout (outLenFull n aout (defaultN f.length (some a) (some b))))
    (fun p hp q hq => hs.close_inv inv _ (mem_zip_fst hp) _ (mem_stamps hq)) hs.pos
    (by rw [hlen]; exact hodd) (by rw [hlen]; exact h2)
  simp only [bind, Except.bind] at this
  rw [this, hlen]
  cases inv
  · simp only [invT, Bool.false_eq_true, if_false]
    rw [zip_map_sub, stamps_map_sub]
    simp only [pairSumAt_shift]
    rfl
  · simp only [invT, if_true]
    rw [zip_neg, stamps_neg, zip_map_sub, stamps_map_sub]
    simp only [pairSumAt_neg, pairSumAt_shift]
    rfl

theorem autoSumFftApi_ok [Module ℝ M] (K : SumKernels kR kC) (f : List M) (a : List Int)
    (n : Option Nat) (aout : Option (List M))
    (hv : ValidAuto f.length (some a)) (hd1 : a.Nodup)
    (h1 : 1 ≤ outLen n aout (defaultN f.length (some a) (some a)))
    (h2 : outLen n aout (defaultN f.length (some a) (some a))
      ≤ defaultN f.length (some a) (some a) + 1) :
    autoSumFftApi kR f (some a) n aout
      = .ok (addSeq (startOut aout (outLen n aout (defaultN f.length (some a) (some a)))) fun k =>
          if k = 0 then
            pairSum (fun a _ => a) (stream f (some a)) (otherStream f.length (some a)) k
          else (1 / 2 : ℝ) •
            pairSum (fun a _ => a) (stream f (some a)) (otherStream f.length (some a)) k) := by
  unfold autoSumFftApi
  have hlen := startOut_length n aout (defaultN f.length (some a) (some a))
  have hane := Spec.ValidAuto.ne hv
  obtain ⟨hl, h0⟩ := hv
  obtain ⟨c, hc1, hc2, hc⟩ := inspectAuto_some' f.length hane n (aout.map List.length)
  rw [hc]
  have hs := shifted_of f.length hane hane hc1 hc1 (Or.inl hc2)
  simp only [bind, Except.bind]
  rw [fullLengthAuto_ok _ hs.ne1, defaultN_map_sub]
  dsimp only
  rw [defaultOut_auto]
  have hn1 : (a.map (· - c)).Nodup := hd1.map sub_left_injective
  obtain ⟨A, B, y, X, o, hA, hB, hy, hX, ho, hφ⟩ := sum_inverse K f
    (a.map (· - c)) (a.map (· - c))
    (defaultN f.length (some a) (some a) * 2) (by have := hs.pos; omega)
    (by simp [hl]) (hs.fits hn1) (hs.fits hn1)
  simp only [hB, orUB, hy, List.length_map, hl, decide_true, checkDims, if_true]
  rw [K.realEq, hA]
  simp only [orUB, bind, Except.bind, hX, ho, hφ]
  have := fold_real_eq ((a.map (· - c)).zip f) (stamps (a.map (· - c)))
    (fun a _ => a) (defaultN f.length (some a) (some a))
    (List.replicate (startOut aout (outLen n aout (defaultN f.length (some a) (some a)))).length 0)
    (fun p hp q hq => hs.close _ (mem_zip_fst hp) _ (mem_stamps hq)) hs.pos
    (by rw [List.length_replicate, hlen]; exact h1) (by rw [List.length_replicate, hlen]; exact h2)
  simp only [bind, Except.bind] at this
  rw [this, zip_map_sub, stamps_map_sub]
  simp only [pairSum_shift, addSeq_replicate, mapIdx_range]
  rw [zipWith_addSeq _ _ rfl]
  rfl

end sums
end Cddm
