import Verif.Lemmas.AnyAxisCcorr

/-! # The bodies of `ccorr` and `acorr` on arrays of any number of axes -/

namespace Cddm
open Spec

/-- The data with the axis at place `pos`: `x p` is the signal of pixel `p`. -/
structure MovedTo {α : Type} (g : Tensor α) (frame : List Nat) (ndim pos N : Nat) (x : List Nat → List α) : Prop where
  ndim_eq : g.shape.length = ndim
  pos_lt : pos < ndim
  frame_eq : frameShape g.shape pos = frame
  len_eq : g.shape.getD pos 0 = N
  along_eq : ∀ p, InShape p frame → along g pos p = x p

theorem MovedTo.names {α : Type} {g : Tensor α} {frame : List Nat} {ndim pos N : Nat} {x : List Nat → List α}
    (h : MovedTo g frame ndim pos N x) : NamesAxis g.shape.length ((pos : Int) - ndim) pos := by
  rw [h.ndim_eq]
  exact ⟨h.pos_lt, Or.inr rfl⟩

theorem MovedTo.length {α : Type} {g : Tensor α} {frame : List Nat} {ndim pos N : Nat} {x : List Nat → List α}
    (h : MovedTo g frame ndim pos N x) {p : List Nat} (hp : InShape p frame) : (x p).length = N := by
  rw [← h.along_eq p hp, along_length, h.len_eq]

theorem MovedTo.map {α β : Type} {g : Tensor α} {frame : List Nat} {ndim pos N : Nat} {x : List Nat → List α}
    (h : MovedTo g frame ndim pos N x) (c : α → β) : MovedTo (g.map c) frame ndim pos N fun p => (x p).map c :=
  ⟨h.ndim_eq, h.pos_lt, h.frame_eq, h.len_eq, fun p hp => by rw [along_map, h.along_eq p hp]⟩

theorem movedTo_align {α : Type} (f : Tensor α) {ax : Nat} (hax : ax < f.shape.length) (reg : Bool) :
    MovedTo (moveAxisAndAlign f ax (newAxis f.shape.length reg)) (frameShape f.shape ax) f.shape.length
      (newAxis f.shape.length reg) (f.shape.getD ax 0) fun p => along f ax p := by
  obtain ⟨h1, h2, h3, h4, h5⟩ := moved_any f hax reg
  exact ⟨h1, h2, h3, h4, h5⟩

theorem movedTo_shape {α β : Type} {f : Tensor α} (s : Tensor β) (e : s.shape = f.shape) {ax : Nat}
    (hax : ax < f.shape.length) (reg : Bool) :
    MovedTo (moveAxisAndAlign s ax (newAxis f.shape.length reg)) (frameShape f.shape ax) f.shape.length
      (newAxis f.shape.length reg) (f.shape.getD ax 0) fun p => along s ax p := by
  have := movedTo_align s (ax := ax) (by rw [e]; exact hax) reg
  rwa [e] at this

/-- The rows given for the pixels are not too long, nor is `m`. -/
def RowsShort {M : Type} (frame : List Nat) (N m : Nat) (complex : Bool) (aout : Option (Tensor M)) : Prop :=
  m ≤ N + 1 ∧ ∀ p, InShape p frame → ∀ l, outAt frame aout p = some l → NotTooLong N complex l.length

theorem rowsShort_of {M : Type} {frame : List Nat} {N m : Nat} {complex : Bool} {aout : Option (Tensor M)}
    (hfit : OutFits frame aout) (hm : m ≤ N + 1)
    (h : ∀ o, aout = some o → NotTooLong N complex (o.shape.getLastD 0)) : RowsShort frame N m complex aout := by
  refine ⟨hm, fun p _ l hl => ?_⟩
  rcases aout with _ | o
  · simp [outAt] at hl
  · obtain ⟨L, hL⟩ := hfit o rfl
    have := h o rfl
    simp only [outAt, Option.map_some, Option.some.injEq] at hl
    rw [← hl, along_length, hL, getD_end]
    rw [hL] at this
    simpa using this

theorem sumSelAnyR_moved (useFft : Bool) {g : Tensor ℝ} {frame : List Nat} {ndim pos N : Nat} {x : List Nat → List ℝ}
    (hg : MovedTo g frame ndim pos N x) (ta tb : Option (List Int)) (m : Nat) (complex inv : Bool)
    (aout : Option (Tensor ℝ)) (hfit : OutFits frame aout) (hs : ta = none → RowsShort frame N m complex aout) :
    PixelWise frame (sumSelAnyR useFft g ta tb ((pos : Int) - ndim) m complex inv aout) fun p =>
      sumSelR useFft (x p) ta tb m complex inv (outAt frame aout p) := by
  have hf := hg.frame_eq
  subst hf
  exact pixelWise_congr (sumSelAnyR_pixelWise useFft g ta tb _ m complex inv aout hg.len_eq hg.names hfit hs)
    fun p hp => by simp only [hg.along_eq p hp]

theorem sumSelAnyC_moved (useFft : Bool) {g : Tensor (Cx ℝ)} {frame : List Nat} {ndim pos N : Nat}
    {x : List Nat → List (Cx ℝ)}
    (hg : MovedTo g frame ndim pos N x) (ta tb : Option (List Int)) (m : Nat) (complex inv : Bool)
    (aout : Option (Tensor (Cx ℝ))) (hfit : OutFits frame aout) (hs : ta = none → RowsShort frame N m complex aout) :
    PixelWise frame (sumSelAnyC useFft g ta tb ((pos : Int) - ndim) m complex inv aout) fun p =>
      sumSelC useFft (x p) ta tb m complex inv (outAt frame aout p) := by
  have hf := hg.frame_eq
  subst hf
  exact pixelWise_congr (sumSelAnyC_pixelWise useFft g ta tb _ m complex inv aout hg.len_eq hg.names hfit hs)
    fun p hp => by simp only [hg.along_eq p hp]

theorem ccorrSumsAny_pw (norm : Nat) (useFft : Bool) {g : Tensor (Cx ℝ)} {frame : List Nat} {ndim pos N : Nat}
    {x : List Nat → List (Cx ℝ)}
    (hg : MovedTo g frame ndim pos N x) (ta tb : Option (List Int)) (m : Nat) (complex inv : Bool)
    (aout : Option (Tensor (Cx ℝ))) (hfit : OutFits frame aout) (hs : ta = none → RowsShort frame N m complex aout) :
    PW frame (fun p r => outAt frame r p) (OutFits frame)
      (ccorrSumsAny norm useFft g ta tb ((pos : Int) - ndim) m complex inv aout) fun p =>
      ccorrSums norm useFft (x p) ta tb m complex inv (outAt frame aout p) := by
  unfold ccorrSumsAny ccorrSums
  by_cases h : needsSums norm = true
  · simp only [if_pos h]
    exact PW.some' (sumSelAnyC_moved useFft hg ta tb m complex inv aout hfit hs)
  · simp only [if_neg h]
    exact ⟨hfit, fun _ _ => rfl⟩

theorem ccorrSquaresAny_pw (method : String) (norm : Nat) (useFft : Bool) {g1 g2 : Tensor ℝ} {frame : List Nat}
    {ndim pos N : Nat} {x1 x2 : List Nat → List ℝ}
    (hg1 : MovedTo g1 frame ndim pos N x1) (hg2 : MovedTo g2 frame ndim pos N x2) (ta tb : Option (List Int))
    (hab : tb = none → ta = none) (hfftn : ta = none → useFft = false) (m : Nat) (complex : Bool)
    (aout : Option (Tensor ℝ)) (hfit : OutFits frame aout) (hs : ta = none → RowsShort frame N m complex aout)
    (hab' : ta = none → tb = none) :
    PW frame (fun p r => outAt frame r p) (OutFits frame)
      (ccorrSquaresAny method norm useFft g1 g2 ta tb ((pos : Int) - ndim) m complex aout) fun p =>
      ccorrSquares method norm useFft (x1 p) (x2 p) ta tb m complex (outAt frame aout p) := by
  unfold ccorrSquaresAny ccorrSquares
  by_cases h : needsSquares norm = true ∧ method ≠ "diff"
  · simp only [if_pos h]
    refine PW.bind' (pixelWise_iff.1 (sumSelAnyR_moved useFft hg1 ta tb m complex false aout hfit hs)) fun s hone hP => ?_
    refine PW.bind' (pixelWise_iff.1 (sumSelAnyR_moved useFft hg2 tb ta m complex true (some s) hP fun hn => ?_))
      fun s' _ hP' => ⟨hP', fun _ _ => rfl⟩
    have ha := hab hn
    refine ⟨(hs ha).1, fun p hp l hl => ?_⟩
    simp only [outAt, Option.map_some, Option.some.injEq] at hl
    have h1 := hone p hp
    simp only [sumSelR, hfftn ha, ha, hn, Bool.false_eq_true, if_false] at h1
    rw [hl] at h1
    have hlen := hg1.length hp
    have := crossSumApi_none_length h1 (by rw [hlen]; exact (hs ha).1) (by
      rw [hlen]
      exact (hs ha).2 p hp)
    rwa [hlen] at this
  · simp only [if_neg h]
    by_cases hm : method = "diff"
    · simp only [if_pos hm]
      exact ⟨fun o ho => by simp at ho, fun _ _ => rfl⟩
    · simp only [if_neg hm]
      exact ⟨hfit, fun _ _ => rfl⟩

/-- A correlation function of arrays, against that of one signal. -/
def KernelFits {C : Type} (frame : List Nat) (ndim pos N : Nat) (complex : Bool) (cor : Option (Tensor C))
    (k : Tensor (Cx ℝ) → Tensor (Cx ℝ) → Option (List Int) → Option (List Int) → Int →
      Option Nat → Option (Tensor C) → Py (Tensor C))
    (k1 : List (Cx ℝ) → List (Cx ℝ) → Option (List Int) → Option (List Int) →
      Option Nat → Option (List C) → Py (List C)) : Prop :=
  ∀ g1 g2 x1 x2, MovedTo g1 frame ndim pos N x1 → MovedTo g2 frame ndim pos N x2 → g2.shape = g1.shape → ∀ ta tb m,
    (ta = none → RowsShort frame N m complex cor) →
    PixelWise frame (k g1 g2 ta tb ((pos : Int) - ndim) (some m) cor) fun p =>
      k1 (x1 p) (x2 p) ta tb (some m) (outAt frame cor p)

theorem pixelWiseTuple_iff {C : Type} {frame : List Nat} {res : Py (CorrTupleAny C)} {one : List Nat → Py (CorrTuple C)} :
    PixelWiseTuple frame res one ↔ PW frame (fun p r => tupleAt frame r p)
      (fun r => OutFits frame (some r.cor) ∧ OutFits frame r.sq ∧ OutFits frame r.ds1 ∧ OutFits frame r.ds2) res one := by
  unfold PixelWiseTuple PW
  rcases res with e | r
  · rfl
  · simp only [and_assoc]

theorem regularN_le {M : Type} {frame : List Nat} {N m : Nat} {complex : Bool} {n : Option Nat} {aout : Option (Tensor M)}
    {p : List Nat} {t} (hfit : OutFits frame aout)
    (hI : inspectCross N N none none n ((outAt frame aout p).map List.length) complex = .ok (t, m))
    (hn : ∀ k, n = some k → k ≤ N + 1)
    (h : ∀ o, aout = some o → NotTooLong N complex (o.shape.getLastD 0)) : m ≤ N + 1 := by
  rw [inspectCross_none] at hI
  simp only [Except.ok.injEq, Prod.mk.injEq] at hI
  rw [← hI.2]
  rcases n with _ | k
  · rcases aout with _ | o
    · simp [outAt]
    · obtain ⟨L, hL⟩ := hfit o rfl
      have := h o rfl
      rw [hL] at this
      simp only [outAt, Option.map_some, along_length, hL, getD_end, Option.getD_none]
      cases complex
      · simpa [NotTooLong] using this
      · simp [NotTooLong] at this ⊢
        exact this.2
  · exact hn k rfl

theorem ccorrAnyBody_pixelWise {C : Type} (complex : Bool)
    {kFft kCorr kDiff : Tensor (Cx ℝ) → Tensor (Cx ℝ) → Option (List Int) → Option (List Int) → Int →
      Option Nat → Option (Tensor C) → Py (Tensor C)}
    {k1Fft k1Corr k1Diff : List (Cx ℝ) → List (Cx ℝ) → Option (List Int) → Option (List Int) →
      Option Nat → Option (List C) → Py (List C)}
    (f1 f2 : Tensor (Cx ℝ)) (t1 t2 : Option (List Int)) (n : Option Nat) (norm : Option Int)
    (method : Option String) (align contiguous : Bool) (axis : Int) (f1s f2s : Option (Tensor ℝ)) (aout : CorrAoutAny C)
    {ax : Nat} (hs : f2.shape = f1.shape) (hax : NamesAxis f1.shape.length axis ax)
    (hfit : AoutFits (frameShape f1.shape ax) aout)
    (h1s : ∀ s, f1s = some s → s.shape = f1.shape) (h2s : ∀ s, f2s = some s → s.shape = f1.shape)
    (hlen : t1 = none → AoutNotTooLong (f1.shape.getD ax 0) complex n aout) {pos : Nat}
    (hpos : newAxis f1.shape.length (t1.isNone && isAligned f1.shape.length axis contiguous align) = pos)
    (hF : KernelFits (frameShape f1.shape ax) f1.shape.length pos (f1.shape.getD ax 0) complex aout.cor kFft k1Fft)
    (hC : KernelFits (frameShape f1.shape ax) f1.shape.length pos (f1.shape.getD ax 0) complex aout.cor kCorr k1Corr)
    (hD : complex = false →
      KernelFits (frameShape f1.shape ax) f1.shape.length pos (f1.shape.getD ax 0) complex aout.cor kDiff k1Diff) :
    PixelWiseTuple (frameShape f1.shape ax)
      (ccorrAnyBody complex kFft kCorr kDiff f1 f2 t1 t2 n norm method align contiguous axis f1s f2s aout) fun p =>
      ccorrBody complex k1Fft k1Corr k1Diff (along f1 ax p) (along f2 ax p) t1 t2 n norm method
        (f1s.map fun s => along s ax p) (f2s.map fun s => along s ax p) (aoutAt (frameShape f1.shape ax) aout p) := by
  have hl := hax.1
  obtain ⟨fit0, fit1, fit2, fit3⟩ := hfit
  rw [pixelWiseTuple_iff]
  unfold ccorrAnyBody ccorrBody
  simp only [along_length, hs, aoutAt]
  have hne : ¬ (f1.shape = [] ∨ f1.shape ≠ f1.shape) := by
    rintro (h | h)
    · rw [h] at hl; simp at hl
    · exact h rfl
  obtain ⟨last, e1, e2, -⟩ := lastLength_ok fit0 n
  have hfind : findAxis f1.shape.length axis true = .ok ax := by
    simp only [findAxis, resolveIdx_axis hax]
  refine PW.bind (PW.const _) fun meth hmeth _ => ?_
  refine PW.bind (PW.const _) fun nrm _ _ => ?_
  by_cases hd : meth = "diff" ∧ complex = true
  · simp only [if_pos hd]
    exact fun _ _ => rfl
  simp only [if_neg hd]
  by_cases ht : t1.isNone ≠ t2.isNone
  · rw [if_pos ht]
    intro p _
    rcases t1 with _ | a <;> rcases t2 with _ | b
    · simp at ht
    · simp [inspectCross, bind, Except.bind]
    · simp [inspectCross, bind, Except.bind]
    · simp at ht
  rw [if_neg ht, if_neg hne]
  have okb : ∀ {A B : Type} (a : A) (k : A → Py B), ((Except.ok a : Py A) >>= k) = k a := fun _ _ => rfl
  simp only [resolveIdx_axis hax, Option.getD_some, e1, hfind, okb]
  have e3 : ∀ p, inspectCross (f1.shape.getD ax 0) (f1.shape.getD ax 0) t1 t2 n
      ((outAt (frameShape f1.shape ax) aout.cor p).map List.length) complex =
      inspectCross (f1.shape.getD ax 0) (f1.shape.getD ax 0) t1 t2 n last complex := fun p => (e2 _ _ _ _ p).symm
  simp only [e3]
  refine PW.bind (PW.const _) fun tn htn _ => ?_
  obtain ⟨t, m⟩ := tn
  have hnone := inspectCross_isNone ht htn
  have hiso : t.isNone = t1.isNone := by
    rcases t with _ | ab
    · rw [(hnone.1 rfl).1]; rfl
    · rcases t1 with _ | a
      · rcases t2 with _ | b
        · have := hnone.2 ⟨rfl, rfl⟩
          simp at this
        · simp at ht
      · rfl
  have hm : t.map Prod.fst = none → RowsShort (frameShape f1.shape ax) (f1.shape.getD ax 0) m complex aout.cor ∧
      RowsShort (frameShape f1.shape ax) (f1.shape.getD ax 0) m complex aout.sq ∧
      RowsShort (frameShape f1.shape ax) (f1.shape.getD ax 0) m complex aout.ds1 ∧
      RowsShort (frameShape f1.shape ax) (f1.shape.getD ax 0) m complex aout.ds2 := by
    intro hn
    have hn' : t = none := by simpa using hn
    obtain ⟨h1, h2⟩ := hnone.1 hn'
    obtain ⟨b0, b1, b2, b3, b4⟩ := hlen h1
    rw [← e3 [], h1, h2] at htn
    have hm := regularN_le fit0 htn b0 b1
    exact ⟨rowsShort_of fit0 hm b1, rowsShort_of fit1 hm b2, rowsShort_of fit2 hm b3, rowsShort_of fit3 hm b4⟩
  have hm2 : t.map Prod.snd = none → t.map Prod.fst = none := by
    rcases t <;> simp
  have hm3 : t.map Prod.fst = none → t.map Prod.snd = none := by
    rcases t <;> simp
  dsimp only
  rw [hiso, hpos]
  have M1 := movedTo_align f1 hl (t1.isNone && isAligned f1.shape.length axis contiguous align)
  have M2 := movedTo_shape f2 hs hl (t1.isNone && isAligned f1.shape.length axis contiguous align)
  have S1 : MovedTo (match f1s with
      | none => (moveAxisAndAlign f1 ax pos).map Cx.abs2
      | some s => moveAxisAndAlign s ax pos) (frameShape f1.shape ax) f1.shape.length pos (f1.shape.getD ax 0)
      fun p => (f1s.map fun s => along s ax p).getD ((along f1 ax p).map Cx.abs2) := by
    rcases f1s with _ | s
    · rw [hpos] at M1
      exact M1.map _
    · rw [← hpos]
      exact movedTo_shape s (h1s s rfl) hl _
  have S2 : MovedTo (match f2s with
      | none => (moveAxisAndAlign f2 ax pos).map Cx.abs2
      | some s => moveAxisAndAlign s ax pos) (frameShape f1.shape ax) f1.shape.length pos (f1.shape.getD ax 0)
      fun p => (f2s.map fun s => along s ax p).getD ((along f2 ax p).map Cx.abs2) := by
    rcases f2s with _ | s
    · rw [hpos] at M2
      exact M2.map _
    · rw [← hpos]
      exact movedTo_shape s (h2s s rfl) hl _
  rw [hpos] at M1 M2
  have hsh : (moveAxisAndAlign f2 ax pos).shape = (moveAxisAndAlign f1 ax pos).shape := by
    simp only [moveAxisAndAlign, hs]
    split <;> simp [moveAxis, hs]
  refine PW.bind (sel := fun p r => along r (frameShape f1.shape ax).length p)
    (P := fun r => OutFits (frameShape f1.shape ax) (some r)) ?_ fun cor _ hcor => ?_
  · by_cases c1 : meth = "fft"
    · simp only [if_pos c1]
      exact pixelWise_iff.1 (hF _ _ _ _ M1 M2 hsh _ _ _ fun h => (hm h).1)
    · simp only [if_neg c1]
      by_cases c2 : meth = "corr"
      · simp only [if_pos c2]
        exact pixelWise_iff.1 (hC _ _ _ _ M1 M2 hsh _ _ _ fun h => (hm h).1)
      · simp only [if_neg c2]
        by_cases c3 : complex = false
        · exact pixelWise_iff.1 (hD c3 _ _ _ _ M1 M2 hsh _ _ _ fun h => (hm h).1)
        · refine absurd ⟨?_, by simpa using c3⟩ hd
          unfold defaultMethod at hmeth
          rcases method with _ | mm
          · simp only [Except.ok.injEq] at hmeth
            split at hmeth <;> simp_all
          · simp only at hmeth
            split at hmeth
            · simp_all
            · cases hmeth
  refine PW.bind (PW.const _) fun count _ _ => ?_
  refine PW.bind (ccorrSquaresAny_pw meth nrm _ S1 S2 _ _ hm2 (fun h => ?_) m complex aout.sq fit1
    (fun h => (hm h).2.1) hm3) fun sq _ hsq => ?_
  · have : t = none := by simpa using h
    simp [this]
  refine PW.bind (ccorrSumsAny_pw nrm _ M1 _ _ m complex false aout.ds1 fit2 fun h => (hm h).2.2.1) fun ds1 _ hds1 => ?_
  refine PW.bind (ccorrSumsAny_pw nrm _ M2 _ _ m complex true aout.ds2 fit3 fun h => (hm (hm2 h)).2.2.2)
    fun ds2 _ hds2 => ?_
  exact ⟨⟨hcor, hsq, hds1, hds2⟩, fun _ _ => rfl⟩

/-! ### The correlation functions called by `ccorr` -/

theorem kernelFits_fft {C : Type} [Zero C] {kReg : List (Cx ℝ) → List (Cx ℝ) → List C → Py (List C)}
    {k : List (Cx ℝ) → List (Cx ℝ) → List Int → List Int → Nat → List C → Py (List C)}
    (hR : ∀ {x x' y y' : List (Cx ℝ)} {out out' : List C} {N L : Nat}, x.length = N → x'.length = N → y.length = N →
      y'.length = N → out.length = L → out'.length = L → SameRes L (kReg x y out) (kReg x' y' out'))
    (hK : ∀ {x x' y y' : List (Cx ℝ)} (t1 t2 : List Int) (len : Nat) {out out' : List C} {N L : Nat}, x.length = N →
      x'.length = N → y.length = N → y'.length = N → out.length = L → out'.length = L →
      SameRes L (k x y t1 t2 len out) (k x' y' t1 t2 len out'))
    {frame : List Nat} {ndim pos N : Nat} {complex : Bool} {cor : Option (Tensor C)} (hfit : OutFits frame cor) :
    KernelFits frame ndim pos N complex cor
      (fun f1 f2 t1 t2 axis n aout => crossFftAny kReg k f1 f2 t1 t2 axis n complex aout)
      fun f1 f2 t1 t2 n aout => (do
        let (t, n) ← inspectCross f1.length f2.length t1 t2 n (aout.map List.length) complex
        let length ← fullLengthCross f1.length t
        let out ← defaultOut aout n complex
        match t with
        | none => kReg f1 f2 out
        | some (t1, t2) => do
          checkDims (t1.length = f1.length ∧ t2.length = f2.length)
          k f1 f2 t1 t2 length out) := by
  intro g1 g2 x1 x2 m1 m2 hsh ta tb m _
  have hf := m1.frame_eq
  subst hf
  refine pixelWise_congr (crossFftAny_pixelWise hR hK g1 g2 ta tb _ (some m) complex cor hsh m1.names hfit) fun p hp => ?_
  simp only [m1.along_eq p hp, m2.along_eq p hp]
  rfl

theorem kernelFits_cross {C : Type} [Zero C] (kReg : List (Cx ℝ) → List (Cx ℝ) → List C → Option (List C))
    {k : List (Cx ℝ) → List (Cx ℝ) → List Int → List Int → List C → Option (List C)}
    {kVec : List (List (Cx ℝ)) → List (List (Cx ℝ)) → List Int → List Int → List (List C) → Option (List (List C))}
    (hsim : VecSim kVec k) {frame : List Nat} {ndim pos N : Nat} {complex moved : Bool} {cor : Option (Tensor C)}
    (hfit : OutFits frame cor)
    (hreg : ∀ (x y out : List _), x.length = N → y.length = N → NotTooLong N complex out.length →
      ∃ l, kReg x y out = some l ∧ l.length = out.length) :
    KernelFits frame ndim pos N complex cor
      (fun f1 f2 t1 t2 axis n aout => crossAny kReg k kVec f1 f2 t1 t2 axis n false moved complex aout)
      fun f1 f2 t1 t2 n aout => crossApi f1.length f2.length t1 t2 n complex aout
        (fun out => if isAligned ndim ((pos : Int) - ndim) moved false then orUB (kReg f1 f2 out)
          else orUB (k f1 f2 (arange f1.length) (arange f1.length) out))
        (fun a b out => do
            checkDims (a.length = f1.length ∧ b.length = f2.length)
            orUB (k f1 f2 a b out)) := by
  intro g1 g2 x1 x2 m1 m2 hsh ta tb m hs
  have hf := m1.frame_eq
  have hn := m1.ndim_eq
  subst hf hn
  refine pixelWise_congr (crossAny_pixelWise kReg hsim g1 g2 ta tb _ (some m) false moved complex cor hsh m1.names hfit
    fun h1 _ p hp m' out e1 e2 => ?_) fun p hp => ?_
  · rw [inspectCross_none] at e1
    simp only [Except.ok.injEq, Prod.mk.injEq, true_and, Option.getD_some] at e1
    subst e1
    exact hreg _ _ out (by rw [along_length, m1.len_eq]) (by rw [along_length, m2.len_eq])
      (notTooLong_default e2 (hs h1).1 ((hs h1).2 p hp))
  · simp only [m1.along_eq p hp, m2.along_eq p hp]

/-! ### `acorr` -/

theorem autoSum_pixelWise_short {M : Type} [AddCommGroup M] [Module ℝ M] {g : Tensor M} {frame : List Nat}
    {ndim pos N : Nat} {x : List Nat → List M} (hg : MovedTo g frame ndim pos N x) (t : Option (List Int)) (m : Nat)
    (aout : Option (Tensor M)) (hfit : OutFits frame aout) (hs : t = none → RowsShort frame N m false aout) :
    PixelWise frame (autoSumAny ℝ g t ((pos : Int) - ndim) (some m) aout) fun p =>
      autoSumApi ℝ (x p) t (some m) (outAt frame aout p) := by
  have hf := hg.frame_eq
  subst hf
  refine pixelWise_congr (autoSumAny_pixelWise ℝ g t _ (some m) aout hg.names hfit fun h p hp m' out e1 e2 => ?_)
    fun p hp => ?_
  · rw [inspectAuto_none] at e1
    simp only [Except.ok.injEq, Prod.mk.injEq, true_and, Option.getD_some] at e1
    subst e1
    have hL := notTooLong_default e2 (hs h).1 ((hs h).2 p hp)
    simp only [NotTooLong, Bool.false_eq_true, if_false] at hL
    exact ⟨_, crossSumRegular_eq _ _ (by rw [List.length_replicate, along_length, hg.len_eq]; exact hL), by simp [addSeq]⟩
  · simp only [hg.along_eq p hp]

theorem acorrSumAny_pw {M : Type} [AddCommGroup M] [Module ℝ M]
    {kR : List M → List (Cx ℝ) → List Int → Nat → List M → Py (List M)}
    (hR : ∀ {x x' : List M} (y : List (Cx ℝ)) (t : List Int) (len : Nat) {out out' : List M} {N L : Nat}, x.length = N →
      x'.length = N → out.length = L → out'.length = L → SameRes L (kR x y t len out) (kR x' y t len out'))
    (method : String) (needed useFft : Bool) {g : Tensor M} {frame : List Nat}
    {ndim pos N : Nat} {x : List Nat → List M} (hg : MovedTo g frame ndim pos N x) (t : Option (List Int)) (m : Nat)
    (aout : Option (Tensor M)) (hfit : OutFits frame aout) (hs : t = none → RowsShort frame N m false aout) :
    PW frame (fun p r => outAt frame r p) (OutFits frame)
      (acorrSumAny kR method needed useFft g t ((pos : Int) - ndim) m aout) fun p =>
      acorrSum kR method needed useFft (x p) t m (outAt frame aout p) := by
  unfold acorrSumAny acorrSum
  by_cases h : needed = true ∧ method ≠ "diff"
  · simp only [if_pos h]
    cases useFft
    · simp only [Bool.false_eq_true, if_false]
      exact PW.some' (autoSum_pixelWise_short hg t m aout hfit hs)
    · simp only [if_true]
      refine PW.some' ?_
      have hf := hg.frame_eq
      subst hf
      exact pixelWise_congr (autoSumFftAny_pixelWise hR g t _ (some m) aout hg.names hfit)
        fun p hp => by simp only [hg.along_eq p hp]
  · simp only [if_neg h]
    by_cases hm : method = "diff"
    · simp only [if_pos hm]
      exact ⟨fun o ho => by simp at ho, fun _ _ => rfl⟩
    · simp only [if_neg hm]
      exact ⟨hfit, fun _ _ => rfl⟩

/-- A correlation function of one array, against that of one signal. -/
def AutoFits {C : Type} (frame : List Nat) (ndim pos N : Nat) (cor : Option (Tensor C))
    (k : Tensor (Cx ℝ) → Option (List Int) → Int → Option Nat → Option (Tensor C) → Py (Tensor C))
    (k1 : List (Cx ℝ) → Option (List Int) → Option Nat → Option (List C) → Py (List C)) : Prop :=
  ∀ g x, MovedTo g frame ndim pos N x → ∀ ta m, (ta = none → RowsShort frame N m false cor) →
    PixelWise frame (k g ta ((pos : Int) - ndim) (some m) cor) fun p => k1 (x p) ta (some m) (outAt frame cor p)

theorem regularN_le_auto {M : Type} {frame : List Nat} {N m : Nat} {n : Option Nat} {aout : Option (Tensor M)}
    {p : List Nat} {t} (hfit : OutFits frame aout)
    (hI : inspectAuto N none n ((outAt frame aout p).map List.length) = .ok (t, m))
    (hn : ∀ k, n = some k → k ≤ N + 1)
    (h : ∀ o, aout = some o → NotTooLong N false (o.shape.getLastD 0)) : m ≤ N + 1 := by
  rw [inspectAuto_none] at hI
  simp only [Except.ok.injEq, Prod.mk.injEq] at hI
  rw [← hI.2]
  rcases n with _ | k
  · rcases aout with _ | o
    · simp [outAt]
    · obtain ⟨L, hL⟩ := hfit o rfl
      have := h o rfl
      rw [hL] at this
      simp only [outAt, Option.map_some, along_length, hL, getD_end, Option.getD_none, Option.getD_some]
      simpa [NotTooLong] using this
  · exact hn k rfl

theorem acorrAnyBody_pixelWise {C : Type}
    {kFft kCorr kDiff : Tensor (Cx ℝ) → Option (List Int) → Int → Option Nat → Option (Tensor C) → Py (Tensor C)}
    {k1Fft k1Corr k1Diff : List (Cx ℝ) → Option (List Int) → Option Nat → Option (List C) → Py (List C)}
    (f : Tensor (Cx ℝ)) (t0 : Option (List Int)) (n : Option Nat) (norm : Option Int)
    (method : Option String) (align contiguous : Bool) (axis : Int) (fs : Option (Tensor ℝ)) (aout : CorrAoutAny C)
    {ax : Nat} (hax : NamesAxis f.shape.length axis ax) (hfit : AoutFits (frameShape f.shape ax) aout)
    (hfs : ∀ s, fs = some s → s.shape = f.shape)
    (hlen : t0 = none → AoutNotTooLong (f.shape.getD ax 0) false n aout) {pos : Nat}
    (hpos : newAxis f.shape.length (t0.isNone && isAligned f.shape.length axis contiguous align) = pos)
    (hF : AutoFits (frameShape f.shape ax) f.shape.length pos (f.shape.getD ax 0) aout.cor kFft k1Fft)
    (hC : AutoFits (frameShape f.shape ax) f.shape.length pos (f.shape.getD ax 0) aout.cor kCorr k1Corr)
    (hD : AutoFits (frameShape f.shape ax) f.shape.length pos (f.shape.getD ax 0) aout.cor kDiff k1Diff) :
    PixelWiseTuple (frameShape f.shape ax)
      (acorrAnyBody kFft kCorr kDiff f t0 n norm method align contiguous axis fs aout) fun p =>
      acorrBody k1Fft k1Corr k1Diff (along f ax p) t0 n norm method
        (fs.map fun s => along s ax p) (aoutAt (frameShape f.shape ax) aout p) := by
  have hl := hax.1
  obtain ⟨fit0, fit1, fit2, fit3⟩ := hfit
  rw [pixelWiseTuple_iff]
  unfold acorrAnyBody acorrBody
  simp only [along_length, aoutAt]
  have hne : ¬ (f.shape = []) := by
    intro h
    rw [h] at hl; simp at hl
  obtain ⟨last, e1, -, e2⟩ := lastLength_ok fit0 n
  have hfind : findAxis f.shape.length axis true = .ok ax := by
    simp only [findAxis, resolveIdx_axis hax]
  refine PW.bind (PW.const _) fun meth _ _ => ?_
  refine PW.bind (PW.const _) fun nrm _ _ => ?_
  rw [if_neg hne]
  have okb : ∀ {A B : Type} (a : A) (k : A → Py B), ((Except.ok a : Py A) >>= k) = k a := fun _ _ => rfl
  simp only [resolveIdx_axis hax, Option.getD_some, e1, hfind, okb]
  have e3 : ∀ p, inspectAuto (f.shape.getD ax 0) t0 n
      ((outAt (frameShape f.shape ax) aout.cor p).map List.length) =
      inspectAuto (f.shape.getD ax 0) t0 n last := fun p => (e2 _ _ p).symm
  simp only [e3]
  refine PW.bind (PW.const _) fun tn htn _ => ?_
  obtain ⟨t, m⟩ := tn
  have hnone := inspectAuto_isNone htn
  have hiso : t.isNone = t0.isNone := by
    rw [Bool.eq_iff_iff, Option.isNone_iff_eq_none, Option.isNone_iff_eq_none]
    exact hnone
  have hm : t = none → RowsShort (frameShape f.shape ax) (f.shape.getD ax 0) m false aout.cor ∧
      RowsShort (frameShape f.shape ax) (f.shape.getD ax 0) m false aout.sq ∧
      RowsShort (frameShape f.shape ax) (f.shape.getD ax 0) m false aout.ds1 := by
    intro hn
    have h1 := hnone.1 hn
    obtain ⟨b0, b1, b2, b3, b4⟩ := hlen h1
    rw [← e3 [], h1] at htn
    have hm := regularN_le_auto fit0 htn b0 b1
    exact ⟨rowsShort_of fit0 hm b1, rowsShort_of fit1 hm b2, rowsShort_of fit2 hm b3⟩
  dsimp only
  rw [hiso, hpos]
  have M1 := movedTo_align f hl (t0.isNone && isAligned f.shape.length axis contiguous align)
  have S1 : MovedTo (match fs with
      | none => (moveAxisAndAlign f ax pos).map Cx.abs2
      | some s => moveAxisAndAlign s ax pos) (frameShape f.shape ax) f.shape.length pos (f.shape.getD ax 0)
      fun p => (fs.map fun s => along s ax p).getD ((along f ax p).map Cx.abs2) := by
    rcases fs with _ | s
    · rw [hpos] at M1
      exact M1.map _
    · rw [← hpos]
      exact movedTo_shape s (hfs s rfl) hl _
  rw [hpos] at M1
  refine PW.bind (sel := fun p r => along r (frameShape f.shape ax).length p)
    (P := fun r => OutFits (frameShape f.shape ax) (some r)) ?_ fun cor _ hcor => ?_
  · by_cases c1 : meth = "fft"
    · simp only [if_pos c1]
      exact pixelWise_iff.1 (hF _ _ M1 _ _ fun h => (hm h).1)
    · simp only [if_neg c1]
      by_cases c2 : meth = "corr"
      · simp only [if_pos c2]
        exact pixelWise_iff.1 (hC _ _ M1 _ _ fun h => (hm h).1)
      · simp only [if_neg c2]
        exact pixelWise_iff.1 (hD _ _ M1 _ _ fun h => (hm h).1)
  refine PW.bind (PW.const _) fun count _ _ => ?_
  refine PW.bind (acorrSumAny_pw crossSumFftR_same meth _ _ (S1.map (2 * ·)) t m aout.sq fit1 fun h => (hm h).2.1)
    fun sq _ hsq => ?_
  refine PW.bind (acorrSumAny_pw crossSumFftC_same meth _ _ M1 t m aout.ds1 fit2 fun h => (hm h).2.2) fun ds _ hds => ?_
  exact ⟨⟨hcor, hsq, hds, fun o ho => by simp at ho⟩, fun _ _ => rfl⟩

theorem autoFits_fft {C : Type} [Zero C] {kReg : List (Cx ℝ) → List C → Py (List C)}
    {k : List (Cx ℝ) → List Int → Nat → List C → Py (List C)}
    (hR : ∀ {x x' : List (Cx ℝ)} {out out' : List C} {N L : Nat}, x.length = N → x'.length = N →
      out.length = L → out'.length = L → SameRes L (kReg x out) (kReg x' out'))
    (hK : ∀ {x x' : List (Cx ℝ)} (t : List Int) (len : Nat) {out out' : List C} {N L : Nat}, x.length = N →
      x'.length = N → out.length = L → out'.length = L → SameRes L (k x t len out) (k x' t len out'))
    {frame : List Nat} {ndim pos N : Nat} {cor : Option (Tensor C)} (hfit : OutFits frame cor) :
    AutoFits frame ndim pos N cor (fun f t axis n aout => autoFftAny kReg k f t axis n aout)
      fun f t n aout => (do
        let (t, n) ← inspectAuto f.length t n (aout.map List.length)
        let length ← fullLengthAuto f.length t
        let out ← defaultOut aout n false
        match t with
        | none => kReg f out
        | some t => do
          checkDims (t.length = f.length)
          k f t length out) := by
  intro g x hg ta m _
  have hf := hg.frame_eq
  subst hf
  refine pixelWise_congr (autoFftAny_pixelWise hR hK g ta _ (some m) cor hg.names hfit) fun p hp => ?_
  simp only [hg.along_eq p hp]
  rfl

theorem autoFits_auto {C : Type} [Zero C] (kReg : List (Cx ℝ) → List C → Option (List C))
    {k : List (Cx ℝ) → List Int → List C → Option (List C)}
    {kVec : List (List (Cx ℝ)) → List Int → List (List C) → Option (List (List C))}
    (hsim : VecSim1 kVec k) {frame : List Nat} {ndim pos N : Nat} {moved : Bool} {cor : Option (Tensor C)}
    (hfit : OutFits frame cor)
    (hreg : ∀ (x : List (Cx ℝ)) (out : List C), x.length = N → NotTooLong N false out.length →
      ∃ l, kReg x out = some l ∧ l.length = out.length) :
    AutoFits frame ndim pos N cor
      (fun f t axis n aout => autoAny kReg k kVec f t axis n false moved aout)
      fun f t n aout => autoApi f.length t n aout
        (fun out => if isAligned ndim ((pos : Int) - ndim) moved false then orUB (kReg f out)
          else orUB (k f (arange f.length) out))
        (fun a out => do
          checkDims (a.length = f.length)
          orUB (k f a out)) := by
  intro g x hg ta m hs
  have hf := hg.frame_eq
  have hn := hg.ndim_eq
  subst hf hn
  refine pixelWise_congr (autoAny_pixelWise kReg hsim g ta _ (some m) false moved cor hg.names hfit
    fun h1 _ p hp m' out e1 e2 => ?_) fun p hp => ?_
  · rw [inspectAuto_none] at e1
    simp only [Except.ok.injEq, Prod.mk.injEq, true_and, Option.getD_some] at e1
    subst e1
    exact hreg _ out (by rw [along_length, hg.len_eq]) (notTooLong_default e2 (hs h1).1 ((hs h1).2 p hp))
  · simp only [hg.along_eq p hp]

end Cddm
