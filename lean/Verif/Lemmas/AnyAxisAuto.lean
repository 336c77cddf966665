import Verif.Lemmas.AnyAxis

/-! # The auto and sum functions on arrays of any number of axes -/

namespace Cddm
open Spec
variable {α M : Type}

theorem along_mk {sh : List Nat} (g : List Nat → α) {s p : List Nat} {L : Nat} (hs : sh = s ++ [L])
    (hp : p.length = s.length) : along ⟨sh, g⟩ s.length p = rowAt ⟨sh, g⟩ L p :=
  along_eq_rowAt ⟨sh, g⟩ hs hp

theorem inspectAuto_isNone {N : Nat} {t : Option (List Int)} {n last : Option Nat} {t' : Option (List Int)} {m : Nat}
    (h : inspectAuto N t n last = .ok (t', m)) : t' = none ↔ t = none := by
  rcases t with _ | a
  · rw [inspectAuto_none] at h
    simp only [Except.ok.injEq, Prod.mk.injEq] at h
    simp [← h.1]
  · rcases t' with _ | t'
    · simp only [inspectAuto, bind, Except.bind] at h
      exfalso
      revert h
      split
      · simp
      · split
        · simp
        · simp
    · simp

theorem inspectCross_isNone {N : Nat} {t1 t2 : Option (List Int)} {n last : Option Nat} {full : Bool}
    {t : Option (List Int × List Int)} {m : Nat} (ht : ¬ t1.isNone ≠ t2.isNone)
    (hI : inspectCross N N t1 t2 n last full = .ok (t, m)) : t = none ↔ t1 = none ∧ t2 = none := by
  rcases t1 with _ | a <;> rcases t2 with _ | b
  · rw [inspectCross_none] at hI
    simp only [Except.ok.injEq, Prod.mk.injEq] at hI
    simp [← hI.1]
  · simp at ht
  · simp at ht
  · rcases t with _ | t
    · simp only [inspectCross, bind, Except.bind] at hI
      exfalso
      revert hI
      simp only [ne_eq, not_true_eq_false, if_false]
      split
      · simp
      · split
        · simp
        · split
          · simp
          · simp
    · simp

/-- What the auto and sum functions need of one array: `applyKernels_any` with the rows and planes of the moved array
replaced by the signals of the pixels. -/
theorem applyKernels_one [Zero M] (f : Tensor α) {ax : Nat} (hax : ax < f.shape.length) {N : Nat}
    (hN : f.shape.getD ax 0 = N) (n : Nat)
    (regular complex dims : Bool) (aout : Option (Tensor M)) (hfit : OutFits (frameShape f.shape ax) aout)
    (kReg kOne : List α → List M → Option (List M)) (kVec : List (List α) → List (List M) → Option (List (List M)))
    (okR : regular = true → ∀ o, InShape o (frameShape f.shape ax) → ∀ out,
      defaultOut (outAt (frameShape f.shape ax) aout o) n complex = .ok out →
      ∃ l, kReg (along f ax o) out = some l ∧ l.length = out.length)
    (okI : regular = false → dims = true → ∀ x : List α, x.length = N → ∀ out,
      ∃ l, kOne x out = some l ∧ l.length = out.length)
    (hvec : regular = false → dims = true → ∀ K (X : List (List α)), X.length = N → Rect K X →
      ∀ out, Rect K out → ∃ out', kVec X out = some out' ∧
      out'.length = out.length ∧ Rect K out' ∧ ∀ j, j < K → kOne (col j X) (col j out) = some (col j out')) :
    PixelWise (frameShape f.shape ax)
      (applyKernels (moveAxisAndAlign f ax (newAxis f.shape.length regular)).shape regular
        (newAxis f.shape.length regular) n complex aout dims
        (fun o out => kReg (rowAt (moveAxisAndAlign f ax (newAxis f.shape.length regular)) N o) out)
        (fun o out => kOne (rowAt (moveAxisAndAlign f ax (newAxis f.shape.length regular)) N o) out)
        (fun o out => kVec (planeAt (moveAxisAndAlign f ax (newAxis f.shape.length regular)) N
          ((moveAxisAndAlign f ax (newAxis f.shape.length regular)).shape.getLastD 0) o) out))
      fun p => pixelRun regular n complex (outAt (frameShape f.shape ax) aout p) dims
        (kReg (along f ax p)) (kOne (along f ax p)) := by
  have hA := moved_rows f hax
  rw [hN] at hA
  refine applyKernels_any f hax n regular complex dims aout _ _ _ hfit (fun p => kReg (along f ax p))
    (fun p => kOne (along f ax p)) ?_ ?_ okR ?_ ?_
  · intro hr o ho
    have e : newAxis f.shape.length regular = f.shape.length - 1 := if_pos (Or.inl hr)
    funext out
    rw [e, hA.2 o (inShape_length ho)]
  · intro hr h0
    have h1 : f.shape.length = 1 := by
      have := frame_length hax
      rw [h0] at this
      simp at this
      omega
    have e : newAxis f.shape.length regular = f.shape.length - 1 := if_pos (Or.inr h1)
    funext out
    rw [e, hA.2 [] (by rw [h0])]
  · intro hr hd h0 out
    exact okI hr hd _ (by rw [along_length, hN]) out
  · intro hr hd u K hu o ho out hrect
    have h1 : ¬ (regular = true ∨ f.shape.length = 1) := by
      rw [hr]
      have := frame_length hax
      rw [hu] at this
      simp at this ⊢
      omega
    have e : newAxis f.shape.length regular = f.shape.length - 2 := if_neg h1
    obtain ⟨a1, a2, a3⟩ := moved_planes f hax hu
    rw [hN] at a1 a3
    have eK : (u ++ [N, K]).getLastD 0 = K := by
      rw [show u ++ [N, K] = (u ++ [N]) ++ [K] by simp, List.getLastD_concat]
    rw [e, a1, eK]
    obtain ⟨out', c1, c2, c3, c4⟩ := hvec hr hd K (planeAt (moveAxisAndAlign f ax (f.shape.length - 2)) N K o)
      (planeAt_length _ _ _ _) (planeAt_rect _ _ _ _) out hrect
    refine ⟨out', c1, c2, c3, fun j hj => ?_⟩
    have := c4 j hj
    rw [a3 o j (inShape_length ho) hj] at this
    exact this

section
variable {R : Type} [CommRing R]

omit [CommRing R] in
theorem autoAny_pixelWise [Zero M] (kReg : List (Cx R) → List M → Option (List M))
    {k : List (Cx R) → List Int → List M → Option (List M)}
    {kVec : List (List (Cx R)) → List Int → List (List M) → Option (List (List M))}
    (hsim : VecSim1 kVec k) (f : Tensor (Cx R)) (t : Option (List Int)) (axis : Int) (n : Option Nat)
    (align contiguous : Bool) (aout : Option (Tensor M)) {ax : Nat}
    (hax : NamesAxis f.shape.length axis ax) (hfit : OutFits (frameShape f.shape ax) aout)
    (hreg : t = none → isAligned f.shape.length axis contiguous align = true →
      ∀ p, InShape p (frameShape f.shape ax) → ∀ m out,
        inspectAuto (f.shape.getD ax 0) none n ((outAt (frameShape f.shape ax) aout p).map List.length) = .ok (none, m) →
        defaultOut (outAt (frameShape f.shape ax) aout p) m false = .ok out →
        ∃ l, kReg (along f ax p) out = some l ∧ l.length = out.length) :
    PixelWise (frameShape f.shape ax) (autoAny kReg k kVec f t axis n align contiguous aout) fun p =>
        autoApi (along f ax p).length t n (outAt (frameShape f.shape ax) aout p)
          (fun out => if isAligned f.shape.length axis contiguous align then orUB (kReg (along f ax p) out)
            else orUB (k (along f ax p) (arange (along f ax p).length) out))
          (fun a out => do
            checkDims (a.length = (along f ax p).length)
            orUB (k (along f ax p) a out)) := by
  have hl := hax.1
  simp only [along_length]
  generalize hN : f.shape.getD ax 0 = N
  rw [hN] at hreg
  have hne : ¬ (f.shape = []) := by
    intro h
    rw [h] at hl; simp at hl
  obtain ⟨last, e1, -, e2⟩ := lastLength_ok hfit n
  have hfind : ∀ used, findAxis f.shape.length axis used = .ok ax := by
    intro used
    simp only [findAxis, resolveIdx_axis hax]
  unfold autoAny
  rw [if_neg hne]
  simp only [resolveIdx_axis hax, Option.getD_some, hN, e1, hfind, bind, Except.bind]
  rcases hI : inspectAuto N t n last with e | ⟨t', m⟩
  · intro p _
    simp only [autoApi, ← e2 _ _ p, hI, bind, Except.bind]
  · simp only
    have htn := inspectAuto_isNone hI
    have key := applyKernels_one f hl hN m (t'.isNone && isAligned f.shape.length axis contiguous align) false
      (decide ((t'.getD (arange N)).length = N)) aout hfit kReg (fun x out => k x (t'.getD (arange N)) out)
      (fun X out => kVec X (t'.getD (arange N)) out)
      (by
        intro hr o ho out hout
        simp only [Bool.and_eq_true, Option.isNone_iff_eq_none] at hr
        have h1 := htn.1 hr.1
        subst h1
        obtain ⟨rfl, h3⟩ := hr
        exact hreg rfl h3 o ho m out (by rw [← e2]; exact hI) hout)
      (by
        intro hr hd x hx out
        simp only [decide_eq_true_eq] at hd
        exact vecSim1_ok hsim _ _ (by rw [hx]; exact hd) out)
      (by
        intro hr hd K X hX hrX out hrect
        simp only [decide_eq_true_eq] at hd
        exact hsim K X _ out hrX (by rw [hX]; exact hd) hrect)
    refine pixelWise_congr key fun p hp => ?_
    simp only [autoApi, ← e2 _ _ p, hI, bind, Except.bind, pixelRun]
    rcases t' with _ | a
    · rcases defaultOut (outAt (frameShape f.shape ax) aout p) m false with e | out
      · rfl
      · cases isAligned f.shape.length axis contiguous align <;> simp [checkDims, arange_length]
    · rcases defaultOut (outAt (frameShape f.shape ax) aout p) m false with e | out
      · rfl
      · simp

end

section
variable [AddCommGroup M]

theorem crossSum_keeps (x : List M) (t1 t2 : List Int) (h : t1.length = x.length) (out : List M) :
    ∃ l, crossSum x t1 t2 out = some l ∧ l.length = out.length :=
  vecSim1_ok (kVec := fun X a o => crossSumVec X a t2 o) (k := fun x a o => crossSum x a t2 o)
    (fun K f t out h1 h2 h3 => crossSumVec_sim K f t t2 out h1 h2 h3) x t1 h out

theorem crossSumComplex_keeps (x : List M) (t1 t2 : List Int) (h : t1.length = x.length) (out : List M) :
    ∃ l, crossSumComplex x t1 t2 out = some l ∧ l.length = out.length :=
  vecSim1_ok (kVec := fun X a o => crossSumComplexVec X a t2 o) (k := fun x a o => crossSumComplex x a t2 o)
    (fun K f t out h1 h2 h3 => crossSumComplexVec_sim K f t t2 out h1 h2 h3) x t1 h out

/-- The kernel of regular data chosen by `cross_sum`. -/
def sumRegular (complex timeInversion : Bool) (x out : List M) : Option (List M) :=
  if complex then (if timeInversion then crossSumComplexRegularInverted x out else crossSumComplexRegular x out)
  else crossSumRegular x out

theorem crossSumAny_pixelWise (f : Tensor M) (t tOther : Option (List Int)) (axis : Int) (n : Option Nat)
    (complex inv : Bool) (aout : Option (Tensor M)) {ax : Nat}
    (hax : NamesAxis f.shape.length axis ax) (hfit : OutFits (frameShape f.shape ax) aout)
    (hreg : t = none → ∀ p, InShape p (frameShape f.shape ax) → ∀ m out,
        inspectCross (f.shape.getD ax 0) (f.shape.getD ax 0) none none n
          ((outAt (frameShape f.shape ax) aout p).map List.length) complex = .ok (none, m) →
        defaultOut (outAt (frameShape f.shape ax) aout p) m complex = .ok out →
        ∃ l, sumRegular complex inv (along f ax p) out = some l ∧ l.length = out.length) :
    PixelWise (frameShape f.shape ax) (crossSumAny f t tOther axis n complex inv aout) fun p =>
      crossSumApi (along f ax p) t tOther n complex inv (outAt (frameShape f.shape ax) aout p) := by
  have hl := hax.1
  unfold crossSumApi
  simp only [along_length]
  generalize hN : f.shape.getD ax 0 = N
  rw [hN] at hreg
  have hne : ¬ (f.shape = []) := by
    intro h
    rw [h] at hl; simp at hl
  obtain ⟨last, e1, e2, -⟩ := lastLength_ok hfit n
  have hfind : ∀ used, findAxis f.shape.length axis used = .ok ax := by
    intro used
    simp only [findAxis, resolveIdx_axis hax]
  unfold crossSumAny
  by_cases ht : t.isNone ≠ tOther.isNone
  · rw [if_pos ht]
    intro p _
    rcases t with _ | a <;> rcases tOther with _ | b
    · simp at ht
    · simp [inspectCross, bind, Except.bind]
    · simp [inspectCross, bind, Except.bind]
    · simp at ht
  rw [if_neg ht, if_neg hne]
  simp only [resolveIdx_axis hax, Option.getD_some, hN, e1, hfind, bind, Except.bind]
  rcases hI : inspectCross N N t tOther n last complex with e | ⟨t', m⟩
  · intro p _
    simp only [← e2 _ _ _ _ p, hI]
  · simp only
    have htn := inspectCross_isNone ht hI
    generalize ha : (if inv = true then (t'.getD ([], [])).1.map (- ·) else (t'.getD ([], [])).1) = a
    generalize hb : (if inv = true then (t'.getD ([], [])).2.map (- ·) else (t'.getD ([], [])).2) = b
    have key := applyKernels_one f hl hN m t'.isNone complex (decide (a.length = N)) aout hfit
      (sumRegular complex inv)
      (fun x out => if complex then crossSumComplex x a b out else crossSum x a b out)
      (fun X out => if complex then crossSumComplexVec X a b out else crossSumVec X a b out)
      (by
        intro hr o ho out hout
        simp only [Option.isNone_iff_eq_none] at hr
        obtain ⟨h1, h2⟩ := htn.1 hr
        subst h1 h2 hr
        exact hreg rfl o ho m out (by rw [← e2]; exact hI) hout)
      (by
        intro hr hd x hx out
        simp only [decide_eq_true_eq] at hd
        cases complex
        · simpa using crossSum_keeps x a b (by rw [hx]; exact hd) out
        · simpa using crossSumComplex_keeps x a b (by rw [hx]; exact hd) out)
      (by
        intro hr hd K X hX hrX out hrect
        simp only [decide_eq_true_eq] at hd
        cases complex
        · simpa using crossSumVec_sim K X a b out hrX (by rw [hX]; exact hd) hrect
        · simpa using crossSumComplexVec_sim K X a b out hrX (by rw [hX]; exact hd) hrect)
    refine pixelWise_congr key fun p hp => ?_
    simp only [← e2 _ _ _ _ p, hI, pixelRun, bind, Except.bind]
    rcases t' with _ | ⟨a', b'⟩
    · rcases defaultOut (outAt (frameShape f.shape ax) aout p) m complex with e | out
      · rfl
      · cases complex <;> cases inv <;> simp [sumRegular]
    · rcases defaultOut (outAt (frameShape f.shape ax) aout p) m complex with e | out
      · rfl
      · subst ha hb
        cases complex <;> cases inv <;> simp

theorem autoSumAny_pixelWise (K : Type) [Field K] [Module K M] (f : Tensor M) (t : Option (List Int)) (axis : Int)
    (n : Option Nat) (aout : Option (Tensor M)) {ax : Nat}
    (hax : NamesAxis f.shape.length axis ax) (hfit : OutFits (frameShape f.shape ax) aout)
    (hreg : t = none → ∀ p, InShape p (frameShape f.shape ax) → ∀ m out,
        inspectAuto (f.shape.getD ax 0) none n ((outAt (frameShape f.shape ax) aout p).map List.length) = .ok (none, m) →
        defaultOut (outAt (frameShape f.shape ax) aout p) m false = .ok out →
        ∃ l, crossSumRegular (along f ax p) (List.replicate out.length 0) = some l ∧ l.length = out.length) :
    PixelWise (frameShape f.shape ax) (autoSumAny K f t axis n aout) fun p =>
      autoSumApi K (along f ax p) t n (outAt (frameShape f.shape ax) aout p) := by
  have hl := hax.1
  unfold autoSumApi autoSumWith
  simp only [along_length]
  generalize hN : f.shape.getD ax 0 = N
  rw [hN] at hreg
  have hne : ¬ (f.shape = []) := by
    intro h
    rw [h] at hl; simp at hl
  obtain ⟨last, e1, -, e2⟩ := lastLength_ok hfit n
  have hfind : ∀ used, findAxis f.shape.length axis used = .ok ax := by
    intro used
    simp only [findAxis, resolveIdx_axis hax]
  unfold autoSumAny
  rw [if_neg hne]
  simp only [resolveIdx_axis hax, Option.getD_some, hN, e1, hfind, bind, Except.bind]
  rcases hI : inspectAuto N t n last with e | ⟨t', m⟩
  · intro p _
    simp only [← e2 _ _ p, hI]
  · simp only
    have htn := inspectAuto_isNone hI
    have hfit0 : OutFits (frameShape f.shape ax) (aout.map fun o => (⟨o.shape, fun _ => 0⟩ : Tensor M)) := by
      intro o ho
      rcases aout with _ | a
      · simp at ho
      · simp only [Option.map_some, Option.some.injEq] at ho
        subst ho
        exact hfit a rfl
    -- the array the sums are computed in holds zeros
    obtain ⟨hd0⟩ : Nonempty (∀ p, ∃ out, defaultOut (outAt (frameShape f.shape ax) aout p) m false = .ok out ∧
        defaultOut (outAt (frameShape f.shape ax) (aout.map fun o => (⟨o.shape, fun _ => 0⟩ : Tensor M)) p) m false
          = .ok (List.replicate out.length 0)) := by
      refine ⟨fun p => ?_⟩
      rcases aout with _ | a
      · exact ⟨List.replicate m 0, by simp [defaultOut, outAt], by simp [defaultOut, outAt]⟩
      · refine ⟨along a (frameShape f.shape ax).length p, by simp [defaultOut, outAt], ?_⟩
        simp [defaultOut, outAt, along, List.map_const']
    have key := applyKernels_one f hl hN m t'.isNone false (decide ((t'.getD []).length = N))
      (aout.map fun o => (⟨o.shape, fun _ => 0⟩ : Tensor M)) hfit0
      crossSumRegular (fun x out => crossSum x (t'.getD []) (t'.getD []) out)
      (fun X out => crossSumVec X (t'.getD []) (t'.getD []) out)
      (by
        intro hr o ho out hout
        simp only [Option.isNone_iff_eq_none] at hr
        have h1 := htn.1 hr
        subst h1 hr
        obtain ⟨out1, g1, g2⟩ := hd0 o
        rw [g2, Except.ok.injEq] at hout
        subst hout
        simpa using hreg rfl o ho m out1 (by rw [← e2]; exact hI) g1)
      (by
        intro hr hd x hx out
        simp only [decide_eq_true_eq] at hd
        exact crossSum_keeps x _ _ (by rw [hx]; exact hd) out)
      (by
        intro hr hd K X hX hrX out hrect
        simp only [decide_eq_true_eq] at hd
        exact crossSumVec_sim K X _ _ out hrX (by rw [hX]; exact hd) hrect)
    -- the sums of one pixel
    have run : ∀ p, ∃ out, defaultOut (outAt (frameShape f.shape ax) aout p) m false = .ok out ∧
        pixelRun t'.isNone m false
          (outAt (frameShape f.shape ax) (aout.map fun o => (⟨o.shape, fun _ => 0⟩ : Tensor M)) p)
          (decide ((t'.getD []).length = N)) (crossSumRegular (along f ax p))
          (fun out => crossSum (along f ax p) (t'.getD []) (t'.getD []) out)
        = (match t' with
          | none => orUB (crossSumRegular (along f ax p) (List.replicate out.length 0))
          | some t => (checkDims (decide (t.length = N))).bind fun _ =>
            orUB (crossSum (along f ax p) t t (List.replicate out.length 0))) := by
      intro p
      obtain ⟨out, g1, g2⟩ := hd0 p
      refine ⟨out, g1, ?_⟩
      simp only [pixelRun, g2, bind, Except.bind]
      rcases t' with _ | a <;> rfl
    unfold PixelWise at key
    split at key
    · rename_i e he
      rw [he]
      intro p hp
      obtain ⟨out, g1, g2⟩ := run p
      have := key p hp
      simp only at this
      rw [g2] at this
      simp only [← e2 _ _ p, hI, g1]
      rcases t' with _ | a
      · simp only at this ⊢
        rw [this]
      · simp only [Except.bind] at this ⊢
        rw [this]
    · rename_i r hr
      rw [hr]
      obtain ⟨L, hsh, hrow⟩ := key
      refine ⟨L, hsh, fun p hp => ?_⟩
      obtain ⟨out, g1, g2⟩ := run p
      have h0 := hrow p hp
      simp only at h0
      rw [g2] at h0
      rw [along_eq_rowAt r hsh (inShape_length hp)] at h0
      have hLo : out.length = L := by
        rcases t' with _ | a
        · have h1 := htn.1 rfl
          subst h1
          obtain ⟨l, k1, k2⟩ := hreg rfl p hp m out (by rw [← e2]; exact hI) g1
          simp only [k1, orUB, Except.ok.injEq] at h0
          rw [← k2, h0, rowAt_length]
        · by_cases hd : a.length = N
          · obtain ⟨l, k1, k2⟩ := crossSum_keeps (along f ax p) a a (by rw [along_length, hN]; exact hd)
              (List.replicate out.length 0)
            simp only [hd, decide_true, checkDims, if_true, Except.bind, k1, orUB, Except.ok.injEq] at h0
            rw [List.length_replicate] at k2
            rw [← k2, h0, rowAt_length]
          · simp [checkDims, hd, Except.bind] at h0
      have hout : out = (List.range L).map fun i => (match aout with | none => 0 | some o => o.get (p ++ [i])) := by
        rcases aout with _ | o
        · simp only [defaultOut, outAt, Option.map_none, Bool.false_eq_true, if_false, Except.ok.injEq] at g1
          subst g1
          simp only [List.length_replicate] at hLo
          subst hLo
          simp [List.map_const']
        · obtain ⟨L', hL'⟩ := hfit o rfl
          simp only [defaultOut, outAt, Option.map_some, Except.ok.injEq] at g1
          rw [along_eq_rowAt o hL' (inShape_length hp)] at g1
          subst g1
          rw [rowAt_length] at hLo
          subst hLo
          rfl
      have hgoal : ∀ out0, out0 = rowAt r L p →
          (Except.ok (List.zipWith (· + ·) out (out0.mapIdx fun k v => if k = 0 then v else (1 / 2 : K) • v)) : Py (List M))
            = Except.ok (along ⟨r.shape, fun p => (match aout with | none => 0 | some o => o.get p) +
              (if p.getLastD 0 = 0 then r.get p else (1 / 2 : K) • r.get p)⟩ (frameShape f.shape ax).length p) := by
        rintro out0 rfl
        rw [along_mk _ hsh (inShape_length hp), hout]
        congr 1
        refine List.ext_getElem (by simp [rowAt]) fun i h1 h2 => ?_
        simp [rowAt]
      simp only [← e2 _ _ p, hI, g1]
      rcases t' with _ | a
      · simp only at h0 ⊢
        rw [h0]
        exact hgoal _ rfl
      · simp only [Except.bind] at h0 ⊢
        rw [h0]
        exact hgoal _ rfl

end

end Cddm
