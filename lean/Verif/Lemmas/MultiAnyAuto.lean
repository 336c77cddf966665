import Verif.Lemmas.MultiAny

/-! # `acorr_multi` on arrays: every pixel by itself -/

namespace Cddm
open Spec

/-- `acorr` on arrays, against that of one signal. -/
def AutoFnFits {C : Type} (frame : List Nat) (ndim pos : Nat) (ac : AutoFnAny C) (ac1 : AutoFn C) : Prop :=
  ∀ (i : Nat) (g : Tensor (Cx ℝ)) (N : Nat), ArrayOf g frame ndim pos N →
    ∀ (t : Option (List Int)) (n : Option Nat) (norm : Option Int) (method : Option String) (s : Option (Tensor ℝ))
      (aout : CorrAoutAny C), (∀ x, s = some x → ArrayOf x frame ndim pos N) →
      AoutFits frame aout → (t = none → AoutNotTooLong N false n aout) →
    ∃ al, PixelWiseTuple frame (ac i g t n norm method ((pos : Int) - ndim) s aout) fun p =>
      ac1 (along g pos p) t n norm method al (s.map fun s => along s pos p) (aoutAt frame aout p)

theorem multiLevelsAuto_congr {C : Type} (ac : AutoFn C) (binning : Int) (method : String) (norm nSlow : Nat) (squares : Bool)
    (row : CorrAout C) (al al' : Nat → Bool) (r : Nat → ℚ) (k : Nat) :
    ∀ (i : Nat) f fs, (∀ j, i < j → al j = al' j) →
      multiLevelsAuto ac binning method norm nSlow squares row al r k i f fs =
      multiLevelsAuto ac binning method norm nSlow squares row al' r k i f fs := by
  induction k with
  | zero => intros; rfl
  | succ k ih =>
    intro i f fs h
    simp only [multiLevelsAuto]
    rw [h (i + 1) (by omega)]
    simp only [ih (i + 1) _ _ fun j hj => h j (by omega)]

theorem multiLevelsAutoAny_pw {C : Type} {frame : List Nat} {ndim pos : Nat} {ac : AutoFnAny C} {ac1 : AutoFn C}
    (hac : AutoFnFits frame ndim pos ac ac1) (binning : Int) (method : String) (norm nSlow : Nat) (squares : Bool)
    (row : CorrAoutAny C) (hrow : AoutFits frame row) (r : Nat → ℚ) (k : Nat) :
    ∀ (i N : Nat) (g : Tensor (Cx ℝ)) (s : Option (Tensor ℝ)), ArrayOf g frame ndim pos N →
      (∀ x, s = some x → squares = true ∧ ArrayOf x frame ndim pos N) →
      (∀ j, 1 ≤ j → j ≤ k → AoutNotTooLong ((binCount binning)^[j] N) false (some nSlow) row) →
      ∃ al, PW frame (fun p l => l.map fun a => aoutAt frame a p) (fun l => ∀ a ∈ l, AoutFits frame a)
        (multiLevelsAutoAny ac binning method norm nSlow squares row pos ((pos : Int) - ndim) r k i g s) fun p =>
        multiLevelsAuto ac1 binning method norm nSlow squares (aoutAt frame row p) al r k i (along g pos p)
          (s.map fun s => along s pos p) := by
  induction k with
  | zero =>
    intro i N g s _ _ _
    exact ⟨fun _ => false, by simp, fun p _ => rfl⟩
  | succ k ih =>
    intro i N g s h1 hs hlen
    simp only [multiLevelsAutoAny, multiLevelsAuto]
    have b1 := h1.bin binning (r (4 * i))
    obtain ⟨k1, e1⟩ : (∀ x, (if squares = true then s.map (binAny binning (r (4 * i + 2)) pos) else s) = some x →
          squares = true ∧ ArrayOf x frame ndim pos (binCount binning N)) ∧
        ∀ p, InShape p frame → (if squares = true then (s.map fun s => along s pos p).map (binData binning (r (4 * i + 2)))
          else s.map fun s => along s pos p) =
          (if squares = true then s.map (binAny binning (r (4 * i + 2)) pos) else s).map fun s => along s pos p := by
      rcases s with _ | s
      · refine ⟨fun x hx => ?_, fun p _ => ?_⟩
        · split at hx <;> simp at hx
        · split <;> rfl
      · obtain ⟨e, ha⟩ := hs s rfl
        simp only [if_pos e]
        refine ⟨fun x hx => ⟨e, ?_⟩, fun p hp => ?_⟩
        · simp only [Option.map_some, Option.some.injEq] at hx
          rw [← hx]
          exact ha.bin _ _
        · simp only [Option.map_some, ha.bin_along _ _ hp]
    obtain ⟨a, ha⟩ := hac (i + 1) _ _ b1 none (some nSlow) (some norm) (some method) _ row
      (fun s hs => (k1 s hs).2) hrow fun _ => hlen 1 (le_refl _) (by omega)
    obtain ⟨al, hal⟩ := ih (i + 1) (binCount binning N) _ _ b1 k1 fun j hj hj' => by
      have := hlen (j + 1) (by omega) (by omega)
      rwa [Function.iterate_succ_apply] at this
    refine ⟨fun j => if j = i + 1 then a else al j, ?_⟩
    rw [pixelWiseTuple_iff] at ha
    have step := PW.bind ha (sel' := fun p l => l.map fun a => aoutAt frame a p) (P' := fun l => ∀ a ∈ l, AoutFits frame a)
      (k := fun d => do
        let rest ← multiLevelsAutoAny ac binning method norm nSlow squares row pos ((pos : Int) - ndim) r k (i + 1)
          (binAny binning (r (4 * i)) pos g)
          (if squares = true then s.map (binAny binning (r (4 * i + 2)) pos) else s)
        .ok (d.into row :: rest))
      (k' := fun p d => do
        let rest ← multiLevelsAuto ac1 binning method norm nSlow squares (aoutAt frame row p) al r k (i + 1)
          (along (binAny binning (r (4 * i)) pos g) pos p)
          ((if squares = true then s.map (binAny binning (r (4 * i + 2)) pos) else s).map fun s => along s pos p)
        .ok (d.into (aoutAt frame row p) :: rest)) fun d _ hd => by
        refine PW.bind hal (k' := fun p rest => .ok ((tupleAt frame d p).into (aoutAt frame row p) :: rest)) fun rest _ hrest => ?_
        refine PW.ok ?_ fun p hp => ?_
        · intro x hx
          rcases List.mem_cons.1 hx with rfl | hx
          · exact into_fits hd
          · exact hrest x hx
        · rw [List.map_cons, tupleAt_into]
    refine step.congr fun p hp => ?_
    simp only [if_true]
    rw [e1 p hp, ← h1.bin_along binning (r (4 * i)) hp]
    simp only [multiLevelsAuto_congr ac1 binning method norm nSlow squares (aoutAt frame row p) (fun j => if j = i + 1 then a else al j) al
      r k (i + 1) _ _ fun j hj => if_neg (by omega)]

theorem inspectAuto_len {N : Nat} (M : Nat) (t : Option (List Int)) (n : Nat) :
    inspectAuto N t (some n) none = inspectAuto M t (some n) none := by
  unfold inspectAuto
  simp

theorem inspectAuto_n {N n m : Nat} {t t' : Option (List Int)}
    (h : inspectAuto N t (some n) none = .ok (t', m)) : m = n ∧ (t' = none → t = none) := by
  unfold inspectAuto at h
  rcases t with _ | a
  · simp only [bind, Except.bind] at h
    cases h
    exact ⟨rfl, fun _ => rfl⟩
  · simp only [bind, Except.bind] at h
    cases ha : npMin a with
    | error e => simp [ha] at h
    | ok x =>
      simp only [ha, Except.ok.injEq, Prod.mk.injEq] at h
      obtain ⟨rfl, rfl⟩ := h
      exact ⟨rfl, fun h => by simp at h⟩

/-- The part between the reshapings for one pixel. -/
noncomputable def autoMultiOne {C : Type} [Zero C] (complex : Bool) (ac : AutoFn C) (method : String) (binning : Int)
    (norm levelSize period : Nat) (nlevel : Option Int) (t : Option (List Int)) (al : Nat → Bool) (r : Nat → ℚ)
    (f : List (Cx ℝ)) : Py (CorrAout C × List (CorrAout C)) := do
  let correlate : Bool := method = "corr" ∨ method = "fft"
  let (nFast, nSlow, nlevel) ← determineLengths f.length levelSize period nlevel
  let squares := needsSquares norm && correlate
  let fs := if squares then some (f.map Cx.abs2) else none
  let fast ← ac f t (some nFast) (some norm) (some method) (al 0) fs {}
  let row := zeroArrays norm false correlate (if complex then nSlow * 2 + 1 else nSlow) nSlow
  let slow ← multiLevelsAuto ac binning method norm nSlow squares row al r nlevel 0 f fs
  .ok (fast.arrays, slow)

theorem acorrMultiBody_eq {C : Type} [Zero C] (complex : Bool) (ac : AutoFn C)
    (f : List (Cx ℝ)) (t : Option (List Int)) (levelSize : Nat) (norm : Option Int)
    (method : Option String) (period : Nat) (binning : Option Int) (nlevel : Option Int)
    (al : Nat → Bool) (r : Nat → ℚ) :
    acorrMultiBody complex ac f t levelSize norm method period binning nlevel al r = (do
      let (method, binning) ← defaultMethodBinning method binning
      let norm ← defaultNorm norm method false
      let (t, levelSize) ← inspectAuto f.length t (some levelSize) none
      autoMultiOne complex ac method binning norm levelSize period nlevel t al r f) := rfl

theorem autoMultiCore_pw {C : Type} [Zero C] (complex : Bool) {ac : AutoFnAny C} {ac1 : AutoFn C} (method : String) (binning : Int)
    (norm levelSize period : Nat) (nlevel : Option Int) (t : Option (List Int)) (axis : Int)
    (align contiguous : Bool) (r : Nat → ℚ) (f : Tensor (Cx ℝ)) {ax : Nat}
    (hax : NamesAxis f.shape.length axis ax)
    (hac : ∀ pos, AutoFnFits (frameShape f.shape ax) f.shape.length pos ac ac1)
    (hfast : t = none → period * levelSize ≤ f.shape.getD ax 0 + 1)
    (hlev : ∀ k, nlevel = some k → (if complex then 2 * levelSize else levelSize) ≤ f.shape.getD ax 0 / 2 ^ k.toNat)
    (hnone : complex = true → nlevel ≠ none) :
    ∃ al, CoreRes (frameShape f.shape ax)
      (autoMultiCore complex ac method binning norm levelSize period nlevel t axis align contiguous r f) fun p =>
        autoMultiOne complex ac1 method binning norm levelSize period nlevel t al r (along f ax p) := by
  have hl := hax.1
  have okb : ∀ {A B : Type} (a : A) (k : A → Py B), ((Except.ok a : Py A) >>= k) = k a := fun _ _ => rfl
  have hfind : findAxis f.shape.length axis true = .ok ax := by
    simp only [findAxis, resolveIdx_axis hax]
  unfold CoreRes autoMultiCore autoMultiOne
  simp only [hfind, okb, along_length]
  generalize hreg : (t.isNone && isAligned f.shape.length axis contiguous align) = reg
  have M1 := movedTo_align f hl reg
  generalize newAxis f.shape.length reg = pos at M1
  have A1 := movedTo_arrayOf M1
  rw [M1.len_eq]
  cases hD : determineLengths (f.shape.getD ax 0) levelSize period nlevel with
  | error e => exact ⟨fun _ => false, fun p _ => rfl⟩
  | ok d =>
    obtain ⟨nFast, nSlow, nl⟩ := d
    obtain ⟨rfl, hb, hk1, hk2⟩ := determineLengths_ok hD
    have hb' := hb.symm
    subst hb'
    simp only [okb]
    generalize hsq : (needsSquares norm && decide (method = "corr" ∨ method = "fft")) = squares
    obtain ⟨S1, E1⟩ : (∀ s, (if squares = true then some ((moveAxisAndAlign f ax pos).map Cx.abs2) else none) = some s →
          squares = true ∧ ArrayOf s (frameShape f.shape ax) f.shape.length pos (f.shape.getD ax 0)) ∧
        ∀ p, InShape p (frameShape f.shape ax) →
          ((if squares = true then some ((moveAxisAndAlign f ax pos).map Cx.abs2) else none).map fun s => along s pos p) =
          if squares = true then some ((along f ax p).map Cx.abs2) else none := by
      cases squares
      · exact ⟨fun s hs => by simp at hs, fun p _ => rfl⟩
      · simp only [if_true]
        refine ⟨fun s hs => ⟨trivial, ?_⟩, fun p hp => ?_⟩
        · cases hs
          exact A1.map _
        · rw [Option.map_some, along_map, M1.along_eq p hp]
    obtain ⟨a0, h0⟩ := hac pos 0 _ _ A1 t (some (period * levelSize)) (some norm) (some method)
      _ {} (fun s hs => (S1 s hs).2)
      ⟨fun o ho => by simp at ho, fun o ho => by simp at ho, fun o ho => by simp at ho, fun o ho => by simp at ho⟩
      (fun ht => ⟨fun k hk => by
          cases hk
          exact hfast ht, fun o ho => by simp at ho, fun o ho => by simp at ho, fun o ho => by simp at ho,
        fun o ho => by simp at ho⟩)
    rw [pixelWiseTuple_iff] at h0
    cases hF : ac 0 (moveAxisAndAlign f ax pos) t
        (some (period * levelSize)) (some norm) (some method) ((pos : Int) - f.shape.length)
        (if squares = true then some ((moveAxisAndAlign f ax pos).map Cx.abs2) else none) {} with
    | error e =>
      rw [hF] at h0
      refine ⟨fun _ => a0, fun p hp => ?_⟩
      have := h0 p hp
      beta_reduce at this
      rw [E1 p hp, M1.along_eq p hp] at this
      show (ac1 _ _ _ _ _ _ _ _ >>= _) = _
      rw [show (aoutAt (frameShape f.shape ax) ({} : CorrAoutAny C) p) = {} from rfl] at this
      rw [this]
      rfl
    | ok fast =>
      rw [hF] at h0
      obtain ⟨hP, h0⟩ := h0
      obtain ⟨L, hL⟩ := hP.1 _ rfl
      simp only [okb, hL, List.dropLast_concat]
      obtain ⟨al, hal⟩ := multiLevelsAutoAny_pw (hac pos) binning method norm levelSize squares
        (zeroArraysAny norm false (decide (method = "corr" ∨ method = "fft")) (frameShape f.shape ax)
          (if complex = true then levelSize * 2 + 1 else levelSize) levelSize)
        (fits_zero _ _ _ _ _ _) r nl 0 (f.shape.getD ax 0) _ _ A1 S1 (by
          intro j h1 h2
          have hb : (if complex = true then 2 * levelSize else levelSize) ≤ (binCount binning)^[j] (f.shape.getD ax 0) := by
            refine le_trans ?_ (div_le_binCount binning j _)
            have hnl : (if complex = true then 2 * levelSize else levelSize) ≤ f.shape.getD ax 0 / 2 ^ nl := by
              rcases hN : nlevel with _ | k
              · cases complex
                · exact hk2 hN
                · exact absurd hN (hnone rfl)
              · rw [hk1 k hN]
                exact hlev k hN
            exact le_trans hnl (Nat.div_le_div_left (Nat.pow_le_pow_right (by omega) h2) (by positivity))
          refine short_zero _ _ _ _ ?_ ?_
          · cases complex
            · simp only [Bool.false_eq_true, if_false] at hb; omega
            · simp only [if_true] at hb; omega
          · unfold NotTooLong
            cases complex
            · simp only [Bool.false_eq_true, if_false] at hb ⊢; omega
            · simp only [if_true, Bool.false_eq_true, if_false] at hb ⊢; omega)
      refine ⟨fun j => if j = 0 then a0 else al j, ?_⟩
      have step := PW.bind hal (sel' := fun p r => (aoutAt (frameShape f.shape ax) r.2.1 p,
          r.2.2.map fun a => aoutAt (frameShape f.shape ax) a p))
        (P' := fun r => (∃ L, r.1.1 = frameShape f.shape ax ++ [L]) ∧ (∃ L, r.1.2 = frameShape f.shape ax ++ [L]) ∧
          AoutFits (frameShape f.shape ax) r.2.1 ∧ ∀ a ∈ r.2.2, AoutFits (frameShape f.shape ax) a)
        (k := fun slow => .ok ((frameShape f.shape ax ++ [L], frameShape f.shape ax ++
          [if complex = true then levelSize * 2 + 1 else levelSize]), fast.arrays, slow))
        (k' := fun p slow => .ok ((tupleAt (frameShape f.shape ax) fast p).arrays, slow)) fun slow _ hslow => by
          refine PW.ok ?_ fun p hp => rfl
          exact ⟨⟨_, rfl⟩, ⟨_, rfl⟩, hP, hslow⟩
      refine step.congr fun p hp => ?_
      have h0p := h0 p hp
      beta_reduce at h0p
      rw [E1 p hp, M1.along_eq p hp] at h0p
      rw [show (aoutAt (frameShape f.shape ax) ({} : CorrAoutAny C) p) = {} from rfl] at h0p
      simp only [if_true]
      rw [h0p, okb, multiLevelsAuto_congr ac1 binning method norm levelSize squares _ (fun j => if j = 0 then a0 else al j) al
        r nl 0 _ _ fun j hj => if_neg (by omega), E1 p hp, M1.along_eq p hp, aoutAt_zero]

end Cddm
