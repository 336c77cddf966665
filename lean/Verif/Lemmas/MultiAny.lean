import Verif.Lemmas.AnyAxisBody
import Verif.Lemmas.LogAny
import Verif.Lemmas.Multitau
import Verif.Lemmas.IterTotal
import Verif.Spec.MultiAny

/-! # `ccorr_multi` and `acorr_multi` on arrays: every pixel by itself -/

namespace Cddm
open Spec

/-! ### Binning -/

theorem pyInsert_eraseIdx {α : Type} (p : List α) (ax : Nat) (i : α) (h : ax ≤ p.length) : (pyInsert p ax i).eraseIdx ax = p := by
  have hl : (p.take ax).length = ax := by simp [h]
  rw [pyInsert, List.eraseIdx_append_of_length_le (by omega), hl, Nat.sub_self, List.eraseIdx_cons_zero, List.take_append_drop]

theorem pyInsert_getD {α : Type} (p : List α) (ax : Nat) (i d : α) (h : ax ≤ p.length) : (pyInsert p ax i).getD ax d = i := by
  have hl : (p.take ax).length = ax := by simp [h]
  rw [pyInsert, List.getD_eq_getElem?_getD, List.getElem?_append_right (by rw [hl]), hl]
  simp

theorem pyInsert_length {α : Type} (p : List α) (ax : Nat) (i : α) (h : ax ≤ p.length) : (pyInsert p ax i).length = p.length + 1 := by
  simp [pyInsert, h]
  omega

section
variable {α : Type}

theorem pickAxis_shape (x : Tensor α) {ax : Nat} (hax : ax < x.shape.length) (idx : List Nat) :
    (pickAxis x ax idx).shape = pyInsert (x.shape.eraseIdx ax) ax idx.length := by
  have hl : (x.shape.eraseIdx ax).length = x.shape.length - 1 := by rw [List.length_eraseIdx, if_pos hax]
  have e1 : (moveAxis x ax (x.shape.length - 1)).shape = x.shape.eraseIdx ax ++ [x.shape.getD ax 0] := by
    simp only [moveAxis, ← hl, pyInsert_end]
  have e2 := pickLast_shape e1 idx
  unfold pickAxis
  show pyInsert ((pickLast _ idx).shape.eraseIdx _) ax _ = _
  rw [e2, ← hl, eraseIdx_end, getD_end]

theorem pickAxis_along (x : Tensor α) {ax : Nat} (hax : ax < x.shape.length) (idx : List Nat)
    (h : ∀ i ∈ idx, i < x.shape.getD ax 0) (p : List Nat) (hp : p.length = x.shape.length - 1) :
    along (pickAxis x ax idx) ax p = takeIdx (along x ax p) idx := by
  have hl : (x.shape.eraseIdx ax).length = x.shape.length - 1 := by rw [List.length_eraseIdx, if_pos hax]
  obtain ⟨h1, h2⟩ := takeIdx_eq (along x ax p) idx (by simpa [along_length] using h)
  apply List.ext_getElem?
  intro j
  unfold along
  rw [pickAxis_shape x hax, pyInsert_getD _ _ _ _ (by omega)]
  by_cases hj : j < idx.length
  · rw [List.getElem?_map, List.getElem?_range hj]
    have := h2 j idx[j] (List.getElem?_eq_getElem hj)
    unfold along at this
    rw [this]
    have hi : idx[j] < x.shape.getD ax 0 := h _ (List.getElem_mem _)
    rw [List.getElem?_map, List.getElem?_range hi]
    simp only [Option.map_some, Option.some.injEq]
    show (pickAxis x ax idx).get (pyInsert p ax j) = x.get (pyInsert p ax idx[j])
    simp only [pickAxis, moveAxis, pickLast]
    rw [pyInsert_eraseIdx _ _ _ (by omega), pyInsert_getD _ _ _ _ (by omega), ← hp, pyInsert_end, List.dropLast_concat,
      List.getLastD_concat, eraseIdx_end, getD_end]
    congr 2
    rw [List.getD, List.getElem?_eq_getElem hj]
    rfl
  · rw [List.getElem?_eq_none (by simpa using hj), List.getElem?_eq_none]
    unfold along at h1
    rw [h1]; omega

end

section
variable {V : Type} [AddCommGroup V] [Module ℝ V]

theorem sliceBy_half (n : Nat) : (sliceBy n 0 (n - 1) 2).length = n / 2 ∧ (sliceBy n 1 n 2).length = n / 2 := by
  simp only [sliceBy, List.length_range']
  omega

theorem sliceBy_up (n : Nat) : (sliceBy n 0 n 2).length = (n + 1) / 2 := by
  simp only [sliceBy, List.length_range']
  omega

theorem binAny_shape (binning : Int) (r : ℚ) (x : Tensor V) {ax : Nat} (hax : ax < x.shape.length) :
    (binAny binning r ax x).shape = pyInsert (x.shape.eraseIdx ax) ax (binCount binning (x.shape.getD ax 0)) := by
  obtain ⟨h1, h2⟩ := sliceBy_half (x.shape.getD ax 0)
  unfold binAny binCount
  by_cases hb : binning = 1
  · subst hb
    simp only [if_true]
    rw [if_neg (by omega)]
    show (pickAxis x ax _).shape = _
    rw [pickAxis_shape x hax, h1]
  · simp only [if_neg hb]
    by_cases h0 : binning = 0
    · simp only [if_pos h0]
      rw [pickAxis_shape x hax, sliceBy_up]
    · simp only [if_neg h0]
      split
      · rw [pickAxis_shape x hax, h2]
      · rw [pickAxis_shape x hax, h1]

theorem along_zipWith {α β γ : Type} (g : α → β → γ) (x : Tensor α) (y : Tensor β) (h : x.shape = y.shape) (ax : Nat) (p : List Nat) :
    along (x.zipWith g y) ax p = List.zipWith g (along x ax p) (along y ax p) := by
  unfold along Tensor.zipWith
  simp only [h, List.zipWith_map, List.zipWith_self]

theorem binAny_along (binning : Int) (r : ℚ) (x : Tensor V) {ax : Nat} (hax : ax < x.shape.length) (p : List Nat)
    (hp : p.length = x.shape.length - 1) : along (binAny binning r ax x) ax p = binData binning r (along x ax p) := by
  obtain ⟨h1, h2⟩ := sliceBy_half (x.shape.getD ax 0)
  have m : ∀ a b, ∀ i ∈ sliceBy (x.shape.getD ax 0) a b 2, i < x.shape.getD ax 0 := fun a b i hi => mem_sliceBy (by omega) hi
  unfold binAny binData
  by_cases hb : binning = 1
  · simp only [if_pos hb]
    rw [along_zipWith _ _ _ (by rw [pickAxis_shape x hax, pickAxis_shape x hax, h1, h2]), pickAxis_along x hax _ (m _ _) p hp,
      pickAxis_along x hax _ (m _ _) p hp]
    unfold meanData
    simp only [along_length]
  · simp only [if_neg hb]
    by_cases h0 : binning = 0
    · simp only [if_pos h0]
      rw [pickAxis_along x hax _ (m _ _) p hp]
      unfold everySecond
      simp only [along_length]
    · simp only [if_neg h0]
      unfold chooseData
      simp only [along_length]
      by_cases hr : r < 1 / 2
      · simp only [hr, if_true, decide_true]
        rw [pickAxis_along x hax _ (m _ _) p hp]
      · simp only [hr, if_false, decide_false, Bool.false_eq_true]
        rw [pickAxis_along x hax _ (m _ _) p hp]

end

/-! ### The levels -/

/-- An array with the given frame and number of axes, the computation axis being number `pos`. -/
structure ArrayOf {α : Type} (g : Tensor α) (frame : List Nat) (ndim pos N : Nat) : Prop where
  ndim_eq : g.shape.length = ndim
  pos_lt : pos < ndim
  frame_eq : frameShape g.shape pos = frame
  len_eq : g.shape.getD pos 0 = N

theorem ArrayOf.frame_length {α : Type} {g : Tensor α} {frame : List Nat} {ndim pos N : Nat} (h : ArrayOf g frame ndim pos N) :
    frame.length = ndim - 1 := by
  rw [← h.frame_eq, Cddm.frame_length (by rw [h.ndim_eq]; exact h.pos_lt), h.ndim_eq]

theorem ArrayOf.shape_eq {α : Type} {g : Tensor α} {frame : List Nat} {ndim pos N : Nat} (h : ArrayOf g frame ndim pos N) :
    g.shape = pyInsert frame pos N := by
  have hl : pos < g.shape.length := by rw [h.ndim_eq]; exact h.pos_lt
  rw [← h.frame_eq, ← h.len_eq]
  unfold frameShape
  rw [List.eraseIdx_eq_take_drop_succ, pyInsert]
  have e : (g.shape.take pos).length = pos := by simp; omega
  rw [List.take_append_of_le_length (by omega), List.take_of_length_le (by omega),
    List.drop_append_of_le_length (by omega), List.drop_of_length_le (by omega), List.nil_append]
  rw [List.getD_eq_getElem?_getD, List.getElem?_eq_getElem hl, Option.getD_some, ← List.drop_eq_getElem_cons hl,
    List.take_append_drop]

theorem ArrayOf.mk' {α : Type} {g : Tensor α} {frame : List Nat} {ndim pos N : Nat} (h : g.shape = pyInsert frame pos N)
    (hf : frame.length + 1 = ndim) (hp : pos < ndim) : ArrayOf g frame ndim pos N := by
  refine ⟨by rw [h, pyInsert_length _ _ _ (by omega)]; omega, hp, ?_, ?_⟩
  · rw [h, frameShape, pyInsert_eraseIdx _ _ _ (by omega)]
  · rw [h, pyInsert_getD _ _ _ _ (by omega)]

theorem ArrayOf.bin {V : Type} [AddCommGroup V] [Module ℝ V] {g : Tensor V} {frame : List Nat} {ndim pos N : Nat}
    (h : ArrayOf g frame ndim pos N) (binning : Int) (r : ℚ) : ArrayOf (binAny binning r pos g) frame ndim pos (binCount binning N) := by
  have hl : pos < g.shape.length := by rw [h.ndim_eq]; exact h.pos_lt
  refine ArrayOf.mk' ?_ (by have := h.frame_length; have := h.pos_lt; omega) h.pos_lt
  have := h.frame_eq
  unfold frameShape at this
  rw [binAny_shape _ _ _ hl, h.len_eq, this]

theorem ArrayOf.bin_along {V : Type} [AddCommGroup V] [Module ℝ V] {g : Tensor V} {frame : List Nat} {ndim pos N : Nat}
    (h : ArrayOf g frame ndim pos N) (binning : Int) (r : ℚ) {p : List Nat} (hp : InShape p frame) :
    along (binAny binning r pos g) pos p = binData binning r (along g pos p) :=
  binAny_along _ _ _ (by rw [h.ndim_eq]; exact h.pos_lt) _ (by rw [inShape_length hp, h.frame_length, h.ndim_eq])

/-- `ccorr` on arrays, against that of one signal. -/
def CrossFits {C : Type} (frame : List Nat) (ndim pos : Nat) (complex : Bool) (cc : CrossFnAny C) (cc1 : CrossFn C) : Prop :=
  ∀ (i : Nat) (g1 g2 : Tensor (Cx ℝ)) (N : Nat), ArrayOf g1 frame ndim pos N → ArrayOf g2 frame ndim pos N →
    ∀ (t1 t2 : Option (List Int)) (n : Option Nat) (norm : Option Int) (method : Option String) (s1 s2 : Option (Tensor ℝ))
      (aout : CorrAoutAny C), (∀ s, s1 = some s → ArrayOf s frame ndim pos N) → (∀ s, s2 = some s → ArrayOf s frame ndim pos N) →
      AoutFits frame aout → (t1 = none → AoutNotTooLong N complex n aout) →
    ∃ al, PixelWiseTuple frame (cc i g1 g2 t1 t2 n norm method ((pos : Int) - ndim) s1 s2 aout) fun p =>
      cc1 (along g1 pos p) (along g2 pos p) t1 t2 n norm method al (s1.map fun s => along s pos p) (s2.map fun s => along s pos p)
        (aoutAt frame aout p)

theorem multiLevels_congr {C : Type} (cc : CrossFn C) (binning : Int) (method : String) (norm nSlow : Nat) (squares : Bool)
    (row : CorrAout C) (al al' : Nat → Bool) (r : Nat → ℚ) (k : Nat) :
    ∀ (i : Nat) f1 f2 f1s f2s, (∀ j, i < j → al j = al' j) →
      multiLevels cc binning method norm nSlow squares row al r k i f1 f2 f1s f2s =
      multiLevels cc binning method norm nSlow squares row al' r k i f1 f2 f1s f2s := by
  induction k with
  | zero => intros; rfl
  | succ k ih =>
    intro i f1 f2 f1s f2s h
    simp only [multiLevels]
    rw [h (i + 1) (by omega)]
    simp only [ih (i + 1) _ _ _ _ fun j hj => h j (by omega)]

theorem tupleAt_into {C : Type} (frame : List Nat) (d : CorrTupleAny C) (row : CorrAoutAny C) (p : List Nat) :
    aoutAt frame (d.into row) p = (tupleAt frame d p).into (aoutAt frame row p) := by
  unfold CorrTupleAny.into CorrTuple.into aoutAt tupleAt
  rcases row with ⟨c, n, s, d1, d2⟩
  congr 1
  · cases c <;> rfl
  · cases s <;> rfl
  · cases d1 <;> rfl
  · cases d2 <;> rfl

theorem into_fits {C : Type} {frame : List Nat} {d : CorrTupleAny C} {row : CorrAoutAny C}
    (h : OutFits frame (some d.cor) ∧ OutFits frame d.sq ∧ OutFits frame d.ds1 ∧ OutFits frame d.ds2) :
    AoutFits frame (d.into row) := by
  obtain ⟨h1, h2, h3, h4⟩ := h
  unfold CorrTupleAny.into AoutFits
  refine ⟨?_, ?_, ?_, ?_⟩
  · rcases row.cor with _ | c
    · intro o ho; simp at ho
    · exact h1
  · show OutFits frame (if _ then _ else _)
    split
    · exact h2
    · intro o ho; simp at ho
  · show OutFits frame (if _ then _ else _)
    split
    · exact h3
    · intro o ho; simp at ho
  · show OutFits frame (if _ then _ else _)
    split
    · exact h4
    · intro o ho; simp at ho

theorem multiLevelsAny_pw {C : Type} {frame : List Nat} {ndim pos : Nat} {complex : Bool} {cc : CrossFnAny C} {cc1 : CrossFn C}
    (hcc : CrossFits frame ndim pos complex cc cc1) (binning : Int) (method : String) (norm nSlow : Nat) (squares : Bool)
    (row : CorrAoutAny C) (hrow : AoutFits frame row) (r : Nat → ℚ) (k : Nat) :
    ∀ (i N : Nat) (g1 g2 : Tensor (Cx ℝ)) (s1 s2 : Option (Tensor ℝ)), ArrayOf g1 frame ndim pos N → ArrayOf g2 frame ndim pos N →
      (∀ s, s1 = some s → squares = true ∧ ArrayOf s frame ndim pos N) →
      (∀ s, s2 = some s → squares = true ∧ ArrayOf s frame ndim pos N) →
      (∀ j, 1 ≤ j → j ≤ k → AoutNotTooLong ((binCount binning)^[j] N) complex (some nSlow) row) →
      ∃ al, PW frame (fun p l => l.map fun a => aoutAt frame a p) (fun l => ∀ a ∈ l, AoutFits frame a)
        (multiLevelsAny cc binning method norm nSlow squares row pos ((pos : Int) - ndim) r k i g1 g2 s1 s2) fun p =>
        multiLevels cc1 binning method norm nSlow squares (aoutAt frame row p) al r k i (along g1 pos p) (along g2 pos p)
          (s1.map fun s => along s pos p) (s2.map fun s => along s pos p) := by
  induction k with
  | zero =>
    intro i N g1 g2 s1 s2 _ _ _ _ _
    exact ⟨fun _ => false, by simp, fun p _ => rfl⟩
  | succ k ih =>
    intro i N g1 g2 s1 s2 h1 h2 hs1 hs2 hlen
    simp only [multiLevelsAny, multiLevels]
    have b1 := h1.bin binning (r (4 * i))
    have b2 := h2.bin binning (r (4 * i + 1))
    have key : ∀ (s : Option (Tensor ℝ)) (q : ℚ), (∀ x, s = some x → squares = true ∧ ArrayOf x frame ndim pos N) →
        (∀ x, (if squares = true then s.map (binAny binning q pos) else s) = some x →
          squares = true ∧ ArrayOf x frame ndim pos (binCount binning N)) ∧
        ∀ p, InShape p frame → (if squares = true then (s.map fun s => along s pos p).map (binData binning q)
          else s.map fun s => along s pos p) =
          (if squares = true then s.map (binAny binning q pos) else s).map fun s => along s pos p := by
      intro s q hs
      rcases s with _ | s
      · refine ⟨fun x hx => ?_, fun p _ => ?_⟩
        · split at hx <;> simp at hx
        · split <;> rfl
      · obtain ⟨e, ha⟩ := hs s rfl
        simp only [if_pos e]
        refine ⟨fun x hx => ⟨e, ?_⟩, fun p hp => ?_⟩
        · simp only [Option.map_some, Option.some.injEq] at hx
          rw [← hx]
          exact ha.bin _ _
        · simp only [Option.map_some, ha.bin_along _ _ hp]
    obtain ⟨k1, e1⟩ := key s1 (r (4 * i + 2)) hs1
    obtain ⟨k2, e2⟩ := key s2 (r (4 * i + 3)) hs2
    obtain ⟨a, ha⟩ := hcc (i + 1) _ _ _ b1 b2 none none (some nSlow) (some norm) (some method) _ _ row
      (fun s hs => (k1 s hs).2) (fun s hs => (k2 s hs).2) hrow fun _ => hlen 1 (le_refl _) (by omega)
    obtain ⟨al, hal⟩ := ih (i + 1) (binCount binning N) _ _ _ _ b1 b2 k1 k2 fun j hj hj' => by
      have := hlen (j + 1) (by omega) (by omega)
      rwa [Function.iterate_succ_apply] at this
    refine ⟨fun j => if j = i + 1 then a else al j, ?_⟩
    rw [pixelWiseTuple_iff] at ha
    have step := PW.bind ha (sel' := fun p l => l.map fun a => aoutAt frame a p) (P' := fun l => ∀ a ∈ l, AoutFits frame a)
      (k := fun d => do
        let rest ← multiLevelsAny cc binning method norm nSlow squares row pos ((pos : Int) - ndim) r k (i + 1)
          (binAny binning (r (4 * i)) pos g1) (binAny binning (r (4 * i + 1)) pos g2)
          (if squares = true then s1.map (binAny binning (r (4 * i + 2)) pos) else s1)
          (if squares = true then s2.map (binAny binning (r (4 * i + 3)) pos) else s2)
        .ok (d.into row :: rest))
      (k' := fun p d => do
        let rest ← multiLevels cc1 binning method norm nSlow squares (aoutAt frame row p) al r k (i + 1)
          (along (binAny binning (r (4 * i)) pos g1) pos p) (along (binAny binning (r (4 * i + 1)) pos g2) pos p)
          ((if squares = true then s1.map (binAny binning (r (4 * i + 2)) pos) else s1).map fun s => along s pos p)
          ((if squares = true then s2.map (binAny binning (r (4 * i + 3)) pos) else s2).map fun s => along s pos p)
        .ok (d.into (aoutAt frame row p) :: rest)) fun d _ hd => by
        refine PW.bind hal (k' := fun p rest => .ok ((tupleAt frame d p).into (aoutAt frame row p) :: rest)) fun rest _ hrest => ?_
        refine PW.ok ?_ fun p hp => ?_
        · intro x hx
          rcases List.mem_cons.1 hx with rfl | hx
          · exact into_fits hd
          · exact hrest x hx
        · rw [List.map_cons, tupleAt_into]
    refine step.congr fun p hp => ?_
    simp only [if_true]
    rw [e1 p hp, e2 p hp, ← h1.bin_along binning (r (4 * i)) hp, ← h2.bin_along binning (r (4 * i + 1)) hp]
    simp only [multiLevels_congr cc1 binning method norm nSlow squares (aoutAt frame row p) (fun j => if j = i + 1 then a else al j) al
      r k (i + 1) _ _ _ _ fun j hj => if_neg (by omega)]

/-! ### The number of levels -/

theorem determineLengths_ok {N n period : Nat} {nlevel : Option Int} {a b c : Nat}
    (h : determineLengths N n period nlevel = .ok (a, b, c)) :
    a = period * n ∧ b = n ∧ (∀ k, nlevel = some k → c = k.toNat) ∧ (nlevel = none → n ≤ N / 2 ^ c) := by
  have hn : 4 < n := by
    by_contra hc
    simp [determineLengths, hc] at h
  rcases nlevel with _ | k
  · by_cases hN : n ≤ N
    · obtain ⟨nl, e, h1, -⟩ := determineLengths_none N n period hn hN
      rw [e] at h
      cases h
      exact ⟨rfl, rfl, fun k hk => by simp at hk, fun _ => h1⟩
    · exfalso
      have e : whileUp (fun d => decide (N / 2 ^ d ≥ n)) (N + 1) 0 = 0 := by
        unfold whileUp
        rw [if_neg (by simpa using hN)]
      unfold determineLengths at h
      rw [if_neg (by simpa using hn)] at h
      simp only [e, Option.getD_none] at h
      simp at h
  · unfold determineLengths at h
    rw [if_neg (by simpa using hn)] at h
    simp only [Option.getD_some] at h
    split at h
    · cases h
      exact ⟨rfl, rfl, fun k' hk => by cases hk; rfl, fun hk => by simp at hk⟩
    · cases h

theorem div_le_binCount (binning : Int) (j N : Nat) : N / 2 ^ j ≤ (binCount binning)^[j] N := by
  induction j generalizing N with
  | zero => simp
  | succ j ih =>
    rw [Function.iterate_succ_apply, pow_succ']
    refine le_trans ?_ (ih _)
    rw [← Nat.div_div_eq_div_mul]
    apply Nat.div_le_div_right
    unfold binCount
    split <;> omega

/-! ### The part between the reshapings -/

theorem inspectCross_len {N : Nat} (M : Nat) (t1 t2 : Option (List Int)) (n : Nat) :
    inspectCross N N t1 t2 (some n) none false = inspectCross M M t1 t2 (some n) none false := by
  unfold inspectCross
  simp

theorem inspectCross_n {N n m : Nat} {t1 t2 : Option (List Int)} {t}
    (h : inspectCross N N t1 t2 (some n) none false = .ok (t, m)) : m = n ∧ (t.map Prod.fst = none → t1 = none) := by
  unfold inspectCross at h
  rcases t1 with _ | a <;> rcases t2 with _ | b
  · simp only [bind, Except.bind] at h
    rw [if_neg (by simp)] at h
    cases h
    exact ⟨rfl, fun _ => rfl⟩
  · simp [bind, Except.bind] at h
  · simp [bind, Except.bind] at h
  · simp only [bind, Except.bind] at h
    rw [if_neg (by simp)] at h
    cases ha : npMin a with
    | error e => simp [ha] at h
    | ok x =>
      cases hb : npMin b with
      | error e => simp [ha, hb] at h
      | ok y =>
        simp only [ha, hb, Except.ok.injEq, Prod.mk.injEq] at h
        obtain ⟨rfl, rfl⟩ := h
        exact ⟨rfl, fun h => by simp at h⟩

/-- The same part for one pixel. -/
noncomputable def crossMultiOne {C : Type} [Zero C] (complex : Bool) (cc : CrossFn C) (method : String) (binning : Int)
    (norm levelSize period : Nat) (nlevel : Option Int) (t : Option (List Int × List Int)) (al : Nat → Bool) (r : Nat → ℚ)
    (f1 f2 : List (Cx ℝ)) : Py (CorrAout C × List (CorrAout C)) := do
  let correlate : Bool := method = "corr" ∨ method = "fft"
  let t1 := t.map Prod.fst
  let t2 := t.map Prod.snd
  let (nFast, nSlow, nlevel) ← determineLengths f1.length levelSize period nlevel
  let squares := needsSquares norm && correlate
  let f1s := if squares then some (f1.map Cx.abs2) else none
  let f2s := if squares then some (f2.map Cx.abs2) else none
  let fast ← cc f1 f2 t1 t2 (some nFast) (some norm) (some method) (al 0) f1s f2s {}
  let row := zeroArrays norm true correlate (if complex then nSlow * 2 + 1 else nSlow) nSlow
  let slow ← multiLevels cc binning method norm nSlow squares row al r nlevel 0 f1 f2 f1s f2s
  .ok (fast.arrays, slow)

theorem ccorrMultiBody_eq {C : Type} [Zero C] (complex : Bool) (cc : CrossFn C)
    (f1 f2 : List (Cx ℝ)) (t1 t2 : Option (List Int)) (levelSize : Nat) (norm : Option Int)
    (method : Option String) (period : Nat) (binning : Option Int) (nlevel : Option Int)
    (al : Nat → Bool) (r : Nat → ℚ) :
    ccorrMultiBody complex cc f1 f2 t1 t2 levelSize norm method period binning nlevel al r = (do
      let (method, binning) ← defaultMethodBinning method binning
      let norm ← defaultNorm norm method true
      let (t, levelSize) ← inspectCross f1.length f2.length t1 t2 (some levelSize) none false
      crossMultiOne complex cc method binning norm levelSize period nlevel t al r f1 f2) := rfl

theorem movedTo_arrayOf {α : Type} {g : Tensor α} {frame : List Nat} {ndim pos N : Nat} {x : List Nat → List α}
    (h : MovedTo g frame ndim pos N x) : ArrayOf g frame ndim pos N := ⟨h.ndim_eq, h.pos_lt, h.frame_eq, h.len_eq⟩

theorem ArrayOf.map {α β : Type} {g : Tensor α} {frame : List Nat} {ndim pos N : Nat} (h : ArrayOf g frame ndim pos N) (c : α → β) :
    ArrayOf (g.map c) frame ndim pos N := ⟨h.ndim_eq, h.pos_lt, h.frame_eq, h.len_eq⟩

theorem along_zero {M : Type} [Zero M] (frame : List Nat) (len : Nat) (p : List Nat) :
    along (⟨frame ++ [len], fun _ => (0 : M)⟩ : Tensor M) frame.length p = List.replicate len 0 := by
  unfold along
  simp only [getD_end]
  exact List.ext_getElem (by simp) fun i _ _ => by simp

theorem aoutAt_zero {C : Type} [Zero C] (norm : Nat) (cross correlate : Bool) (frame : List Nat) (len clen : Nat) (p : List Nat) :
    aoutAt frame (zeroArraysAny (C := C) norm cross correlate frame len clen) p = zeroArrays norm cross correlate len clen := by
  have e : ∀ {M : Type} [Zero M] (b : Bool), outAt frame (if b = true then some (⟨frame ++ [len], fun _ => (0 : M)⟩ : Tensor M)
      else none) p = if b = true then some (List.replicate len 0) else none := by
    intro M _ b
    cases b
    · rfl
    · simp only [if_true, outAt, Option.map_some, along_zero]
  unfold zeroArraysAny zeroArrays aoutAt
  simp only [e]
  simp only [outAt, Option.map_some, along_zero]

theorem fits_zero {C : Type} [Zero C] (norm : Nat) (cross correlate : Bool) (frame : List Nat) (len clen : Nat) :
    AoutFits frame (zeroArraysAny (C := C) norm cross correlate frame len clen) := by
  have e : ∀ {M : Type} [Zero M] (b : Bool), OutFits frame (if b = true then some (⟨frame ++ [len], fun _ => (0 : M)⟩ : Tensor M)
      else none) := by
    intro M _ b o ho
    cases b
    · simp at ho
    · simp only [if_true, Option.some.injEq] at ho
      exact ⟨len, by rw [← ho]⟩
  exact ⟨e true, e _, e _, e _⟩

theorem short_zero {C : Type} [Zero C] (norm : Nat) (cross correlate : Bool) (frame : List Nat) {len clen N n : Nat} {complex : Bool}
    (hn : n ≤ N + 1) (h : NotTooLong N complex len) :
    AoutNotTooLong N complex (some n) (zeroArraysAny (C := C) norm cross correlate frame len clen) := by
  have e : ∀ {M : Type} [Zero M] (b : Bool) (o : Tensor M), (if b = true then some (⟨frame ++ [len], fun _ => (0 : M)⟩ : Tensor M)
      else none) = some o → NotTooLong N complex (o.shape.getLastD 0) := by
    intro M _ b o ho
    cases b
    · simp at ho
    · simp only [if_true, Option.some.injEq] at ho
      rw [← ho]
      simpa using h
  exact ⟨fun k hk => by cases hk; exact hn, e true, e _, e _, e _⟩

theorem aoutAt_arrays {C : Type} (frame : List Nat) (d : CorrTupleAny C) (p : List Nat) :
    aoutAt frame d.arrays p = (tupleAt frame d p).arrays := rfl

/-- What the part between the reshapings returns, per pixel. -/
def CoreRes {C : Type} (frame : List Nat) (res : Py ((List Nat × List Nat) × CorrAoutAny C × List (CorrAoutAny C)))
    (one : List Nat → Py (CorrAout C × List (CorrAout C))) : Prop :=
  PW frame (fun p r => (aoutAt frame r.2.1 p, r.2.2.map fun a => aoutAt frame a p))
    (fun r => (∃ L, r.1.1 = frame ++ [L]) ∧ (∃ L, r.1.2 = frame ++ [L]) ∧ AoutFits frame r.2.1 ∧ ∀ a ∈ r.2.2, AoutFits frame a) res one

theorem crossMultiCore_pw {C : Type} [Zero C] (complex : Bool) {cc : CrossFnAny C} {cc1 : CrossFn C} (method : String) (binning : Int)
    (norm levelSize period : Nat) (nlevel : Option Int) (t : Option (List Int × List Int)) (axis : Int)
    (align contiguous : Bool) (r : Nat → ℚ) (f1 f2 : Tensor (Cx ℝ)) {ax : Nat} (hs : f2.shape = f1.shape)
    (hax : NamesAxis f1.shape.length axis ax)
    (hcc : ∀ pos, CrossFits (frameShape f1.shape ax) f1.shape.length pos complex cc cc1)
    (hfast : t = none → period * levelSize ≤ f1.shape.getD ax 0 + 1)
    (hlev : ∀ k, nlevel = some k → levelSize ≤ f1.shape.getD ax 0 / 2 ^ k.toNat) :
    ∃ al, CoreRes (frameShape f1.shape ax)
      (crossMultiCore complex cc method binning norm levelSize period nlevel t axis align contiguous r f1 f2) fun p =>
        crossMultiOne complex cc1 method binning norm levelSize period nlevel t al r (along f1 ax p) (along f2 ax p) := by
  have hl := hax.1
  have okb : ∀ {A B : Type} (a : A) (k : A → Py B), ((Except.ok a : Py A) >>= k) = k a := fun _ _ => rfl
  have erb : ∀ {A B : Type} (e : PyErr) (k : A → Py B), ((Except.error e : Py A) >>= k) = .error e := fun _ _ => rfl
  have hfind : findAxis f1.shape.length axis true = .ok ax := by
    simp only [findAxis, resolveIdx_axis hax]
  unfold CoreRes crossMultiCore crossMultiOne
  simp only [hfind, okb, along_length]
  generalize hreg : (t.isNone && isAligned f1.shape.length axis contiguous align) = reg
  have M1 := movedTo_align f1 hl reg
  have M2 := movedTo_shape f2 hs hl reg
  generalize newAxis f1.shape.length reg = pos at M1 M2
  have A1 := movedTo_arrayOf M1
  have A2 := movedTo_arrayOf M2
  rw [M1.len_eq]
  cases hD : determineLengths (f1.shape.getD ax 0) levelSize period nlevel with
  | error e => exact ⟨fun _ => false, fun p _ => rfl⟩
  | ok d =>
    obtain ⟨nFast, nSlow, nl⟩ := d
    obtain ⟨rfl, hb, hk1, hk2⟩ := determineLengths_ok hD
    have hb' := hb.symm
    subst hb'
    simp only [okb]
    generalize hsq : (needsSquares norm && decide (method = "corr" ∨ method = "fft")) = squares
    have S : ∀ {g : Tensor (Cx ℝ)} {x : List Nat → List (Cx ℝ)}, MovedTo g (frameShape f1.shape ax) f1.shape.length pos (f1.shape.getD ax 0) x →
        (∀ s, (if squares = true then some (g.map Cx.abs2) else none) = some s →
          squares = true ∧ ArrayOf s (frameShape f1.shape ax) f1.shape.length pos (f1.shape.getD ax 0)) ∧
        ∀ p, InShape p (frameShape f1.shape ax) →
          ((if squares = true then some (g.map Cx.abs2) else none).map fun s => along s pos p) =
          if squares = true then some ((x p).map Cx.abs2) else none := by
      intro g x hg
      cases squares
      · exact ⟨fun s hs => by simp at hs, fun p _ => rfl⟩
      · simp only [if_true]
        refine ⟨fun s hs => ⟨trivial, ?_⟩, fun p hp => ?_⟩
        · cases hs
          exact (movedTo_arrayOf hg).map _
        · rw [Option.map_some, along_map, hg.along_eq p hp]
    obtain ⟨S1, E1⟩ := S M1
    obtain ⟨S2, E2⟩ := S M2
    obtain ⟨a0, h0⟩ := hcc pos 0 _ _ _ A1 A2 (t.map Prod.fst) (t.map Prod.snd) (some (period * levelSize)) (some norm) (some method)
      _ _ {} (fun s hs => (S1 s hs).2) (fun s hs => (S2 s hs).2)
      ⟨fun o ho => by simp at ho, fun o ho => by simp at ho, fun o ho => by simp at ho, fun o ho => by simp at ho⟩
      (fun ht => ⟨fun k hk => by
          cases hk
          exact hfast (by simpa using ht), fun o ho => by simp at ho, fun o ho => by simp at ho, fun o ho => by simp at ho,
        fun o ho => by simp at ho⟩)
    rw [pixelWiseTuple_iff] at h0
    cases hF : cc 0 (moveAxisAndAlign f1 ax pos) (moveAxisAndAlign f2 ax pos) (t.map Prod.fst) (t.map Prod.snd)
        (some (period * levelSize)) (some norm) (some method) ((pos : Int) - f1.shape.length)
        (if squares = true then some ((moveAxisAndAlign f1 ax pos).map Cx.abs2) else none)
        (if squares = true then some ((moveAxisAndAlign f2 ax pos).map Cx.abs2) else none) {} with
    | error e =>
      rw [hF] at h0
      refine ⟨fun _ => a0, fun p hp => ?_⟩
      have := h0 p hp
      beta_reduce at this
      rw [E1 p hp, E2 p hp, M1.along_eq p hp, M2.along_eq p hp] at this
      show (cc1 _ _ _ _ _ _ _ _ _ _ _ >>= _) = _
      rw [show (aoutAt (frameShape f1.shape ax) ({} : CorrAoutAny C) p) = {} from rfl] at this
      rw [this]
      rfl
    | ok fast =>
      rw [hF] at h0
      obtain ⟨hP, h0⟩ := h0
      obtain ⟨L, hL⟩ := hP.1 _ rfl
      simp only [okb, hL, List.dropLast_concat]
      obtain ⟨al, hal⟩ := multiLevelsAny_pw (hcc pos) binning method norm levelSize squares
        (zeroArraysAny norm true (decide (method = "corr" ∨ method = "fft")) (frameShape f1.shape ax)
          (if complex = true then levelSize * 2 + 1 else levelSize) levelSize)
        (fits_zero _ _ _ _ _ _) r nl 0 (f1.shape.getD ax 0) _ _ _ _ A1 A2 S1 S2 (by
          intro j h1 h2
          have hb : levelSize ≤ (binCount binning)^[j] (f1.shape.getD ax 0) := by
            refine le_trans ?_ (div_le_binCount binning j _)
            have hnl : levelSize ≤ f1.shape.getD ax 0 / 2 ^ nl := by
              rcases hN : nlevel with _ | k
              · exact hk2 hN
              · rw [hk1 k hN]
                exact hlev k hN
            exact le_trans hnl (Nat.div_le_div_left (Nat.pow_le_pow_right (by omega) h2) (by positivity))
          refine short_zero _ _ _ _ (by omega) ?_
          unfold NotTooLong
          cases complex
          · simp only [Bool.false_eq_true, if_false]; omega
          · simp only [if_true]; omega)
      refine ⟨fun j => if j = 0 then a0 else al j, ?_⟩
      have step := PW.bind hal (sel' := fun p r => (aoutAt (frameShape f1.shape ax) r.2.1 p,
          r.2.2.map fun a => aoutAt (frameShape f1.shape ax) a p))
        (P' := fun r => (∃ L, r.1.1 = frameShape f1.shape ax ++ [L]) ∧ (∃ L, r.1.2 = frameShape f1.shape ax ++ [L]) ∧
          AoutFits (frameShape f1.shape ax) r.2.1 ∧ ∀ a ∈ r.2.2, AoutFits (frameShape f1.shape ax) a)
        (k := fun slow => .ok ((frameShape f1.shape ax ++ [L], frameShape f1.shape ax ++
          [if complex = true then levelSize * 2 + 1 else levelSize]), fast.arrays, slow))
        (k' := fun p slow => .ok ((tupleAt (frameShape f1.shape ax) fast p).arrays, slow)) fun slow _ hslow => by
          refine PW.ok ?_ fun p hp => rfl
          exact ⟨⟨_, rfl⟩, ⟨_, rfl⟩, hP, hslow⟩
      refine step.congr fun p hp => ?_
      have h0p := h0 p hp
      beta_reduce at h0p
      rw [E1 p hp, E2 p hp, M1.along_eq p hp, M2.along_eq p hp] at h0p
      rw [show (aoutAt (frameShape f1.shape ax) ({} : CorrAoutAny C) p) = {} from rfl] at h0p
      simp only [if_true]
      rw [h0p, okb, multiLevels_congr cc1 binning method norm levelSize squares _ (fun j => if j = 0 then a0 else al j) al
        r nl 0 _ _ _ _ fun j hj => if_neg (by omega), E1 p hp, E2 p hp, M1.along_eq p hp, M2.along_eq p hp, aoutAt_zero]

end Cddm
