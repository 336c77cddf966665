import Verif.Lemmas.AnyAxisFft
import Verif.Lemmas.Api
import Verif.Lemmas.RegularSum
import Verif.Spec.AnyAxisCcorr

/-! # `ccorr` and `acorr` on arrays of any number of axes: every pixel by itself -/

namespace Cddm
open Spec

/-- A computation on arrays against the same computation on each pixel: `sel p` is what belongs to pixel `p`, `P` holds of every result. -/
def PW {A B : Type} (frame : List Nat) (sel : List Nat → A → B) (P : A → Prop) (res : Py A) (one : List Nat → Py B) :
    Prop :=
  match res with
  | .error e => ∀ p, InShape p frame → one p = .error e
  | .ok r => P r ∧ ∀ p, InShape p frame → one p = .ok (sel p r)

theorem PW.bind {A B C D : Type} {frame : List Nat} {sel : List Nat → A → B} {P : A → Prop} {res : Py A}
    {one : List Nat → Py B} (h : PW frame sel P res one) {sel' : List Nat → C → D} {P' : C → Prop} {k : A → Py C}
    {k' : List Nat → B → Py D}
    (hk : ∀ a, res = .ok a → P a → PW frame sel' P' (k a) fun p => k' p (sel p a)) :
    PW frame sel' P' (res >>= k) fun p => one p >>= k' p := by
  rcases res with e | a
  · intro p hp
    have h1 : one p = .error e := h p hp
    show (one p >>= k' p) = _
    rw [h1]
    rfl
  · obtain ⟨h1, h2⟩ := h
    have h3 := hk a rfl h1
    have h4 : ∀ p, InShape p frame → (one p >>= k' p) = k' p (sel p a) := by
      intro p hp
      rw [h2 p hp]
      rfl
    show PW frame sel' P' (k a) _
    revert h3
    rcases k a with e | c
    · exact fun h3 p hp => (h4 p hp).trans (h3 p hp)
    · exact fun h3 => ⟨h3.1, fun p hp => (h4 p hp).trans (h3.2 p hp)⟩

/-- The same with more known of the pixels' results. -/
theorem PW.bind' {A B C D : Type} {frame : List Nat} {sel : List Nat → A → B} {P : A → Prop} {res : Py A}
    {one : List Nat → Py B} (h : PW frame sel P res one) {sel' : List Nat → C → D} {P' : C → Prop} {k : A → Py C}
    {k' : List Nat → B → Py D}
    (hk : ∀ a, (∀ p, InShape p frame → one p = .ok (sel p a)) → P a → PW frame sel' P' (k a) fun p => k' p (sel p a)) :
    PW frame sel' P' (res >>= k) fun p => one p >>= k' p :=
  PW.bind h fun a ha hP => hk a (by
    subst ha
    exact h.2) hP

theorem PW.const {A : Type} {frame : List Nat} (r : Py A) : PW frame (fun _ a => a) (fun _ => True) r fun _ => r := by
  rcases r with e | a
  · exact fun _ _ => rfl
  · exact ⟨trivial, fun _ _ => rfl⟩

theorem PW.congr {A B : Type} {frame : List Nat} {sel : List Nat → A → B} {P : A → Prop} {res : Py A}
    {one one' : List Nat → Py B} (h : PW frame sel P res one) (e : ∀ p, InShape p frame → one' p = one p) :
    PW frame sel P res one' := by
  unfold PW at *
  rcases res with x | r
  · exact fun p hp => (e p hp).trans (h p hp)
  · exact ⟨h.1, fun p hp => (e p hp).trans (h.2 p hp)⟩

theorem pixelWise_iff {M : Type} {frame : List Nat} {res : Py (Tensor M)} {one : List Nat → Py (List M)} :
    PixelWise frame res one ↔
      PW frame (fun p r => along r frame.length p) (fun r => OutFits frame (some r)) res one := by
  unfold PixelWise PW
  rcases res with e | r
  · rfl
  · constructor
    · rintro ⟨L, h1, h2⟩
      exact ⟨fun o ho => ⟨L, by simp only [Option.some.injEq] at ho; rw [← ho]; exact h1⟩, h2⟩
    · rintro ⟨h1, h2⟩
      obtain ⟨L, hL⟩ := h1 r rfl
      exact ⟨L, hL, h2⟩

/-- An optional array computed, or kept. -/
theorem PW.some' {M : Type} {frame : List Nat} {res : Py (Tensor M)} {one : List Nat → Py (List M)}
    (h : PixelWise frame res one) :
    PW frame (fun p r => outAt frame r p) (OutFits frame) (res.map some) fun p => (one p).map some := by
  rw [pixelWise_iff] at h
  unfold PW at *
  rcases res with e | r
  · intro p hp
    show (one p).map some = _
    rw [show one p = _ from h p hp]
    rfl
  · refine ⟨h.1, fun p hp => ?_⟩
    show (one p).map some = _
    rw [show one p = _ from h.2 p hp]
    rfl

/-! ### The moved data -/

theorem moved_any {α : Type} (f : Tensor α) {ax : Nat} (hax : ax < f.shape.length) (reg : Bool) :
    (moveAxisAndAlign f ax (newAxis f.shape.length reg)).shape.length = f.shape.length ∧
    newAxis f.shape.length reg < f.shape.length ∧
    frameShape (moveAxisAndAlign f ax (newAxis f.shape.length reg)).shape (newAxis f.shape.length reg)
      = frameShape f.shape ax ∧
    (moveAxisAndAlign f ax (newAxis f.shape.length reg)).shape.getD (newAxis f.shape.length reg) 0
      = f.shape.getD ax 0 ∧
    ∀ p, InShape p (frameShape f.shape ax) →
      along (moveAxisAndAlign f ax (newAxis f.shape.length reg)) (newAxis f.shape.length reg) p = along f ax p := by
  have hl := frame_length hax
  by_cases hr : reg = true ∨ f.shape.length = 1
  · have e : newAxis f.shape.length reg = f.shape.length - 1 := if_pos hr
    obtain ⟨h1, h2⟩ := moved_rows f hax
    rw [e]
    refine ⟨by rw [h1]; simp [hl]; omega, by omega, ?_, ?_, fun p hp => ?_⟩
    · rw [h1, ← hl]
      exact eraseIdx_end _ _
    · rw [h1, ← hl, getD_end]
    · rw [← h2 p (inShape_length hp)]
      rw [← hl] at h1 ⊢
      exact along_eq_rowAt _ h1 (inShape_length hp)
  · have e : newAxis f.shape.length reg = f.shape.length - 2 := if_neg hr
    have hne : frameShape f.shape ax ≠ [] := by
      intro h
      rw [h] at hl
      simp at hl
      push Not at hr
      omega
    obtain ⟨u, K, hu⟩ : ∃ u K, frameShape f.shape ax = u ++ [K] :=
      ⟨_, _, (List.dropLast_append_getLast hne).symm⟩
    obtain ⟨h1, h2, h3⟩ := moved_planes f hax hu
    rw [e]
    have hl' := hl
    rw [hu] at hl'
    simp at hl'
    refine ⟨by rw [h1]; simp; omega, by omega, ?_, ?_, fun p hp => ?_⟩
    · rw [h1, h2, hu]
      exact eraseIdx_pre _ _ _
    · rw [h1, h2, getD_pre]
    · rw [hu] at hp
      obtain ⟨o, j, rfl, ho, hj⟩ := inShape_snoc_cases hp
      rw [← h3 o j (inShape_length ho) hj, col_planeAt _ _ _ _ hj]
      unfold along
      rw [h1, h2, getD_pre, ← inShape_length ho]
      simp

theorem moved_names {α : Type} (f : Tensor α) {ax : Nat} (hax : ax < f.shape.length) (reg : Bool) :
    NamesAxis (moveAxisAndAlign f ax (newAxis f.shape.length reg)).shape.length
      ((newAxis f.shape.length reg : Int) - f.shape.length) (newAxis f.shape.length reg) := by
  obtain ⟨h1, h2, -⟩ := moved_any f hax reg
  rw [h1]
  exact ⟨h2, Or.inr rfl⟩

theorem along_map {α β : Type} (g : α → β) (x : Tensor α) (ax : Nat) (p : List Nat) :
    along (x.map g) ax p = (along x ax p).map g := by
  simp [along, Tensor.map]

/-! ### Lengths of output rows -/

theorem notTooLong_default {M : Type} [Zero M] {N m : Nat} {complex : Bool} {a : Option (List M)} {out : List M}
    (h : defaultOut a m complex = .ok out) (hm : m ≤ N + 1) (ha : ∀ l, a = some l → NotTooLong N complex l.length) :
    NotTooLong N complex out.length := by
  rcases a with _ | l
  · unfold defaultOut at h
    cases complex
    · simp only [Bool.false_eq_true, if_false, Except.ok.injEq] at h
      simp [NotTooLong, ← h, hm]
    · simp only [if_true] at h
      by_cases h0 : m = 0
      · simp [h0] at h
      · rw [if_neg h0, Except.ok.injEq] at h
        simp only [NotTooLong, if_true, ← h, List.length_replicate]
        omega
  · simp only [defaultOut, Except.ok.injEq] at h
    rw [← h]
    exact ha l rfl

theorem sumRegular_ok {M : Type} [AddCommGroup M] {N : Nat} (complex inv : Bool) (x out : List M) (hx : x.length = N)
    (h : NotTooLong N complex out.length) : ∃ l, sumRegular complex inv x out = some l ∧ l.length = out.length := by
  subst hx
  unfold sumRegular
  cases complex
  · simp only [NotTooLong, Bool.false_eq_true, if_false] at h ⊢
    exact ⟨_, crossSumRegular_eq _ out h, by simp [addSeq]⟩
  · simp only [NotTooLong, if_true] at h ⊢
    cases inv
    · exact ⟨_, crossSumComplexRegular_eq _ out h.1 h.2, by simp [addSeq]⟩
    · exact ⟨_, crossSumComplexRegularInverted_eq _ out h.1 h.2, by simp [addSeq]⟩

theorem crossSumApi_none_length {M : Type} [AddCommGroup M] {x : List M} {m : Nat} {complex inv : Bool}
    {a : Option (List M)} {l : List M} (h : crossSumApi x none none (some m) complex inv a = .ok l)
    (hm : m ≤ x.length + 1) (ha : ∀ l, a = some l → NotTooLong x.length complex l.length) :
    NotTooLong x.length complex l.length := by
  unfold crossSumApi at h
  rw [inspectCross_none] at h
  simp only [bind, Except.bind, Option.getD_some] at h
  rcases hd : defaultOut a m complex with e | out
  · rw [hd] at h
    cases h
  · have hL := notTooLong_default hd hm ha
    rw [hd] at h
    simp only at h
    obtain ⟨l', g1, g2⟩ := sumRegular_ok complex inv x out rfl hL
    have : (orUB (sumRegular complex inv x out) : Py (List M)) = .ok l := by
      rw [← h]
      unfold sumRegular
      cases complex <;> cases inv <;> rfl
    rw [g1] at this
    simp only [orUB, Except.ok.injEq] at this
    rw [← this, g2]
    exact hL

/-! ### The sums of `ccorr` -/

section
variable {M : Type} [AddCommGroup M]

theorem crossSumAny_short (g : Tensor M) (ta tb : Option (List Int)) (axis : Int) (m : Nat) (complex inv : Bool)
    (aout : Option (Tensor M)) {pos N : Nat} (hN : g.shape.getD pos 0 = N) (hax : NamesAxis g.shape.length axis pos)
    (hfit : OutFits (frameShape g.shape pos) aout)
    (hs : ta = none → m ≤ N + 1 ∧ ∀ p, InShape p (frameShape g.shape pos) → ∀ l,
      outAt (frameShape g.shape pos) aout p = some l → NotTooLong N complex l.length) :
    PixelWise (frameShape g.shape pos) (crossSumAny g ta tb axis (some m) complex inv aout) fun p =>
      crossSumApi (along g pos p) ta tb (some m) complex inv (outAt (frameShape g.shape pos) aout p) := by
  refine crossSumAny_pixelWise g ta tb axis (some m) complex inv aout hax hfit fun h p hp m' out e1 e2 => ?_
  rw [inspectCross_none] at e1
  simp only [Except.ok.injEq, Prod.mk.injEq, true_and] at e1
  subst e1
  exact sumRegular_ok complex inv _ out (by rw [along_length]; exact hN)
    (notTooLong_default e2 (hs h).1 fun l hl => (hs h).2 p hp l hl)

end

theorem sumSelAnyR_pixelWise (useFft : Bool) (g : Tensor ℝ) (ta tb : Option (List Int)) (axis : Int) (m : Nat)
    (complex inv : Bool) (aout : Option (Tensor ℝ)) {pos N : Nat} (hN : g.shape.getD pos 0 = N)
    (hax : NamesAxis g.shape.length axis pos) (hfit : OutFits (frameShape g.shape pos) aout)
    (hs : ta = none → m ≤ N + 1 ∧ ∀ p, InShape p (frameShape g.shape pos) → ∀ l,
      outAt (frameShape g.shape pos) aout p = some l → NotTooLong N complex l.length) :
    PixelWise (frameShape g.shape pos) (sumSelAnyR useFft g ta tb axis m complex inv aout) fun p =>
      sumSelR useFft (along g pos p) ta tb m complex inv (outAt (frameShape g.shape pos) aout p) := by
  unfold sumSelAnyR sumSelR
  cases useFft
  · simpa using crossSumAny_short g ta tb axis m complex inv aout hN hax hfit hs
  · simpa using crossSumFftAny_pixelWise crossSumFftR_same crossSumComplexFftR_same g ta tb axis (some m) complex inv
      aout hax hfit

theorem sumSelAnyC_pixelWise (useFft : Bool) (g : Tensor (Cx ℝ)) (ta tb : Option (List Int)) (axis : Int) (m : Nat)
    (complex inv : Bool) (aout : Option (Tensor (Cx ℝ))) {pos N : Nat} (hN : g.shape.getD pos 0 = N)
    (hax : NamesAxis g.shape.length axis pos) (hfit : OutFits (frameShape g.shape pos) aout)
    (hs : ta = none → m ≤ N + 1 ∧ ∀ p, InShape p (frameShape g.shape pos) → ∀ l,
      outAt (frameShape g.shape pos) aout p = some l → NotTooLong N complex l.length) :
    PixelWise (frameShape g.shape pos) (sumSelAnyC useFft g ta tb axis m complex inv aout) fun p =>
      sumSelC useFft (along g pos p) ta tb m complex inv (outAt (frameShape g.shape pos) aout p) := by
  unfold sumSelAnyC sumSelC
  cases useFft
  · simpa using crossSumAny_short g ta tb axis m complex inv aout hN hax hfit hs
  · simpa using crossSumFftAny_pixelWise crossSumFftC_same crossSumComplexFftC_same g ta tb axis (some m) complex inv
      aout hax hfit

end Cddm
