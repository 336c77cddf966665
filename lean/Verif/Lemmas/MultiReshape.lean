import Verif.Lemmas.MultiAnyAuto
import Verif.Lemmas.Reshape

/-! # The reshaping of frames around `ccorr_multi` and `acorr_multi` -/

namespace Cddm
open Spec

theorem ravel_unravel (s : List Nat) : ∀ k, k < s.prod → ravel s (unravel s k) = k ∧ InShape (unravel s k) s := by
  induction s with
  | nil =>
    intro k hk
    simp only [List.prod_nil, Nat.lt_one_iff] at hk
    subst hk
    exact ⟨rfl, List.Forall₂.nil⟩
  | cons n s ih =>
    intro k hk
    rw [List.prod_cons] at hk
    have hs : 0 < s.prod := by
      rcases Nat.eq_zero_or_pos s.prod with h | h
      · rw [h] at hk; simp at hk
      · exact h
    obtain ⟨h1, h2⟩ := ih (k % s.prod) (Nat.mod_lt _ hs)
    refine ⟨?_, List.Forall₂.cons ?_ h2⟩
    · rw [unravel, ravel_cons _ _ _ _ (inShape_length h2), h1]
      exact Nat.div_add_mod' k s.prod
    · exact Nat.div_lt_of_lt_mul (by rwa [Nat.mul_comm] at hk)

/-- The pixel of the reshaped frame where pixel `p` of the frame is. -/
def movedPixel (F new p : List Nat) : List Nat := unravel new (ravel F p)

theorem movedPixel_in {F new p : List Nat} (h : F.prod = new.prod) (hp : InShape p F) :
    InShape (movedPixel F new p) new ∧ ravel new (movedPixel F new p) = ravel F p := by
  have := ravel_unravel new (ravel F p) (by rw [← h]; exact ravel_lt hp)
  exact ⟨this.2, this.1⟩

theorem reshapeOpt_ok {M : Type} {F new : List Nat} (h : F.prod = new.prod) (x : Option (Tensor M)) (hx : OutFits new x) :
    ∃ y, reshapeOpt F x = .ok y ∧ OutFits F y ∧ ∀ p, InShape p F → outAt F y p = outAt new x (movedPixel F new p) := by
  rcases x with _ | x
  · exact ⟨none, rfl, fun o ho => by simp at ho, fun p _ => rfl⟩
  · obtain ⟨L, hL⟩ := hx x rfl
    refine ⟨some ⟨F ++ [L], fun p => x.get (unravel x.shape (ravel (F ++ [L]) p))⟩, ?_, ?_, ?_⟩
    · unfold reshapeOpt reshapeAny
      dsimp only
      rw [hL, List.getLastD_concat, if_neg (by simp [h])]
      rfl
    · intro o ho
      cases ho
      exact ⟨L, rfl⟩
    · intro p hp
      obtain ⟨h1, h2⟩ := movedPixel_in h hp
      simp only [outAt, Option.map_some, Option.some.injEq]
      rw [along_eq_rowAt _ rfl (inShape_length hp), along_eq_rowAt _ hL (inShape_length h1)]
      unfold rowAt
      apply List.map_congr_left
      intro i hi
      have hi' : i < L := by simpa using hi
      show x.get (unravel x.shape (ravel (F ++ [L]) (p ++ [i]))) = _
      rw [ravel_append F [L] p [i] (inShape_length hp) rfl, ← h2, ← ravel_append new [L] _ [i] (inShape_length h1) rfl, hL,
        unravel_ravel (inShape_snoc h1 hi')]

theorem reshapeArrays_ok {C : Type} {F new : List Nat} (h : F.prod = new.prod) (a : CorrAoutAny C) (ha : AoutFits new a) :
    ∃ b, reshapeArrays F a = .ok b ∧ AoutFits F b ∧ ∀ p, InShape p F → aoutAt F b p = aoutAt new a (movedPixel F new p) := by
  obtain ⟨h1, h2, h3, h4⟩ := ha
  obtain ⟨y1, e1, f1, g1⟩ := reshapeOpt_ok h a.cor h1
  obtain ⟨y2, e2, f2, g2⟩ := reshapeOpt_ok h a.sq h2
  obtain ⟨y3, e3, f3, g3⟩ := reshapeOpt_ok h a.ds1 h3
  obtain ⟨y4, e4, f4, g4⟩ := reshapeOpt_ok h a.ds2 h4
  refine ⟨⟨y1, a.count, y2, y3, y4⟩, ?_, ⟨f1, f2, f3, f4⟩, fun p hp => ?_⟩
  · unfold reshapeArrays
    rw [e1, e2, e3, e4]
    rfl
  · simp only [aoutAt, g1 p hp, g2 p hp, g3 p hp, g4 p hp]

theorem reshapeLevels_ok {C : Type} {F new : List Nat} (h : F.prod = new.prod) (l : List (CorrAoutAny C))
    (hl : ∀ a ∈ l, AoutFits new a) :
    ∃ l', l.mapM (reshapeArrays F) = .ok l' ∧ (∀ b ∈ l', AoutFits F b) ∧
      ∀ p, InShape p F → (l'.map fun b => aoutAt F b p) = l.map fun a => aoutAt new a (movedPixel F new p) := by
  induction l with
  | nil => exact ⟨[], rfl, by simp, fun _ _ => rfl⟩
  | cons a l ih =>
    obtain ⟨b, e1, f1, g1⟩ := reshapeArrays_ok h a (hl a (by simp))
    obtain ⟨l', e2, f2, g2⟩ := ih fun x hx => hl x (by simp [hx])
    refine ⟨b :: l', ?_, ?_, ?_⟩
    · rw [List.mapM_cons, e1, e2]
      rfl
    · intro x hx
      rcases List.mem_cons.1 hx with rfl | hx
      · exact f1
      · exact f2 x hx
    · intro p hp
      rw [List.map_cons, List.map_cons, g1 p hp, g2 p hp]

/-- The leading axes found by `reshape_output` and the frame shape are `G`. -/
def LeadGives (kshape new G : List Nat) : Prop :=
  (∀ L, shapeHead (new ++ [L]) (kshape.length + 1) ++ kshape = G) ∧
  ∀ n L, shapeHead (n :: (new ++ [L])) (kshape.length + 1) ++ kshape = n :: G

theorem reshapeMulti_ok {C : Type} {kshape new G : List Nat} (hlead : LeadGives kshape new G) (h : G.prod = new.prod)
    {res : Py ((List Nat × List Nat) × CorrAoutAny C × List (CorrAoutAny C))} {one one' : List Nat → Py (CorrAout C × List (CorrAout C))}
    (hres : CoreRes new res one) (hone : ∀ p, InShape p G → one' p = one (movedPixel G new p)) :
    PixelWiseMulti G (res >>= fun out => reshapeMulti kshape out.1.1 out.1.2 out.2) one' := by
  unfold CoreRes PW at hres
  rcases res with e | ⟨⟨s1, s2⟩, fast, slow⟩
  · intro p hp
    rw [hone p hp]
    exact hres _ (movedPixel_in h hp).1
  · obtain ⟨⟨⟨L1, hL1⟩, ⟨L2, hL2⟩, hf, hsl⟩, hr⟩ := hres
    dsimp only at hL1 hL2 hf hsl hr
    subst hL1 hL2
    obtain ⟨b, e1, f1, g1⟩ := reshapeArrays_ok h fast hf
    obtain ⟨l, e2, f2, g2⟩ := reshapeLevels_ok h slow hsl
    have e : (Except.ok ((new ++ [L1], new ++ [L2]), fast, slow) >>= fun out : (List Nat × List Nat) × CorrAoutAny C × List (CorrAoutAny C) =>
        reshapeMulti kshape out.1.1 out.1.2 out.2) = (.ok (b, l) : Py _) := by
      show reshapeMulti kshape (new ++ [L1]) (new ++ [L2]) (fast, slow) = _
      unfold reshapeMulti reshapeFast reshapeSlow
      rw [hlead.1, e1, hlead.2]
      simp only [List.dropLast_concat, List.prod_cons, h, List.headD_cons, List.tail_cons, e2, ne_eq, not_true, if_false, true_and, if_true]
      rfl
    rw [e]
    refine ⟨f1, f2, fun p hp => ?_⟩
    rw [hone p hp, hr _ (movedPixel_in h hp).1, g1 p hp, g2 p hp]

/-! ### The input -/

theorem reshapeIn_ok {α : Type} (f : Tensor α) {axis : Int} {ax : Nat} (hax : NamesAxis f.shape.length axis ax)
    (divisor : Option Int) (new : List Nat)
    (hnew : threadFrameShape (frameShape f.shape ax) divisor true = .ok (new.map fun (n : Nat) => (n : Int)))
    (hprod : new.prod = (frameShape f.shape ax).prod) :
    reshapeInAny f axis divisor = .ok (⟨pyInsert new ax (f.shape.getD ax 0), fun p =>
      f.get (unravel f.shape (ravel (pyInsert new ax (f.shape.getD ax 0)) p))⟩, frameShape f.shape ax) := by
  have hshape : f.shape = pyInsert (frameShape f.shape ax) ax (f.shape.getD ax 0) :=
    (ArrayOf.shape_eq ⟨rfl, hax.1, rfl, rfl⟩)
  have hp : ∀ (l : List Nat) (k n : Nat), (pyInsert l k n).prod = n * l.prod := by
    intro l k n
    unfold pyInsert
    rw [List.prod_append, List.prod_cons]
    have := congrArg List.prod (List.take_append_drop k l)
    rw [List.prod_append] at this
    rw [← this]
    ring
  unfold reshapeInAny
  rw [resolveIdx_axis hax]
  dsimp only
  unfold frameShape at hnew hprod ⊢
  rw [hnew]
  show (if _ then _ else _) = _
  rw [if_neg (by simp)]
  have e : (new.map fun (n : Nat) => (n : Int)).map Int.toNat = new := by
    rw [List.map_map]
    exact (List.map_congr_left fun a _ => by simp).trans (List.map_id _)
  rw [e]
  unfold reshapeAny
  rw [if_neg]
  · rfl
  · rw [hp, hprod, ← hp (f.shape.eraseIdx ax) ax]
    unfold frameShape at hshape
    rw [← hshape]
    exact fun h => h rfl

/-- The signal of the pixel of the reshaped frame is that of the pixel. -/
def SignalsKept (shape new : List Nat) (ax : Nat) : Prop :=
  ∀ p, InShape p (frameShape shape ax) → ∀ i, i < shape.getD ax 0 →
    ravel (pyInsert new ax (shape.getD ax 0)) (pyInsert (movedPixel (frameShape shape ax) new p) ax i) = ravel shape (pyInsert p ax i)

theorem inShape_pyInsert {s p : List Nat} {ax n i : Nat} (h : InShape p s) (hi : i < n) : InShape (pyInsert p ax i) (pyInsert s ax n) := by
  unfold pyInsert
  refine List.rel_append ?_ (List.Forall₂.cons hi ?_)
  · exact List.forall₂_take ax h
  · exact List.forall₂_drop ax h

theorem reshapeIn_along {α : Type} (f : Tensor α) {ax : Nat} (hax : ax < f.shape.length) {new : List Nat} (hl : ax ≤ new.length)
    (hk : SignalsKept f.shape new ax) {p : List Nat} (hp : InShape p (frameShape f.shape ax)) :
    along (⟨pyInsert new ax (f.shape.getD ax 0), fun p => f.get (unravel f.shape (ravel (pyInsert new ax (f.shape.getD ax 0)) p))⟩ : Tensor α)
      ax (movedPixel (frameShape f.shape ax) new p) = along f ax p := by
  have hshape : f.shape = pyInsert (frameShape f.shape ax) ax (f.shape.getD ax 0) :=
    (ArrayOf.shape_eq ⟨rfl, hax, rfl, rfl⟩)
  unfold along
  dsimp only
  rw [pyInsert_getD _ _ _ _ hl]
  apply List.map_congr_left
  intro i hi
  have hi' : i < f.shape.getD ax 0 := by simpa using hi
  have := hk p hp i hi'
  unfold pyInsert at this ⊢
  rw [this]
  congr 1
  have hin := inShape_pyInsert (ax := ax) hp hi'
  rw [← hshape] at hin
  exact unravel_ravel hin

theorem signalsKept_same {shape : List Nat} {ax : Nat} (hax : ax < shape.length) : SignalsKept shape (frameShape shape ax) ax := by
  intro p hp i hi
  have hshape : shape = pyInsert (frameShape shape ax) ax (shape.getD ax 0) :=
    (ArrayOf.shape_eq (g := (⟨shape, fun _ => ()⟩ : Tensor Unit)) ⟨rfl, hax, rfl, rfl⟩)
  have e : movedPixel (frameShape shape ax) (frameShape shape ax) p = p := unravel_ravel hp
  rw [e, ← hshape]

theorem signalsKept_first {N : Nat} {F new : List Nat} (h : F.prod = new.prod) : SignalsKept (N :: F) new 0 := by
  intro p hp i hi
  have hF : frameShape (N :: F) 0 = F := rfl
  rw [hF] at hp ⊢
  obtain ⟨h1, h2⟩ := movedPixel_in h hp
  simp only [pyInsert, List.take_zero, List.drop_zero, List.nil_append, List.getD_cons_zero]
  rw [ravel_cons _ _ _ _ (inShape_length h1), ravel_cons _ _ _ _ (inShape_length hp), h2, h]

theorem signalsKept_last {N : Nat} {F new : List Nat} (h : F.prod = new.prod) (hl : new.length = F.length) :
    SignalsKept (F ++ [N]) new F.length := by
  intro p hp i hi
  have hF : frameShape (F ++ [N]) F.length = F := eraseIdx_end _ _
  rw [hF] at hp ⊢
  obtain ⟨h1, h2⟩ := movedPixel_in h hp
  have e1 : pyInsert new F.length ((F ++ [N]).getD F.length 0) = new ++ [N] := by rw [getD_end, ← hl, pyInsert_end]
  have e2 : pyInsert (movedPixel F new p) F.length i = movedPixel F new p ++ [i] := by
    rw [← hl, ← inShape_length h1, pyInsert_end]
  have e3 : pyInsert p F.length i = p ++ [i] := by rw [← inShape_length hp, pyInsert_end]
  rw [e1, e2, e3, ravel_append new [N] _ [i] (inShape_length h1) rfl, ravel_append F [N] _ [i] (inShape_length hp) rfl, h2]

end Cddm
