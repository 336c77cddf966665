import Verif.Model.Sim
import Verif.Spec.Sim
import Verif.Lemmas.KSelect
import Mathlib.Tactic.Ring
import Mathlib.Tactic.Linarith

/-!
# Lemmas about drawing particles
-/

namespace Cddm
open Spec

/-- An image of unsigned integers. -/
def Img (bits H W : Nat) (im : Arr2 Nat) : Prop :=
  im.h = H ∧ im.w = W ∧ ∀ i j, i < H → j < W → im.get i j < 2 ^ bits

/-- `out` is `im` with `g` added, modulo `2 ^ bits`. -/
def Adds (bits H W : Nat) (im out : Arr2 Nat) (g : Nat → Nat → Nat) : Prop :=
  out.h = H ∧ out.w = W ∧ ∀ i j, i < H → j < W → out.get i j = (im.get i j + g i j) % 2 ^ bits

theorem Adds.img {bits H W : Nat} {im out : Arr2 Nat} {g : Nat → Nat → Nat} (h : Adds bits H W im out g) :
    Img bits H W out :=
  ⟨h.1, h.2.1, fun i j hi hj => by rw [h.2.2 i j hi hj]; exact Nat.mod_lt _ (by positivity)⟩

theorem foldlM_adds {α : Type} {bits H W : Nat} (f : Arr2 Nat → α → Option (Arr2 Nat))
    (g : α → Nat → Nat → Nat) (l : List α)
    (hf : ∀ q ∈ l, ∀ im, Img bits H W im → ∃ out, f im q = some out ∧ Adds bits H W im out (g q))
    (im : Arr2 Nat) (him : Img bits H W im) :
    ∃ out, l.foldlM f im = some out ∧ Adds bits H W im out (fun i j => (l.map (g · i j)).sum) := by
  induction l generalizing im with
  | nil =>
    refine ⟨im, rfl, him.1, him.2.1, fun i j hi hj => ?_⟩
    simp only [List.map_nil, List.sum_nil, Nat.add_zero]
    exact (Nat.mod_eq_of_lt (him.2.2 i j hi hj)).symm
  | cons q l ih =>
    obtain ⟨o1, e1, a1⟩ := hf q List.mem_cons_self im him
    obtain ⟨o2, e2, a2⟩ := ih (fun q hq => hf q (List.mem_cons_of_mem _ hq)) o1 a1.img
    refine ⟨o2, ?_, a2.1, a2.2.1, fun i j hi hj => ?_⟩
    · rw [List.foldlM_cons, e1]
      exact e2
    · rw [a2.2.2 i j hi hj, a1.2.2 i j hi hj, Nat.mod_add_mod, Nat.add_assoc]
      simp only [List.map_cons, List.sum_cons]

theorem resolveIdx_nat {n i : Nat} (h : i < n) : resolveIdx n i = some i := by
  unfold resolveIdx
  rw [if_pos (by omega), if_pos (by omega)]
  simp

theorem addPixel_adds {bits H W : Nat} {im : Arr2 Nat} (him : Img bits H W im) {i j : Nat} (hi : i < H)
    (hj : j < W) (p : Nat) :
    ∃ out, addPixel bits im i j p = some out ∧
      Adds bits H W im out (fun r c => if r = i ∧ c = j then p else 0) := by
  obtain ⟨h1, h2, h3⟩ := him
  unfold addPixel
  rw [resolveIdx_nat (h1 ▸ hi), resolveIdx_nat (h2 ▸ hj)]
  refine ⟨_, rfl, h1, h2, fun r c hr hc => ?_⟩
  dsimp only
  split
  · rename_i h; rw [h.1, h.2]
  · rw [Nat.add_zero]; exact (Nat.mod_eq_of_lt (h3 r c hr hc)).symm

theorem wrapOnce_eq {n : Nat} {q : Int} (h1 : -(n : Int) ≤ q) (h2 : q < 2 * n) :
    wrapOnce n q = q % n := by
  unfold wrapOnce
  split
  · rw [← Int.sub_emod_right, Int.emod_eq_of_lt (by omega) (by omega)]
  · split
    · rw [← Int.add_emod_left, Int.emod_eq_of_lt (by omega) (by omega)]
    · rw [Int.emod_eq_of_lt (by omega) (by omega)]

theorem mem_psfRange {h size q : Int} : q ∈ psfRange h size ↔ h - size ≤ q ∧ q ≤ h + size := by
  unfold psfRange
  simp only [List.mem_map, List.mem_range]
  constructor
  · rintro ⟨k, hk, rfl⟩
    omega
  · rintro ⟨a, b⟩
    exact ⟨(q - (h - size)).toNat, by omega, by omega⟩

theorem psfRange_nodup (h size : Int) : (psfRange h size).Nodup := by
  unfold psfRange
  refine List.Nodup.map (fun a b hab => ?_) List.nodup_range
  omega

theorem psfRange_toFinset (h size : Int) :
    (psfRange h size).toFinset = Finset.Icc (h - size) (h + size) := by
  ext q
  simp [mem_psfRange]

theorem sum_psfRange (h w size : Int) (g : Int × Int → Nat) :
    ((psfRange h size ×ˢ psfRange w size).map g).sum =
      ∑ a ∈ Finset.Icc (h - size) (h + size), ∑ b ∈ Finset.Icc (w - size) (w + size), g (a, b) := by
  rw [← List.sum_toFinset _ ((psfRange_nodup h size).product (psfRange_nodup w size)),
    ← Finset.sum_product']
  refine Finset.sum_congr ?_ fun _ _ => rfl
  ext ⟨a, b⟩
  rw [List.mem_toFinset, Finset.mem_product, Finset.mem_Icc, Finset.mem_Icc, ← mem_psfRange, ← mem_psfRange]
  exact List.pair_mem_product

theorem psfGauss_eq (light : Nat) (sigma y x : ℝ) (a b : ℤ) :
    psfGauss ((a : ℝ) - y) ((b : ℝ) - x) sigma light = pixelLight light sigma y x a b := by
  unfold psfGauss pixelLight
  congr 3
  rw [show (a : ℝ) - y + 1 / 2 = a + 1 / 2 - y by ring, show (b : ℝ) - x + 1 / 2 = b + 1 / 2 - x by ring]
  ring

theorem truncInt_of_nonneg {x : ℝ} (h : 0 ≤ x) : truncInt x = ⌊x⌋ := by
  unfold truncInt
  rw [if_pos h]

theorem emod_toNat_cast {q : Int} {n : Nat} (h : 0 < n) : ((q % n).toNat : Int) = q % n :=
  Int.toNat_of_nonneg (Int.emod_nonneg _ (by omega))

theorem emod_toNat_lt {q : Int} {n : Nat} (h : 0 < n) : (q % n).toNat < n := by
  have := Int.emod_lt_of_pos q (show (0 : Int) < n by omega)
  have := Int.emod_nonneg q (show (n : Int) ≠ 0 by omega)
  omega

theorem eq_emod_toNat {q : Int} {n i : Nat} (hi : i < n) : i = (q % n).toNat ↔ q ≡ i [ZMOD n] := by
  have := Int.emod_nonneg q (show (n : Int) ≠ 0 by omega)
  unfold Int.ModEq
  rw [Int.emod_eq_of_lt (show (0 : Int) ≤ i by omega) (show (i : Int) < n by omega)]
  omega

theorem drawOnePsf_adds {bits H W : Nat} {size : Int} {im : Arr2 Nat} (him : Img bits H W im) {pt : ℝ × ℝ}
    (hp : InBox (H, W) pt) (light : Nat) (sigma : ℝ) (hH : size ≤ H) (hW : size ≤ W) :
    ∃ out, drawOnePsf bits size im pt light sigma = some out ∧
      Adds bits H W im out (lightAt (H, W) size light sigma pt.1 pt.2) := by
  obtain ⟨⟨y0, y1⟩, x0, x1⟩ := hp
  dsimp only at y1 x1
  have fy0 : 0 ≤ ⌊pt.1⌋ := Int.floor_nonneg.mpr y0
  have fy1 : ⌊pt.1⌋ < (H : Int) := Int.floor_lt.mpr (by exact_mod_cast y1)
  have fx0 : 0 ≤ ⌊pt.2⌋ := Int.floor_nonneg.mpr x0
  have fx1 : ⌊pt.2⌋ < (W : Int) := Int.floor_lt.mpr (by exact_mod_cast x1)
  have H0 : 0 < H := by omega
  have W0 : 0 < W := by omega
  unfold drawOnePsf
  rw [truncInt_of_nonneg y0, truncInt_of_nonneg x0]
  obtain ⟨out, e, a⟩ := foldlM_adds (bits := bits) (H := H) (W := W)
    (fun im (q : Int × Int) => addPixel bits im (wrapOnce im.h q.1) (wrapOnce im.w q.2)
      (psfGauss (q.1 - pt.1) (q.2 - pt.2) sigma light))
    (fun q i j => if i = (q.1 % H).toNat ∧ j = (q.2 % W).toNat then
      psfGauss (q.1 - pt.1) (q.2 - pt.2) sigma light else 0)
    (psfRange ⌊pt.1⌋ size ×ˢ psfRange ⌊pt.2⌋ size)
    (by
      rintro ⟨a, b⟩ hq im him
      have hq := List.pair_mem_product.mp hq
      rw [mem_psfRange, mem_psfRange] at hq
      dsimp only
      rw [him.1, him.2.1, wrapOnce_eq (by omega) (by omega), wrapOnce_eq (by omega) (by omega),
        ← emod_toNat_cast H0, ← emod_toNat_cast W0]
      exact addPixel_adds him (emod_toNat_lt H0) (emod_toNat_lt W0) _)
    im him
  refine ⟨out, e, a.1, a.2.1, fun i j hi hj => ?_⟩
  rw [a.2.2 i j hi hj]
  dsimp only
  rw [sum_psfRange]
  unfold lightAt
  congr 2
  refine Finset.sum_congr rfl fun a _ => Finset.sum_congr rfl fun b _ => ?_
  simp only [eq_emod_toNat hi, eq_emod_toNat hj, psfGauss_eq]

theorem foldl_max_spec (s : ℝ) (l : List ℝ) {m : ℝ} (h1 : ∀ x ∈ s :: l, x ≤ m) (h2 : m ∈ s :: l) :
    l.foldl max s = m := by
  induction l generalizing s with
  | nil => simpa using (List.mem_singleton.mp h2).symm
  | cons a l ih =>
    rw [List.foldl_cons]
    refine ih (max s a) (fun x hx => ?_) ?_
    · rcases List.mem_cons.mp hx with rfl | hx
      · exact max_le (h1 _ (by simp)) (h1 _ (by simp))
      · exact h1 _ (by simp [hx])
    · have hs := h1 s (by simp)
      have ha := h1 a (by simp)
      simp only [List.mem_cons] at h2 ⊢
      rcases h2 with rfl | rfl | h
      · left; exact (max_eq_left ha).symm
      · left; exact (max_eq_right hs).symm
      · right; exact h

theorem foldlM_fails {σ α : Type} (f : σ → α → Option σ) (P : σ → Prop)
    (hP : ∀ s q s', P s → f s q = some s' → P s') (l : List α) (q : α) (hq : q ∈ l)
    (hf : ∀ s, P s → f s q = none) (s : σ) (hs : P s) : l.foldlM f s = none := by
  induction l generalizing s with
  | nil => cases hq
  | cons a l ih =>
    rw [List.foldlM_cons]
    rcases List.mem_cons.mp hq with rfl | hq'
    · rw [hf s hs]; rfl
    · cases e : f s a with
      | none => rfl
      | some s' => exact ih hq' s' (hP s a s' hs e)

/-- A whole-pixel shift moves the light with the particle. -/
theorem pixelLight_shift (light : Nat) (sigma y x : ℝ) (m n a b : ℤ) :
    pixelLight light sigma (y + m) (x + n) (a + m) (b + n) = pixelLight light sigma y x a b := by
  unfold pixelLight
  push_cast
  congr 3
  rw [show (a : ℝ) + m + 1 / 2 - (y + m) = a + 1 / 2 - y by ring,
    show (b : ℝ) + n + 1 / 2 - (x + n) = b + 1 / 2 - x by ring]

theorem sum_Icc_shift (c r m : ℤ) (g : ℤ → Nat) :
    ∑ a ∈ Finset.Icc (c + m - r) (c + m + r), g a = ∑ a ∈ Finset.Icc (c - r) (c + r), g (a + m) := by
  refine (Finset.sum_bij (fun a _ => a + m) (fun a ha => ?_) (fun a _ b _ h => ?_) (fun b hb => ?_)
    (fun _ _ => rfl)).symm
  · rw [Finset.mem_Icc] at ha ⊢; omega
  · omega
  · rw [Finset.mem_Icc] at hb
    exact ⟨b - m, by rw [Finset.mem_Icc]; omega, by omega⟩

/-- Nothing is lost: every pixel of the square is exactly one pixel of the image. -/
theorem sum_lightAt {H W : Nat} (hH : 0 < H) (hW : 0 < W) (r : ℤ) (light : Nat) (sigma y x : ℝ) :
    ∑ i ∈ Finset.range H, ∑ j ∈ Finset.range W, lightAt (H, W) r light sigma y x i j =
      totalLight r light sigma y x := by
  unfold lightAt totalLight
  have one : ∀ a b : ℤ, ∑ i ∈ Finset.range H, ∑ j ∈ Finset.range W,
      (if (a ≡ i [ZMOD (H, W).1]) ∧ (b ≡ j [ZMOD (H, W).2]) then pixelLight light sigma y x a b else 0) =
      pixelLight light sigma y x a b := by
    intro a b
    dsimp only
    have e : ∀ i ∈ Finset.range H, ∀ j ∈ Finset.range W,
        (if (a ≡ i [ZMOD H]) ∧ (b ≡ j [ZMOD W]) then pixelLight light sigma y x a b else 0) =
        if i = (a % H).toNat then (if j = (b % W).toNat then pixelLight light sigma y x a b else 0) else 0 := by
      intro i hi j hj
      simp only [← eq_emod_toNat (Finset.mem_range.mp hi), ← eq_emod_toNat (Finset.mem_range.mp hj), ite_and]
    rw [Finset.sum_congr rfl fun i hi => Finset.sum_congr rfl fun j hj => e i hi j hj]
    simp only [Finset.sum_ite_eq', Finset.mem_range, emod_toNat_lt hW, Finset.sum_ite_irrel, if_true,
      Finset.sum_const_zero, emod_toNat_lt hH]
  rw [Finset.sum_congr rfl fun i _ => Finset.sum_comm, Finset.sum_comm]
  refine Finset.sum_congr rfl fun a _ => ?_
  rw [Finset.sum_congr rfl fun i _ => Finset.sum_comm, Finset.sum_comm]
  exact Finset.sum_congr rfl fun b _ => one a b

end Cddm
