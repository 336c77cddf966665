import Verif.Model.ViewerAvg
import Verif.Spec.ViewerAvg
import Verif.Props.KSelect

/-!
# Lemmas about the viewer of correlation data
-/

namespace Cddm
open Spec

variable {V : Type}

/-- A half-open sector of at most 180 degrees does not hold two opposite directions. -/
theorem opposite_sector {angle sector a b : ℝ} (hs0 : 0 < sector) (hs : sector ≤ 180) (m : ℤ)
    (hb : b = a + Real.pi + m * (2 * Real.pi))
    (h1 : InSector 360 angle sector a) (h2 : InSector 360 angle sector b) : False := by
  have hp := Real.pi_pos
  have e360 : rad 360 = 2 * Real.pi := by unfold rad; ring
  have hw : rad (angle + sector / 2) - rad (angle - sector / 2) ≤ Real.pi := by
    unfold rad
    have : Real.pi / 180 * sector ≤ Real.pi / 180 * 180 :=
      mul_le_mul_of_nonneg_left hs (by positivity)
    nlinarith
  -- both inside the half-open interval after a shift by full turns
  have key : ∀ (n n' : ℤ), Real.pi ≤ |(a + n * rad 360) - (b + n' * rad 360)| := by
    intro n n'
    rw [hb, e360]
    have : a + n * (2 * Real.pi) - (a + Real.pi + m * (2 * Real.pi) + n' * (2 * Real.pi))
        = Real.pi * ((2 * (n - m - n') - 1 : ℤ) : ℝ) := by push_cast; ring
    rw [this, abs_mul, abs_of_pos hp]
    have h1 : (1 : ℝ) ≤ |((2 * (n - m - n') - 1 : ℤ) : ℝ)| := by
      rw [← Int.cast_abs]
      have : (1 : ℤ) ≤ |2 * (n - m - n') - 1| := by
        rw [Int.abs_eq_natAbs]; omega
      exact_mod_cast this
    nlinarith
  have lt_of : ∀ {x y lo hi : ℝ}, hi - lo ≤ Real.pi → (lo < x ∧ x ≤ hi) → (lo < y ∧ y ≤ hi) →
      |x - y| < Real.pi := by
    intro x y lo hi h hx hy; rw [abs_lt]; constructor <;> linarith [hx.1, hx.2, hy.1, hy.2]
  have lt_of' : ∀ {x y lo hi : ℝ}, hi - lo ≤ Real.pi → (lo ≤ x ∧ x < hi) → (lo ≤ y ∧ y < hi) →
      |x - y| < Real.pi := by
    intro x y lo hi h hx hy; rw [abs_lt]; constructor <;> linarith [hx.1, hx.2, hy.1, hy.2]
  have hpos' : 0 < Real.pi / 180 * sector := by positivity
  by_cases hc : Crosses 360 angle sector
  · have get : ∀ x, InSector 360 angle sector x → ∃ n : ℤ,
        rad (angle - sector / 2) < x + n * rad 360 ∧ x + n * rad 360 ≤ rad (angle + sector / 2) := by
      intro x hx
      rcases hx with ⟨n, h, h'⟩ | ⟨_, n, h⟩ | ⟨h, _⟩
      · exact ⟨n, h, h'.le⟩
      · refine ⟨n, ?_, h.le⟩
        rw [h]; unfold rad
        nlinarith
      · exact absurd hc h
    obtain ⟨n, hn⟩ := get a h1
    obtain ⟨n', hn'⟩ := get b h2
    exact absurd (lt_of hw hn hn') (not_lt.mpr (key n n'))
  · have get : ∀ x, InSector 360 angle sector x → ∃ n : ℤ,
        rad (angle - sector / 2) ≤ x + n * rad 360 ∧ x + n * rad 360 < rad (angle + sector / 2) := by
      intro x hx
      rcases hx with ⟨n, h, h'⟩ | ⟨h, _⟩ | ⟨_, n, h⟩
      · exact ⟨n, h.le, h'⟩
      · exact absurd h hc
      · refine ⟨n, h.ge, ?_⟩
        rw [h]; unfold rad
        nlinarith
    obtain ⟨n, hn⟩ := get a h1
    obtain ⟨n', hn'⟩ := get b h2
    exact absurd (lt_of' hw hn hn') (not_lt.mpr (key n n'))

/-- Polar coordinates of opposite vectors. -/
theorem Polar.opposite {ki kj q a q' a' : ℝ} (h : Polar ki kj q a) (h' : Polar (-ki) (-kj) q' a')
    (hk : ki ≠ 0 ∨ kj ≠ 0) : ∃ m : ℤ, a' = a + Real.pi + m * (2 * Real.pi) := by
  obtain ⟨h0, h1, h2, h3, h4⟩ := h
  by_cases ha : a < 0
  · have hp : Polar (-ki) (-kj) q (a + Real.pi) :=
      ⟨h0, by rw [Real.cos_add_pi]; linarith, by rw [Real.sin_add_pi]; linarith,
        by linarith [Real.pi_pos], by linarith⟩
    obtain ⟨_, e⟩ := Polar.unique h' hp (hk.imp neg_ne_zero.mpr neg_ne_zero.mpr)
    exact ⟨0, by rw [e]; push_cast; ring⟩
  · have hp : Polar (-ki) (-kj) q (a - Real.pi) :=
      ⟨h0, by rw [Real.cos_sub_pi]; linarith, by rw [Real.sin_sub_pi]; linarith,
        by linarith [Real.pi_pos], by linarith⟩
    obtain ⟨_, e⟩ := Polar.unique h' hp (hk.imp neg_ne_zero.mpr neg_ne_zero.mpr)
    exact ⟨-1, by rw [e]; push_cast; ring⟩

/-- Frequency of the opposite place. -/
theorem IsFreq.opposite {n i : Nat} {d d' : Int} (hi : i < n) (h : IsFreq n i d)
    (h' : IsFreq n (wrap n (-(i : Int))) d') (hn : 2 * i ≠ n) : d' = -d := by
  have hw := wrap_lt (n := n) (by omega) (-(i : Int))
  rw [IsFreq.eq hi h, IsFreq.eq hw h']
  rcases Nat.eq_zero_or_pos i with rfl | h0
  · rw [wrap_zero]; unfold fftfreqN; split <;> omega
  · rw [wrap_neg h0 hi.le]
    unfold fftfreqN
    split <;> split <;> omega

/-- A wave vector and its opposite are not both selected. -/
theorem selection_opposite {h w : Nat} {shape : Option (Nat × Nat)} {angle sector kstep : ℝ} {k i j : Nat}
    (hpos : ∀ s, shape = some s → 0 < s.1 ∧ 0 < s.2) (hs0 : 0 < sector) (hs : sector ≤ 180) (hi : i < h)
    (hj : j < w) (h0 : ¬ (i = 0 ∧ j = 0)) (hi2 : 2 * i ≠ h) (hj2 : 2 * j ≠ w)
    (h1 : InSelection h w shape angle sector kstep k i j)
    (h2 : InSelection h w shape angle sector kstep k (wrap h (-(i : Int))) (wrap w (-(j : Int)))) :
    False := by
  rcases h1 with ⟨h, h', _⟩ | ⟨_, di, dj, q, a, f1, f2, p1, s1, _⟩
  · exact h0 ⟨h, h'⟩
  rcases h2 with ⟨h, h', _⟩ | ⟨_, di', dj', q', a', f1', f2', p1', s1', _⟩
  · apply h0
    have e1 := wrap_wrap hi
    have e2 := wrap_wrap hj
    rw [h, wrap_zero] at e1
    rw [h', wrap_zero] at e2
    exact ⟨e1.symm, e2.symm⟩
  obtain ⟨st', st⟩ := freqStep_pos hpos
  have e1 := IsFreq.opposite hi f1 f1' hi2
  have e2 := IsFreq.opposite hj f2 f2' hj2
  rw [e1, e2] at p1'
  push_cast at p1'
  rw [neg_mul, neg_mul] at p1'
  have hnz : (di * (freqStep shape).1 : ℝ) ≠ 0 ∨ (dj * (freqStep shape).2 : ℝ) ≠ 0 := by
    by_cases hi0 : i = 0
    · right
      exact mul_ne_zero (by exact_mod_cast isFreq_ne_zero hj f2 (fun h => h0 ⟨hi0, h⟩)) st.ne'
    · left
      exact mul_ne_zero (by exact_mod_cast isFreq_ne_zero hi f1 hi0) st'.ne'
  obtain ⟨m, hm⟩ := Polar.opposite p1 p1' hnz
  exact opposite_sector hs0 hs m hm s1 s1'

section mean
variable [AddCommGroup V] [Module ℝ V]

theorem meanOver_image (S : Finset (Nat × Nat)) (φ : Nat × Nat → Nat × Nat)
    (f g : Nat → Nat → Option V) (hinj : Set.InjOn φ S)
    (hfg : ∀ p ∈ S, g p.1 p.2 = f (φ p).1 (φ p).2) :
    meanOver (S.image φ) f = meanOver S g := by
  unfold meanOver
  have e : (S.image φ).filter (fun p => (f p.1 p.2).isSome) =
      (S.filter fun p => (g p.1 p.2).isSome).image φ := by
    rw [Finset.filter_image]
    congr 1
    apply Finset.filter_congr
    intro p hp
    rw [hfg p hp]
  have hinj' : Set.InjOn φ (S.filter fun p => (g p.1 p.2).isSome) :=
    hinj.mono (by simp only [Finset.coe_filter]; exact fun x hx => hx.1)
  dsimp only
  rw [e, Finset.card_image_of_injOn hinj', Finset.sum_image hinj']
  rw [Finset.sum_congr rfl (fun p hp => by rw [← hfg p (Finset.mem_filter.mp hp).1])]

/-- The mean over the half space of the values, conjugated where the opposite wave vector is selected,
is the mean over the selected wave vectors. -/
theorem half_mean (conj : V → V) (F : Arr2 (Option V)) (T : Nat → Nat → Prop)
    (H C : Arr2 Bool) (S : Finset (Nat × Nat))
    (hF : ∀ i j : Nat, i < F.h → 1 ≤ j → 2 * j < F.w →
      F.get (wrap F.h (-(i : Int))) (wrap F.w (-(j : Int))) = (F.get i j).map conj)
    (hh : 1 ≤ F.h) (hw : 1 ≤ F.w) (H1 : H.h = F.h) (H2 : H.w = F.w / 2 + 1)
    (hS : ∀ i j : Nat, (i, j) ∈ S ↔ i < F.h ∧ j < F.w ∧ T i j)
    (hH : ∀ i j : Nat, i < F.h → 1 ≤ j → j ≤ F.w / 2 → (H.get i j = true ↔
      T i j ∨ T (wrap F.h (-(i : Int))) (wrap F.w (-(j : Int)))))
    (hH0 : ∀ i : Nat, i < F.h → (H.get i 0 = true ↔ T i 0))
    (hC : ∀ i j : Nat, i < F.h → 1 ≤ j → j ≤ F.w / 2 → H.get i j = true → (C.get i j = true ↔
      T (wrap F.h (-(i : Int))) (wrap F.w (-(j : Int)))))
    (hC0 : ∀ i : Nat, i < F.h → C.get i 0 = false)
    (hnb : ∀ i j : Nat, i < F.h → 1 ≤ j → 2 * j < F.w → T i j →
      T (wrap F.h (-(i : Int))) (wrap F.w (-(j : Int))) → False)
    (hny : ∀ i j : Nat, i < F.h → j < F.w → T i j → 2 * j ≠ F.w) :
    nanMean ((whereTrue H).map fun p =>
      if C.get p.1 p.2 then (F.get p.1 p.2).map conj else F.get p.1 p.2) = meanOver S F.get := by
  rw [nanMean_eq _ (whereTrue_nodup H) fun i j =>
    if C.get i j then (F.get i j).map conj else F.get i j]
  set φ : Nat × Nat → Nat × Nat := fun p =>
    if C.get p.1 p.2 then (wrap F.h (-(p.1 : Int)), wrap F.w (-(p.2 : Int))) else p with hφ
  have hWj : ∀ i j : Nat, (i, j) ∈ whereTrue H → i < F.h ∧ j ≤ F.w / 2 ∧ H.get i j = true := by
    intro i j hp
    rw [mem_whereTrue] at hp
    exact ⟨by omega, by have := hp.2.1; omega, hp.2.2⟩
  have hTw : ∀ i j : Nat, i < F.h → 1 ≤ j → j ≤ F.w / 2 →
      T (wrap F.h (-(i : Int))) (wrap F.w (-(j : Int))) → 2 * j < F.w := by
    intro i j hi h1 h2 hT
    have := hny _ _ (wrap_lt hh _) (wrap_lt hw _) hT
    rw [wrap_neg h1 (by omega)] at this
    omega
  have hCpos : ∀ i j : Nat, i < F.h → C.get i j = true → 1 ≤ j := by
    intro i j hi h
    by_contra h0
    rw [show j = 0 by omega, hC0 i hi] at h
    cases h
  have himg : S = (whereTrue H).toFinset.image φ := by
    ext ⟨i, j⟩
    rw [hS, Finset.mem_image]
    constructor
    · rintro ⟨hi, hj, hT⟩
      have h2 := hny i j hi hj hT
      by_cases hjw : 2 * j < F.w
      · refine ⟨(i, j), ?_, ?_⟩
        · rw [List.mem_toFinset, mem_whereTrue]
          refine ⟨by omega, by simp only; omega, ?_⟩
          rcases Nat.eq_zero_or_pos j with rfl | h0
          · exact (hH0 i hi).mpr hT
          · exact (hH i j hi h0 (by omega)).mpr (Or.inl hT)
        · simp only [hφ]
          rw [if_neg]
          intro hc
          have h0 := hCpos i j hi hc
          have hHt := (hH i j hi h0 (by omega)).mpr (Or.inl hT)
          exact hnb i j hi h0 hjw hT ((hC i j hi h0 (by omega) hHt).mp hc)
      · have h0 : 0 < j := by omega
        have hww : wrap F.w (-(j : Int)) = F.w - j := wrap_neg h0 hj.le
        have hHt : H.get (wrap F.h (-(i : Int))) (wrap F.w (-(j : Int))) = true := by
          rw [hH _ _ (wrap_lt hh _) (by omega) (by omega), wrap_wrap hi, wrap_wrap hj]
          exact Or.inr hT
        refine ⟨(wrap F.h (-(i : Int)), wrap F.w (-(j : Int))), ?_, ?_⟩
        · rw [List.mem_toFinset, mem_whereTrue]
          exact ⟨by rw [H1]; exact wrap_lt hh _, by simp only; omega, hHt⟩
        · simp only [hφ]
          rw [if_pos, wrap_wrap hi, wrap_wrap hj]
          rw [hC _ _ (wrap_lt hh _) (by omega) (by omega) hHt, wrap_wrap hi, wrap_wrap hj]
          exact hT
    · rintro ⟨⟨i', j'⟩, hp, he⟩
      rw [List.mem_toFinset] at hp
      obtain ⟨hi, hj, hHt⟩ := hWj i' j' hp
      simp only [hφ] at he
      by_cases hc : C.get i' j' = true
      · rw [if_pos hc] at he
        simp only [Prod.mk.injEq] at he
        obtain ⟨rfl, rfl⟩ := he
        have h0 := hCpos i' j' hi hc
        exact ⟨wrap_lt hh _, wrap_lt hw _, (hC i' j' hi h0 hj hHt).mp hc⟩
      · rw [if_neg hc] at he
        simp only [Prod.mk.injEq] at he
        obtain ⟨rfl, rfl⟩ := he
        rcases Nat.eq_zero_or_pos j' with rfl | h0
        · exact ⟨hi, by omega, (hH0 i' hi).mp hHt⟩
        · have hT : T i' j' := by
            rcases (hH i' j' hi h0 hj).mp hHt with h | h
            · exact h
            · exact absurd ((hC i' j' hi h0 hj hHt).mpr h) hc
          exact ⟨hi, by omega, hT⟩
  rw [himg]
  refine (meanOver_image _ φ _ _ ?_ ?_).symm
  · rintro ⟨i, j⟩ hp ⟨i', j'⟩ hp' he
    rw [Finset.mem_coe, List.mem_toFinset] at hp hp'
    obtain ⟨hi, hj, hHt⟩ := hWj i j hp
    obtain ⟨hi', hj', hHt'⟩ := hWj i' j' hp'
    simp only [hφ] at he
    have hcase : ∀ a b : Nat, a < F.h → b ≤ F.w / 2 → H.get a b = true → C.get a b = true →
        2 * b < F.w ∧ 1 ≤ b ∧ wrap F.w (-(b : Int)) = F.w - b := by
      intro a b ha hb hHt hc
      have h0 := hCpos a b ha hc
      exact ⟨hTw a b ha h0 hb ((hC a b ha h0 hb hHt).mp hc), h0, wrap_neg h0 (by omega)⟩
    by_cases hc : C.get i j = true <;> by_cases hc' : C.get i' j' = true
    · rw [if_pos hc, if_pos hc'] at he
      obtain ⟨a1, a2, a3⟩ := hcase i j hi hj hHt hc
      obtain ⟨b1, b2, b3⟩ := hcase i' j' hi' hj' hHt' hc'
      simp only [Prod.mk.injEq] at he
      have e1 := congrArg (fun (n : Nat) => wrap F.h (-(n : Int))) he.1
      simp only [wrap_wrap hi, wrap_wrap hi'] at e1
      have e2 := he.2
      rw [e1, show j = j' by omega]
    · rw [if_pos hc, if_neg hc'] at he
      obtain ⟨a1, a2, a3⟩ := hcase i j hi hj hHt hc
      simp only [Prod.mk.injEq] at he
      omega
    · rw [if_neg hc, if_pos hc'] at he
      obtain ⟨a1, a2, a3⟩ := hcase i' j' hi' hj' hHt' hc'
      simp only [Prod.mk.injEq] at he
      omega
    · rw [if_neg hc, if_neg hc'] at he
      exact he
  · rintro ⟨i, j⟩ hp
    rw [List.mem_toFinset] at hp
    obtain ⟨hi, hj, hHt⟩ := hWj i j hp
    simp only [hφ]
    by_cases hc : C.get i j = true
    · rw [if_pos hc, if_pos hc]
      have h0 := hCpos i j hi hc
      exact (hF i j hi h0 (hTw i j hi h0 hj ((hC i j hi h0 hj hHt).mp hc))).symm
    · rw [if_neg hc, if_neg hc]

end mean

theorem andMask_same {a b : Arr2 Bool} (hh : a.h = b.h) (hw : a.w = b.w) :
    ∃ r, andMask a b = .ok r ∧ r.h = a.h ∧ r.w = a.w ∧
      ∀ i j : Nat, i < a.h → j < a.w → r.get i j = (a.get i j && b.get i j) := by
  refine ⟨⟨b.h, b.w, fun i j => a.get (if b.h = 1 then 0 else i) (if b.w = 1 then 0 else j) &&
    b.get (if b.h = 1 then 0 else i) (if b.w = 1 then 0 else j)⟩, ?_, hh.symm, hw.symm, ?_⟩
  · simp only [andMask, broadcastDim, hh, hw, if_true, bind, Except.bind]
  intro i j hi hj
  have e1 : (if b.h = 1 then 0 else i) = i := by split <;> omega
  have e2 : (if b.w = 1 then 0 else j) = j := by split <;> omega
  dsimp only
  rw [e1, e2]

theorem boolIndex_same {α : Type} {x : Arr2 α} {m : Arr2 Bool} (hh : x.h = m.h) (hw : x.w = m.w) :
    boolIndex x m = .ok ((whereTrue m).map fun p => x.get p.1 p.2) := by
  unfold boolIndex
  rw [if_pos ⟨hh, hw⟩]

theorem boolIndex1_map {α : Type} (l : List (Nat × Nat)) (f : Nat × Nat → α) (g : Nat × Nat → Bool) :
    boolIndex1 (l.map f) (l.map g) = .ok ((l.filter g).map f) := by
  unfold boolIndex1
  rw [if_pos (by simp), zip_filterMap]

theorem zip_map_map {α β γ : Type} (l : List (Nat × Nat)) (f : Nat × Nat → α) (g : Nat × Nat → β)
    (k : α × β → γ) : ((l.map f).zip (l.map g)).map k = l.map fun p => k (f p, g p) := by
  induction l with
  | nil => rfl
  | cons a l ih => simp [ih]

/-- The data of a viewer: the half space of `F`, or only its computed cells. -/
def storedData (computed : Option (Arr2 Bool)) (flat : Bool) (F : Arr2 (Option V)) : KData V :=
  match flat, computed with
  | true, some c => .flat (maskedCells ⟨F.h, F.w / 2 + 1, F.get⟩ c)
  | _, _ => .grid ⟨F.h, F.w / 2 + 1, F.get⟩

/-- The shape given to the viewer fits full-space data of size `h x w`: it is that size, or the data
were cropped to an odd width. -/
def ShapeFits (shape : Option (Nat × Nat)) (h w : Nat) : Prop :=
  shape = some (h, w) ∨ (w % 2 = 1 ∧ ∀ s, shape = some s → h ≤ s.1 ∧ w ≤ s.2)

theorem ShapeFits.pos {shape : Option (Nat × Nat)} {h w : Nat} (hs : ShapeFits shape h w) (hh : 1 ≤ h)
    (hw : 1 ≤ w) : ∀ s, shape = some s → 0 < s.1 ∧ 0 < s.2 := by
  rintro s rfl
  rcases hs with h | ⟨_, h⟩
  · cases h; exact ⟨hh, hw⟩
  · obtain ⟨a, b⟩ := h s rfl; omega

theorem ShapeFits.full {shape : Option (Nat × Nat)} {h w : Nat} (hs : ShapeFits shape h w) :
    asFft2Shape (some h) (some (w / 2 + 1)) shape = .ok (h, (w : Int)) := by
  rcases hs with rfl | ⟨hodd, hs⟩
  · exact C49_shape h w
  · cases shape with
    | none =>
      unfold asFft2Shape
      simp only [bind, Except.bind]
      congr 2
      omega
    | some s =>
      obtain ⟨a, b⟩ := hs s rfl
      rw [C49_shape_cropped s.1 s.2 h (w / 2 + 1) a (by omega)]
      congr 2
      omega

/-- The masks of the viewer. -/
theorem viewMasks_ok (v : DataView V) (junk : Nat → Nat → Bool) (M : Arr2 Bool) (flat : Bool)
    (F0 : Arr2 (Option V)) (h w : Nat) (hh : 1 ≤ h) (hw : 1 ≤ w) (hMh : M.h = h) (hMw : M.w = w)
    (hs : ShapeFits v.shape h w) (hc : ∀ c, v.computed = some c → c.h = h ∧ c.w = w / 2 + 1)
    (hflat : flat = true → v.computed ≠ none)
    (h0 : F0.h = h) (w0 : F0.w = w) (hdata : v.data = some (storedData v.computed flat F0))
    (hsize : v.size = some (h, w / 2 + 1)) :
    ∃ ms, v.viewMasks junk M = .ok ms ∧ ∃ H C : Arr2 Bool, H.h = h ∧ H.w = w / 2 + 1 ∧
      (∀ i j : Nat, i < h → 1 ≤ j → j ≤ w / 2 → (H.get i j = true ↔
        (M.get i j = true ∨ M.get (wrap h (-(i : Int))) (wrap w (-(j : Int))) = true) ∧
          ∀ c, v.computed = some c → c.get i j = true)) ∧
      (∀ i : Nat, i < h → (H.get i 0 = true ↔
        M.get i 0 = true ∧ ∀ c, v.computed = some c → c.get i 0 = true)) ∧
      (∀ i j : Nat, i < h → 1 ≤ j → j ≤ w / 2 → H.get i j = true →
        (C.get i j = true ↔ M.get (wrap h (-(i : Int))) (wrap w (-(j : Int))) = true)) ∧
      (∀ i : Nat, i < h → C.get i 0 = false) ∧
      (∀ F : Arr2 (Option V), F.h = h → F.w = w →
        selectData (storedData v.computed flat F) ms.half =
          .ok ((whereTrue H).map fun p => F.get p.1 p.2)) ∧
      indexMask ms.conj ms.half = .ok ((whereTrue H).map fun p => C.get p.1 p.2) ∧
      ms.graph.h = h ∧ ms.graph.w = w ∧
      (∀ i j : Nat, i < h → j < w → (ms.graph.get i j = true ↔
        M.get i j = true ∧ Computed h w v.computed i j)) ∧
      (ms.mask.any = true ↔ ∃ p, p ∈ whereTrue ms.graph) ∧
      (flat = false → ms.mask = .grid ms.graph) ∧
      (flat = true → ∃ l : List Bool, ms.mask = .flat l ∧
        l.length = ((Finset.range h ×ˢ Finset.range w).filter fun p =>
          v.computed.all fun c => c.get (halfPlace h w p.1 p.2).1 (halfPlace h w p.1 p.2).2).card) := by
  obtain ⟨half, k1, k2, k3, k4, k5⟩ := C49_as_rfft2_mask M (by omega) (by omega)
  obtain ⟨cj, c1, c2, c3, c4, c5⟩ := C49_as_rfft2_conj false M (by omega) (by omega)
  rw [hMh] at k2 k4 k5 c2 c4
  rw [hMw] at k3 k4 c3 c4
  unfold DataView.viewMasks
  simp only [k1, c1, bind, Except.bind]
  cases hcm : v.computed with
  | none =>
    have hfl : flat = false := by
      cases flat
      · rfl
      · exact absurd hcm (hflat rfl)
    subst hfl
    refine ⟨_, rfl, half, cj, k2, k3, ?_, ?_, ?_, ?_, ?_, ?_, hMh, hMw, ?_, ?_, ?_, ?_⟩
    · intro i j hi h1 h2
      rw [k4 i j hi h1 h2]; simp
    · intro i hi
      rw [k5 i hi]; simp
    · intro i j hi h1 h2 _
      rw [c4 i j hi h1 h2]
    · intro i _; exact c5 i
    · intro F e1 e2
      exact boolIndex_same (by simp only; omega) (by simp only; omega)
    · exact boolIndex_same (by omega) (by omega)
    · intro i j _ _
      simp [Computed]
    · simp only [KMask.any]
      cases whereTrue M <;> simp
    · intro _; rfl
    · intro h; cases h
  | some c =>
    obtain ⟨ch, cw⟩ := hc c hcm
    obtain ⟨full, f1, f2, f3, f4, f5⟩ := C49_from_rfft2_data id junk c v.shape w (by omega) hw
      (by rw [ch, cw]; exact hs.full) cw
    rw [ch] at f2 f4 f5
    have hfull : ∀ i j : Nat, i < h → j < w →
        full.get i j = c.get (halfPlace h w i j).1 (halfPlace h w i j).2 := by
      intro i j hi hj
      unfold halfPlace
      by_cases h2 : 2 * j < w
      · rw [if_pos h2, f4 i j hi h2]
      · rw [if_neg h2, f5 i j hi (by omega) hj]; rfl
    obtain ⟨gr, g1, g2, g3, g4⟩ := andMask_same (a := M) (b := full) (by omega) (by omega)
    obtain ⟨H, q1, q2, q3, q4⟩ := andMask_same (a := half) (b := c) (by omega) (by omega)
    rw [hMh] at g2; rw [hMw] at g3; rw [hMh, hMw] at g4
    rw [k2] at q2; rw [k3] at q3; rw [k2, k3] at q4
    have hgr : ∀ i j : Nat, i < h → j < w → (gr.get i j = true ↔
        M.get i j = true ∧ Computed h w (some c) i j) := by
      intro i j hi hj
      rw [g4 i j hi hj, hfull i j hi hj]
      simp [Computed]
    have hH : ∀ i j : Nat, i < h → 1 ≤ j → j ≤ w / 2 → (H.get i j = true ↔
        (M.get i j = true ∨ M.get (wrap h (-(i : Int))) (wrap w (-(j : Int))) = true) ∧
          ∀ c', some c = some c' → c'.get i j = true) := by
      intro i j hi h1 h2
      rw [q4 i j hi (by omega), Bool.and_eq_true, k4 i j hi h1 h2]
      simp
    have hH0 : ∀ i : Nat, i < h → (H.get i 0 = true ↔
        M.get i 0 = true ∧ ∀ c', some c = some c' → c'.get i 0 = true) := by
      intro i hi
      rw [q4 i 0 hi (by omega), Bool.and_eq_true, k5 i hi]
      simp
    cases flat with
    | false =>
      have hd : v.data = some (.grid ⟨F0.h, F0.w / 2 + 1, F0.get⟩) := by rw [hdata]; rfl
      obtain ⟨C, r1, r2, r3, r4⟩ := andMask_same (a := cj) (b := c) (by omega) (by omega)
      rw [c2] at r2; rw [c3] at r3; rw [c2, c3] at r4
      have hsame : sameKShape (V := V) (.grid ⟨F0.h, F0.w / 2 + 1, F0.get⟩) v.size = true := by
        simp [sameKShape, hsize, h0, w0]
      simp only [hd, hsame, if_true, q1, f1, g1, r1]
      refine ⟨_, rfl, H, C, q2, q3, hH, hH0, ?_, ?_, ?_, ?_, g2, g3, hgr, ?_, fun _ => rfl,
        fun h => by cases h⟩
      · intro i j hi h1 h2 hHt
        rw [q4 i j hi (by omega), Bool.and_eq_true] at hHt
        rw [r4 i j hi (by omega), hHt.2, Bool.and_true, c4 i j hi h1 h2]
      · intro i hi
        rw [r4 i 0 hi (by omega), c5 i]; rfl
      · intro F e1 e2
        exact boolIndex_same (by simp only; omega) (by simp only; omega)
      · exact boolIndex_same (by omega) (by omega)
      · simp only [KMask.any]
        cases whereTrue gr <;> simp
    | true =>
      have hd : v.data = some (.flat (maskedCells ⟨F0.h, F0.w / 2 + 1, F0.get⟩ c)) := by
        rw [hdata, hcm]; rfl
      have hnot : sameKShape (V := V) (.flat (maskedCells ⟨F0.h, F0.w / 2 + 1, F0.get⟩ c)) v.size
        = false := rfl
      have b1 := boolIndex_same (x := half) (m := c) (by omega) (by omega)
      have b2 := boolIndex_same (x := cj) (m := c) (by omega) (by omega)
      have b3 := boolIndex_same (x := M) (m := full) (by omega) (by omega)
      simp only [hd, hnot, Bool.false_eq_true, if_false, f1, g1, b1, b2, b3]
      have hfil : (whereTrue c).filter (fun p => half.get p.1 p.2) = whereTrue H := by
        rw [← whereTrue_filter (c := c) (m := H) (by omega) (by omega)]
        · apply List.filter_congr
          rintro ⟨i, j⟩ hp
          rw [mem_whereTrue] at hp
          simp only at hp
          simp only
          rw [q4 i j (by omega) (by omega), hp.2.2, Bool.and_true]
        · intro i j hi hj hHt
          rw [q4 i j (by omega) (by omega), Bool.and_eq_true] at hHt
          exact hHt.2
      refine ⟨_, rfl, H, cj, q2, q3, hH, hH0, ?_, ?_, ?_, ?_, g2, g3, hgr, ?_,
        (fun h => by cases h), fun _ => ⟨_, rfl, ?_⟩⟩
      · intro i j hi h1 h2 _
        rw [c4 i j hi h1 h2]
      · intro i _; exact c5 i
      · intro F e1 e2
        simp only [selectData, storedData]
        rw [maskedCells_eq _ c (by simp only; omega) (by simp only; omega), boolIndex1_map, hfil]
      · simp only [indexMask]
        rw [boolIndex1_map, hfil]
      · simp only [KMask.any, List.any_map, List.any_eq_true]
        constructor
        · rintro ⟨p, hp, ht⟩
          rw [mem_whereTrue] at hp
          refine ⟨p, ?_⟩
          rw [mem_whereTrue]
          refine ⟨by omega, by omega, ?_⟩
          rw [g4 _ _ (by omega) (by omega), hp.2.2, Bool.and_true]
          exact ht
        · rintro ⟨p, hp⟩
          rw [mem_whereTrue] at hp
          have := hp.2.2
          rw [g4 _ _ (by omega) (by omega), Bool.and_eq_true] at this
          refine ⟨p, ?_, this.1⟩
          rw [mem_whereTrue]
          exact ⟨by omega, by omega, this.2⟩
      · rw [List.length_map, ← List.toFinset_card_of_nodup (whereTrue_nodup full)]
        congr 1
        ext ⟨i, j⟩
        rw [List.mem_toFinset, mem_whereTrue]
        simp only [Finset.mem_filter, Finset.mem_product, Finset.mem_range, Option.all_some]
        constructor
        · rintro ⟨a, b, d⟩
          exact ⟨⟨by omega, by omega⟩, by rw [← hfull i j (by omega) (by omega)]; exact d⟩
        · rintro ⟨⟨a, b⟩, d⟩
          exact ⟨by omega, by omega, by rw [hfull i j (by omega) (by omega)]; exact d⟩

/-- The index map of the viewer: the cells of ring `k` are the wave vectors in the selection. -/
theorem viewIndexmap {shape : Option (Nat × Nat)} {h w : Nat} (hh : 1 ≤ h) (hw : 1 ≤ w)
    (hpos : ∀ s, shape = some s → 0 < s.1 ∧ 0 < s.2) {maps : Arr2 ℝ × Arr2 ℝ}
    (hm : fft2Kangle h (w : Int) shape = .ok maps) {angle sector kstep : ℝ}
    (h1 : -180 ≤ angle) (h2 : angle ≤ 180) (h3 : 0 < sector) (h4 : sector ≤ 180) (hs : 0 < kstep) :
    ∃ imap, fft2SectorIndexmap maps.1 maps.2 angle sector kstep = .ok imap ∧ imap.h = h ∧ imap.w = w ∧
      ∀ (k i j : Nat), i < h → j < w →
        (imap.get i j = (k : Int) ↔ InSelection h w shape angle sector kstep k i j) := by
  obtain ⟨imap, e1, e2, e3, e4, e5⟩ := C51_fft2_k_indexmap h w angle sector kstep shape hpos hh hw
    h1 h2 h3 h4 hs
  unfold fft2KIndexmap at e1
  simp only [Bool.false_eq_true, if_false, bind, Except.bind, hm] at e1
  refine ⟨imap, e1, e2, e3, ?_⟩
  intro k i j hi hj
  by_cases h0 : i = 0 ∧ j = 0
  · obtain ⟨rfl, rfl⟩ := h0
    rw [e4]
    simp only [InSelection, true_and, not_true, false_and, or_false]
    omega
  · have hsel := fun di dj q a => e5 i j di dj q a hi hj h0
    constructor
    · intro hk
      refine Or.inr ⟨h0, fftfreqN h i, fftfreqN w j, _, _, fftfreqN_isFreq hi, fftfreqN_isFreq hj,
        kangle_polar _ _, ?_⟩
      exact ((hsel _ _ _ _ (fftfreqN_isFreq hi) (fftfreqN_isFreq hj) (kangle_polar _ _)).1 k).mp hk
    · rintro (⟨a, b, _⟩ | ⟨_, di, dj, q, a, f1, f2, p, s1, s2⟩)
      · exact absurd ⟨a, b⟩ h0
      · exact ((hsel di dj q a f1 f2 p).1 k).mpr ⟨s1, s2⟩

end Cddm
