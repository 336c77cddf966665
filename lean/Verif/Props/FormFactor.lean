import Verif.Lemmas.FormFactor
import Mathlib.Algebra.Order.Chebyshev

/-!
# C98: the form factor of the point spread function
-/

namespace Cddm
open Spec

theorem addTerm_fold (F : Nat × Nat → Arr2 ℝ) (h w : Nat) (term : Nat × Nat → Py (Arr2 ℝ)) (L : List (Nat × Nat))
    (hF : ∀ q ∈ L, term q = .ok (F q) ∧ (F q).h = h ∧ (F q).w = w) (g : Nat → Nat → ℝ) :
    L.foldlM (fun (out : Option (Arr2 ℝ)) (q : Nat × Nat) => (do
      let x ← term q
      .ok (addTerm out x) : Py (Option (Arr2 ℝ)))) (some ⟨h, w, g⟩) =
      .ok (some ⟨h, w, fun p q => g p q + (L.map fun t => (F t).get p q).sum⟩) := by
  induction L generalizing g with
  | nil => simp only [List.foldlM_nil, List.map_nil, List.sum_nil, add_zero]; rfl
  | cons t L ih =>
    rw [List.foldlM_cons, (hF t List.mem_cons_self).1]
    show List.foldlM _ (some (⟨h, w, fun p q => g p q + (F t).get p q⟩ : Arr2 ℝ)) L = _
    rw [ih fun q hq => hF q (List.mem_cons_of_mem _ hq)]
    simp only [List.map_cons, List.sum_cons, add_assoc]

theorem addTerm_fold_none (F : Nat × Nat → Arr2 ℝ) (h w : Nat) (term : Nat × Nat → Py (Arr2 ℝ)) (L : List (Nat × Nat)) (hL : L ≠ [])
    (hF : ∀ q ∈ L, term q = .ok (F q) ∧ (F q).h = h ∧ (F q).w = w) :
    L.foldlM (fun (out : Option (Arr2 ℝ)) (q : Nat × Nat) => (do
      let x ← term q
      .ok (addTerm out x) : Py (Option (Arr2 ℝ)))) none =
      .ok (some ⟨h, w, fun p q => (L.map fun t => (F t).get p q).sum⟩) := by
  cases L with
  | nil => exact absurd rfl hL
  | cons t L =>
    have ht := hF t List.mem_cons_self
    rw [List.foldlM_cons, ht.1]
    show List.foldlM _ (some (⟨(F t).h, (F t).w, fun p q => 0 + (F t).get p q⟩ : Arr2 ℝ)) L = _
    rw [ht.2.1, ht.2.2, addTerm_fold F h w term L fun q hq => hF q (List.mem_cons_of_mem _ hq)]
    simp only [List.map_cons, List.sum_cons, zero_add]

/-- The sum over the mesh. -/
theorem mesh_sum (n : Nat) (f : Nat → Nat → ℝ) :
    ((List.range n ×ˢ List.range n).map fun t => f t.1 t.2).sum = ∑ i ∈ Finset.range n, ∑ j ∈ Finset.range n, f i j := by
  rw [← List.sum_toFinset _ (List.nodup_range.product List.nodup_range), ← Finset.sum_product']
  refine Finset.sum_congr ?_ fun _ _ => rfl
  ext ⟨a, b⟩
  rw [List.mem_toFinset, Finset.mem_product, Finset.mem_range, Finset.mem_range]
  rw [show ((a, b) ∈ List.range n ×ˢ List.range n) ↔ _ from List.pair_mem_product, List.mem_range, List.mem_range]

theorem formFactor_run (window : Arr2 ℝ) (sigma : ℝ) (light : Nat) (navg : Nat) (dtype : FrameDtype) (mode : String)
    (hd : dtype ≠ .other) (hl : light < 2 ^ dtype.bits) (hn : 1 ≤ navg) (F : Nat × Nat → Arr2 ℝ) (h w : Nat)
    (hF : ∀ i < navg, ∀ j < navg, formFactorTerm dtype.bits window sigma light navg mode i j = .ok (F (i, j)) ∧
      (F (i, j)).h = h ∧ (F (i, j)).w = w) :
    formFactor window sigma light navg dtype mode = .ok ⟨h, w, fun p q => Real.sqrt (meshMean navg fun i j => (F (i, j)).get p q)⟩ := by
  have hi : inspectFrameDtype dtype light = .ok dtype := by
    unfold inspectFrameDtype
    rw [if_neg hd, if_neg]
    cases dtype with
    | uint8 => simp only [FrameDtype.bits] at hl; omega
    | uint16 => simp
    | other => exact absurd rfl hd
  unfold formFactor
  rw [hi]
  show (if (light : Int) ≥ 2 ^ dtype.bits then _ else _ : Py (Arr2 ℝ)) = _
  rw [if_neg (by push Not; exact_mod_cast hl), Int.toNat_natCast]
  have hne : (List.range navg ×ˢ List.range navg) ≠ [] := by
    intro h0
    have : ((0, 0) : Nat × Nat) ∈ (List.range navg ×ˢ List.range navg) :=
      List.pair_mem_product.mpr ⟨List.mem_range.mpr (by omega), List.mem_range.mpr (by omega)⟩
    rw [h0] at this
    cases this
  have := addTerm_fold_none F h w (fun q => formFactorTerm dtype.bits window sigma light navg mode q.1 q.2)
    (List.range navg ×ˢ List.range navg) hne (by
      rintro ⟨i, j⟩ hq
      have hq := List.pair_mem_product.mp hq
      rw [List.mem_range, List.mem_range] at hq
      exact hF i hq.1 j hq.2)
  show Except.bind _ _ = _
  rw [this]
  show Except.ok _ = Except.ok _
  congr 2
  funext p q
  unfold meshMean
  rw [← mesh_sum navg fun i j => (F (i, j)).get p q]

/-- **C98.** `form_factor` with mode 'fft2' is, at every wave vector, the root of the mean power of the particle drawn at the points of
a mesh. -/
theorem C98_full (window : Arr2 ℝ) (sigma : ℝ) (light navg : Nat) (dtype : FrameDtype) (r : ℤ) (hd : dtype ≠ .other)
    (hl : light < 2 ^ dtype.bits) (hn : 1 ≤ navg) (hr : Nearest (3 * sigma) r) (hr0 : 0 ≤ r) (hH : 2 * r + 1 ≤ window.h)
    (hW : 2 * r + 1 ≤ window.w) :
    ∃ out, formFactor window sigma light navg dtype "fft2" = .ok out ∧ out.h = window.h ∧ out.w = window.w ∧
      ∀ a b : Int, out.get (wrap window.h a) (wrap window.w b) = Real.sqrt (meshMean navg fun i j =>
        power (psfSeen window r light sigma (i * window.h / navg) (j * window.w / navg)) a b) := by
  have key := fun i (hi : i < navg) j (hj : j < navg) =>
    (formFactorTerm_ok dtype.bits window sigma light navg i j r hr hr0 hH hW hl hi hj).1
  haveI : Nonempty (Arr2 ℝ) := ⟨noWindow 0 0⟩
  choose! F hF using key
  refine ⟨_, formFactor_run window sigma light navg dtype "fft2" hd hl hn (fun q => F q.1 q.2) window.h window.w
    (fun i hi j hj => ⟨(hF i hi j hj).1, (hF i hi j hj).2.1, (hF i hi j hj).2.2.1⟩), rfl, rfl, fun a b => ?_⟩
  dsimp only
  unfold meshMean
  congr 2
  refine Finset.sum_congr rfl fun i hi => Finset.sum_congr rfl fun j hj => ?_
  exact (hF i (Finset.mem_range.mp hi) j (Finset.mem_range.mp hj)).2.2.2 a b

/-- **C98.** With mode 'rfft2', the default, the columns `0 … w/2` of the same. -/
theorem C98_half (window : Arr2 ℝ) (sigma : ℝ) (light navg : Nat) (dtype : FrameDtype) (r : ℤ) (hd : dtype ≠ .other)
    (hl : light < 2 ^ dtype.bits) (hn : 1 ≤ navg) (hr : Nearest (3 * sigma) r) (hr0 : 0 ≤ r) (hH : 2 * r + 1 ≤ window.h)
    (hW : 2 * r + 1 ≤ window.w) :
    ∃ out, formFactor window sigma light navg dtype "rfft2" = .ok out ∧ out.h = window.h ∧ out.w = window.w / 2 + 1 ∧
      ∀ (a : Int) (b : Nat), b ≤ window.w / 2 → out.get (wrap window.h a) b = Real.sqrt (meshMean navg fun i j =>
        power (psfSeen window r light sigma (i * window.h / navg) (j * window.w / navg)) a b) := by
  have key := fun i (hi : i < navg) j (hj : j < navg) =>
    (formFactorTerm_ok dtype.bits window sigma light navg i j r hr hr0 hH hW hl hi hj).2
  haveI : Nonempty (Arr2 ℝ) := ⟨noWindow 0 0⟩
  choose! F hF using key
  refine ⟨_, formFactor_run window sigma light navg dtype "rfft2" hd hl hn (fun q => F q.1 q.2) window.h (window.w / 2 + 1)
    (fun i hi j hj => ⟨(hF i hi j hj).1, (hF i hi j hj).2.1, (hF i hi j hj).2.2.1⟩), rfl, rfl, fun a b hb => ?_⟩
  dsimp only
  unfold meshMean
  congr 2
  refine Finset.sum_congr rfl fun i hi => Finset.sum_congr rfl fun j hj => ?_
  exact (hF i (Finset.mem_range.mp hi) j (Finset.mem_range.mp hj)).2.2.2 a b hb

/-- The mean of a constant. -/
theorem meshMean_const {n : Nat} (hn : 1 ≤ n) (c : ℝ) : meshMean n (fun _ _ => c) = c := by
  unfold meshMean
  simp only [Finset.sum_const, Finset.card_range, nsmul_eq_mul]
  have : (n : ℝ) ≠ 0 := by
    have : n ≠ 0 := by omega
    exact_mod_cast this
  field_simp

/-- The power of a particle moved by whole pixels, seen without a window. -/
theorem power_moved {H W : Nat} (hH : 0 < H) (hW : 0 < W) (r : ℤ) (light : Nat) (sigma y x : ℝ) (m n : ℤ) (a b : Int) :
    power (psfSeen (noWindow H W) r light sigma (y + m) (x + n)) a b = power (psfSeen (noWindow H W) r light sigma y x) a b := by
  have := fourierAt_moved hH hW r light sigma y x m n 1 a b
  unfold power psfSeen noWindow
  dsimp only
  rw [this, cx_norm_mul, planeWave_norm, mul_one]

/-- **C98, without a window.** If the mesh is made of whole pixels, the form factor is the absolute value of the transform of one
particle, wherever it is drawn. -/
theorem C98_no_window (h w : Nat) (sigma : ℝ) (light navg : Nat) (dtype : FrameDtype) (r : ℤ) (hd : dtype ≠ .other)
    (hl : light < 2 ^ dtype.bits) (hn : 1 ≤ navg) (hr : Nearest (3 * sigma) r) (hr0 : 0 ≤ r) (hH : 2 * r + 1 ≤ h)
    (hW : 2 * r + 1 ≤ w) (hnh : navg ∣ h) (hnw : navg ∣ w) :
    ∃ out, formFactor (noWindow h w) sigma light navg dtype "rfft2" = .ok out ∧
      ∀ (m n a : Int) (b : Nat), b ≤ w / 2 → out.get (wrap h a) b =
        Real.sqrt (power (psfSeen (noWindow h w) r light sigma m n) a b) := by
  obtain ⟨out, e, -, -, e3⟩ := C98_half (noWindow h w) sigma light navg dtype r hd hl hn hr hr0 hH hW
  refine ⟨out, e, fun m n a b hb => ?_⟩
  rw [show out.get (wrap h a) b = _ from e3 a b hb]
  congr 1
  rw [← meshMean_const hn (power (psfSeen (noWindow h w) r light sigma m n) a b)]
  congr 1
  funext i j
  have h0 : (navg : ℝ) ≠ 0 := by
    have : navg ≠ 0 := by omega
    exact_mod_cast this
  have hz := fun m n : Int => power_moved (show 0 < h by omega) (show 0 < w by omega) r light sigma 0 0 m n a b
  simp only [zero_add] at hz
  obtain ⟨c, rfl⟩ := hnh
  obtain ⟨d, rfl⟩ := hnw
  rw [hz m n, ← hz ((i * c : Nat) : Int) ((j * d : Nat) : Int)]
  congr 2
  · simp only [noWindow]
    push_cast
    field_simp
  · simp only [noWindow]
    push_cast
    field_simp

/-- **C98, frames.** A frame of particles of one kind at whole-pixel distances: its component is the one of a single particle times
the field scattered by points, so its power is the squared form factor times the power of the field. -/
theorem C98_frame (bits h w : Nat) (sigma : ℝ) (light : Nat) (r : ℤ) (hr : Nearest (3 * sigma) r)
    (hH : r ≤ h) (hW : r ≤ w) (pts : List (ℤ × ℤ)) (hne : pts ≠ []) (hp : ∀ p ∈ pts, InBox (h, w) ((p.1 : ℝ), (p.2 : ℝ)))
    (hov : ∀ i j : Nat, i < h → j < w → (pts.map fun p => lightAt (h, w) r light sigma p.1 p.2 i j).sum < 2 ^ bits) :
    ∃ im, drawPsf bits (zeroImage h w) (pts.map fun p => ((p.1 : ℝ), (p.2 : ℝ))) (List.replicate pts.length light)
        (List.replicate pts.length sigma) = .ok im ∧
      ∀ a b : Int, fourierAt ⟨h, w, fun i j => ⟨(im.get i j : ℝ), 0⟩⟩ a b =
        fourierAt (psfSeen (noWindow h w) r light sigma 0 0) a b * (pts.map fun p => planeWave h w a b p.1 p.2).sum := by
  obtain ⟨p0, hp0⟩ := List.exists_mem_of_ne_nil _ hne
  have hpos : 0 < h ∧ 0 < w := by
    obtain ⟨⟨a1, a2⟩, a3, a4⟩ := hp p0 hp0
    constructor
    · have : (0 : ℝ) < h := lt_of_le_of_lt a1 a2
      exact_mod_cast this
    · have : (0 : ℝ) < w := lt_of_le_of_lt a3 a4
      exact_mod_cast this
  obtain ⟨im, e, e1, e2, e3⟩ := C54_draw_psf bits (zeroImage h w) (pts.map fun p => (((p.1 : ℝ), (p.2 : ℝ)), light, sigma)) sigma r
    (by
      intro q hq
      obtain ⟨p, hp', rfl⟩ := List.mem_map.mp hq
      exact hp p hp')
    (by
      intro q hq
      obtain ⟨p, hp', rfl⟩ := List.mem_map.mp hq
      exact le_refl _) ⟨_, List.mem_map_of_mem hp0, rfl⟩ hr hH hW (by intros; simp [zeroImage])
  simp only [List.map_map, Function.comp_def, List.map_const'] at e e3
  refine ⟨im, e, fun a b => ?_⟩
  have hlight : ∀ i j : Nat, i < h → j < w → (im.get i j : ℝ) = (pts.map fun p => (lightAt (h, w) r light sigma p.1 p.2 i j : ℝ)).sum := by
    intro i j hi hj
    rw [e3 i j hi hj]
    have := hov i j hi hj
    simp only [zeroImage, Nat.zero_add]
    rw [Nat.mod_eq_of_lt this, Nat.cast_list_sum, List.map_map]
    rfl
  have hlin : ∀ l : List (ℤ × ℤ), fourierAt ⟨h, w, fun i j => ⟨(l.map fun p => (lightAt (h, w) r light sigma p.1 p.2 i j : ℝ)).sum, 0⟩⟩ a b =
      fourierAt (psfSeen (noWindow h w) r light sigma 0 0) a b * (l.map fun p => planeWave h w a b p.1 p.2).sum := by
    intro l
    induction l with
    | nil =>
      unfold fourierAt
      simp only [List.map_nil, List.sum_nil, mul_zero]
      refine Finset.sum_eq_zero fun p _ => Finset.sum_eq_zero fun q _ => ?_
      exact zero_mul _
    | cons p l ih =>
      simp only [List.map_cons, List.sum_cons, mul_add]
      rw [← ih]
      have hm := fourierAt_moved hpos.1 hpos.2 r light sigma 0 0 p.1 p.2 1 a b
      simp only [zero_add] at hm
      rw [show psfSeen (noWindow h w) r light sigma 0 0 =
        ⟨h, w, fun i j => ⟨lightAt (h, w) r light sigma 0 0 i j * 1, 0⟩⟩ from rfl, ← hm]
      unfold fourierAt
      dsimp only
      rw [← Finset.sum_add_distrib]
      refine Finset.sum_congr rfl fun i _ => ?_
      rw [← Finset.sum_add_distrib]
      refine Finset.sum_congr rfl fun j _ => ?_
      rw [← add_mul, mul_one]
      congr 1
      ext
      · rfl
      · exact (add_zero (0 : ℝ)).symm
  rw [← hlin]
  unfold fourierAt
  dsimp only
  refine Finset.sum_congr rfl fun i hi => Finset.sum_congr rfl fun j hj => ?_
  rw [hlight i j (Finset.mem_range.mp hi) (Finset.mem_range.mp hj)]

/-! ### Errors -/

/-- **C98, errors.** No mesh: ZeroDivisionError; an unknown mode, a wrong dtype or a wrong intensity: ValueError. -/
theorem C98_errors (window : Arr2 ℝ) (sigma : ℝ) (light navg : Nat) (dtype : FrameDtype) (r : ℤ) (mode : String)
    (hl : light < 2 ^ dtype.bits) (hr : Nearest (3 * sigma) r) (hr0 : 0 ≤ r) (hH : 2 * r + 1 ≤ window.h)
    (hW : 2 * r + 1 ≤ window.w) (hd : dtype ≠ .other) :
    formFactor window sigma light 0 dtype mode = .error .zeroDivisionError ∧
    (1 ≤ navg → mode ≠ "rfft2" → mode ≠ "fft2" → formFactor window sigma light navg dtype mode = .error .valueError) ∧
    (∀ intensity : Int, formFactor window sigma intensity navg .other mode = .error .valueError) ∧
    (∀ intensity : Int, intensity < 0 ∨ 255 < intensity → formFactor window sigma intensity navg .uint8 mode = .error .valueError) ∧
    ∀ intensity : Int, intensity < 0 → formFactor window sigma intensity navg .uint16 mode = .error .valueError := by
  have hi : inspectFrameDtype dtype light = .ok dtype := by
    unfold inspectFrameDtype
    rw [if_neg hd, if_neg]
    cases dtype with
    | uint8 => simp only [FrameDtype.bits] at hl; omega
    | uint16 => simp
    | other => exact absurd rfl hd
  refine ⟨?_, ?_, ?_, ?_, ?_⟩
  · unfold formFactor
    rw [hi]
    show (if (light : Int) ≥ 2 ^ dtype.bits then _ else _ : Py (Arr2 ℝ)) = _
    rw [if_neg (by push Not; exact_mod_cast hl)]
    rfl
  · intro hn m1 m2
    unfold formFactor
    rw [hi]
    show (if (light : Int) ≥ 2 ^ dtype.bits then _ else _ : Py (Arr2 ℝ)) = _
    rw [if_neg (by push Not; exact_mod_cast hl), Int.toNat_natCast]
    obtain ⟨k, rfl⟩ : ∃ k, navg = k + 1 := ⟨navg - 1, by omega⟩
    have hbad : formFactorTerm dtype.bits window sigma light (k + 1) mode 0 0 = .error .valueError := by
      obtain ⟨o, e, -⟩ := (formFactorTerm_ok dtype.bits window sigma light (k + 1) 0 0 r hr hr0 hH hW hl (by omega) (by omega)).1
      unfold formFactorTerm at e ⊢
      cases hdr : drawPsf dtype.bits ⟨window.h, window.w, fun _ _ => 0⟩
        [(((0 * window.h : Nat) : ℝ) * 1 / ((k + 1 : Nat) : ℝ), ((0 * window.w : Nat) : ℝ) * 1 / ((k + 1 : Nat) : ℝ))] [light] [sigma] with
      | error er => rw [hdr] at e; cases e
      | ok im =>
        show Except.bind (formFactorTransform mode _) _ = _
        unfold formFactorTransform
        rw [if_neg m1, if_neg m2]
        rfl
    have hL : ∃ L, (List.range (k + 1) ×ˢ List.range (k + 1)) = (0, 0) :: L := by
      rw [List.range_succ_eq_map]
      exact ⟨_, rfl⟩
    obtain ⟨L, hL⟩ := hL
    rw [hL, List.foldlM_cons]
    dsimp only
    rw [hbad]
    rfl
  · intro intensity
    rfl
  · intro intensity h
    unfold formFactor inspectFrameDtype
    rw [if_neg (by simp), if_pos (by simp; omega)]
    rfl
  · intro intensity h
    unfold formFactor inspectFrameDtype
    rw [if_neg (by simp), if_pos (by simp; omega)]
    rfl

/-! ### The average absolute value -/

/-- The mean of roots is at most the root of the mean. -/
theorem meshMean_sqrt_le {n : Nat} (hn : 1 ≤ n) (f : Nat → Nat → ℝ) (hf : ∀ i j, 0 ≤ f i j) :
    meshMean n (fun i j => Real.sqrt (f i j)) ≤ Real.sqrt (meshMean n f) := by
  have hpos : (0 : ℝ) < (n : ℝ) ^ 2 := by
    have : (0 : ℝ) < n := by exact_mod_cast hn
    positivity
  refine Real.le_sqrt_of_sq_le ?_
  unfold meshMean
  rw [div_pow, div_le_div_iff₀ (by positivity) hpos]
  rw [← Finset.sum_product', ← Finset.sum_product']
  have := sq_sum_le_card_mul_sum_sq (s := Finset.range n ×ˢ Finset.range n) (f := fun p => Real.sqrt (f p.1 p.2))
  simp only [Real.sq_sqrt (hf _ _), Finset.card_product, Finset.card_range, Nat.cast_mul] at this
  nlinarith

/-- **C99, what holds.** The form factor is at least the average absolute value; without a window and with a mesh of whole pixels they
are the same. -/
theorem C99_average_partial (window : Arr2 ℝ) (sigma : ℝ) (light navg : Nat) (dtype : FrameDtype) (r : ℤ) (hd : dtype ≠ .other)
    (hl : light < 2 ^ dtype.bits) (hn : 1 ≤ navg) (hr : Nearest (3 * sigma) r) (hr0 : 0 ≤ r) (hH : 2 * r + 1 ≤ window.h)
    (hW : 2 * r + 1 ≤ window.w) :
    ∃ out, formFactor window sigma light navg dtype "rfft2" = .ok out ∧
      (∀ (a : Int) (b : Nat), b ≤ window.w / 2 → meshMean navg (fun i j => Real.sqrt (power
        (psfSeen window r light sigma (i * window.h / navg) (j * window.w / navg)) a b)) ≤ out.get (wrap window.h a) b) ∧
      ((∀ p q, window.get p q = 1) → navg ∣ window.h → navg ∣ window.w → ∀ (a : Int) (b : Nat), b ≤ window.w / 2 →
        out.get (wrap window.h a) b = meshMean navg (fun i j => Real.sqrt (power
          (psfSeen window r light sigma (i * window.h / navg) (j * window.w / navg)) a b))) := by
  obtain ⟨out, e, -, -, e3⟩ := C98_half window sigma light navg dtype r hd hl hn hr hr0 hH hW
  refine ⟨out, e, fun a b hb => ?_, fun h1 hnh hnw a b hb => ?_⟩
  · rw [e3 a b hb]
    exact meshMean_sqrt_le hn _ fun i j => by unfold power; positivity
  · have hw : window = noWindow window.h window.w := by
      obtain ⟨h, w, g⟩ := window
      unfold noWindow
      congr 1
      funext p q
      exact h1 p q
    obtain ⟨h, w, g⟩ := window
    dsimp only at *
    rw [hw] at e ⊢
    obtain ⟨out', e', e4⟩ := C98_no_window h w sigma light navg dtype r hd hl hn hr hr0 hH hW hnh hnw
    rw [e] at e'
    cases e'
    rw [e4 0 0 a b hb]
    have hk : ∀ i j : Nat, power (psfSeen (noWindow h w) r light sigma (i * h / navg) (j * w / navg)) a b =
        power (psfSeen (noWindow h w) r light sigma ((0 : Int) : ℝ) ((0 : Int) : ℝ)) a b := by
      intro i j
      have h0 : (navg : ℝ) ≠ 0 := by
        have : navg ≠ 0 := by omega
        exact_mod_cast this
      have hz := fun m n : Int => power_moved (show 0 < h by omega) (show 0 < w by omega) r light sigma 0 0 m n a b
      simp only [zero_add] at hz
      obtain ⟨c, rfl⟩ := hnh
      obtain ⟨d, rfl⟩ := hnw
      rw [hz 0 0, ← hz ((i * c : Nat) : Int) ((j * d : Nat) : Int)]
      congr 2
      · push_cast
        field_simp
      · push_cast
        field_simp
    simp only [hk]
    rw [meshMean_const hn]

/-- The light in a frame of one pixel. -/
theorem onePixel_light (y x : ℝ) (hy : ⌊y⌋ = 0) (hx : ⌊x⌋ = 0) :
    lightAt (1, 1) 0 1 (1 / 6) y x 0 0 = if y = 1 / 2 ∧ x = 1 / 2 then 1 else 0 := by
  unfold lightAt
  rw [hy, hx]
  simp only [sub_zero, add_zero, Finset.Icc_self, Finset.sum_singleton]
  rw [if_pos ⟨by rfl, by rfl⟩]
  unfold pixelLight
  split_ifs with h
  · rw [h.1, h.2]; norm_num
  · rw [Nat.floor_eq_zero]
    simp only [Nat.cast_one, one_mul, Int.cast_zero, zero_add]
    rw [Real.exp_lt_one_iff, neg_lt_zero]
    have : 0 < (1 / 2 - y) ^ 2 + (1 / 2 - x) ^ 2 := by
      by_contra hc
      push Not at hc
      refine h ⟨?_, ?_⟩
      · have : (1 / 2 - y) ^ 2 = 0 := le_antisymm (by nlinarith [sq_nonneg (1 / 2 - x)]) (sq_nonneg _)
        linarith [pow_eq_zero_iff (two_ne_zero) |>.mp this]
      · have : (1 / 2 - x) ^ 2 = 0 := le_antisymm (by nlinarith [sq_nonneg (1 / 2 - y)]) (sq_nonneg _)
        linarith [pow_eq_zero_iff (two_ne_zero) |>.mp this]
    positivity

theorem onePixel_power (y x : ℝ) (hy : ⌊y⌋ = 0) (hx : ⌊x⌋ = 0) :
    power (psfSeen (noWindow 1 1) 0 1 (1 / 6) y x) 0 0 = if y = 1 / 2 ∧ x = 1 / 2 then 1 else 0 := by
  unfold power fourierAt psfSeen noWindow
  simp only [Finset.sum_range_one]
  rw [onePixel_light y x hy hx]
  have hp : planeWave 1 1 0 0 ((0 : Nat) : Int) ((0 : Nat) : Int) = 1 := planeWave_zero ..
  rw [hp, mul_one]
  split_ifs <;> simp

/-- **C99 is false of the code**: a particle on a mesh of four points in a frame of one pixel; the average absolute value is 1/4,
`form_factor` gives 1/2. -/
theorem C99_refuted : ∃ out, formFactor (noWindow 1 1) (1 / 6) ((1 : Nat) : Int) 2 .uint8 "rfft2" = .ok out ∧ out.get 0 0 = 1 / 2 ∧
    meshMean 2 (fun i j => Real.sqrt (power (psfSeen (noWindow 1 1) 0 1 (1 / 6) (i * (1 : Nat) / (2 : Nat)) (j * (1 : Nat) / (2 : Nat))) 0 0)) = 1 / 4 := by
  have hr : Nearest (3 * (1 / 6)) 0 := by right; norm_num [abs_of_pos]
  obtain ⟨out, e, -, -, e3⟩ := C98_half (noWindow 1 1) (1 / 6) 1 2 .uint8 0 (by simp) (by simp [FrameDtype.bits]) (by omega) hr
    (by omega) (by simp [noWindow]) (by simp [noWindow])
  have f0 : ⌊(0 : ℝ)⌋ = 0 := Int.floor_zero
  have f1 : ⌊(1 / 2 : ℝ)⌋ = 0 := by norm_num
  have p00 := onePixel_power 0 0 f0 f0
  have p01 := onePixel_power 0 (1 / 2) f0 f1
  have p10 := onePixel_power (1 / 2) 0 f1 f0
  have p11 := onePixel_power (1 / 2) (1 / 2) f1 f1
  norm_num at p00 p01 p10 p11
  have e4 := e3 0 0 (by simp)
  refine ⟨out, e, ?_, ?_⟩
  · rw [show wrap (noWindow 1 1).h 0 = 0 from rfl] at e4
    rw [e4]
    unfold meshMean
    simp only [Finset.sum_range_succ, Finset.sum_range_zero]
    norm_num [noWindow] at p00 p01 p10 p11 ⊢
    rw [p00, p01, p10, p11]
    norm_num
    rw [show (4 : ℝ) = 2 ^ 2 by norm_num, Real.sqrt_sq (by norm_num), one_div]
  · unfold meshMean
    simp only [Finset.sum_range_succ, Finset.sum_range_zero]
    norm_num
    rw [p00, p01, p10, p11]
    norm_num

/-! ### Examples -/

/-- A particle of sigma 1 in a frame of 8 times 12 pixels, a mesh of four points. -/
example : ∃ out, formFactor (noWindow 8 12) 1 ((200 : Nat) : Int) 2 .uint8 "rfft2" = .ok out ∧
    ∀ (m n a : Int) (b : Nat), b ≤ 12 / 2 → out.get (wrap 8 a) b = Real.sqrt (power (psfSeen (noWindow 8 12) 3 200 1 m n) a b) :=
  C98_no_window 8 12 1 200 2 .uint8 3 (by simp) (by simp [FrameDtype.bits]) (by omega) (by left; norm_num) (by omega) (by norm_num)
    (by norm_num) (by omega) (by omega)

/-- Two particles that overlap. -/
example : ∃ im, drawPsf 16 (zeroImage 8 12) [(((2 : ℤ) : ℝ), ((3 : ℤ) : ℝ)), (((2 : ℤ) : ℝ), ((4 : ℤ) : ℝ))] [200, 200] [1, 1] = .ok im ∧
    ∀ a b : Int, fourierAt ⟨8, 12, fun i j => ⟨(im.get i j : ℝ), 0⟩⟩ a b =
      fourierAt (psfSeen (noWindow 8 12) 3 200 1 0 0) a b * ([(2, 3), (2, 4)].map fun p : ℤ × ℤ => planeWave 8 12 a b p.1 p.2).sum :=
  C98_frame 16 8 12 1 200 3 (by left; norm_num) (by norm_num) (by norm_num) [(2, 3), (2, 4)] (by simp)
    (by intro p hp; simp at hp; rcases hp with rfl | rfl <;> unfold InBox <;> norm_num)
    (by
      intro i j _ _
      have := fun y x : ℝ => lightAt_le (H := 8) (W := 12) (r := 3) (by norm_num) (by norm_num) 200 1 y x i j
      simp only [List.map_cons, List.map_nil, List.sum_cons, List.sum_nil]
      have h1 := this ((2 : ℤ) : ℝ) ((3 : ℤ) : ℝ)
      have h2 := this ((2 : ℤ) : ℝ) ((4 : ℤ) : ℝ)
      omega)

end Cddm
