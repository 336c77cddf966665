import Verif.Spec.NormRound
import Verif.Lemmas.RoundingSum
import Verif.Lemmas.Norm
import Mathlib.Tactic.FieldSimp

/-! # Lemmas: rounding in normalization, one cell -/

namespace Cddm
open Spec

section near
variable {rnd : ℝ → ℝ} {u B : ℝ}

theorem Near.addTo (hr : Rounds rnd u) {m l k : Nat} {x' x X y' y Y : ℝ} (h : Near u m x' x X) (h' : Near u l y' y Y)
    (hm : m < k) (hl : l < k) : Near u k (rnd (x' + y')) (x + y) (X + Y) := by
  obtain ⟨k, rfl⟩ : ∃ j, k = j + 1 := ⟨k - 1, by omega⟩
  exact ((h.mono hr.1 (by omega)).add (h'.mono hr.1 (by omega))).round hr

theorem Near.subTo (hr : Rounds rnd u) {m l k : Nat} {x' x X y' y Y : ℝ} (h : Near u m x' x X) (h' : Near u l y' y Y)
    (hm : m < k) (hl : l < k) : Near u k (rnd (x' - y')) (x - y) (X + Y) := by
  obtain ⟨k, rfl⟩ : ∃ j, k = j + 1 := ⟨k - 1, by omega⟩
  exact ((h.mono hr.1 (by omega)).sub (h'.mono hr.1 (by omega))).round hr

theorem Near.mulTo (hr : Rounds rnd u) {m l k : Nat} {x' x X y' y Y : ℝ} (h : Near u m x' x X) (h' : Near u l y' y Y)
    (hm : m + l < k) : Near u k (rnd (x' * y')) (x * y) (X * Y) := by
  obtain ⟨k, rfl⟩ : ∃ j, k = j + 1 := ⟨k - 1, by omega⟩
  exact ((Near.mul hr.1 h h').mono hr.1 (by omega)).round hr

theorem Near.scaleTo (hr : Rounds rnd u) {m k : Nat} {x' x X c : ℝ} (hc : 0 ≤ c) (h : Near u m x' x X) (hm : m < k) :
    Near u k (rnd (c * x')) (c * x) (c * X) := by
  have := Near.mulTo hr (Near.refl c) h (k := k) (by omega)
  rwa [abs_of_nonneg hc] at this

theorem Near.divTo (hr : Rounds rnd u) {m k : Nat} {x' x X c : ℝ} (hc : 0 ≤ c) (h : Near u m x' x X) (hm : m < k) :
    Near u k (rnd (x' / c)) (x / c) (X / c) := by
  have := Near.scaleTo hr (inv_nonneg.mpr hc) h hm
  simpa only [div_eq_inv_mul] using this

theorem Near.congr {m : Nat} {x' x X y Y : ℝ} (h : Near u m x' x X) (hx : x = y) (hX : X = Y) : Near u m x' y Y := by
  subst hx hX
  exact h

theorem Near.sumTo {α β : Type} {m : Nat} (P : List (α × β)) {g' g G : α → β → ℝ} (h : ∀ a b, Near u m (g' a b) (g a b) (G a b)) :
    Near u m (total g' P) (total g P) (total G P) := by
  induction P with
  | nil => simp [Near]
  | cons p P ih =>
    simp only [total_cons]
    exact (h _ _).add ih

theorem Near.trans {m l : Nat} {x' x X y Y : ℝ} (hu : 0 ≤ u) (h : Near u m x' x X) (h' : Near u l x y Y)
    (hX : X ≤ (1 + u) ^ l * Y) : Near u (m + l) x' y Y := by
  refine ⟨h'.1, ?_⟩
  have h1 : (1 : ℝ) ≤ (1 + u) ^ m := one_le_pow₀ (by linarith)
  have h2 : |x' - y| ≤ |x' - x| + |x - y| := abs_sub_le _ _ _
  have h3 : ((1 + u) ^ m - 1) * X ≤ ((1 + u) ^ m - 1) * ((1 + u) ^ l * Y) := mul_le_mul_of_nonneg_left hX (by linarith)
  have e : ((1 + u) ^ (m + l) - 1) * Y = ((1 + u) ^ m - 1) * ((1 + u) ^ l * Y) + ((1 + u) ^ l - 1) * Y := by
    rw [pow_add]; ring
  linarith [h.2, h'.2]

theorem flConst_val (hk : KeepsHalves rnd B) {x : ℝ} (m : ℤ) (hm : x = m / 2) (hx : |x| ≤ B) : (flConst rnd x).val = x := by
  subst hm
  exact hk m hx

end near

section cell
variable {rnd : ℝ → ℝ} {u B : ℝ} {P : List (Cx ℝ × Cx ℝ)} {c q : Fl rnd} {m1 m2 : Cx (Fl rnd)}

/-- The machine's sums for one delay and how close they are to the sums over the pairs. -/
structure CellNear (u : ℝ) (P : List (Cx ℝ × Cx ℝ)) (z : Int) (c q : Fl rnd) (m1 m2 : Cx (Fl rnd)) : Prop where
  cor : Near u (P.length + 2) c.val (total reProd P) (total absProd P)
  sq : (z = 2 ∨ z = 6 ∨ z = 10 ∨ z = 14) →
    Near u (2 * P.length + 2) q.val (total (fun a b => a.abs2 + b.abs2) P) (total (fun a b => a.abs2 + b.abs2) P)
  re1 : z ≠ 1 → z ≠ 2 → Near u P.length m1.re.val (total (fun a _ => a.re) P) (total (fun a _ => |a.re|) P)
  im1 : z ≠ 1 → z ≠ 2 → Near u P.length m1.im.val (total (fun a _ => a.im) P) (total (fun a _ => |a.im|) P)
  re2 : z ≠ 1 → z ≠ 2 → Near u P.length m2.re.val (total (fun _ b => b.re) P) (total (fun _ b => |b.re|) P)
  im2 : z ≠ 1 → z ≠ 2 → Near u P.length m2.im.val (total (fun _ b => b.im) P) (total (fun _ b => |b.im|) P)

theorem divCountFl_near (hr : Rounds rnd u) (hk : KeepsHalves rnd B) (h0 : P ≠ []) (hB : (P.length : ℝ) ≤ B) {x : Fl rnd} {m k : Nat}
    {e E : ℝ} (h : Near u m x.val e E) (hm : m < k) :
    ∃ y, divCountFl x P.length = some y ∧ Near u k y.val (e / P.length) (E / P.length) := by
  refine ⟨_, if_neg (by simpa using h0), ?_⟩
  show Near u k (rnd (x.val / (flConst rnd (P.length : ℝ)).val)) _ _
  rw [flConst_val hk (2 * P.length) (by push_cast; ring) (by rw [abs_of_nonneg (by positivity)]; exact hB)]
  exact Near.divTo hr (by positivity) h hm

theorem half_near (hr : Rounds rnd u) (hk : KeepsHalves rnd B) (h2 : 2 ≤ B) {x : Fl rnd} {m k : Nat} {e E : ℝ}
    (h : Near u m x.val e E) (hm : m < k) :
    Near u k (flConst rnd (1 / 2) * x).val ((1 / 2) * e) ((1 / 2) * E) := by
  show Near u k (rnd ((flConst rnd (1 / 2)).val * x.val)) _ _
  rw [flConst_val hk 1 (by norm_num) (by rw [abs_of_nonneg (by norm_num)]; linarith)]
  exact Near.scaleTo hr (by norm_num) h hm

theorem offset_near (hr : Rounds rnd u) (hk : KeepsHalves rnd B) (h2 : 2 ≤ B) (v1 v2 : Fl rnd) :
    Near u 2 (offsetFl v1 v2).val ((v1.val + v2.val) / 2) ((|v1.val| + |v2.val|) / 2) := by
  show Near u 2 (rnd (rnd (v1.val + v2.val) / (flConst rnd 2).val)) _ _
  rw [flConst_val hk 4 (by norm_num) (by rw [abs_of_nonneg (by norm_num)]; linarith)]
  exact Near.divTo hr (by norm_num) (Near.addTo hr (Near.refl _) (Near.refl _) (by omega) (by omega) (k := 1)) (by omega)

/-- Half the squared distance of the backgrounds. -/
theorem bgDist_near (hr : Rounds rnd u) (hk : KeepsHalves rnd B) (h2 : 2 ≤ B) (b1 b2 : Cx (Fl rnd)) :
    Near u 5 (flConst rnd (1 / 2) * ((b1.re - b2.re) * (b1.re - b2.re) + (b1.im - b2.im) * (b1.im - b2.im))).val
      ((1 / 2) * dist2 (exact b1) (exact b2)) ((1 / 2) * absDist (exact b1) (exact b2)) := by
  have hre : Near u 1 (b1.re - b2.re).val (b1.re.val - b2.re.val) (|b1.re.val| + |b2.re.val|) :=
    Near.subTo hr (Near.refl _) (Near.refl _) (by omega) (by omega)
  have him : Near u 1 (b1.im - b2.im).val (b1.im.val - b2.im.val) (|b1.im.val| + |b2.im.val|) :=
    Near.subTo hr (Near.refl _) (Near.refl _) (by omega) (by omega)
  have h := Near.addTo hr (Near.mulTo hr hre hre (k := 3) (by omega)) (Near.mulTo hr him him (k := 3) (by omega)) (k := 4)
    (by omega) (by omega)
  refine half_near hr hk h2 (Near.congr h ?_ ?_) (by omega)
  · simp only [dist2, Cx.abs2, Cx.sub_re, Cx.sub_im, exact]; ring
  · simp only [absDist, exact]; ring

theorem bgProd_near (hr : Rounds rnd u) (b1 b2 : Cx (Fl rnd)) :
    Near u 2 (b1.re * b2.re + b1.im * b2.im).val (reProd (exact b1) (exact b2)) (absProd (exact b1) (exact b2)) := by
  have h := Near.addTo hr (Near.mulTo hr (Near.refl b1.re.val) (Near.refl b2.re.val) (k := 1) (by omega))
    (Near.mulTo hr (Near.refl b1.im.val) (Near.refl b2.im.val) (k := 1) (by omega)) (k := 2) (by omega) (by omega)
  refine Near.congr h ?_ ?_
  · rw [reProd_dot]; rfl
  · simp only [absProd, exact, abs_mul]

theorem cell_baselineFl (hr : Rounds rnd u) (hk : KeepsHalves rnd B) (h0 : P ≠ []) (hB : (P.length : ℝ) ≤ B)
    (h : CellNear u P 1 c q m1 m2) (b1 b2 : Cx (Fl rnd)) :
    ∃ y, corrBaselineFl c P.length b1 b2 = some y ∧ Near u (P.length + 4) y.val (mean reProd P - reProd (exact b1) (exact b2))
      (mean absProd P + absProd (exact b1) (exact b2)) := by
  obtain ⟨x, hx, h1⟩ := divCountFl_near hr hk h0 hB h.cor (k := P.length + 3) (by omega)
  refine ⟨_, by rw [corrBaselineFl, hx]; rfl, ?_⟩
  refine Near.congr (Near.subTo hr h1 (bgProd_near hr b1 b2) (by omega) (by omega)) ?_ ?_
  · simp only [mean, smul_eq_mul]; ring
  · simp only [mean, smul_eq_mul]; ring

theorem total_absDist (P : List (Cx ℝ × Cx ℝ)) :
    total absDist P = total (fun a b => a.abs2 + b.abs2) P + 2 * total absProd P := by
  induction P with
  | nil => simp
  | cons p P ih =>
    simp only [total_cons, ih, absDist, absProd, Cx.abs2, abs_mul]
    linear_combination abs_mul_abs_self p.1.re + abs_mul_abs_self p.1.im + abs_mul_abs_self p.2.re + abs_mul_abs_self p.2.im

theorem total_absProd_shift (P : List (Cx ℝ × Cx ℝ)) (b1 b2 : Cx ℝ) :
    total (fun a b => absProd (moduli a + moduli b1) (moduli b + moduli b2)) P = total absProd P
      + |b1.re| * total (fun _ b => |b.re|) P + |b1.im| * total (fun _ b => |b.im|) P
      + |b2.re| * total (fun a _ => |a.re|) P + |b2.im| * total (fun a _ => |a.im|) P + P.length * absProd b1 b2 := by
  have e : ∀ x y : ℝ, |(|x| + |y|)| = |x| + |y| := fun x y => abs_of_nonneg (by positivity)
  induction P with
  | nil => simp
  | cons p P ih =>
    simp only [total_cons]
    rw [ih]
    simp only [absProd, moduli, Cx.add_re, Cx.add_im, abs_mul, e, List.length_cons]
    push_cast
    ring

theorem total_absDist_shift (P : List (Cx ℝ × Cx ℝ)) (b1 b2 : Cx ℝ) :
    total (fun a b => absDist (moduli a + moduli b1) (moduli b + moduli b2)) P = total absDist P
      + 2 * ((total (fun a _ => |a.re|) P + total (fun _ b => |b.re|) P) * (|b1.re| + |b2.re|)
        + (total (fun a _ => |a.im|) P + total (fun _ b => |b.im|) P) * (|b1.im| + |b2.im|)) + P.length * absDist b1 b2 := by
  have e : ∀ x y : ℝ, |(|x| + |y|)| = |x| + |y| := fun x y => abs_of_nonneg (by positivity)
  induction P with
  | nil => simp
  | cons p P ih =>
    simp only [total_cons]
    rw [ih]
    simp only [absDist, moduli, Cx.add_re, Cx.add_im, e, List.length_cons]
    push_cast
    ring

theorem total_moduli_fst (P : List (Cx ℝ × Cx ℝ)) :
    total (fun a _ => moduli a) P = ⟨total (fun a _ => |a.re|) P, total (fun a _ => |a.im|) P⟩ := by
  induction P with
  | nil => rfl
  | cons p P ih => simp only [total_cons, ih]; rfl

theorem total_moduli_snd (P : List (Cx ℝ × Cx ℝ)) :
    total (fun _ b => moduli b) P = ⟨total (fun _ b => |b.re|) P, total (fun _ b => |b.im|) P⟩ := by
  induction P with
  | nil => rfl
  | cons p P ih => simp only [total_cons, ih]; rfl

theorem cell_structBaselineFl (hr : Rounds rnd u) (hk : KeepsHalves rnd B) (h2 : 2 ≤ B) (h0 : P ≠ []) (hB : (P.length : ℝ) ≤ B)
    (h : CellNear u P 2 c q m1 m2) (b1 b2 : Cx (Fl rnd)) {v : Fl rnd} {w W : ℝ} (hv : Near u 2 v.val w W) :
    ∃ y, structBaselineFl c P.length b1 b2 v q = some y
      ∧ Near u (2 * P.length + 7) y.val (w - (1 / 2) * mean dist2 P + (1 / 2) * dist2 (exact b1) (exact b2))
        (W + (1 / 2) * mean absDist P + (1 / 2) * absDist (exact b1) (exact b2)) := by
  have g1 := half_near hr hk h2 (h.sq (by norm_num)) (k := 2 * P.length + 3) (by omega)
  have g2 : Near u (2 * P.length + 4) (c - flConst rnd (1 / 2) * q).val _ _ := Near.subTo hr h.cor g1 (by omega) (by omega)
  obtain ⟨x, hx, g3⟩ := divCountFl_near hr hk h0 hB g2 (k := 2 * P.length + 5) (by omega)
  refine ⟨_, by rw [structBaselineFl, hx]; rfl, ?_⟩
  refine Near.congr (Near.addTo hr (Near.addTo hr g3 (bgDist_near hr hk h2 b1 b2) (k := 2 * P.length + 6) (by omega) (by omega)) hv
    (by omega) (by omega)) ?_ ?_
  · simp only [mean, smul_eq_mul, total_dist2]; ring
  · simp only [mean, smul_eq_mul, total_absDist]; ring

theorem cell_subtractedFl (hr : Rounds rnd u) (hk : KeepsHalves rnd B) (h0 : P ≠ []) (hB : (P.length : ℝ) ≤ B) {z : Int}
    (h : CellNear u P z c q m1 m2) (hz : z ≠ 1) (hz' : z ≠ 2) (b1 b2 : Cx (Fl rnd)) :
    ∃ y, corrSubtractedFl c P.length b1 b2 m1 m2 = some y
      ∧ Near u (P.length + 9) y.val (mean (fun a b => reProd (a - exact b1) (b - exact b2)) P)
        (mean (fun a b => absProd (moduli a + moduli (exact b1)) (moduli b + moduli (exact b2))) P) := by
  have hN := len_ne h0
  have r1 := Near.mulTo hr (Near.refl b1.re.val) (h.re2 hz hz') (k := P.length + 1) (by omega)
  have i1 := Near.mulTo hr (Near.refl b1.im.val) (h.im2 hz hz') (k := P.length + 1) (by omega)
  have r2 := Near.mulTo hr (Near.refl b2.re.val) (h.re1 hz hz') (k := P.length + 1) (by omega)
  have i2 := Near.mulTo hr (Near.refl b2.im.val) (h.im1 hz hz') (k := P.length + 1) (by omega)
  have g1 := Near.subTo hr h.cor r1 (k := P.length + 3) (by omega) (by omega)
  have g2 := Near.subTo hr g1 i1 (k := P.length + 4) (by omega) (by omega)
  have g3 := Near.subTo hr g2 r2 (k := P.length + 5) (by omega) (by omega)
  have g4 : Near u (P.length + 6) (c - b1.re * m2.re - b1.im * m2.im - b2.re * m1.re - b2.im * m1.im).val _ _ :=
    Near.subTo hr g3 i2 (by omega) (by omega)
  obtain ⟨x, hx, g5⟩ := divCountFl_near hr hk h0 hB g4 (k := P.length + 7) (by omega)
  refine ⟨_, by rw [corrSubtractedFl, hx]; rfl, ?_⟩
  have g6 := Near.addTo hr g5 (Near.mulTo hr (Near.refl b1.re.val) (Near.refl b2.re.val) (k := 1) (by omega)) (k := P.length + 8)
    (by omega) (by omega)
  have g7 := Near.addTo hr g6 (Near.mulTo hr (Near.refl b1.im.val) (Near.refl b2.im.val) (k := 1) (by omega)) (k := P.length + 9)
    (by omega) (by omega)
  refine Near.congr g7 ?_ ?_
  · simp only [mean, smul_eq_mul, total_reProd_shift, dot, total_fst_re, total_fst_im, total_snd_re, total_snd_im, exact]
    field_simp
    ring
  · rw [mean, total_absProd_shift, show absProd (exact b1) (exact b2) = |b1.re.val| * |b2.re.val| + |b1.im.val| * |b2.im.val| by
      simp only [absProd, abs_mul, exact]]
    simp only [smul_eq_mul, exact]
    field_simp
    ring

theorem cell_structSubtractedFl (hr : Rounds rnd u) (hk : KeepsHalves rnd B) (h2 : 2 ≤ B) (h0 : P ≠ []) (hB : (P.length : ℝ) ≤ B) {z : Int}
    (h : CellNear u P z c q m1 m2) (hz : z = 6 ∨ z = 14) (b1 b2 : Cx (Fl rnd)) {v : Fl rnd} {w W : ℝ} (hv : Near u 2 v.val w W) :
    ∃ y, structSubtractedFl c P.length b1 b2 v q m1 m2 = some y
      ∧ Near u (2 * P.length + 9) y.val (w - (1 / 2) * mean (fun a b => dist2 (a - exact b1) (b - exact b2)) P)
        (W + (1 / 2) * mean (fun a b => absDist (moduli a + moduli (exact b1)) (moduli b + moduli (exact b2))) P) := by
  have hN := len_ne h0
  have hz1 : z ≠ 1 := by omega
  have hz2 : z ≠ 2 := by omega
  have g1 := half_near hr hk h2 (h.sq (by omega)) (k := 2 * P.length + 3) (by omega)
  have g2 := Near.subTo hr h.cor g1 (k := 2 * P.length + 4) (by omega) (by omega)
  have dre := Near.subTo hr (h.re1 hz1 hz2) (h.re2 hz1 hz2) (k := P.length + 1) (by omega) (by omega)
  have dim := Near.subTo hr (h.im1 hz1 hz2) (h.im2 hz1 hz2) (k := P.length + 1) (by omega) (by omega)
  have bre := Near.subTo hr (Near.refl b1.re.val) (Near.refl b2.re.val) (k := 1) (by omega) (by omega)
  have bim := Near.subTo hr (Near.refl b1.im.val) (Near.refl b2.im.val) (k := 1) (by omega) (by omega)
  have g3 := Near.addTo hr g2 (Near.mulTo hr dre bre (k := P.length + 3) (by omega)) (k := 2 * P.length + 5) (by omega) (by omega)
  have g4 : Near u (2 * P.length + 6) (c - flConst rnd (1 / 2) * q + (m1.re - m2.re) * (b1.re - b2.re)
      + (m1.im - m2.im) * (b1.im - b2.im)).val _ _ :=
    Near.addTo hr g3 (Near.mulTo hr dim bim (k := P.length + 3) (by omega)) (by omega) (by omega)
  obtain ⟨x, hx, g5⟩ := divCountFl_near hr hk h0 hB g4 (k := 2 * P.length + 7) (by omega)
  refine ⟨_, by rw [structSubtractedFl, hx]; rfl, ?_⟩
  refine Near.congr (Near.addTo hr (Near.subTo hr g5 (bgDist_near hr hk h2 b1 b2) (k := 2 * P.length + 8) (by omega) (by omega)) hv
    (by omega) (by omega)) ?_ ?_
  · simp only [mean, smul_eq_mul, total_dist2_shift, total_dist2, dot, Cx.sub_re, Cx.sub_im, total_fst_re, total_fst_im, total_snd_re,
      total_snd_im, exact]
    field_simp
    ring
  · simp only [mean, smul_eq_mul, total_absDist_shift, total_absDist, exact]
    field_simp
    ring

theorem cell_compensatedFl (hr : Rounds rnd u) (hk : KeepsHalves rnd B) (h0 : P ≠ []) (hB : (P.length : ℝ) ≤ B)
    (h : CellNear u P 9 c q m1 m2) :
    ∃ y, corrCompensatedFl c P.length m1 m2 = some y
      ∧ Near u (2 * P.length + 5) y.val (mean (fun a b => reProd (a - fstMean P) (b - sndMean P)) P)
        (mean absProd P + absProd (mean (fun a _ => moduli a) P) (mean (fun _ b => moduli b) P)) := by
  have hN := len_ne h0
  have e : ∀ Q : List (Cx ℝ × Cx ℝ), ∀ g : Cx ℝ → Cx ℝ → ℝ, |total (fun a b => |g a b|) Q| = total (fun a b => |g a b|) Q := fun Q g =>
    abs_of_nonneg (total_nonneg _ (fun _ _ => abs_nonneg _) Q)
  have r := Near.mulTo hr (h.re1 (by norm_num) (by norm_num)) (h.re2 (by norm_num) (by norm_num)) (k := 2 * P.length + 1) (by omega)
  have i := Near.mulTo hr (h.im1 (by norm_num) (by norm_num)) (h.im2 (by norm_num) (by norm_num)) (k := 2 * P.length + 1) (by omega)
  have g1 : Near u (2 * P.length + 2) (m1.re * m2.re + m1.im * m2.im).val _ _ := Near.addTo hr r i (by omega) (by omega)
  obtain ⟨x, hx, g2⟩ := divCountFl_near hr hk h0 hB g1 (k := 2 * P.length + 3) (by omega)
  have g3 : Near u (2 * P.length + 4) (c - x).val _ _ := Near.subTo hr h.cor g2 (by omega) (by omega)
  obtain ⟨y, hy, g4⟩ := divCountFl_near hr hk h0 hB g3 (k := 2 * P.length + 5) (by omega)
  refine ⟨y, by rw [corrCompensatedFl, hx, Option.bind_some, hy], Near.congr g4 ?_ ?_⟩
  · rw [mean, total_reProd_shift]
    simp only [fstMean, sndMean, mean, smul_eq_mul, dot, Cx.smul_re, Cx.smul_im, total_fst_re, total_fst_im, total_snd_re, total_snd_im]
    field_simp
    ring
  · simp only [mean, smul_eq_mul, absProd, total_moduli_fst, total_moduli_snd, Cx.smul_re, Cx.smul_im, abs_mul]
    rw [e P fun a _ => a.re, e P fun a _ => a.im, e P fun _ b => b.re, e P fun _ b => b.im,
      abs_of_nonneg (show (0 : ℝ) ≤ 1 / P.length by positivity)]
    field_simp

theorem cell_structCompensatedFl (hr : Rounds rnd u) (hk : KeepsHalves rnd B) (h2 : 2 ≤ B) (h0 : P ≠ []) (hB : (P.length : ℝ) ≤ B)
    (h : CellNear u P 10 c q m1 m2) {v : Fl rnd} {w W : ℝ} (hv : Near u 2 v.val w W) :
    ∃ y, structCompensatedFl c P.length v q m1 m2 = some y
      ∧ Near u (2 * P.length + 10) y.val (w - (1 / 2) * mean (fun a b => dist2 (a - fstMean P) (b - sndMean P)) P)
        (W + (1 / 2) * mean absDist P + (1 / 2) * absDist (mean (fun a _ => moduli a) P) (mean (fun _ b => moduli b) P)) := by
  have hN := len_ne h0
  have e : ∀ Q : List (Cx ℝ × Cx ℝ), ∀ g : Cx ℝ → Cx ℝ → ℝ, |total (fun a b => |g a b|) Q| = total (fun a b => |g a b|) Q := fun Q g =>
    abs_of_nonneg (total_nonneg _ (fun _ _ => abs_nonneg _) Q)
  have dre := Near.subTo hr (h.re1 (by norm_num) (by norm_num)) (h.re2 (by norm_num) (by norm_num)) (k := P.length + 1) (by omega) (by omega)
  have dim := Near.subTo hr (h.im1 (by norm_num) (by norm_num)) (h.im2 (by norm_num) (by norm_num)) (k := P.length + 1) (by omega) (by omega)
  have g1 : Near u (2 * P.length + 4) ((m1.re - m2.re) * (m1.re - m2.re) + (m1.im - m2.im) * (m1.im - m2.im)).val _ _ :=
    Near.addTo hr (Near.mulTo hr dre dre (k := 2 * P.length + 3) (by omega)) (Near.mulTo hr dim dim (k := 2 * P.length + 3) (by omega))
      (by omega) (by omega)
  have g2 := half_near hr hk h2 g1 (k := 2 * P.length + 5) (by omega)
  obtain ⟨x, hx, g3⟩ := divCountFl_near hr hk h0 hB g2 (k := 2 * P.length + 6) (by omega)
  have g4 := Near.addTo hr h.cor g3 (k := 2 * P.length + 7) (by omega) (by omega)
  have g5 : Near u (2 * P.length + 8) (c + x - flConst rnd (1 / 2) * q).val _ _ :=
    Near.subTo hr g4 (half_near hr hk h2 (h.sq (by norm_num)) (k := 2 * P.length + 3) (by omega)) (by omega) (by omega)
  obtain ⟨y, hy, g6⟩ := divCountFl_near hr hk h0 hB g5 (k := 2 * P.length + 9) (by omega)
  refine ⟨_, by rw [structCompensatedFl, hx, Option.bind_some, hy]; rfl, Near.congr (Near.addTo hr g6 hv (by omega) (by omega)) ?_ ?_⟩
  · rw [mean, total_dist2_shift, total_dist2]
    simp only [fstMean, sndMean, mean, smul_eq_mul, dist2, Cx.abs2, dot, Cx.sub_re, Cx.sub_im, Cx.smul_re, Cx.smul_im, total_fst_re,
      total_fst_im, total_snd_re, total_snd_im]
    field_simp
    ring
  · simp only [mean, smul_eq_mul, total_absDist]
    simp only [absDist, total_moduli_fst, total_moduli_snd, Cx.smul_re, Cx.smul_im, smul_eq_mul, abs_mul]
    rw [e P fun a _ => a.re, e P fun a _ => a.im, e P fun _ b => b.re, e P fun _ b => b.im,
      abs_of_nonneg (show (0 : ℝ) ≤ 1 / P.length by positivity)]
    field_simp
    ring

end cell

end Cddm
