import Verif.Model.Noise
import Verif.Props.Weight
import Verif.Props.Filters

/-!
# C81: weights for data with background (`weight_prime_from_data`)
-/

namespace Cddm
open Spec

/-! ### Denoising of monotone curves -/

/-- The result of denoising. -/
noncomputable def denoised (a : List ℝ) : Nat → List ℝ
  | 0 => a
  | n + 1 => denoised (stencil (conv3 ℝ) (stencil med3 a)) n

theorem denoised_length (a : List ℝ) (n : Nat) : (denoised a n).length = a.length := by
  induction n generalizing a with
  | zero => rfl
  | succ n ih => rw [denoised, ih]; simp

theorem denoise_eq (a : List ℝ) (n : Nat) (hn : 3 ≤ a.length) : denoise a n = .ok (denoised a n) := by
  induction n generalizing a with
  | zero => rfl
  | succ n ih =>
    have e1 := medianInto_eq a a rfl hn
    have e2 := convolveInto_eq ℝ (stencil med3 a) (stencil med3 a) rfl (by simp; omega)
    simp only [denoise, e1, e2, bind, Except.bind]
    rw [ih _ (by simp; omega)]
    rfl

theorem denoised_zero (a : List ℝ) (n : Nat) : (denoised a n)[0]? = a[0]? := by
  induction n generalizing a with
  | zero => rfl
  | succ n ih => rw [denoised, ih, stencil_zero, stencil_zero]

theorem denoised_bounds (a : List ℝ) (n : Nat) (lo hi : ℝ) (hn : 3 ≤ a.length) (h : ∀ x ∈ a, lo ≤ x ∧ x ≤ hi) :
    ∀ x ∈ denoised a n, lo ≤ x ∧ x ≤ hi := by
  obtain ⟨r, hr, -, -, -, h4⟩ := C46_denoise n a lo hi hn h
  rw [denoise_eq a n hn] at hr
  rw [Except.ok.inj hr]
  exact h4

/-- A curve that never rises. -/
def Falling (a : List ℝ) : Prop := ∀ i x y, a[i]? = some x → a[i + 1]? = some y → y ≤ x

theorem Falling.get {a : List ℝ} (h : Falling a) (i : Nat) (hi : i + 1 < a.length) : a[i + 1] ≤ a[i] :=
  h i _ _ (List.getElem?_eq_getElem (by omega)) (List.getElem?_eq_getElem hi)

theorem falling_median (a : List ℝ) (h : Falling a) : stencil med3 a = a := by
  symm
  refine ext_stencil _ _ _ rfl rfl rfl ?_
  intro k hk hk'
  obtain ⟨j, rfl⟩ : ∃ j, k = j + 1 := ⟨k - 1, by omega⟩
  have e1 := h.get j (by omega)
  have e2 := h.get (j + 1) hk'
  rw [List.getElem?_eq_getElem (by omega)]
  congr 1
  simp only [Nat.add_sub_cancel, med3]
  rcases eq_or_lt_of_le e1 with e | e
  · rw [e, if_neg (not_lt.2 (by rw [← e]; exact e2)), if_neg (lt_irrefl _), max_eq_right (by rw [← e]; exact e2)]
  · rw [if_neg (not_lt.2 e2), if_pos e]

theorem falling_convolve (a : List ℝ) (h : Falling a) : Falling (stencil (conv3 ℝ) a) := by
  intro i x y hx hy
  have hi : i + 1 < a.length := by
    have := (List.getElem?_eq_some_iff.mp hy).1
    simpa using this
  have h1 := h.get i hi
  -- the value at `k` is between its neighbours' values
  have up : ∀ k (hk : k < a.length) z, (stencil (conv3 ℝ) a)[k]? = some z → k = 0 ∨ k + 1 = a.length → z = a[k] := by
    intro k hk z hz hk'
    rcases hk' with rfl | hk'
    · rw [stencil_zero, List.getElem?_eq_getElem hk] at hz
      exact (Option.some.inj hz).symm
    · have e := stencil_last (conv3 ℝ) a
      rw [show a.length - 1 = k by omega, hz, List.getElem?_eq_getElem hk] at e
      exact Option.some.inj e
  have mid : ∀ k (hk : k + 2 < a.length) z, (stencil (conv3 ℝ) a)[k + 1]? = some z →
      z = (1 / 4) * (a[k] + 2 * a[k + 1] + a[k + 2]) := by
    intro k hk z hz
    rw [stencil_mid (conv3 ℝ) a (k + 1) (by omega) (by omega)] at hz
    rw [← Option.some.inj hz]
    simp [conv3]
  -- cases: first and last positions
  rcases Nat.eq_zero_or_pos i with rfl | hi0
  · have ex := up 0 (by omega) x hx (.inl rfl)
    by_cases hl : 0 + 1 + 1 = a.length
    · have ey := up 1 hi y hy (.inr hl)
      rw [ex, ey]; exact h1
    · have ey := mid 0 (by omega) y hy
      have h2 := h.get 1 (by omega)
      rw [ex, ey]
      simp only [Nat.zero_add] at h1 h2 ⊢
      linarith
  · obtain ⟨j, rfl⟩ : ∃ j, i = j + 1 := ⟨i - 1, by omega⟩
    have h0 := h.get j (by omega)
    have ex := mid j (by omega) x hx
    by_cases hl : j + 1 + 1 + 1 = a.length
    · have ey := up (j + 1 + 1) hi y hy (.inr hl)
      rw [ex, ey]
      simp only [Nat.add_assoc] at h0 h1 ⊢
      norm_num at h0 h1 ⊢
      linarith
    · have ey := mid (j + 1) (by omega) y hy
      have h2 := h.get (j + 2) (by omega)
      rw [ex, ey]
      simp only [Nat.add_assoc] at h0 h1 h2 ⊢
      norm_num at h0 h1 h2 ⊢
      linarith

theorem falling_denoised (a : List ℝ) (n : Nat) (h : Falling a) : Falling (denoised a n) := by
  induction n generalizing a with
  | zero => exact h
  | succ n ih =>
    rw [denoised, falling_median a h]
    exact ih _ (falling_convolve a h)

theorem falling_map (a : List ℝ) (f : ℝ → ℝ) (hf : Monotone f) (h : Falling a) : Falling (a.map f) := by
  intro i x y hx hy
  rw [List.getElem?_map, Option.map_eq_some_iff] at hx hy
  obtain ⟨x, hx, rfl⟩ := hx
  obtain ⟨y, hy, rfl⟩ := hy
  exact hf (h i x y hx hy)

theorem npClip_mono (lo hi : ℝ) : Monotone (npClip lo hi) :=
  fun _ _ h => min_le_min_right _ (max_le_max_right _ h)

theorem npClip_bounds {lo hi : ℝ} (h : lo ≤ hi) (x : ℝ) : lo ≤ npClip lo hi x ∧ npClip lo hi x ≤ hi :=
  ⟨le_min (le_max_right _ _) h, min_le_right _ _⟩

/-! ### Mode 'corr' -/

/-- C81, mode 'corr': the curve is denoised, replaced by its running minimum, clipped and denoised again.  The scaled
result `g` starts at the clipped first value, never rises and lies in `[0, 1]`; each weight is that of
`weight_prime_from_g` at `g`, and for equal variances (`δ = 0`), the only one with the smallest
`sigma_prime_weighted`. -/
theorem C81_corr (corr mem : List ℝ) (b1 b2 : Cx ℝ) (δ scale : ℝ) (hs : 0 < scale) (hn : 3 ≤ corr.length)
    (hm : mem.length = corr.length) :
    ∃ (low smooth : List ℝ) (g : List ℝ), denoise corr 3 = .ok smooth ∧
      low.length = corr.length ∧ (∀ i m, low[i]? = some m → IsLeast {x | x ∈ smooth.take (i + 1)} m) ∧
      denoise (low.map fun x => min (max x 0) scale) 3 = .ok (g.map fun x => scale * x) ∧
      g.length = corr.length ∧ g[0]? = (corr[0]?).map (fun x => min (max (x / scale) 0) 1) ∧
      (∀ i x y, g[i]? = some x → g[i + 1]? = some y → y ≤ x) ∧ (∀ x ∈ g, 0 ≤ x ∧ x ≤ 1) ∧
      weightPrimeFromData corr b1 b2 δ scale "corr" true mem
        = .ok (g.map fun x => weightPrimeFromG (Cx.ofR x) δ b1 b2) ∧
      (δ = 0 → ∀ x ∈ g, ∃ w0, weightPrimeFromG (Cx.ofR x) δ b1 b2 = some w0 ∧ ∀ w ≠ w0,
        sigmaPrimeArg w0 (Cx.ofR x) δ b1 b2 < sigmaPrimeArg w (Cx.ofR x) δ b1 b2) := by
  have hs' : scale ≠ 0 := hs.ne'
  have e1 := denoise_eq corr 3 hn
  obtain ⟨low, hl, hl1, hl2⟩ := C47_decreasing (denoised corr 3) mem (by rw [hm, denoised_length])
  obtain ⟨hl0, hl3⟩ := C47_decreasing_monotone _ _ low (by rw [hm, denoised_length]) hl
  rw [denoised_length] at hl1
  have hc : (low.map (npClip 0 scale)).length = corr.length := by rw [List.length_map, hl1]
  have e2 := denoise_eq (low.map (npClip 0 scale)) 3 (by omega)
  have hF : Falling (denoised (low.map (npClip 0 scale)) 3) :=
    falling_denoised _ _ (falling_map _ _ (npClip_mono _ _) hl3)
  have hB : ∀ x ∈ denoised (low.map (npClip 0 scale)) 3, 0 ≤ x ∧ x ≤ scale := by
    refine denoised_bounds _ 3 0 scale (by omega) ?_
    intro x hx
    obtain ⟨y, -, rfl⟩ := List.mem_map.1 hx
    exact npClip_bounds hs.le y
  have h01 : ∀ x ∈ (denoised (low.map (npClip 0 scale)) 3).map (· / scale), 0 ≤ x ∧ x ≤ 1 := by
    intro x hx
    obtain ⟨y, hy, rfl⟩ := List.mem_map.1 hx
    obtain ⟨p, q⟩ := hB y hy
    exact ⟨div_nonneg p hs.le, (div_le_one hs).2 q⟩
  refine ⟨low, denoised corr 3, (denoised (low.map (npClip 0 scale)) 3).map (· / scale), e1, hl1, hl2, ?_, ?_, ?_, ?_, h01,
    ?_, ?_⟩
  · rw [List.map_map]
    refine e2.trans ?_
    congr 1
    symm
    apply List.map_id''
    intro x
    simp only [Function.comp]
    field_simp
  · rw [List.length_map, denoised_length, hc]
  · rw [List.getElem?_map, denoised_zero, List.getElem?_map, hl0, denoised_zero, Option.map_map]
    congr 1
    funext x
    simp only [Function.comp, npClip]
    rw [← min_div_div_right hs.le, ← max_div_div_right hs.le, zero_div, div_self hs']
  · exact falling_map _ _ (fun x y h => div_le_div_of_nonneg_right h hs.le) hF
  · unfold weightPrimeFromData primeFilterCorr
    rw [if_pos rfl, if_pos rfl, e1]
    simp only [bind, Except.bind]
    rw [hl]
    simp only [orUB]
    rw [e2]
    dsimp only
    rw [if_neg hs', List.map_map]
    rfl
  · intro hδ x hx
    obtain ⟨w0, hw, hw'⟩ := C25_prime_partial (Cx.ofR x) δ b1 b2 (by
      obtain ⟨p, q⟩ := h01 x hx
      simp only [Cx.ofR, hδ]
      nlinarith)
    exact ⟨w0, hw, fun w h => (hw' w).2 h⟩

example : ∃ r, weightPrimeFromData [5, 3, 4, -1] 0 0 0 4 "corr" true [0, 0, 0, 0] = .ok r ∧ r[0]? = some (some 1) := by
  obtain ⟨_, _, g, -, -, -, -, -, h0, -, -, h, -⟩ := C81_corr [5, 3, 4, -1] [0, 0, 0, 0] 0 0 0 4 (by norm_num) (by simp) rfl
  refine ⟨_, h, ?_⟩
  rw [List.getElem?_map, h0]
  simp only [List.getElem?_cons_zero, Option.map_some, weightPrimeFromG, fdiv, Cx.ofR]
  norm_num

/-- C81: without filter the weights are those at the scaled data, in both modes; the two representations `c` and
`2 (scale - c)` of a value have the same weight. -/
theorem C81_unfiltered (corr mem mem' : List ℝ) (b1 b2 : Cx ℝ) (δ scale : ℝ) (hs : scale ≠ 0) :
    weightPrimeFromData corr b1 b2 δ scale "corr" false mem
      = .ok (corr.map fun x => weightPrimeFromG (Cx.ofR (x / scale)) δ b1 b2) ∧
    weightPrimeFromData (corr.map fun x => 2 * (scale - x)) b1 b2 δ scale "diff" false mem'
      = weightPrimeFromData corr b1 b2 δ scale "corr" false mem := by
  constructor
  · simp [weightPrimeFromData, hs, bind, Except.bind]
  · simp only [weightPrimeFromData, hs, bind, Except.bind, if_true, if_false, Bool.false_eq_true]
    rw [if_neg (by decide), List.map_map]
    congr 1
    apply List.map_congr_left
    intro x _
    simp only [Function.comp, weightPrimeFromD]
    congr 1
    ext
    · simp [Cx.ofR]; field_simp; ring
    · simp [Cx.ofR]

/-- C81: another mode is refused. -/
theorem C81_rejects (corr mem : List ℝ) (b1 b2 : Cx ℝ) (δ scale : ℝ) (mode : String) (pre : Bool)
    (h1 : mode ≠ "corr") (h2 : mode ≠ "diff") :
    weightPrimeFromData corr b1 b2 δ scale mode pre mem = .error .valueError := by
  unfold weightPrimeFromData
  rw [if_neg h1, if_neg h2]

/-! ### Mode 'diff' -/

theorem stencil_mapR (f : ℝ → ℝ → ℝ → ℝ) (φ : ℝ → ℝ) (hf : ∀ x y z, f (φ x) (φ y) (φ z) = φ (f x y z)) (a : List ℝ) :
    stencil f (a.map φ) = (stencil f a).map φ := by
  symm
  refine ext_stencil _ _ _ (by simp) ?_ ?_ ?_
  · rw [List.getElem?_map, stencil_zero, List.getElem?_map]
  · rw [List.length_map, List.getElem?_map, stencil_last, List.getElem?_map]
  · intro k hk h
    rw [List.length_map] at h
    rw [List.getElem?_map, stencil_mid f a k hk h]
    simp [hf]

theorem denoised_reflect (s : ℝ) (a : List ℝ) (n : Nat) :
    denoised (a.map fun x => 2 * (s - x)) n = (denoised a n).map fun x => 2 * (s - x) := by
  induction n generalizing a with
  | zero => rfl
  | succ n ih =>
    rw [denoised, stencil_mapR med3, stencil_mapR (conv3 ℝ), ih]
    · rfl
    · intro x y z
      simp only [conv3, smul_eq_mul]
      ring
    · intro x y z
      have e : ∀ u v : ℝ, 2 * (s - u) < 2 * (s - v) ↔ v < u := fun u v => by constructor <;> intro <;> linarith
      simp only [med3, e]
      have mn : ∀ u v : ℝ, min (2 * (s - u)) (2 * (s - v)) = 2 * (s - max u v) := by
        intro u v
        rcases le_total u v with h | h
        · rw [max_eq_right h, min_eq_right (by linarith)]
        · rw [max_eq_left h, min_eq_left (by linarith)]
      have mx : ∀ u v : ℝ, max (2 * (s - u)) (2 * (s - v)) = 2 * (s - min u v) := by
        intro u v
        rcases le_total u v with h | h
        · rw [min_eq_left h, max_eq_left (by linarith)]
        · rw [min_eq_right h, max_eq_right (by linarith)]
      rw [mn, mx]
      rcases lt_trichotomy y z with h1 | h1 | h1 <;> rcases lt_trichotomy y x with h2 | h2 | h2
      · rw [if_neg h1.not_gt, if_neg h2.not_gt, if_pos h1, if_pos h2]
      · subst h2
        rw [if_neg h1.not_gt, if_neg (lt_irrefl _), if_pos h1, if_neg (lt_irrefl _), min_eq_right h1.le]
      · rw [if_neg h1.not_gt, if_pos h2, if_pos h1, if_neg h2.not_gt]
      · subst h1
        rw [if_neg (lt_irrefl _), if_neg h2.not_gt, if_neg (lt_irrefl _), if_pos h2, min_eq_left h2.le]
      · subst h1 h2
        simp
      · subst h1
        rw [if_neg (lt_irrefl _), if_pos h2, if_neg (lt_irrefl _), if_neg h2.not_gt, max_eq_left h2.le]
      · rw [if_pos h1, if_neg h2.not_gt, if_neg h1.not_gt, if_pos h2]
      · subst h2
        rw [if_pos h1, if_neg (lt_irrefl _), if_neg h1.not_gt, if_neg (lt_irrefl _), max_eq_right h1.le]
      · rw [if_pos h1, if_pos h2, if_neg h1.not_gt, if_neg h2.not_gt]

theorem increasing_reflect (s : ℝ) (a mem mem' r : List ℝ) (hne : a ≠ []) (hm : mem.length = a.length)
    (hm' : mem'.length = a.length) (h0 : mem'[0]? = (a[0]?).map fun x => 2 * (s - x)) (hr : decreasing a mem = some r) :
    increasing (a.map fun x => 2 * (s - x)) mem' = some (r.map fun x => 2 * (s - x)) := by
  obtain ⟨r', e, h1, h2, h3⟩ := decreasing_eq a mem hm
  rw [e] at hr
  obtain rfl := Option.some.inj hr
  obtain ⟨q, e', k1, k2, k3⟩ := increasing_eq (a.map fun x => 2 * (s - x)) mem' (by simpa using hm') (by simpa using hne)
  rw [e']
  congr 1
  rw [List.length_map] at k1
  apply List.ext_getElem?
  intro i
  induction i with
  | zero => rw [k2, h0, List.getElem?_map, h2]
  | succ i ih =>
    by_cases hi : i + 1 < a.length
    · obtain ⟨p, p1, p2⟩ := h3 i hi
      obtain ⟨p', q1, q2⟩ := k3 i (by simpa using hi)
      rw [q1, List.getElem?_map, p1] at ih
      have ih : p' = 2 * (s - p) := by simpa using ih
      rw [q2, List.getElem?_map, p2, ih]
      simp only [List.getElem_map, Option.map_some, Option.some.injEq]
      rcases le_total p a[i + 1] with h | h
      · rw [min_eq_left h, max_eq_left (by linarith)]
      · rw [min_eq_right h, max_eq_right (by linarith)]
    · rw [List.getElem?_eq_none (by omega), List.getElem?_eq_none (by simp; omega)]

theorem npClip_reflect {s : ℝ} (hs : 0 ≤ s) (x : ℝ) : npClip 0 (s * 2) (2 * (s - x)) = 2 * (s - npClip 0 s x) := by
  unfold npClip
  rcases le_total x 0 with h | h
  · rw [max_eq_right h, min_eq_left hs, max_eq_left (by linarith), min_eq_right (by linarith)]
    ring
  · rw [max_eq_left h]
    rcases le_total x s with h' | h'
    · rw [min_eq_left h', max_eq_left (by linarith), min_eq_left (by linarith)]
    · rw [min_eq_right h', max_eq_right (by linarith), min_eq_left (by linarith)]
      ring

/-- C81, mode 'diff': the difference representation `2 (scale - c)` of the data gives the weights of mode 'corr',
provided the memory for the running maximum happens to hold the first value of the curve.
Missing, because false of the code: other content of that memory (`C81_diff_refuted`). -/
theorem C81_diff_partial (corr mem mem' : List ℝ) (b1 b2 : Cx ℝ) (δ scale : ℝ) (hs : 0 < scale) (hn : 3 ≤ corr.length)
    (hm : mem.length = corr.length) (hm' : mem'.length = corr.length)
    (h0 : mem'[0]? = (corr[0]?).map fun x => 2 * (scale - x)) :
    weightPrimeFromData (corr.map fun x => 2 * (scale - x)) b1 b2 δ scale "diff" true mem'
      = weightPrimeFromData corr b1 b2 δ scale "corr" true mem := by
  obtain ⟨low, hl, hl1, -⟩ := C47_decreasing (denoised corr 3) mem (by rw [hm, denoised_length])
  rw [denoised_length] at hl1
  have hne : denoised corr 3 ≠ [] := by
    intro h
    have := denoised_length corr 3
    rw [h] at this
    simp at this
    omega
  have e1 := denoise_eq corr 3 hn
  have e1' := denoise_eq (corr.map fun x => 2 * (scale - x)) 3 (by simpa using hn)
  have e2 := denoise_eq (low.map (npClip 0 scale)) 3 (by rw [List.length_map]; omega)
  have hi := increasing_reflect scale (denoised corr 3) mem mem' low hne (by rw [hm, denoised_length])
    (by rw [hm', denoised_length]) (by rw [h0, denoised_zero]) hl
  have e3 : (low.map fun x => 2 * (scale - x)).map (npClip 0 (scale * 2))
      = (low.map (npClip 0 scale)).map fun x => 2 * (scale - x) := by
    rw [List.map_map, List.map_map]
    apply List.map_congr_left
    intro x _
    exact npClip_reflect hs.le x
  have e4 := denoise_eq ((low.map (npClip 0 scale)).map fun x => 2 * (scale - x)) 3 (by
    rw [List.length_map, List.length_map]; omega)
  have a1 : primeFilterCorr corr mem scale = .ok (denoised (low.map (npClip 0 scale)) 3) := by
    unfold primeFilterCorr
    rw [e1]
    simp only [bind, Except.bind]
    rw [hl]
    exact e2
  have a2 : primeFilterDiff (corr.map fun x => 2 * (scale - x)) mem' scale
      = .ok ((denoised (low.map (npClip 0 scale)) 3).map fun x => 2 * (scale - x)) := by
    unfold primeFilterDiff
    rw [e1', denoised_reflect]
    simp only [bind, Except.bind]
    rw [hi]
    simp only [orUB]
    rw [e3, e4, denoised_reflect]
  have key := (C81_unfiltered (denoised (low.map (npClip 0 scale)) 3) mem mem' b1 b2 δ scale hs.ne').2
  unfold weightPrimeFromData at key ⊢
  rw [if_neg (by decide), if_pos rfl, if_pos rfl] at key ⊢
  simp only [if_true, a1, a2, if_false, Bool.false_eq_true] at key ⊢
  exact key

example : ([(2 : ℝ) * (4 - 5), 0, 0, 0] : List ℝ)[0]? = (([5, 3, 4, -1] : List ℝ)[0]?).map fun x => 2 * (4 - x) := rfl

/-- C81 is false for mode 'diff': the first weight depends on uninitialised memory and not at all on the data. -/
theorem C81_diff_refuted (corr mem : List ℝ) (b1 b2 : Cx ℝ) (δ scale x : ℝ) (hs : 0 < scale) (hn : 3 ≤ corr.length)
    (hm : mem.length = corr.length) (hx : mem[0]? = some x) :
    ∃ r, weightPrimeFromData corr b1 b2 δ scale "diff" true mem = .ok r ∧
      r[0]? = some (weightPrimeFromD (Cx.ofR (min (max x 0) (scale * 2) / scale)) δ b1 b2) := by
  have hne : denoised corr 3 ≠ [] := by
    intro h
    have := denoised_length corr 3
    rw [h] at this
    simp at this
    omega
  obtain ⟨q, e, k1, k2, -⟩ := increasing_eq (denoised corr 3) mem (by rw [hm, denoised_length]) hne
  rw [denoised_length] at k1
  have e1 := denoise_eq corr 3 hn
  have e2 := denoise_eq (q.map (npClip 0 (scale * 2))) 3 (by rw [List.length_map]; omega)
  have a2 : primeFilterDiff corr mem scale = .ok (denoised (q.map (npClip 0 (scale * 2))) 3) := by
    unfold primeFilterDiff
    rw [e1]
    simp only [bind, Except.bind]
    rw [e]
    exact e2
  refine ⟨(denoised (q.map (npClip 0 (scale * 2))) 3).map fun a => weightPrimeFromD (Cx.ofR (a / scale)) δ b1 b2, ?_, ?_⟩
  · unfold weightPrimeFromData
    rw [if_neg (by decide), if_pos rfl, if_pos rfl, a2]
    simp only [bind, Except.bind]
    rw [if_neg hs.ne']
  · rw [List.getElem?_map, denoised_zero, List.getElem?_map, k2, hx]
    rfl

/-- Two contents of the memory, first weights 1 and 0. -/
example : weightPrimeFromD (Cx.ofR (min (max 0 0) (1 * 2) / 1)) 0 0 0 = some 1 ∧
    weightPrimeFromD (Cx.ofR (min (max 7 0) (1 * 2) / 1)) 0 0 0 = some 0 := by
  constructor <;> simp only [weightPrimeFromD, weightPrimeFromG, fdiv, Cx.ofR] <;> norm_num

end Cddm
