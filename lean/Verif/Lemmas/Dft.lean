import Verif.Model.Fft
import Verif.Lemmas.Laws
import Mathlib.Algebra.BigOperators.Ring.Finset
import Mathlib.Algebra.Order.BigOperators.Group.Finset

/-! # The discrete Fourier transform of a sparse buffer and the circular correlation theorem -/

namespace Cddm
open Spec
open scoped BigOperators

theorem twiddle_add (N : Nat) (a b : Int) : twiddle N (a + b) = twiddle N a * twiddle N b := by
  have : 2 * Real.pi * ((a + b : Int) : ℝ) / N
      = 2 * Real.pi * a / N + 2 * Real.pi * b / N := by push_cast; ring
  ext
  · simp only [twiddle, this, Real.cos_add, Cx.mul_re]
  · simp only [twiddle, this, Real.sin_add, Cx.mul_im]; ring

theorem twiddle_conj (N : Nat) (a : Int) : (twiddle N a).conj = twiddle N (-a) := by
  have : 2 * Real.pi * ((-a : Int) : ℝ) / N = -(2 * Real.pi * a / N) := by push_cast; ring
  ext
  · simp only [twiddle, this, Real.cos_neg, Cx.conj_re]
  · simp only [twiddle, this, Real.sin_neg, Cx.conj_im]

theorem twiddle_zero (N : Nat) : twiddle N 0 = 1 := by
  ext <;> simp [twiddle]

theorem twiddle_dvd {N : Nat} (hN : 0 < N) {a : Int} (h : (N : Int) ∣ a) : twiddle N a = 1 := by
  obtain ⟨c, rfl⟩ := h
  have hN' : (N : ℝ) ≠ 0 := by positivity
  have : 2 * Real.pi * (((N : Int) * c : Int) : ℝ) / N = c * (2 * Real.pi) := by
    push_cast; field_simp
  ext
  · simp only [twiddle, this, Real.cos_int_mul_two_pi, Cx.one_re]
  · simp only [twiddle, this, Cx.one_im]
    have := Real.sin_add_int_mul_two_pi 0 c
    simpa using this

theorem twiddle_ne_one {N : Nat} (hN : 0 < N) {a : Int} (h : ¬ (N : Int) ∣ a) :
    twiddle N a ≠ 1 := by
  intro hcon
  have hre : Real.cos (2 * Real.pi * a / N) = 1 := congrArg Cx.re hcon
  rw [Real.cos_eq_one_iff] at hre
  obtain ⟨c, hc⟩ := hre
  apply h
  refine ⟨c, ?_⟩
  have hN' : (N : ℝ) ≠ 0 := by positivity
  have hpi := Real.pi_ne_zero
  have : (a : ℝ) = N * c := by
    field_simp at hc
    linarith
  exact_mod_cast this

theorem twiddle_mul (N : Nat) (a : Int) (k : Nat) : twiddle N (a * k) = twiddle N a ^ k := by
  induction k with
  | zero => simp [twiddle_zero]
  | succ k ih => rw [pow_succ, ← ih, ← twiddle_add]; congr 1; push_cast; ring

theorem cx_mul_eq_zero {a b : Cx ℝ} (h : a * b = 0) (ha : a ≠ 0) : b = 0 := by
  have h1 : a.conj * a * b = 0 := by rw [mul_assoc, h, mul_zero]
  have h2 : a.conj * a = Cx.ofR a.abs2 := by
    ext <;> simp [Cx.abs2]; ring
  have h3 : a.abs2 ≠ 0 := by
    intro h0
    apply ha
    unfold Cx.abs2 at h0
    have hr : a.re = 0 := by nlinarith [mul_self_nonneg a.re, mul_self_nonneg a.im]
    have hi : a.im = 0 := by nlinarith [mul_self_nonneg a.re, mul_self_nonneg a.im]
    ext <;> simp [hr, hi]
  rw [h2] at h1
  have e1 := congrArg Cx.re h1
  have e2 := congrArg Cx.im h1
  simp at e1 e2
  ext
  · simpa [h3] using e1
  · simpa [h3] using e2

/-- Orthogonality of the exponentials. -/
theorem twiddle_sum {N : Nat} (hN : 0 < N) (a : Int) :
    ∑ k ∈ Finset.range N, twiddle N (a * k) = if (N : Int) ∣ a then Cx.ofR (N : ℝ) else 0 := by
  split_ifs with h
  · rw [Finset.sum_congr rfl fun k _ => twiddle_dvd hN (Dvd.dvd.mul_right h _)]
    rw [Finset.sum_const, Finset.card_range]
    ext
    · have := map_nsmul (Cx.reHom (R := ℝ)) N 1
      simpa [Cx.reHom] using this
    · have := map_nsmul (Cx.imHom (R := ℝ)) N 1
      simpa [Cx.imHom] using this
  · simp only [twiddle_mul]
    have h1 := mul_neg_geom_sum (twiddle N a) N
    have h2 : twiddle N a ^ N = 1 := by
      rw [← twiddle_mul]; exact twiddle_dvd hN (Dvd.intro_left a rfl)
    rw [h2, sub_self] at h1
    exact cx_mul_eq_zero h1 (sub_ne_zero.mpr (twiddle_ne_one hN h).symm)

theorem finset_sum_list {ι α M : Type} [AddCommMonoid M] (s : Finset ι) (l : List α)
    (F : ι → α → M) :
    ∑ j ∈ s, (l.map (F j)).sum = (l.map fun a => ∑ j ∈ s, F j a).sum := by
  induction l with
  | nil => simp
  | cons a l ih => simp [Finset.sum_add_distrib, ih]

theorem list_sum_mul {α : Type} (l : List α) (F : α → Cx ℝ) (c : Cx ℝ) :
    (l.map F).sum * c = (l.map fun a => F a * c).sum := by
  induction l with
  | nil => simp
  | cons a l ih => simp [add_mul, ih]

theorem list_mul_sum {α : Type} (l : List α) (F : α → Cx ℝ) (c : Cx ℝ) :
    c * (l.map F).sum = (l.map fun a => c * F a).sum := by
  induction l with
  | nil => simp
  | cons a l ih => simp [mul_add, ih]

theorem list_conj_sum {α : Type} (l : List α) (F : α → Cx ℝ) :
    ((l.map F).sum).conj = (l.map fun a => (F a).conj).sum := by
  induction l with
  | nil => simp
  | cons a l ih => simp [Cx.conj_add, ih]

/-- The unnormalized spectrum of a stream of samples on a ring of `N` cells. -/
noncomputable def spectrum (N : Nat) (s : Stream (Cx ℝ)) (k : Nat) : Cx ℝ :=
  (s.map fun p => twiddle N (-(p.1 * k)) * p.2).sum

/-- `b` is a buffer of length `N` holding the stream `s` (times modulo `N`). -/
def Holds (N : Nat) (s : Stream (Cx ℝ)) (b : List (Cx ℝ)) : Prop :=
  npFft b = .ok ((List.range N).map (spectrum N s))

/-- Sum of `g a b` over pairs whose delay is `m` modulo `N`. -/
noncomputable def circSum {α β M : Type} [AddCommMonoid M] (g : α → β → M) (N : Nat)
    (s1 : Stream α) (s2 : Stream β) (m : Nat) : M :=
  (s1.map fun a => (s2.map fun b =>
    if (N : Int) ∣ (b.1 - a.1 - m) then g a.2 b.2 else 0).sum).sum

theorem inverse_product {N : Nat} (hN : 0 < N) (s1 s2 : Stream (Cx ℝ)) :
    npIfft (List.zipWith (fun x y => x.conj * y) ((List.range N).map (spectrum N s1))
        ((List.range N).map (spectrum N s2)))
      = .ok ((List.range N).map fun m => circSum cxProd N s1 s2 m) := by
  have hz : List.zipWith (fun x y => x.conj * y) ((List.range N).map (spectrum N s1))
        ((List.range N).map (spectrum N s2))
      = (List.range N).map fun k => (spectrum N s1 k).conj * spectrum N s2 k := by
    apply List.ext_getElem
    · simp
    · intro i h1 h2
      simp
  rw [hz]
  unfold npIfft
  have hlen : ((List.range N).map fun k => (spectrum N s1 k).conj * spectrum N s2 k).length = N := by
    simp
  rw [hlen, if_neg (by omega)]
  congr 1
  apply List.map_congr_left
  intro m _
  have h1 : ∀ j ∈ Finset.range N, twiddle N ((j : Int) * m) *
      ((List.range N).map fun k => (spectrum N s1 k).conj * spectrum N s2 k).getD j 0
      = (s1.map fun a => (s2.map fun b =>
          twiddle N ((m + a.1 - b.1) * j) * (a.2.conj * b.2)).sum).sum := by
    intro j hj
    rw [Finset.mem_range] at hj
    rw [show ((List.range N).map fun k => (spectrum N s1 k).conj * spectrum N s2 k).getD j 0
      = (spectrum N s1 j).conj * spectrum N s2 j by simp [hj]]
    unfold spectrum
    rw [list_conj_sum, list_sum_mul, list_mul_sum]
    congr 1
    apply List.map_congr_left
    intro a _
    rw [list_mul_sum, list_mul_sum]
    congr 1
    apply List.map_congr_left
    intro b _
    rw [Cx.conj_mul, twiddle_conj]
    have : twiddle N ((m + a.1 - b.1) * j)
        = twiddle N (j * m) * (twiddle N (-(-(a.1 * j))) * twiddle N (-(b.1 * j))) := by
      rw [← twiddle_add, ← twiddle_add]; congr 1; ring
    rw [this]; ring
  rw [Finset.sum_congr rfl h1, finset_sum_list]
  rw [show (1 / (N : ℝ)) • (List.map (fun a => ∑ j ∈ Finset.range N, (s2.map fun b =>
          twiddle N ((m + a.1 - b.1) * j) * (a.2.conj * b.2)).sum) s1).sum
      = (List.map (fun a => (1 / (N : ℝ)) • ∑ j ∈ Finset.range N, (s2.map fun b =>
          twiddle N ((m + a.1 - b.1) * j) * (a.2.conj * b.2)).sum) s1).sum by
    have := map_list_sum (DistribSMul.toAddMonoidHom (Cx ℝ) (1 / (N : ℝ)))
      (List.map (fun a => ∑ j ∈ Finset.range N, (s2.map fun b =>
          twiddle N ((m + a.1 - b.1) * j) * (a.2.conj * b.2)).sum) s1)
    rw [List.map_map] at this
    exact this]
  unfold circSum
  congr 1
  apply List.map_congr_left
  intro a _
  rw [finset_sum_list]
  have := map_list_sum (DistribSMul.toAddMonoidHom (Cx ℝ) (1 / (N : ℝ)))
      (List.map (fun b => ∑ j ∈ Finset.range N,
          twiddle N ((m + a.1 - b.1) * j) * (a.2.conj * b.2)) s2)
  rw [List.map_map] at this
  refine Eq.trans this ?_
  congr 1
  apply List.map_congr_left
  intro b _
  show (1 / (N : ℝ)) • (∑ j ∈ Finset.range N,
          twiddle N ((m + a.1 - b.1) * j) * (a.2.conj * b.2)) = _
  rw [← Finset.sum_mul, twiddle_sum hN]
  have hiff : ((N : Int) ∣ (m + a.1 - b.1)) ↔ (N : Int) ∣ (b.1 - a.1 - m) := by
    rw [show b.1 - a.1 - m = -(m + a.1 - b.1) by ring, Int.dvd_neg]
  have hN' : (N : ℝ) ≠ 0 := by positivity
  by_cases h : (N : Int) ∣ (b.1 - a.1 - m)
  · rw [if_pos (hiff.mpr h), if_pos h]
    ext <;> simp [cxProd] <;> field_simp
  · rw [if_neg (fun h' => h (hiff.mp h')), if_neg h]
    simp

/-- Circular correlation theorem for two buffers. -/
theorem fftProduct_holds {N : Nat} (hN : 0 < N) {s1 s2 : Stream (Cx ℝ)} {a b : List (Cx ℝ)}
    (ha : Holds N s1 a) (hb : Holds N s2 b) :
    fftProduct a b = .ok ((List.range N).map fun m => circSum cxProd N s1 s2 m) := by
  unfold fftProduct
  rw [ha, hb]
  exact inverse_product hN s1 s2

theorem fftPower_holds {N : Nat} (hN : 0 < N) {s : Stream (Cx ℝ)} {a : List (Cx ℝ)}
    (ha : Holds N s a) :
    fftPower a = .ok ((List.range N).map fun m => circSum cxProd N s s m) := by
  unfold fftPower
  rw [ha]
  refine Eq.trans ?_ (inverse_product hN s s)
  show npIfft _ = _
  congr 1
  apply List.ext_getElem
  · simp
  · intro i h1 h2
    simp [mul_comm]

/-! ### What the buffers hold -/

/-- A buffer given by a finite sum of indicators. -/
theorem holds_of_indicator {N n : Nat} (hN : 0 < N) (pos : Nat → Nat) (val : Nat → Cx ℝ)
    (hpos : ∀ i, i < n → pos i < N) (s : Stream (Cx ℝ))
    (hs : s = (List.range n).map fun i => (((pos i : Nat) : Int), val i)) :
    Holds N s ((List.range N).map fun k =>
      ((List.range n).map fun i => if k = pos i then val i else 0).sum) := by
  unfold Holds npFft
  have hlen : ((List.range N).map fun k =>
      ((List.range n).map fun i => if k = pos i then val i else 0).sum).length = N := by simp
  rw [hlen, if_neg (by omega)]
  congr 1
  apply List.map_congr_left
  intro k _
  have h1 : ∀ j ∈ Finset.range N, twiddle N (-((j : Int) * k)) * ((List.range N).map fun k =>
      ((List.range n).map fun i => if k = pos i then val i else 0).sum).getD j 0
      = ((List.range n).map fun i => if j = pos i then
          twiddle N (-(((pos i : Nat) : Int) * k)) * val i else 0).sum := by
    intro j hj
    rw [Finset.mem_range] at hj
    rw [show ((List.range N).map fun k =>
      ((List.range n).map fun i => if k = pos i then val i else 0).sum).getD j 0
      = ((List.range n).map fun i => if j = pos i then val i else 0).sum by simp [hj]]
    rw [list_mul_sum]
    congr 1
    apply List.map_congr_left
    intro i _
    split_ifs with h
    · rw [h]
    · simp
  rw [Finset.sum_congr rfl h1, finset_sum_list]
  unfold spectrum
  rw [hs, List.map_map]
  congr 1
  apply List.map_congr_left
  intro i hi
  rw [List.mem_range] at hi
  rw [Finset.sum_ite_eq' (Finset.range N) (pos i), if_pos (Finset.mem_range.mpr (hpos i hi))]
  rfl

/-- The spectrum only depends on times modulo `N`. -/
theorem spectrum_mod {N : Nat} (hN : 0 < N) {s s' : Stream (Cx ℝ)} {n : Nat}
    {τ τ' : Nat → Int} {val : Nat → Cx ℝ}
    (hs : s = (List.range n).map fun i => (τ i, val i))
    (hs' : s' = (List.range n).map fun i => (τ' i, val i))
    (h : ∀ i, i < n → (N : Int) ∣ τ i - τ' i) : spectrum N s = spectrum N s' := by
  funext k
  unfold spectrum
  rw [hs, hs', List.map_map, List.map_map]
  congr 1
  apply List.map_congr_left
  intro i hi
  rw [List.mem_range] at hi
  obtain ⟨c, hc⟩ := h i hi
  have : -(τ i * k) = -(τ' i * k) + (N : Int) * (-(c * k)) := by
    rw [show τ i = τ' i + N * c by omega]; ring
  simp only [Function.comp]
  rw [this, twiddle_add, twiddle_dvd hN (Dvd.intro _ rfl), mul_one]

/-- Writing into distinct cells of a zero buffer. -/
theorem forRange_set {M : Type} [AddCommMonoid M] (L n : Nat)
    (step : List M → Nat → Option (List M)) (pos : Nat → Nat) (val : Nat → M)
    (h : ∀ out : List M, out.length = L → ∀ i, i < n → step out i = some (out.set (pos i) (val i)))
    (hinj : ∀ i, i < n → ∀ j, j < n → pos i = pos j → i = j) :
    forRange n (List.replicate L 0) step = some ((List.range L).map fun k =>
      ((List.range n).map fun i => if k = pos i then val i else 0).sum) := by
  unfold forRange
  induction n with
  | zero => simp
  | succ n ih =>
    rw [List.range_succ, List.foldlM_append,
      ih (fun out ho i hi => h out ho i (by omega)) (fun i hi j hj => hinj i (by omega) j (by omega))]
    simp only [Option.bind_eq_bind, Option.bind_some, List.foldlM_cons, List.foldlM_nil]
    rw [h _ (by simp) n (by omega)]
    simp only [Option.bind_some, List.map_append, List.map_cons, List.map_nil, List.sum_append,
      List.sum_cons, List.sum_nil, add_zero]
    show some _ = some _
    congr 1
    apply List.ext_getElem
    · simp
    · intro k h1 h2
      simp only [List.getElem_set, List.getElem_map, List.getElem_range]
      by_cases hk : pos n = k
      · rw [if_pos hk, if_pos hk.symm]
        have : ((List.range n).map fun i => if k = pos i then val i else 0).sum = 0 := by
          apply sum_map_zero
          intro i hi
          rw [List.mem_range] at hi
          rw [if_neg]
          intro hc
          have := hinj n (by omega) i (by omega) (by omega)
          omega
        rw [this, zero_add]
      · rw [if_neg hk, if_neg (Ne.symm hk), add_zero]

/-- The cell of a (possibly negative) time in a buffer of length `N`. -/
def cellOf (N : Nat) (m : Int) : Nat := if 0 ≤ m then m.toNat else ((N : Int) + m).toNat

theorem cellOf_spec {N : Nat} {m : Int} (h1 : -(N : Int) ≤ m) (h2 : m < N) :
    pyIdx N m = some (cellOf N m) ∧ (cellOf N m < N) ∧ (N : Int) ∣ (cellOf N m : Nat) - m := by
  unfold cellOf pyIdx
  by_cases h : 0 ≤ m
  · simp only [h, h2, if_true]
    exact ⟨trivial, by omega, ⟨0, by omega⟩⟩
  · simp only [h, if_false]
    rw [if_pos (by omega)]
    exact ⟨rfl, by omega, ⟨1, by omega⟩⟩

/-- Distinct times within a window shorter than the buffer. -/
def Fits (N : Nat) (t : List Int) : Prop :=
  t.Nodup ∧ (∀ a ∈ t, -(N : Int) ≤ a ∧ a < N) ∧ ∀ a ∈ t, ∀ b ∈ t, |a - b| < N

theorem fits_inj {N : Nat} {t : List Int} (h : Fits N t) {i j : Nat} (hi : i < t.length)
    (hj : j < t.length) (he : cellOf N (t.getD i 0) = cellOf N (t.getD j 0)) : i = j := by
  obtain ⟨hn, hb, hs⟩ := h
  rw [show t.getD i 0 = t[i] by simp [hi], show t.getD j 0 = t[j] by simp [hj]] at he
  have mi := List.getElem_mem hi
  have mj := List.getElem_mem hj
  obtain ⟨c, hc⟩ := (cellOf_spec (hb _ mi).1 (hb _ mi).2).2.2
  obtain ⟨d, hd⟩ := (cellOf_spec (hb _ mj).1 (hb _ mj).2).2.2
  rw [he] at hc
  have hdiff : t[i] - t[j] = N * (d - c) := by linarith
  have habs := hs _ mi _ mj
  have hz : t[i] - t[j] = 0 := Int.eq_zero_of_abs_lt_dvd (Dvd.intro _ hdiff.symm) habs
  exact (List.Nodup.getElem_inj_iff hn).mp (by omega)

theorem zip_eq_range {α : Type} (t : List Int) (x : List α) (d : α) (h : t.length = x.length) :
    t.zip x = (List.range t.length).map fun i => (t.getD i 0, x.getD i d) := by
  apply List.ext_getElem
  · simp [h]
  · intro i h1 h2
    simp at h1 h2
    simp [h1]

theorem fillData_holds {N : Nat} (hN : 0 < N) (x : List (Cx ℝ)) (t : List Int)
    (hlen : t.length = x.length) (hf : Fits N t) :
    ∃ b, fillData x t (List.replicate N 0) = some b ∧ Holds N (t.zip x) b := by
  have hstep : ∀ out : List (Cx ℝ), out.length = N → ∀ i, i < t.length →
      (do
        let m ← t[i]?
        if m < out.length then
          let xi ← x[i]?
          let k ← pyIdx out.length m
          some (out.set k xi)
        else some out)
      = some (out.set (cellOf N (t.getD i 0)) (x.getD i 0)) := by
    intro out ho i hi
    have mi := hf.2.1 _ (List.getElem_mem hi)
    have hx : i < x.length := by omega
    rw [List.getElem?_eq_getElem hi, List.getElem?_eq_getElem hx]
    simp only [Option.bind_eq_bind, Option.bind_some, ho, mi.2, if_true]
    rw [(cellOf_spec mi.1 mi.2).1]
    simp [hi, hx]
  have h1 := forRange_set N t.length _ _ _ hstep (fun i hi j hj he => fits_inj hf hi hj he)
  refine ⟨_, h1, ?_⟩
  have hpos : ∀ i, i < t.length → cellOf N (t.getD i 0) < N ∧
      (N : Int) ∣ (cellOf N (t.getD i 0) : Nat) - t.getD i 0 := by
    intro i hi
    have mi := hf.2.1 _ (List.getElem_mem hi)
    have := (cellOf_spec mi.1 mi.2).2
    simpa [hi] using this
  have h2 := holds_of_indicator hN (fun i => cellOf N (t.getD i 0)) (fun i => x.getD i 0)
    (fun i hi => (hpos i hi).1) _ rfl
  unfold Holds at h2 ⊢
  rw [h2]
  congr 2
  exact spectrum_mod hN rfl (zip_eq_range t x 0 hlen) (fun i hi => (hpos i hi).2)

theorem fillOnes_eq (t : List Int) (out : List (Cx ℝ)) :
    fillOnes t out = fillData (List.replicate t.length 1) t out := by
  unfold fillOnes fillData forRange
  have : ∀ (l : List Nat) (out : List (Cx ℝ)), (∀ i ∈ l, i < t.length) →
      l.foldlM (fun (out : List (Cx ℝ)) i => do
        let m ← t[i]?
        if m < out.length then
          let k ← pyIdx out.length m
          some (out.set k 1)
        else some out) out
      = l.foldlM (fun (out : List (Cx ℝ)) i => do
        let m ← t[i]?
        if m < out.length then
          let xi ← (List.replicate t.length 1)[i]?
          let k ← pyIdx out.length m
          some (out.set k xi)
        else some out) out := by
    intro l
    induction l with
    | nil => intros; rfl
    | cons a l ih =>
      intro out hl
      rw [List.foldlM_cons, List.foldlM_cons]
      have ha := hl a (by simp)
      simp only [List.getElem?_replicate, ha, if_true, Option.bind_eq_bind, Option.bind_some]
      congr 1
      funext o
      have := ih o (fun i hi => hl i (by simp [hi]))
      simp only [List.getElem?_replicate, Option.bind_eq_bind] at this
      exact this
  exact this _ _ (fun i hi => by simpa using hi)

theorem regular_holds {N : Nat} (x : List (Cx ℝ)) (hx : x ≠ []) (hN : N = x.length * 2) :
    Holds N (regular x) (x ++ List.replicate x.length 0) := by
  have hpos : 0 < x.length := List.length_pos_iff.mpr hx
  have hs : regular x = (List.range x.length).map fun i => (((i : Nat) : Int), x.getD i 0) := by
    apply List.ext_getElem
    · simp [regular]
    · intro i h1 h2
      simp at h1 h2
      simp [regular, h2]
  have h2 := holds_of_indicator (N := N) (n := x.length) (by omega) (fun i => i)
    (fun i => x.getD i 0) (fun i hi => by omega) _ hs
  convert h2 using 1
  apply List.ext_getElem
  · simp; omega
  · intro k h1 h3
    simp only [List.getElem_map, List.getElem_range]
    by_cases hk : k < x.length
    · rw [List.getElem_append_left hk]
      rw [show x[k] = x.getD k 0 by simp [hk]]
      refine Eq.trans (ite_eq_sum x.length k hk (x.getD k 0)).symm ?_
      congr 1
      apply List.map_congr_left
      intro i _
      split_ifs with h
      · rw [h]
      · rfl
    · rw [List.getElem_append_right (by omega)]
      rw [List.getElem_replicate]
      symm
      apply sum_map_zero
      intro i hi
      rw [List.mem_range] at hi
      rw [if_neg (by omega)]

end Cddm
