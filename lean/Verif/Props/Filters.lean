import Verif.Spec.Filters
import Verif.Lemmas.Filters
import Mathlib.Tactic.NormNum
import Mathlib.Analysis.SpecialFunctions.Log.Basic
import Mathlib.Analysis.SpecialFunctions.Exp

/-! # C45, C46, C47, C48: filters and interpolation -/

namespace Cddm
open Spec

/-! ### C45 -/
section C45
variable {K : Type} [LinearOrder K]

omit [LinearOrder K] in
theorem two_of_three (p : K → Bool) (a b c : K) :
    2 ≤ ([a, b, c].filter p).length ↔ (p a ∧ p b) ∨ (p a ∧ p c) ∨ (p b ∧ p c) := by
  cases ha : p a <;> cases hb : p b <;> cases hc : p c <;> simp [ha, hb, hc]

theorem med3_isMedian (a b c : K) : IsMedian (med3 a b c) a b c := by
  simp only [IsMedian, two_of_three, decide_eq_true_eq, List.mem_cons, List.not_mem_nil, or_false]
  unfold med3
  split_ifs with h1 h2 h2
  · rcases le_total c a with h | h
    · rw [min_eq_left h]
      exact ⟨by simp, by simp [h1.le], by simp [h]⟩
    · rw [min_eq_right h]
      exact ⟨by simp, by simp [h2.le], by simp [h]⟩
  · exact ⟨by simp, by simp [not_lt.mp h2], by simp [h1.le]⟩
  · exact ⟨by simp, by simp [not_lt.mp h1], by simp [h2.le]⟩
  · rcases le_total c a with h | h
    · rw [max_eq_right h]
      exact ⟨by simp, by simp [h], by simp [not_lt.mp h2]⟩
    · rw [max_eq_left h]
      exact ⟨by simp, by simp [h], by simp [not_lt.mp h1]⟩

/-- Only one of three values is the middle one, so the specification determines the filter. -/
theorem isMedian_unique {m m' a b c : K} (h : IsMedian m a b c) (h' : IsMedian m' a b c) :
    m = m' := by
  simp only [IsMedian, two_of_three, decide_eq_true_eq] at h h'
  obtain ⟨-, h1, h2⟩ := h
  obtain ⟨-, h3, h4⟩ := h'
  rcases h1 with h1 | h1 | h1 <;> rcases h2 with h2 | h2 | h2 <;> rcases h3 with h3 | h3 | h3 <;>
    rcases h4 with h4 | h4 | h4 <;> order [h1.1, h1.2, h2.1, h2.2, h3.1, h3.2, h4.1, h4.2]

/-- The median filter keeps the ends and returns the true median of each interior
neighbourhood; the initial content of the output array does not matter. -/
theorem C45_median (a out : List K) (hl : out.length = a.length) (hn : 3 ≤ a.length) :
    ∃ r, medianInto a out = .ok r ∧ r.length = a.length ∧
      r[0]? = a[0]? ∧ r[a.length - 1]? = a[a.length - 1]? ∧
      ∀ i (_ : 1 ≤ i) (h : i + 1 < a.length),
        ∃ m, r[i]? = some m ∧ IsMedian m a[i - 1] a[i] a[i + 1] := by
  refine ⟨_, medianInto_eq a out hl hn, stencil_length _ _, stencil_zero _ _, stencil_last _ _, ?_⟩
  intro i h1 h
  exact ⟨_, stencil_mid med3 a i h1 h, med3_isMedian _ _ _⟩

example : medianInto [3, 9, 1, 4, (4 : ℤ)] [0, 0, 0, 0, 0] = .ok [3, 3, 4, 4, 4] := rfl

/-- Sequences shorter than three samples are refused. -/
theorem C45_short (a out : List K) (h : a.length < 3) :
    medianInto a out = .error .assertionError := by
  rw [medianInto, if_neg (by omega)]

example : ([1, 2] : List ℤ).length < 3 := by decide

/-- Filtering in place gives the same result. -/
theorem C45_in_place (a out : List K) (hl : out.length = a.length) :
    medianInPlace a = medianInto a out := by
  by_cases hn : 2 < a.length
  · rw [medianInPlace_eq a hn, medianInto_eq a out hl hn]
  · rw [medianInPlace, medianInto, if_neg hn, if_neg hn]

example : medianInPlace [3, 9, 1, 4, (4 : ℤ)] = .ok [3, 3, 4, 4, 4] := rfl

/-- The fast filter agrees with the slow reference implementation. -/
theorem C45_slow (a out out' : List K) (hl : out.length = a.length)
    (hl' : out'.length = a.length) : medianInto a out = medianSlow a out' := by
  by_cases hn : 2 < a.length
  · rw [medianSlow_eq a out' hl' hn, medianInto_eq a out hl hn]
  · rw [medianSlow, medianInto, if_neg hn, if_neg hn]

/-- Every value returned occurs in the input. -/
theorem C45_values (a out r : List K) (hl : out.length = a.length)
    (h : medianInto a out = .ok r) : ∀ x ∈ r, x ∈ a := by
  by_cases hn : 2 < a.length
  · rw [medianInto_eq a out hl hn] at h
    injection h with h
    subst h
    intro x hx
    obtain ⟨k, hk, rfl⟩ := List.mem_iff_getElem.mp hx
    rw [stencil_length] at hk
    have e : ∀ y, (stencil med3 a)[k]? = some y → (stencil med3 a)[k]'(by simpa using hk) = y := by
      intro y hy
      exact (List.getElem_eq_iff _).mpr hy
    by_cases h0 : k = 0
    · subst h0
      rw [e a[0] (by rw [stencil_zero]; simp [hk])]
      exact List.getElem_mem _
    · by_cases h1 : k = a.length - 1
      · have hh := stencil_last med3 a
        rw [← h1] at hh
        rw [e a[k] (by rw [hh]; simp [hk])]
        exact List.getElem_mem _
      · rw [e _ (stencil_mid med3 a k (by omega) (by omega))]
        have hm := (med3_isMedian a[k - 1] a[k] a[k + 1]).1
        simp only [List.mem_cons, List.not_mem_nil, or_false] at hm
        rcases hm with hm | hm | hm <;> rw [hm] <;> exact List.getElem_mem _
  · rw [medianInto, if_neg hn] at h
    exact absurd h (by simp)

/-- Complex data: real and imaginary parts are filtered separately. -/
theorem C45_complex (a out : List (Cx K)) (hl : out.length = a.length) (re im : List K)
    (hr : medianInto (a.map Cx.re) (out.map Cx.re) = .ok re)
    (hi : medianInto (a.map Cx.im) (out.map Cx.im) = .ok im) :
    ∃ r, medianCx a out = .ok r ∧ r.map Cx.re = re ∧ r.map Cx.im = im := by
  have hlen : re.length = im.length := by
    by_cases hn : 2 < a.length
    · rw [medianInto_eq _ _ (by simpa using hl) (by simp; omega)] at hr hi
      injection hr with hr
      injection hi with hi
      rw [← hr, ← hi]; simp
    · rw [medianInto, if_neg (by simp; omega)] at hr
      exact absurd hr (by simp)
  refine ⟨List.zipWith Cx.mk re im, ?_, ?_, ?_⟩
  · simp [medianCx, hr, hi, bind, Except.bind]
  · apply List.ext_getElem <;> simp [hlen]
  · apply List.ext_getElem <;> simp [hlen]

example : medianCx [⟨3, 1⟩, ⟨9, 0⟩, (⟨1, 5⟩ : Cx ℤ)] [0, 0, 0] = .ok [⟨3, 1⟩, ⟨3, 1⟩, ⟨1, 5⟩] := rfl

end C45

/-! ### C46 -/
section C46
variable {V : Type} {K : Type} [Field K] [AddCommGroup V] [Module K V]

/-- `convolve` keeps the end points and replaces each interior sample by the weighted mean
`(a[i-1] + 2 a[i] + a[i+1]) / 4`, for real and complex samples. -/
theorem C46_convolve (a out : List V) (hl : out.length = a.length) (hn : 3 ≤ a.length) :
    ∃ r, convolveInto K a out = .ok r ∧ r.length = a.length ∧
      r[0]? = a[0]? ∧ r[a.length - 1]? = a[a.length - 1]? ∧
      ∀ i (_ : 1 ≤ i) (h : i + 1 < a.length),
        r[i]? = some ((1 / 4 : K) • (a[i - 1] + (2 : K) • a[i] + a[i + 1])) :=
  ⟨_, convolveInto_eq K a out hl hn, stencil_length _ _, stencil_zero _ _, stencil_last _ _,
    fun i h1 h => stencil_mid (conv3 K) a i h1 h⟩

example : convolveInto ℚ [4, 8, 0, (2 : ℚ)] [0, 0, 0, 0] = .ok [4, 5, 5 / 2, 2] := by
  have : stencil (conv3 ℚ) [4, 8, 0, (2 : ℚ)] = [4, 5, 5 / 2, 2] := by
    simp [stencil, conv3]; norm_num
  rw [convolveInto_eq ℚ _ _ (by rfl) (by simp), this]

/-- Shorter sequences are refused. -/
theorem C46_short (a out : List V) (h : out.length < 3) :
    convolveInto K a out = .error .assertionError := by
  rw [convolveInto, if_neg (by omega)]

/-- `convolve` maps affine sequences (in particular constants) to themselves. -/
theorem C46_affine [CharZero K] (c d : V) (n : Nat) (hn : 3 ≤ n) (out : List V) (hl : out.length = n) :
    convolveInto K ((List.range n).map fun (k : Nat) => (k : K) • d + c) out
      = .ok ((List.range n).map fun (k : Nat) => (k : K) • d + c) := by
  rw [convolveInto_eq K _ out (by simpa using hl) (by simp; omega)]
  congr 1
  symm
  refine ext_stencil _ _ _ rfl rfl rfl ?_
  intro k hk h
  simp only [List.length_map, List.length_range] at h
  simp only [List.getElem_map, List.getElem_range, List.getElem?_map,
    List.getElem?_range (show k < n by omega), Option.map_some, Option.some.injEq, conv3]
  obtain ⟨j, rfl⟩ : ∃ j, k = j + 1 := ⟨k - 1, by omega⟩
  simp only [Nat.add_sub_cancel]
  push_cast
  have h4 : (4 : K) ≠ 0 := by norm_num
  match_scalars
  · field_simp
    ring
  · field_simp
    ring

/-- `convolve` is linear. -/
theorem C46_linear (c d : K) (a b out : List V) (hab : a.length = b.length)
    (hl : out.length = a.length) (hn : 3 ≤ a.length) (ra rb : List V)
    (ha : convolveInto K a out = .ok ra) (hb : convolveInto K b out = .ok rb) :
    convolveInto K (List.zipWith (fun x y => c • x + d • y) a b) out
      = .ok (List.zipWith (fun x y => c • x + d • y) ra rb) := by
  rw [convolveInto_eq K _ _ hl hn] at ha
  rw [convolveInto_eq K _ _ (by omega) (by omega)] at hb
  injection ha with ha
  injection hb with hb
  subst ha hb
  rw [convolveInto_eq K _ out (by simp; omega) (by simp; omega)]
  congr 1
  symm
  have e : ∀ (x y : List V) (k : Nat), (List.zipWith (fun x y => c • x + d • y) x y)[k]?
      = (x[k]?).bind fun p => (y[k]?).map fun q => c • p + d • q := by
    intro x y k
    rw [List.getElem?_zipWith]
    cases x[k]? <;> cases y[k]? <;> rfl
  apply ext_stencil
  · simp
  · rw [e, e, stencil_zero, stencil_zero]
  · rw [e, e]
    simp only [List.length_zipWith, hab, min_self]
    rw [stencil_last]
    have := stencil_last (conv3 K) a
    rw [hab] at this
    rw [this]
  · intro k hk h
    simp only [List.length_zipWith] at h
    rw [e, stencil_mid (conv3 K) a k hk (by omega), stencil_mid (conv3 K) b k hk (by omega)]
    simp only [Option.bind_some, Option.map_some, Option.some.injEq, List.getElem_zipWith, conv3]
    module

end C46

section C46b
variable {K : Type} [LinearOrder K] [Field K] [IsStrictOrderedRing K]

theorem stencil_forall {K : Type} (f : K → K → K → K) (P : K → Prop) (a : List K)
    (hf : ∀ x y z, P x → P y → P z → P (f x y z)) (h : ∀ x ∈ a, P x) : ∀ x ∈ stencil f a, P x := by
  intro x hx
  obtain ⟨k, hk, rfl⟩ := List.mem_iff_getElem.mp hx
  rw [stencil_length] at hk
  have e : ∀ y, (stencil f a)[k]? = some y → (stencil f a)[k]'(by simpa using hk) = y := by
    intro y hy
    exact (List.getElem_eq_iff _).mpr hy
  by_cases h0 : k = 0
  · subst h0
    rw [e a[0] (by rw [stencil_zero]; simp [hk])]
    exact h _ (List.getElem_mem _)
  · by_cases h1 : k = a.length - 1
    · have hh := stencil_last f a
      rw [← h1] at hh
      rw [e a[k] (by rw [hh]; simp [hk])]
      exact h _ (List.getElem_mem _)
    · rw [e _ (stencil_mid f a k (by omega) (by omega))]
      exact hf _ _ _ (h _ (List.getElem_mem _)) (h _ (List.getElem_mem _)) (h _ (List.getElem_mem _))

theorem conv3_bounds (lo hi x y z : K) (hx : lo ≤ x ∧ x ≤ hi) (hy : lo ≤ y ∧ y ≤ hi)
    (hz : lo ≤ z ∧ z ≤ hi) : lo ≤ conv3 K x y z ∧ conv3 K x y z ≤ hi := by
  simp only [conv3, smul_eq_mul]
  constructor <;> linarith [hx.1, hx.2, hy.1, hy.2, hz.1, hz.2]

/-- `convolve` keeps all values within any bounds of the input. -/
theorem C46_bounds (a out r : List K) (lo hi : K) (hl : out.length = a.length)
    (h : ∀ x ∈ a, lo ≤ x ∧ x ≤ hi) (hr : convolveInto K a out = .ok r) :
    ∀ x ∈ r, lo ≤ x ∧ x ≤ hi := by
  by_cases hn : 2 < a.length
  · rw [convolveInto_eq K a out hl hn] at hr
    injection hr with hr
    subst hr
    exact stencil_forall _ _ a (conv3_bounds lo hi) h
  · rw [convolveInto, if_neg (by omega)] at hr
    exact absurd hr (by simp)

example : ∀ x ∈ [4, 8, 0, (2 : ℚ)], 0 ≤ x ∧ x ≤ 8 := by decide

theorem med3_bounds {K : Type} [LinearOrder K] (lo hi x y z : K) (hx : lo ≤ x ∧ x ≤ hi)
    (hy : lo ≤ y ∧ y ≤ hi) (hz : lo ≤ z ∧ z ≤ hi) : lo ≤ med3 x y z ∧ med3 x y z ≤ hi := by
  have := (med3_isMedian x y z).1
  simp only [List.mem_cons, List.not_mem_nil, or_false] at this
  rcases this with h | h | h <;> rw [h] <;> assumption

/-- `denoise` succeeds for any number of passes and keeps length, end points and bounds. -/
theorem C46_denoise (n : Nat) (a : List K) (lo hi : K) (hn : 3 ≤ a.length)
    (h : ∀ x ∈ a, lo ≤ x ∧ x ≤ hi) :
    ∃ r, denoise a n = .ok r ∧ r.length = a.length ∧ r[0]? = a[0]? ∧
      r[a.length - 1]? = a[a.length - 1]? ∧ ∀ x ∈ r, lo ≤ x ∧ x ≤ hi := by
  induction n generalizing a with
  | zero => exact ⟨a, rfl, rfl, rfl, rfl, h⟩
  | succ n ih =>
    have e1 := medianInto_eq a a rfl hn
    have e2 := convolveInto_eq K (stencil med3 a) (stencil med3 a) rfl (by simp; omega)
    obtain ⟨r, hr, h1, h2, h3, h4⟩ := ih (stencil (conv3 K) (stencil med3 a)) (by simp; omega)
      (stencil_forall _ _ _ (conv3_bounds lo hi)
        (stencil_forall _ _ _ (med3_bounds lo hi) h))
    have hlen : (stencil med3 a).length = a.length := stencil_length _ _
    refine ⟨r, ?_, by simpa using h1, ?_, ?_, h4⟩
    · simp only [denoise, e1, e2, bind, Except.bind]
      exact hr
    · rw [h2, stencil_zero, stencil_zero]
    · rw [stencil_length, hlen] at h3
      rw [h3]
      have h5 := stencil_last (conv3 K) (stencil med3 a)
      rw [hlen] at h5
      rw [h5, stencil_last]

/-- A constant sequence passes unchanged through any number of denoising steps. -/
theorem C46_denoise_const (n m : Nat) (c : K) (hm : 3 ≤ m) :
    denoise (List.replicate m c) n = .ok (List.replicate m c) := by
  obtain ⟨r, hr, h1, -, -, h4⟩ := C46_denoise n (List.replicate m c) c c (by simpa using hm)
    (fun x hx => by rw [List.eq_of_mem_replicate hx]; exact ⟨le_refl _, le_refl _⟩)
  rw [hr]
  congr 1
  rw [List.length_replicate] at h1
  exact List.eq_replicate_iff.mpr ⟨h1, fun x hx => le_antisymm (h4 x hx).2 (h4 x hx).1⟩

omit [IsStrictOrderedRing K] in
/-- Denoising complex data denoises real and imaginary parts separately. -/
theorem C46_denoise_complex (n : Nat) (a : List (Cx K)) (hn : 3 ≤ a.length) (re im : List K)
    (hr : denoise (a.map Cx.re) n = .ok re) (hi : denoise (a.map Cx.im) n = .ok im) :
    ∃ r, denoiseCx a n = .ok r ∧ r.map Cx.re = re ∧ r.map Cx.im = im := by
  induction n generalizing a with
  | zero =>
    injection hr with hr
    injection hi with hi
    exact ⟨a, rfl, hr, hi⟩
  | succ n ih =>
    have hr1 := medianInto_eq (a.map Cx.re) (a.map Cx.re) rfl (by simp; omega)
    have hi1 := medianInto_eq (a.map Cx.im) (a.map Cx.im) rfl (by simp; omega)
    obtain ⟨y, e1, e2, e3⟩ := C45_complex a a rfl _ _ hr1 hi1
    have hy : y.length = a.length := by
      have := congrArg List.length e2
      simpa using this
    have e4 := convolveInto_eq K y y rfl (by omega)
    have part : ∀ (φ : Cx K → K), (∀ p q : Cx K, φ (p + q) = φ p + φ q) →
        (∀ (s : K) (p : Cx K), φ (s • p) = s * φ p) →
        (stencil (conv3 K) y).map φ = stencil (conv3 K) (y.map φ) := by
      intro φ hadd hsm
      apply ext_stencil
      · simp
      · simp [stencil_zero]
      · simp [stencil_last]
      · intro k hk h
        simp only [List.length_map] at h
        rw [List.getElem?_map, stencil_mid (conv3 K) y k hk h]
        simp only [Option.map_some, List.getElem_map, conv3, hadd, hsm, smul_eq_mul]
    have e5 := part Cx.re (fun _ _ => rfl) (fun _ _ => rfl)
    have e6 := part Cx.im (fun _ _ => rfl) (fun _ _ => rfl)
    have c1 := convolveInto_eq K (stencil med3 (a.map Cx.re)) (stencil med3 (a.map Cx.re)) rfl
      (by simp; omega)
    have c2 := convolveInto_eq K (stencil med3 (a.map Cx.im)) (stencil med3 (a.map Cx.im)) rfl
      (by simp; omega)
    simp only [denoise, hr1, c1, bind, Except.bind] at hr
    simp only [denoise, hi1, c2, bind, Except.bind] at hi
    obtain ⟨r, h1, h2, h3⟩ := ih (stencil (conv3 K) y) (by simp [hy]; omega)
      (by rw [e5, e2]; exact hr) (by rw [e6, e3]; exact hi)
    refine ⟨r, ?_, h2, h3⟩
    simp only [denoiseCx, e1, e4, bind, Except.bind]
    exact h1

end C46b

/-- Unlike the median filter, `convolve` must not be used in place: it reads samples it has
already overwritten. -/
theorem C46_in_place_differs :
    convolveInPlace ℚ [0, 4, 0, (0 : ℚ)] = .ok [0, 2, 1 / 2, 0] ∧
    convolveInto ℚ [0, 4, 0, (0 : ℚ)] [0, 0, 0, 0] = .ok [0, 2, 1, 0] := by
  constructor
  · simp [convolveInPlace, convolveKernel, forRange', List.range', pyGet, pyIdx, setAt, orUB]
    norm_num
  · rw [convolveInto_eq ℚ _ _ (by rfl) (by simp)]
    simp [stencil, conv3]
    norm_num

/-! ### C47 -/
section C47
variable {K : Type} [LinearOrder K]

/-- Entry `i` of the decreasing filter is the least of the samples up to `i`, whatever the output
array contained before. -/
theorem C47_decreasing (a out : List K) (hl : out.length = a.length) :
    ∃ r, decreasing a out = some r ∧ r.length = a.length ∧
      ∀ i m, r[i]? = some m → IsLeast {x | x ∈ a.take (i + 1)} m := by
  obtain ⟨r, e, h1, h2, h3⟩ := decreasing_eq a out hl
  refine ⟨r, e, h1, ?_⟩
  intro i
  induction i with
  | zero =>
    intro m hm
    rw [h2] at hm
    cases a with
    | nil => simp at hm
    | cons x l => simp at hm; subst hm; simp [IsLeast, lowerBounds]
  | succ i ih =>
    intro m hm
    have hi : i + 1 < a.length := by
      have := (List.getElem?_eq_some_iff.mp hm).1
      omega
    obtain ⟨p, e1, e2⟩ := h3 i hi
    obtain ⟨l1, l2⟩ := ih p e1
    rw [e2] at hm
    injection hm with hm
    subst hm
    have ht : a.take (i + 1 + 1) = a.take (i + 1) ++ [a[i + 1]] := by
      rw [List.take_add_one, List.getElem?_eq_getElem hi]; rfl
    constructor
    · simp only [Set.mem_ofPred_eq, ht, List.mem_append, List.mem_singleton]
      rcases min_choice p a[i + 1] with h | h <;> rw [h]
      · exact Or.inl l1
      · exact Or.inr rfl
    · intro x hx
      simp only [Set.mem_ofPred_eq, ht, List.mem_append, List.mem_singleton] at hx
      rcases hx with hx | hx
      · exact le_trans (min_le_left _ _) (l2 hx)
      · rw [hx]; exact min_le_right _ _

example : decreasing [5, 7, 3, 4, (1 : ℤ)] [9, 9, 9, 9, 9] = some [5, 5, 3, 3, 1] := rfl

/-- The result is non-increasing and starts with the first sample. -/
theorem C47_decreasing_monotone (a out r : List K) (hl : out.length = a.length)
    (h : decreasing a out = some r) :
    r[0]? = a[0]? ∧ ∀ i x y, r[i]? = some x → r[i + 1]? = some y → y ≤ x := by
  obtain ⟨r', e, h1, h2, h3⟩ := decreasing_eq a out hl
  rw [e] at h
  injection h with h
  subst h
  refine ⟨h2, ?_⟩
  intro i x y hx hy
  have hi : i + 1 < a.length := by
    have := (List.getElem?_eq_some_iff.mp hy).1
    omega
  obtain ⟨p, e1, e2⟩ := h3 i hi
  rw [e1] at hx
  rw [e2] at hy
  injection hx with hx
  injection hy with hy
  rw [← hx, ← hy]
  exact min_le_left _ _

/-- The increasing filter never writes the first cell of its output; if that cell happens to hold
the first sample (as in place), entry `i` is the greatest of the samples up to `i`.  Missing from
the property: without that hypothesis it is false, see `C47_increasing_refuted`. -/
theorem C47_increasing_partial (a out : List K) (hl : out.length = a.length) (hne : a ≠ [])
    (h0 : out[0]? = a[0]?) :
    ∃ r, increasing a out = some r ∧ r.length = a.length ∧
      ∀ i m, r[i]? = some m → IsGreatest {x | x ∈ a.take (i + 1)} m := by
  obtain ⟨r, e, h1, h2, h3⟩ := increasing_eq a out hl hne
  refine ⟨r, e, h1, ?_⟩
  intro i
  induction i with
  | zero =>
    intro m hm
    rw [h2, h0] at hm
    cases a with
    | nil => simp at hm
    | cons x l => simp at hm; subst hm; simp [IsGreatest, upperBounds]
  | succ i ih =>
    intro m hm
    have hi : i + 1 < a.length := by
      have := (List.getElem?_eq_some_iff.mp hm).1
      omega
    obtain ⟨p, e1, e2⟩ := h3 i hi
    obtain ⟨l1, l2⟩ := ih p e1
    rw [e2] at hm
    injection hm with hm
    subst hm
    have ht : a.take (i + 1 + 1) = a.take (i + 1) ++ [a[i + 1]] := by
      rw [List.take_add_one, List.getElem?_eq_getElem hi]; rfl
    constructor
    · simp only [Set.mem_ofPred_eq, ht, List.mem_append, List.mem_singleton]
      rcases max_choice p a[i + 1] with h | h <;> rw [h]
      · exact Or.inl l1
      · exact Or.inr rfl
    · intro x hx
      simp only [Set.mem_ofPred_eq, ht, List.mem_append, List.mem_singleton] at hx
      rcases hx with hx | hx
      · exact le_trans (l2 hx) (le_max_left _ _)
      · rw [hx]; exact le_max_right _ _

example : increasing [5, 3, 7, 4, (9 : ℤ)] [5, 3, 7, 4, 9] = some [5, 5, 7, 7, 9] := rfl

/-- What the increasing filter returns in general: a non-decreasing sequence starting at whatever
the first output cell contained. -/
theorem C47_increasing_general (a out : List K) (hl : out.length = a.length) (hne : a ≠ []) :
    ∃ r, increasing a out = some r ∧ r.length = a.length ∧ r[0]? = out[0]? ∧
      ∀ i x y, r[i]? = some x → r[i + 1]? = some y → x ≤ y := by
  obtain ⟨r, e, h1, h2, h3⟩ := increasing_eq a out hl hne
  refine ⟨r, e, h1, h2, ?_⟩
  intro i x y hx hy
  have hi : i + 1 < a.length := by
    have := (List.getElem?_eq_some_iff.mp hy).1
    omega
  obtain ⟨p, e1, e2⟩ := h3 i hi
  rw [e1] at hx
  rw [e2] at hy
  injection hx with hx
  injection hy with hy
  rw [← hx, ← hy]
  exact le_max_left _ _

/-- The property fails for `increasing`: its output depends on uninitialised memory and need not
start with the first sample. -/
theorem C47_increasing_refuted :
    increasing [1, 2, (3 : ℤ)] [0, 0, 0] = some [0, 2, 3] ∧
    increasing [1, 2, (3 : ℤ)] [7, 0, 0] = some [7, 7, 7] := ⟨rfl, rfl⟩

end C47

/-! ### C48 -/
section C48
variable {K V : Type} [Field K] [LinearOrder K] [AddCommGroup V] [Module K V]

theorem lineAt_eq (p q : K × V) (x : K) (h : p.1 < q.1) :
    lineAt p.1 q.1 p.2 q.2 x = some (chord p q x) := by
  have : q.1 - p.1 ≠ 0 := by
    intro e
    have : p.1 = q.1 := (sub_eq_zero.mp e).symm
    exact absurd h (by rw [this]; exact lt_irrefl _)
  simp [lineAt, fdiv, this, chord, add_comm]

/-- Inside the range the value is the chord between the two neighbouring nodes. -/
theorem C48_inside (pre post : List (K × V)) (p q : K × V) (x : K)
    (hinc : Increasing (pre ++ p :: q :: post)) (hp : pre = [] ∨ p.1 < x) (hq : x ≤ q.1) :
    interpolateFrom x (pre ++ p :: q :: post) = some (chord p q x) := by
  induction pre with
  | nil =>
    have hpq : p.1 < q.1 := by
      have := (List.pairwise_cons.mp hinc).1 q (by simp)
      exact this
    simp only [List.nil_append]
    rw [interpolateFrom.eq_def]
    simp only [if_pos hq]
    exact lineAt_eq p q x hpq
  | cons a pre ih =>
    have hp' : p.1 < x := by simpa using hp
    have hinc' : Increasing (pre ++ p :: q :: post) := (List.pairwise_cons.mp hinc).2
    have := ih hinc' (Or.inr hp')
    cases pre with
    | nil =>
      simp only [List.cons_append, List.nil_append] at *
      rw [interpolateFrom.eq_def]
      simp only [if_neg (not_le.mpr hp')]
      exact this
    | cons b pre =>
      have hb : b.1 < x := by
        refine lt_trans ?_ hp'
        have := (List.pairwise_cons.mp hinc').1 p (by simp)
        exact this
      simp only [List.cons_append] at *
      rw [interpolateFrom.eq_def]
      simp only [if_neg (not_le.mpr hb)]
      cases pre <;> exact this

/-- Right of all nodes the last chord is extended. -/
theorem C48_right (pre : List (K × V)) (p q : K × V) (x : K)
    (hinc : Increasing (pre ++ [p, q])) (hq : q.1 < x) :
    interpolateFrom x (pre ++ [p, q]) = some (chord p q x) := by
  induction pre with
  | nil =>
    have hpq : p.1 < q.1 := (List.pairwise_cons.mp hinc).1 q (by simp)
    simp only [List.nil_append]
    rw [interpolateFrom.eq_def]
    simp only [if_neg (not_le.mpr hq)]
    exact lineAt_eq p q x hpq
  | cons a pre ih =>
    have hinc' : Increasing (pre ++ [p, q]) := (List.pairwise_cons.mp hinc).2
    have := ih hinc'
    cases pre with
    | nil =>
      have hpq : p.1 < q.1 := (List.pairwise_cons.mp hinc').1 q (by simp)
      simp only [List.cons_append, List.nil_append] at *
      rw [interpolateFrom.eq_def]
      simp only [if_neg (not_le.mpr (lt_trans hpq hq))]
      exact this
    | cons b pre =>
      have hb : b.1 < x := by
        refine lt_trans ?_ hq
        exact (List.pairwise_cons.mp hinc').1 q (by simp)
      simp only [List.cons_append] at *
      rw [interpolateFrom.eq_def]
      simp only [if_neg (not_le.mpr hb)]
      cases pre <;> exact this

/-- Every query is answered by the chord of two consecutive nodes. -/
theorem C48_chord (nodes : List (K × V)) (x : K) (hn : 2 ≤ nodes.length)
    (hinc : Increasing nodes) :
    ∃ pre p q post, nodes = pre ++ p :: q :: post ∧
      interpolateFrom x nodes = some (chord p q x) := by
  induction nodes with
  | nil => simp at hn
  | cons a l ih =>
    cases l with
    | nil => simp at hn
    | cons b l =>
      by_cases hb : x ≤ b.1
      · exact ⟨[], a, b, l, rfl, C48_inside [] l a b x hinc (Or.inl rfl) hb⟩
      · cases l with
        | nil => exact ⟨[], a, b, [], rfl, C48_right [] a b x hinc (not_le.mp hb)⟩
        | cons c l =>
          obtain ⟨pre, p, q, post, e, h⟩ := ih (by simp) (List.pairwise_cons.mp hinc).2
          refine ⟨a :: pre, p, q, post, by rw [e]; rfl, ?_⟩
          rw [interpolateFrom.eq_def]
          simp only [if_neg hb]
          exact h

/-- Exact at every node. -/
theorem C48_nodes (nodes : List (K × V)) (hn : 2 ≤ nodes.length) (hinc : Increasing nodes)
    (p : K × V) (hp : p ∈ nodes) : interpolateFrom p.1 nodes = some p.2 := by
  obtain ⟨pre, post, rfl⟩ := List.append_of_mem hp
  rcases List.eq_nil_or_concat pre with rfl | ⟨pre, a, rfl⟩
  · cases post with
    | nil => simp at hn
    | cons q post =>
      have hpq : p.1 < q.1 := (List.pairwise_cons.mp hinc).1 q (by simp)
      rw [C48_inside [] post p q p.1 hinc (Or.inl rfl) hpq.le]
      simp [chord]
  · rw [List.concat_eq_append, List.append_assoc] at hinc ⊢
    simp only [List.cons_append, List.nil_append] at hinc ⊢
    have hap : a.1 < p.1 := by
      have := (List.pairwise_append.mp hinc).2.1
      exact (List.pairwise_cons.mp this).1 p (by simp)
    rw [C48_inside pre post a p p.1 hinc (Or.inr hap) (le_refl _)]
    have : p.1 - a.1 ≠ 0 := by
      intro e
      rw [sub_eq_zero.mp e] at hap
      exact lt_irrefl _ hap
    simp [chord, this]

/-- Straight lines are reproduced everywhere, inside and outside the range of the nodes. -/
theorem C48_line (nodes : List (K × V)) (hn : 2 ≤ nodes.length) (hinc : Increasing nodes)
    (c d : V) (hline : ∀ p ∈ nodes, p.2 = p.1 • d + c) (x : K) :
    interpolateFrom x nodes = some (x • d + c) := by
  obtain ⟨pre, p, q, post, rfl, h⟩ := C48_chord nodes x hn hinc
  rw [h]
  have hpq : p.1 < q.1 := by
    have := (List.pairwise_append.mp hinc).2.1
    exact (List.pairwise_cons.mp this).1 q (by simp)
  have : q.1 - p.1 ≠ 0 := by
    intro e
    rw [sub_eq_zero.mp e] at hpq
    exact lt_irrefl _ hpq
  rw [chord, hline p (by simp), hline q (by simp)]
  congr 1
  have e : q.1 • d + c - (p.1 • d + c) = (q.1 - p.1) • d := by module
  rw [e, smul_smul, div_mul_cancel₀ _ this]
  module

/-- A whole call: every query gets a finite value, computed as above; fewer than two nodes are
refused. -/
theorem C48_call (xNew : List K) (nodes : List (K × V)) (hinc : Increasing nodes) :
    (2 ≤ nodes.length → ∃ ys : List V, interpolate xNew nodes = .ok (ys.map some) ∧
      ∀ (i : Nat) x, xNew[i]? = some x → (ys[i]?).map some = some (interpolateFrom x nodes)) ∧
    (nodes.length < 2 → interpolate xNew nodes = .error .assertionError) := by
  constructor
  · intro hn
    have hv : ∀ x, ∃ y, interpolateFrom x nodes = some y := fun x => by
      obtain ⟨_, _, _, _, _, h⟩ := C48_chord nodes x hn hinc
      exact ⟨_, h⟩
    choose f hf using hv
    refine ⟨xNew.map f, ?_, ?_⟩
    · rw [interpolate, if_pos hn]
      simp [hf]
    · intro i x hx
      simp [hx, hf]
  · intro hn
    rw [interpolate, if_neg (by omega)]

end C48

section C48b
variable {K : Type} [Field K] [LinearOrder K] [IsStrictOrderedRing K]

/-- Between two neighbouring nodes the value stays between theirs. -/
theorem C48_between (pre post : List (K × K)) (p q : K × K) (x : K)
    (hinc : Increasing (pre ++ p :: q :: post)) (hp : p.1 ≤ x) (hq : x ≤ q.1) :
    ∃ y, interpolateFrom x (pre ++ p :: q :: post) = some y ∧
      min p.2 q.2 ≤ y ∧ y ≤ max p.2 q.2 := by
  have hpq : p.1 < q.1 := by
    have := (List.pairwise_append.mp hinc).2.1
    exact (List.pairwise_cons.mp this).1 q (by simp)
  rcases hp.eq_or_lt with hpx | hpx
  · refine ⟨p.2, ?_, min_le_left _ _, le_max_left _ _⟩
    rw [← hpx]
    exact C48_nodes _ (by simp; omega) hinc p (by simp)
  · refine ⟨_, C48_inside pre post p q x hinc (Or.inr hpx) hq, ?_⟩
    have h0 : 0 < q.1 - p.1 := by linarith
    obtain ⟨s, hs0, hs1, e⟩ : ∃ s : K, 0 ≤ s ∧ s ≤ 1 ∧ (x - p.1) / (q.1 - p.1) = s :=
      ⟨_, div_nonneg (by linarith) h0.le, (div_le_one h0).mpr (by linarith), rfl⟩
    rw [chord, e, smul_eq_mul]
    rcases le_total p.2 q.2 with h | h
    · rw [min_eq_left h, max_eq_right h]
      constructor <;> nlinarith
    · rw [min_eq_right h, max_eq_left h]
      constructor <;> nlinarith

example : Increasing [((0 : ℚ), (1 : ℚ)), (2, 5), (3, 4)] := by
  simp [Increasing]; norm_num

end C48b

section C48log

/-- Two nodes between which the logarithmic branch would mix logarithmic and linear abscissae. -/
def Spec.Mixed (p q : Int × ℝ) : Prop := p.1 ≤ 0 ∧ 1 < q.1

theorem log_lt_log_int {a b : Int} (ha : 1 ≤ a) (hab : a < b) :
    Real.log (a : ℝ) < Real.log (b : ℝ) :=
  Real.log_lt_log (by exact_mod_cast (by omega : 0 < a)) (by exact_mod_cast hab)

theorem logInterpolate_right_node (p q : Int × ℝ) (h : p.1 < q.1) (hm : ¬ Mixed p q)
    (o : Option ℝ) (rest : List (Int × ℝ)) :
    logInterpolateFrom q.1 o (p :: q :: rest) = some q.2 := by
  rw [logInterpolateFrom.eq_def]
  simp only [le_refl, if_true]
  by_cases hq : 1 < q.1
  · have hp : 1 ≤ p.1 := by
      by_contra hc
      exact hm ⟨by omega, hq⟩
    have hl := log_lt_log_int hp h
    simp only [ge_iff_le, hp, gt_iff_lt, hq, decide_true, and_true, if_true]
    simp only [lineAt, fdiv]
    have : Real.log (q.1 : ℝ) - Real.log (p.1 : ℝ) ≠ 0 := by linarith
    rw [if_neg this, div_self this]
    simp
  · have : (q.1 : ℝ) - (p.1 : ℝ) ≠ 0 := by
      have : (p.1 : ℝ) < q.1 := by exact_mod_cast h
      linarith
    simp [lineAt, fdiv, hq, this]

theorem logInterpolate_left_node (p q : Int × ℝ) (h : p.1 < q.1)
    (o : Option ℝ) (rest : List (Int × ℝ)) :
    logInterpolateFrom p.1 o (p :: q :: rest) = some p.2 := by
  rw [logInterpolateFrom.eq_def]
  simp only [h.le, if_true]
  by_cases hp : 1 < p.1
  · have hl := log_lt_log_int hp.le h
    have : Real.log (q.1 : ℝ) - Real.log (p.1 : ℝ) ≠ 0 := by linarith
    simp [lineAt, fdiv, hp, hp.le, this]
  · have : (q.1 : ℝ) - (p.1 : ℝ) ≠ 0 := by
      have : (p.1 : ℝ) < q.1 := by exact_mod_cast h
      linarith
    simp [lineAt, fdiv, hp, this]

/-- `log_interpolate` is exact at every node, if no node below 1 is followed by one above 1. -/
theorem logInterpolate_nodes (nodes : List (Int × ℝ)) (hn : 2 ≤ nodes.length)
    (hinc : Increasing nodes)
    (hm : ∀ pre p q post, nodes = pre ++ p :: q :: post → ¬ Mixed p q)
    (o : Option ℝ) (p : Int × ℝ) (hp : p ∈ nodes) :
    logInterpolateFrom p.1 o nodes = some p.2 := by
  induction nodes with
  | nil => simp at hn
  | cons a l ih =>
    cases l with
    | nil => simp at hn
    | cons b l =>
      have hab : a.1 < b.1 := (List.pairwise_cons.mp hinc).1 b (by simp)
      rcases List.mem_cons.mp hp with rfl | hp
      · exact logInterpolate_left_node p b hab o l
      · rcases List.mem_cons.mp hp with rfl | hp'
        · exact logInterpolate_right_node a p hab (hm [] a p l rfl) o l
        · have hinc' := (List.pairwise_cons.mp hinc).2
          have hbp : b.1 < p.1 := (List.pairwise_cons.mp hinc').1 p hp'
          cases l with
          | nil => simp at hp'
          | cons c l =>
            rw [logInterpolateFrom.eq_def]
            simp only [if_neg (not_le.mpr hbp)]
            exact ih (by simp) hinc' (fun pre x y post e => hm (a :: pre) x y post (by rw [e]; rfl))
              hp

/-- `log_interpolate` is exact at all nodes when the nodes start with 0 and 1. -/
theorem C48_log_nodes (y0 y1 : ℝ) (rest : List (Int × ℝ))
    (hinc : Increasing ((0, y0) :: (1, y1) :: rest)) (o : Option ℝ) (p : Int × ℝ)
    (hp : p ∈ (0, y0) :: (1, y1) :: rest) :
    logInterpolateFrom p.1 o ((0, y0) :: (1, y1) :: rest) = some p.2 := by
  refine logInterpolate_nodes _ (by simp) hinc ?_ o p hp
  intro pre x y post e hmix
  cases pre with
  | nil =>
    simp only [List.nil_append, List.cons.injEq] at e
    have := hmix.2
    rw [← e.2.1] at this
    simp at this
  | cons a pre =>
    simp only [List.cons_append, List.cons.injEq] at e
    have hx : x ∈ (1, y1) :: rest := by rw [e.2]; simp
    have : 1 ≤ x.1 := by
      rcases List.mem_cons.mp hx with rfl | hx
      · simp
      · have := (List.pairwise_cons.mp (List.pairwise_cons.mp hinc).2).1 x hx
        simp at this
        omega
    have := hmix.1
    omega

example : Increasing [((0 : ℤ), (1 : ℝ)), (1, 5), (4, 4)] := by
  simp [Increasing]

/-- A whole call: queries at nodes return the node values; fewer than two nodes are refused. -/
theorem C48_log_call (y0 y1 : ℝ) (rest : List (Int × ℝ)) (xNew : List Int)
    (out : List (Option ℝ)) (hl : out.length = xNew.length)
    (hinc : Increasing ((0, y0) :: (1, y1) :: rest)) :
    ∃ r, logInterpolate xNew ((0, y0) :: (1, y1) :: rest) out = .ok r ∧
      r.length = xNew.length ∧
      ∀ (i : Nat) p, p ∈ (0, y0) :: (1, y1) :: rest → xNew[i]? = some p.1 →
        r[i]? = some (some p.2) := by
  refine ⟨_, by rw [logInterpolate, if_pos (by simp)], by simp [hl], ?_⟩
  intro i p hp hi
  have hlt : i < out.length := by rw [hl]; exact (List.getElem?_eq_some_iff.mp hi).1
  rw [List.getElem?_zipWith, hi, List.getElem?_eq_getElem hlt]
  simp only
  rw [C48_log_nodes y0 y1 rest hinc _ p hp]

/-- The same if the nodes start at 1 or above. -/
theorem C48_log_nodes_positive (nodes : List (Int × ℝ)) (hn : 2 ≤ nodes.length)
    (hinc : Increasing nodes) (hpos : ∀ p ∈ nodes, 1 ≤ p.1) (o : Option ℝ)
    (p : Int × ℝ) (hp : p ∈ nodes) : logInterpolateFrom p.1 o nodes = some p.2 := by
  refine logInterpolate_nodes nodes hn hinc ?_ o p hp
  rintro pre x y post rfl hmix
  have := hpos x (by simp)
  have := hmix.1
  omega

/-- Without that condition exactness at the nodes fails: between the nodes 0 and 3 the query is
logarithmic but the nodes are not. -/
theorem C48_log_mixed_refuted :
    ∃ v, logInterpolateFrom 3 none [(0, 0), (3, 1)] = some v ∧ v ≠ (1 : ℝ) := by
  refine ⟨Real.log 3 / 3, ?_, ?_⟩
  · rw [logInterpolateFrom.eq_def]
    simp [lineAt, fdiv]
  · have : Real.log 3 < 3 - 1 := Real.log_lt_sub_one_of_pos (by norm_num) (by norm_num)
    intro h
    rw [div_eq_iff (by norm_num)] at h
    linarith

/-- With only the nodes 0 and 1 a query to their right may leave the output cell uninitialised. -/
theorem C48_log_unwritten (y0 y1 : ℝ) (o : Option ℝ) :
    logInterpolateFrom 2 o [(0, y0), (1, y1)] = o := by
  rw [logInterpolateFrom.eq_def]
  have : Real.log 2 < 2 - 1 := Real.log_lt_sub_one_of_pos (by norm_num) (by norm_num)
  have h2 : ¬ (1 < Real.log 2) := by linarith
  simp [h2]

end C48log

end Cddm
