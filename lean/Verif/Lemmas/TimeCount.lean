import Verif.Spec.TimeCount
import Verif.Spec.Pairs
import Mathlib.Probability.Independence.InfinitePi
import Mathlib.Probability.UniformOn
import Mathlib.MeasureTheory.Integral.Bochner.Set
import Mathlib.Tactic

/-!
# Counting pairs of random times
-/

namespace Cddm
open Spec MeasureTheory ProbabilityTheory

/-! ### Lists of pairs -/

theorem length_filter_sum {α : Type} (l : List α) (p : α → Prop) [DecidablePred p] :
    (l.filter fun x => p x).length = (l.map fun x => if p x then 1 else 0).sum := by
  induction l with
  | nil => rfl
  | cons a l ih =>
    rw [List.map_cons, List.sum_cons, ← ih, List.filter_cons]
    by_cases h : p a <;> simp [h]; omega

theorem listProduct_sum {α β : Type} (l1 : List α) (l2 : List β) (f : α × β → Nat) :
    ((l1 ×ˢ l2).map f).sum = (l1.map fun a => (l2.map fun b => f (a, b)).sum).sum := by
  induction l1 with
  | nil => rfl
  | cons a l ih =>
    rw [List.product_cons, List.map_append, List.sum_append, List.map_map, List.map_cons, List.sum_cons]
    rw [← ih]
    rfl

theorem sum_list_range (N : Nat) (f : Nat → Nat) : ((List.range N).map f).sum = ∑ i ∈ Finset.range N, f i := rfl

/-- Pairs of two lists of times. -/
theorem count_product (N : Nat) (a b : Nat → Int) (p : Int × Int → Prop) [DecidablePred p] :
    ((((List.range N).map a) ×ˢ ((List.range N).map b)).filter fun q => p q).length =
      ∑ i ∈ Finset.range N, ∑ j ∈ Finset.range N, if p (a i, b j) then 1 else 0 := by
  rw [length_filter_sum, listProduct_sum, List.map_map, ← sum_list_range]
  congr 1
  refine List.map_congr_left fun i _ => ?_
  simp only [Function.comp, List.map_map]
  rw [← sum_list_range]
  rfl

theorem selfPairs_listMap {α β : Type} (f : α → β) (l : List α) :
    selfPairs (l.map f) = (selfPairs l).map (Prod.map f f) := by
  induction l with
  | nil => rfl
  | cons a l ih =>
    rw [List.map_cons, selfPairs, selfPairs, ih, List.map_append]
    simp [Function.comp]

theorem sum_selfPairs_range' (f : Nat × Nat → Nat) (s N : Nat) :
    ((selfPairs (List.range' s N)).map f).sum =
      ∑ i ∈ Finset.range N, ∑ j ∈ Finset.range N, if i ≤ j then f (s + i, s + j) else 0 := by
  induction N generalizing s with
  | zero => rfl
  | succ N ih =>
    rw [List.range'_succ, selfPairs, List.map_append, List.sum_append, ih, List.map_map, ← List.range'_succ,
      Finset.sum_range_succ' (fun i => ∑ j ∈ Finset.range (N + 1), _)]
    rw [Nat.add_comm]
    congr 1
    · refine Finset.sum_congr rfl fun i _ => ?_
      rw [Finset.sum_range_succ']
      simp only [Nat.add_le_add_iff_right, show ¬ (i + 1 ≤ 0) by omega, if_false, Nat.add_zero]
      refine Finset.sum_congr rfl fun j _ => ?_
      rw [show s + 1 + i = s + (i + 1) by omega, show s + 1 + j = s + (j + 1) by omega]
    · simp only [Nat.zero_le, if_true, Nat.add_zero]
      rw [← sum_list_range, List.range'_eq_map_range, List.map_map]
      rfl

/-- Pairs of times of one list. -/
theorem count_selfPairs (N : Nat) (a : Nat → Int) (p : Int × Int → Prop) [DecidablePred p] :
    ((selfPairs ((List.range N).map a)).filter fun q => p q).length =
      ∑ i ∈ Finset.range N, ∑ j ∈ Finset.range N, if i ≤ j then (if p (a i, a j) then 1 else 0) else 0 := by
  rw [length_filter_sum, selfPairs_listMap, List.map_map, List.range_eq_range', sum_selfPairs_range']
  simp

/-! ### Pairs of numbers with a given difference -/

theorem card_diff (N : Nat) (k : Int) :
    ∑ i ∈ Finset.range N, ∑ j ∈ Finset.range N, (if (j : Int) - i = k then 1 else 0) = N - k.natAbs := by
  have inner : ∀ i ∈ Finset.range N, ∑ j ∈ Finset.range N, (if (j : Int) - i = k then 1 else 0)
      = if 0 ≤ (i : Int) + k ∧ (i : Int) + k < N then 1 else 0 := by
    intro i _
    by_cases h : 0 ≤ (i : Int) + k ∧ (i : Int) + k < N
    · rw [if_pos h, Finset.sum_eq_single ((i : Int) + k).toNat]
      · rw [if_pos (by omega)]
      · intro j _ hj
        rw [if_neg (by omega)]
      · intro hj
        exact absurd (Finset.mem_range.mpr (by omega)) hj
    · rw [if_neg h]
      refine Finset.sum_eq_zero fun j hj => ?_
      rw [Finset.mem_range] at hj
      rw [if_neg (by omega)]
  rw [Finset.sum_congr rfl inner, Finset.sum_boole]
  simp only [Nat.cast_id]
  have : (Finset.range N).filter (fun i : Nat => 0 ≤ (i : Int) + k ∧ (i : Int) + k < N) =
      Finset.Ico (-k).toNat (min N ((N : Int) - k).toNat) := by
    ext i
    simp only [Finset.mem_filter, Finset.mem_range, Finset.mem_Ico]
    omega
  rw [this, Nat.card_Ico]
  omega

/-! ### Probabilities -/

section
variable {Ω : Type} [MeasurableSpace Ω] {μ : Measure Ω} [IsProbabilityMeasure μ]

theorem measurableSet_pair {X Y : Ω → Nat} (hX : Measurable X) (hY : Measurable Y) (E : Nat → Nat → Prop) :
    MeasurableSet {ω | E (X ω) (Y ω)} :=
  (hX.prodMk hY) (MeasurableSet.of_discrete (s := {q : Nat × Nat | E q.1 q.2}))

/-- Two independent draws: the fraction of the pairs of outcomes. -/
theorem prob_pair {p q : Nat} {X Y : Ω → Nat} (hX : UniformDraw μ p X) (hY : UniformDraw μ q Y) (hi : IndepFun X Y μ)
    (E : Nat → Nat → Prop) [∀ x y, Decidable (E x y)] :
    μ.real {ω | E (X ω) (Y ω)} =
      (∑ x ∈ Finset.range p, ∑ y ∈ Finset.range q, if E x y then 1 else 0 : Nat) / ((p : ℝ) * q) := by
  have hset : {ω | E (X ω) (Y ω)} =
      ⋃ z ∈ ((Finset.range p) ×ˢ (Finset.range q)).filter (fun z => E z.1 z.2), {ω | X ω = z.1} ∩ {ω | Y ω = z.2} := by
    ext ω
    simp only [Set.mem_setOf_eq, Finset.mem_filter, Finset.mem_product, Finset.mem_range, Set.mem_iUnion, Set.mem_inter_iff,
      exists_prop, Prod.exists]
    constructor
    · intro h
      exact ⟨X ω, Y ω, ⟨⟨hX.range ω, hY.range ω⟩, h⟩, rfl, rfl⟩
    · rintro ⟨x, y, ⟨-, h⟩, rfl, rfl⟩
      exact h
  have mX : ∀ x, MeasurableSet {ω | X ω = x} := fun x => hX.measurable (measurableSet_singleton x)
  have mY : ∀ y, MeasurableSet {ω | Y ω = y} := fun y => hY.measurable (measurableSet_singleton y)
  rw [hset, measureReal_biUnion_finset]
  · have hz : ∀ z ∈ ((Finset.range p) ×ˢ (Finset.range q)).filter (fun z => E z.1 z.2),
        μ.real ({ω | X ω = z.1} ∩ {ω | Y ω = z.2}) = 1 / ((p : ℝ) * q) := by
      intro z hz
      simp only [Finset.mem_filter, Finset.mem_product, Finset.mem_range] at hz
      have this : μ.real ({ω | X ω = z.1} ∩ {ω | Y ω = z.2}) = μ.real {ω | X ω = z.1} * μ.real {ω | Y ω = z.2} := by
        have := hi.measure_inter_preimage_eq_mul {z.1} {z.2} (measurableSet_singleton _) (measurableSet_singleton _)
        rw [measureReal_def, measureReal_def, measureReal_def, ← ENNReal.toReal_mul]
        exact congrArg ENNReal.toReal this
      rw [this, hX.uniform _ hz.1.1, hY.uniform _ hz.1.2]
      rw [one_div, one_div, one_div, mul_inv]
    rw [Finset.sum_congr rfl hz, Finset.sum_const, nsmul_eq_mul, Finset.card_filter, Finset.sum_product]
    rw [mul_one_div]
  · intro z _ w _ hne
    refine Set.disjoint_left.mpr ?_
    rintro ω ⟨h1, h2⟩ ⟨h3, h4⟩
    exact hne (Prod.ext (h1.symm.trans h3) (h2.symm.trans h4))
  · intro z _
    exact (mX _).inter (mY _)

/-- The expected number of pairs is the sum of the probabilities. -/
theorem expected_count (N : Nat) (E : Nat → Nat → Set Ω) [∀ i j ω, Decidable (ω ∈ E i j)] (hE : ∀ i j, MeasurableSet (E i j))
    (c : Ω → Nat)
    (hc : ∀ ω, c ω = ∑ i ∈ Finset.range N, ∑ j ∈ Finset.range N, if ω ∈ E i j then 1 else 0) :
    ∫ ω, (c ω : ℝ) ∂μ = ∑ i ∈ Finset.range N, ∑ j ∈ Finset.range N, μ.real (E i j) := by
  have hind : ∀ i j, (fun ω => if ω ∈ E i j then (1 : ℝ) else 0) = (E i j).indicator 1 := by
    intro i j
    funext ω
    simp only [Set.indicator, Pi.one_apply]
  have hint : ∀ i j, Integrable (fun ω => if ω ∈ E i j then (1 : ℝ) else 0) μ := by
    intro i j
    rw [hind]
    exact (integrable_const (1 : ℝ)).indicator (hE i j)
  have : (fun ω => (c ω : ℝ)) = fun ω => ∑ i ∈ Finset.range N, ∑ j ∈ Finset.range N, if ω ∈ E i j then (1 : ℝ) else 0 := by
    funext ω
    rw [hc ω]
    push_cast
    rfl
  rw [this, integral_finsetSum _ fun i _ => integrable_finsetSum _ fun j _ => hint i j]
  refine Finset.sum_congr rfl fun i _ => ?_
  rw [integral_finsetSum _ fun j _ => hint i j]
  refine Finset.sum_congr rfl fun j _ => ?_
  rw [hind, integral_indicator_one (hE i j)]

theorem integrable_count (N : Nat) (E : Nat → Nat → Set Ω) [∀ i j ω, Decidable (ω ∈ E i j)] (hE : ∀ i j, MeasurableSet (E i j))
    (c : Ω → Nat)
    (hc : ∀ ω, c ω = ∑ i ∈ Finset.range N, ∑ j ∈ Finset.range N, if ω ∈ E i j then 1 else 0) :
    Integrable (fun ω => (c ω : ℝ)) μ := by
  have : (fun ω => (c ω : ℝ)) = fun ω => ∑ i ∈ Finset.range N, ∑ j ∈ Finset.range N, (E i j).indicator (fun _ => (1 : ℝ)) ω := by
    funext ω
    rw [hc ω]
    push_cast
    refine Finset.sum_congr rfl fun i _ => Finset.sum_congr rfl fun j _ => ?_
    simp only [Set.indicator]
  rw [this]
  exact integrable_finsetSum _ fun i _ => integrable_finsetSum _ fun j _ => (integrable_const (1 : ℝ)).indicator (hE i j)

/-- Unsigned delays: both signs. -/
theorem integral_abs_split (P : Ω → List (Int × Int)) (d : Nat) (h0 : 0 < d)
    (hI : ∀ e : Int, Integrable (fun ω => (((P ω).filter fun p => p.2 - p.1 = e).length : ℝ)) μ) :
    ∫ ω, (((P ω).filter fun p => (p.2 - p.1).natAbs = d).length : ℝ) ∂μ =
      ∫ ω, (((P ω).filter fun p => p.2 - p.1 = (d : Int)).length : ℝ) ∂μ +
        ∫ ω, (((P ω).filter fun p => p.2 - p.1 = -(d : Int)).length : ℝ) ∂μ := by
  rw [← integral_add (hI _) (hI _)]
  refine integral_congr_ae (Filter.Eventually.of_forall fun ω => ?_)
  dsimp only
  rw [← Nat.cast_add]
  congr 1
  induction P ω with
  | nil => rfl
  | cons a l ih =>
    simp only [length_filter_sum, List.map_cons, List.sum_cons] at ih ⊢
    split_ifs <;> omega

end

end Cddm
