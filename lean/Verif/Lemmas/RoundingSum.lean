import Verif.Lemmas.RoundingApi
import Mathlib.Algebra.Order.BigOperators.Group.List
import Mathlib.Algebra.Order.Monoid.Prod
import Mathlib.Tactic.Abel

/-! # The delay sums over any arithmetic -/

namespace Cddm
open Spec

theorem forRange_calc {σ : Type} (n : Nat) (st : σ) (body : σ → Nat → Option σ) (I : Nat → σ → Prop) (h0 : I 0 st)
    (h : ∀ i, i < n → ∀ s, I i s → ∃ s', body s i = some s' ∧ I (i + 1) s') :
    ∃ s, forRange n st body = some s ∧ I n s := by
  induction n with
  | zero => exact ⟨st, rfl, h0⟩
  | succ n ih =>
    obtain ⟨s, h1, h2⟩ := ih fun i hi => h i (by omega)
    obtain ⟨s', h3, h4⟩ := h n (by omega) s h2
    refine ⟨s', ?_, h4⟩
    unfold forRange at h1 ⊢
    rw [List.range_succ, List.foldlM_append, h1]
    simpa using h3

section
variable {M V S : Type} [Zero M] [Add M] [Sub M] [AddCommGroup V] [AddCommMonoid S] [PartialOrder S] [IsOrderedAddMonoid S]

/-- Proof device: `P m a v s` says that `a` stands for the exact value `v` of size `s`, after `m` roundings. -/
structure Calc (P : Nat → M → V → S → Prop) : Prop where
  zero : P 0 0 0 0
  add : ∀ {m a v s b w r}, P m a v s → P m b w r → P (m + 1) (a + b) (v + w) (s + r)
  sub : ∀ {m a v s b w r}, P m a v s → P m b w r → P (m + 1) (a - b) (v - w) (s + r)
  mono : ∀ {m m' a v s}, m ≤ m' → P m a v s → P m' a v s
  widen : ∀ {m a v s s'}, s ≤ s' → P m a v s → P m a v s'

variable {P : Nat → M → V → S → Prop} (c : Calc P) (x : List M) (ex : M → V) (sz : M → S)
include c

theorem plainSum_calc (hx : ∀ a ∈ x, P 0 a (ex a) (sz a)) :
    ∃ t, plainSum x = some t ∧ P x.length t (x.map ex).sum (x.map sz).sum := by
  unfold plainSum
  have H := forRange_calc x.length (0 : M) (fun tmp j => do
    let xj ← x[j]?
    some (tmp + xj)) (fun i t => P i t ((x.map ex).take i).sum ((x.map sz).take i).sum) (by simpa using c.zero) ?_
  · obtain ⟨t, h1, h2⟩ := H
    refine ⟨t, h1, ?_⟩
    rwa [List.take_of_length_le (by simp), List.take_of_length_le (by simp)] at h2
  · intro i hi t ht
    refine ⟨t + x[i], by simp [List.getElem?_eq_getElem hi], ?_⟩
    rw [List.sum_take_succ _ _ (by simpa using hi), List.sum_take_succ _ _ (by simpa using hi)]
    simp only [List.getElem_map]
    exact c.add ht (c.mono (Nat.zero_le _) (hx _ (List.getElem_mem hi)))

omit c [Zero M] [Sub M] in
theorem addAt_cell (out : List M) (i : Nat) (hi : i < out.length) (v : M) :
    addAt out (i : Int) v = some (out.modify i (· + v)) := by
  simp only [addAt, pyIdx_nonneg (show (0 : Int) ≤ i by omega) (show (i : Int) < out.length by omega), Option.bind_some,
    Int.toNat_natCast]

omit c [Zero M] [Sub M] in
theorem addAt_cell_neg (out : List M) (i : Nat) (h0 : 0 < i) (hi : i ≤ out.length) (v : M) :
    addAt out (-(i : Int)) v = some (out.modify (out.length - i) (· + v)) := by
  have h : pyIdx out.length (-(i : Int)) = some (out.length - i) := by
    rw [pyIdx_neg (by omega) (by omega)]
    congr 1
    omega
  simp only [addAt, h, Option.bind_some]

omit c in
theorem get_before (i : Nat) (h0 : 0 < i) (hi : i ≤ x.length) : pyGet x ((i : Int) - 1) = some (x[i - 1]'(by omega)) := by
  unfold pyGet
  rw [pyIdx_nonneg (by omega) (by omega)]
  simp only [Option.bind_some]
  rw [show ((i : Int) - 1).toNat = i - 1 by omega, List.getElem?_eq_getElem (by omega)]

omit c in
theorem get_after (i : Nat) (h0 : 0 < i) (hi : i ≤ x.length) :
    pyGet x ((x.length : Int) - i) = some (x[x.length - i]'(by omega)) := by
  unfold pyGet
  rw [pyIdx_nonneg (by omega) (by omega)]
  simp only [Option.bind_some]
  rw [show ((x.length : Int) - i).toNat = x.length - i by omega, List.getElem?_eq_getElem (by omega)]

omit c in
theorem drop_sum_back {G : Type} [AddCommGroup G] (y : List G) (i : Nat) (h0 : 0 < i) (hi : i ≤ y.length) :
    (y.drop i).sum = (y.drop (i - 1)).sum - (y[i - 1]'(by omega)) := by
  have d1 := drop_sum_step y (i - 1) (by omega)
  rw [show i - 1 + 1 = i by omega] at d1
  rw [d1]
  abel

omit c in
theorem take_sum_back {G : Type} [AddCommGroup G] (y : List G) (i : Nat) (h0 : 0 < i) (hi : i ≤ y.length) :
    (y.take (y.length - i)).sum = (y.take (y.length - (i - 1))).sum - (y[y.length - i]'(by omega)) := by
  have d2 := List.sum_take_succ y (y.length - i) (by omega)
  rw [show y.length - i + 1 = y.length - (i - 1) by omega] at d2
  rw [d2]
  abel

omit c in
theorem take_sum_fwd {G : Type} [AddCommMonoid G] (z : List G) (i : Nat) (h0 : 0 < i) (hi : i ≤ z.length) :
    (z.take i).sum = (z.take (i - 1)).sum + (z[i - 1]'(by omega)) := by
  have d2 := List.sum_take_succ z (i - 1) (by omega)
  rwa [show i - 1 + 1 = i by omega] at d2

omit c in
theorem drop_sum_fwd {G : Type} [AddCommMonoid G] (z : List G) (i : Nat) (h0 : 0 < i) (hi : i ≤ z.length) :
    (z.drop (z.length - i)).sum = (z.drop (z.length - (i - 1))).sum + (z[z.length - i]'(by omega)) := by
  rw [List.drop_eq_getElem_cons (show z.length - i < z.length by omega), List.sum_cons, add_comm,
    show z.length - i + 1 = z.length - (i - 1) by omega]

omit c in
theorem take_sum_le {z : List S} (hz : ∀ a ∈ z, 0 ≤ a) (i : Nat) : (z.take i).sum ≤ z.sum := by
  have h : z.sum = (z.take i).sum + (z.drop i).sum := by rw [← List.sum_append, List.take_append_drop]
  rw [h]
  exact le_add_of_nonneg_right (List.sum_nonneg fun a ha => hz a (List.mem_of_mem_drop ha))

omit c in
theorem drop_sum_le {z : List S} (hz : ∀ a ∈ z, 0 ≤ a) (i : Nat) : (z.drop i).sum ≤ z.sum := by
  have h : z.sum = (z.take i).sum + (z.drop i).sum := by rw [← List.sum_append, List.take_append_drop]
  rw [h]
  exact le_add_of_nonneg_left (List.sum_nonneg fun a ha => hz a (List.mem_of_mem_take ha))

theorem crossSumRegular_calc (hx : ∀ a ∈ x, P 0 a (ex a) (sz a)) (hz : ∀ a ∈ x, 0 ≤ sz a) (out : List M)
    (hout : out.length ≤ x.length + 1) (e : Nat → V) (r : Nat → S) (ho : ∀ k (hk : k < out.length), P 0 out[k] (e k) (r k)) :
    ∃ out', crossSumRegular x out = some out' ∧ out'.length = out.length ∧ ∀ k (hk : k < out'.length),
      P (x.length + 2 * k + 2) out'[k]
        (e k + pairSum (fun a _ => a) (regular (x.map ex)) (regular (List.replicate x.length ())) k)
        (r k + 4 • (x.map sz).sum) := by
  set y := x.map ex with hy
  set z := x.map sz with hz'
  have hyl : y.length = x.length := by simp [hy]
  have hzl : z.length = x.length := by simp [hz']
  have hz0 : ∀ a ∈ z, 0 ≤ a := by
    intro a ha
    obtain ⟨b, hb, rfl⟩ := List.mem_map.mp ha
    exact hz b hb
  have hT : 0 ≤ z.sum := List.sum_nonneg hz0
  set F : Nat → V := fun k => pairSum (fun a _ => a) (regular y) (regular (List.replicate x.length ())) k with hF
  have hF0 : F 0 = y.sum := by
    simp only [hF, pairSum_split, ← hyl]
    have := fst_sum_regular y 0
    simpa using this
  have hFk : ∀ k, 0 < k → F k = (y.drop k).sum + (y.take (y.length - k)).sum := by
    intro k hk
    simp only [hF, pairSum_split, ← hyl]
    rw [if_neg (by omega), fst_sum_regular, snd_sum_regular, add_comm]
  unfold crossSumRegular
  have H := forRange_calc out.length (out, (0 : M)) (fun (s : List M × M) (i : Nat) => (do
      let n : Int := (x.length : Int) - i
      if i = 0 then
        let tmp ← plainSum x
        let out ← addAt s.1 0 tmp
        some (out, tmp + tmp)
      else
        let a ← pyGet x ((i : Int) - 1)
        let b ← pyGet x n
        let prev := s.2 - a - b
        let out ← addAt s.1 i prev
        some (out, prev) : Option (List M × M)))
    (fun i s => s.1.length = out.length ∧ (∀ k (hk : k < s.1.length),
        (k < i → P (x.length + 2 * k + 2) s.1[k] (e k + F k) (r k + 4 • z.sum)) ∧ (i ≤ k → P 0 s.1[k] (e k) (r k))) ∧
      (0 < i → P (x.length + 2 * (i - 1) + 1) s.2 ((y.drop (i - 1)).sum + (y.take (y.length - (i - 1))).sum)
        (2 • z.sum + ((z.take (i - 1)).sum + (z.drop (z.length - (i - 1))).sum)))) ?_ ?_
  · obtain ⟨st, h1, h2, h3, -⟩ := H
    refine ⟨st.1, ?_, h2, fun k hk => (h3 k hk).1 (by omega)⟩
    rw [show (forRange out.length (out, (0 : M)) _) = some st from h1]
    rfl
  · exact ⟨rfl, fun k hk => ⟨fun h => absurd h (by omega), fun _ => ho k hk⟩, fun h => absurd h (by omega)⟩
  · rintro i hi ⟨o, prev⟩ ⟨g1, g2, g3⟩
    dsimp only at g1 g2 g3 ⊢
    by_cases hi0 : i = 0
    · subst hi0
      obtain ⟨t, ht, hp⟩ := plainSum_calc c x ex sz hx
      have ha := addAt_cell o 0 (by omega) t
      rw [Nat.cast_zero] at ha
      refine ⟨(o.modify 0 (· + t), t + t), by simp [ht, ha], by simpa using g1, ?_, ?_⟩
      · intro k hk
        have hk' : k < o.length := by simpa using hk
        refine ⟨fun h => ?_, fun h => ?_⟩
        · obtain rfl : k = 0 := by omega
          have hv := c.add (c.mono (Nat.zero_le x.length) ((g2 0 hk').2 le_rfl)) hp
          simp only [List.getElem_modify_eq]
          rw [hF0]
          refine c.widen ?_ (c.mono (by omega) hv)
          gcongr
          calc z.sum = 1 • z.sum := (one_nsmul _).symm
            _ ≤ 4 • z.sum := nsmul_le_nsmul_left hT (by norm_num)
        · rw [List.getElem_modify_ne _ _ (by omega)]
          exact (g2 k hk').2 (by omega)
      · intro _
        simp only [Nat.zero_add, Nat.sub_self, List.drop_zero, Nat.sub_zero, List.take_length, List.take_zero, List.sum_nil,
          List.drop_length, add_zero, Nat.mul_zero]
        rw [two_nsmul]
        exact c.add hp hp
    · have a1 := get_before x i (by omega) (by omega)
      have a2 := get_after x i (by omega) (by omega)
      have hp := g3 (by omega)
      have hq := c.sub hp (c.mono (Nat.zero_le _) (hx _ (List.getElem_mem (show i - 1 < x.length by omega))))
      have hq' := c.sub hq (c.mono (Nat.zero_le _) (hx _ (List.getElem_mem (show x.length - i < x.length by omega))))
      set prev' := prev - x[i - 1] - x[x.length - i] with hprev
      have ev : (y.drop (i - 1)).sum + (y.take (y.length - (i - 1))).sum - ex x[i - 1] - ex x[x.length - i]
          = (y.drop i).sum + (y.take (y.length - i)).sum := by
        rw [drop_sum_back y i (by omega) (by omega), take_sum_back y i (by omega) (by omega)]
        simp only [hy, List.getElem_map, List.length_map]
        abel
      have es : 2 • z.sum + ((z.take (i - 1)).sum + (z.drop (z.length - (i - 1))).sum) + sz x[i - 1] + sz x[x.length - i]
          = 2 • z.sum + ((z.take i).sum + (z.drop (z.length - i)).sum) := by
        rw [take_sum_fwd z i (by omega) (by omega), drop_sum_fwd z i (by omega) (by omega)]
        simp only [hz', List.getElem_map, List.length_map]
        abel
      rw [ev, es] at hq'
      refine ⟨(o.modify i (· + prev'), prev'), ?_, by simpa using g1, ?_, ?_⟩
      · simp only [hi0, if_false, a1, a2, Option.bind_eq_bind, Option.bind_some]
        rw [← hprev, addAt_cell o i (by omega)]
        rfl
      · intro k hk
        have hk' : k < o.length := by simpa using hk
        refine ⟨fun h => ?_, fun h => ?_⟩
        · by_cases e' : k = i
          · subst e'
            have hv := c.add (c.mono (Nat.zero_le _) ((g2 k hk').2 le_rfl)) hq'
            simp only [List.getElem_modify_eq]
            rw [hFk k (by omega)]
            refine c.widen ?_ (c.mono (by omega) hv)
            gcongr
            calc 2 • z.sum + ((z.take k).sum + (z.drop (z.length - k)).sum) ≤ 2 • z.sum + (z.sum + z.sum) := by
                  gcongr
                  · exact take_sum_le hz0 _
                  · exact drop_sum_le hz0 _
              _ = 4 • z.sum := by rw [← two_nsmul, ← add_nsmul]
          · rw [List.getElem_modify_ne _ _ (by omega)]
            exact (g2 k hk').1 (by omega)
        · rw [List.getElem_modify_ne _ _ (by omega)]
          exact (g2 k hk').2 (by omega)
      · intro _
        rw [Nat.add_sub_cancel]
        refine c.mono (by omega) hq'

theorem signed_calc (hx : ∀ a ∈ x, P 0 a (ex a) (sz a)) (hz : ∀ a ∈ x, 0 ≤ sz a) (out : List M) (hodd : out.length % 2 = 1)
    (hout : (out.length + 1) / 2 ≤ x.length + 1) (swap : Bool) (e : Nat → V) (r : Nat → S)
    (ho : ∀ k (hk : k < out.length), P 0 out[k] (e k) (r k)) (F : Nat → V) (h0 : F 0 = (x.map ex).sum)
    (hpos : ∀ i, 0 < i → i < (out.length + 1) / 2 →
      F i = if swap then ((x.map ex).drop i).sum else ((x.map ex).take (x.length - i)).sum)
    (hneg : ∀ i, 0 < i → i < (out.length + 1) / 2 →
      F (out.length - i) = if swap then ((x.map ex).take (x.length - i)).sum else ((x.map ex).drop i).sum) :
    ∃ st, forRange ((out.length + 1) / 2) (out, (0 : M), (0 : M))
      (fun (s : List M × M × M) (i : Nat) => (do
        let n : Int := (x.length : Int) - i
        if i = 0 then
          let tmp ← plainSum x
          let out ← addAt s.1 0 tmp
          some (out, tmp, tmp)
        else
          let a ← pyGet x ((i : Int) - 1)
          let prev1 := s.2.1 - a
          let b ← pyGet x n
          let prev2 := s.2.2 - b
          let out ← addAt s.1 i (if swap then prev1 else prev2)
          let out ← addAt out (-(i : Int)) (if swap then prev2 else prev1)
          some (out, prev1, prev2) : Option (List M × M × M))) = some st ∧
      st.1.length = out.length ∧ ∀ k (hk : k < st.1.length),
        P (x.length + (cellDelay out.length k).natAbs + 1) st.1[k] (e k + F k) (r k + 2 • (x.map sz).sum) := by
  set y := x.map ex with hy
  set z := x.map sz with hz'
  have hyl : y.length = x.length := by simp [hy]
  have hzl : z.length = x.length := by simp [hz']
  have hz0 : ∀ a ∈ z, 0 ≤ a := by
    intro a ha
    obtain ⟨b, hb, rfl⟩ := List.mem_map.mp ha
    exact hz b hb
  have hT : 0 ≤ z.sum := List.sum_nonneg hz0
  have H := forRange_calc ((out.length + 1) / 2) (out, (0 : M), (0 : M))
      (fun (s : List M × M × M) (i : Nat) => (do
        let n : Int := (x.length : Int) - i
        if i = 0 then
          let tmp ← plainSum x
          let out ← addAt s.1 0 tmp
          some (out, tmp, tmp)
        else
          let a ← pyGet x ((i : Int) - 1)
          let prev1 := s.2.1 - a
          let b ← pyGet x n
          let prev2 := s.2.2 - b
          let out ← addAt s.1 i (if swap then prev1 else prev2)
          let out ← addAt out (-(i : Int)) (if swap then prev2 else prev1)
          some (out, prev1, prev2) : Option (List M × M × M)))
    (fun i s => s.1.length = out.length ∧ (∀ k (hk : k < s.1.length),
        (k < i ∨ out.length < k + i → P (x.length + (cellDelay out.length k).natAbs + 1) s.1[k] (e k + F k) (r k + 2 • z.sum)) ∧
        (¬ (k < i ∨ out.length < k + i) → P 0 s.1[k] (e k) (r k))) ∧
      (0 < i → P (x.length + (i - 1)) s.2.1 (y.drop (i - 1)).sum (z.sum + (z.take (i - 1)).sum) ∧
        P (x.length + (i - 1)) s.2.2 (y.take (y.length - (i - 1))).sum (z.sum + (z.drop (z.length - (i - 1))).sum))) ?_ ?_
  · obtain ⟨st, h1, h2, h3, -⟩ := H
    exact ⟨st, h1, h2, fun k hk => (h3 k hk).1 (by omega)⟩
  · exact ⟨rfl, fun k hk => ⟨fun h => absurd h (by have : k < out.length := hk; omega), fun _ => ho k hk⟩,
      fun h => absurd h (by omega)⟩
  · rintro i hi ⟨o, p1, p2⟩ ⟨g1, g2, g3⟩
    dsimp only at g1 g2 g3 ⊢
    by_cases hi0 : i = 0
    · subst hi0
      obtain ⟨t, ht, hp⟩ := plainSum_calc c x ex sz hx
      have ha := addAt_cell o 0 (by omega) t
      rw [Nat.cast_zero] at ha
      refine ⟨(o.modify 0 (· + t), t, t), by simp [ht, ha], by simpa using g1, ?_, ?_⟩
      · intro k hk
        have hk' : k < o.length := by simpa using hk
        refine ⟨fun h => ?_, fun h => ?_⟩
        · obtain rfl : k = 0 := by omega
          have hv := c.add (c.mono (Nat.zero_le x.length) ((g2 0 hk').2 (by omega))) hp
          simp only [List.getElem_modify_eq]
          rw [h0]
          refine c.widen ?_ (c.mono (by omega) hv)
          gcongr
          calc z.sum = 1 • z.sum := (one_nsmul _).symm
            _ ≤ 2 • z.sum := nsmul_le_nsmul_left hT (by norm_num)
        · rw [List.getElem_modify_ne _ _ (by omega)]
          exact (g2 k hk').2 (by omega)
      · intro _
        simp only [Nat.zero_add, Nat.sub_self, List.drop_zero, Nat.sub_zero, List.take_length, List.take_zero, List.sum_nil,
          List.drop_length, add_zero]
        exact ⟨hp, hp⟩
    · have a1 := get_before x i (by omega) (by omega)
      have a2 := get_after x i (by omega) (by omega)
      obtain ⟨hp1, hp2⟩ := g3 (by omega)
      have hq1 := c.sub hp1 (c.mono (Nat.zero_le _) (hx _ (List.getElem_mem (show i - 1 < x.length by omega))))
      have hq2 := c.sub hp2 (c.mono (Nat.zero_le _) (hx _ (List.getElem_mem (show x.length - i < x.length by omega))))
      set q1 := p1 - x[i - 1] with hq1'
      set q2 := p2 - x[x.length - i] with hq2'
      have ev1 : (y.drop (i - 1)).sum - ex x[i - 1] = (y.drop i).sum := by
        rw [drop_sum_back y i (by omega) (by omega)]
        simp only [hy, List.getElem_map]
      have ev2 : (y.take (y.length - (i - 1))).sum - ex x[x.length - i] = (y.take (y.length - i)).sum := by
        rw [take_sum_back y i (by omega) (by omega)]
        simp only [hy, List.getElem_map, List.length_map]
      have es1 : z.sum + (z.take (i - 1)).sum + sz x[i - 1] = z.sum + (z.take i).sum := by
        rw [take_sum_fwd z i (by omega) (by omega)]
        simp only [hz', List.getElem_map]
        abel
      have es2 : z.sum + (z.drop (z.length - (i - 1))).sum + sz x[x.length - i] = z.sum + (z.drop (z.length - i)).sum := by
        rw [drop_sum_fwd z i (by omega) (by omega)]
        simp only [hz', List.getElem_map, List.length_map]
        abel
      rw [ev1, es1] at hq1
      rw [ev2, es2] at hq2
      have b1 : z.sum + (z.take i).sum ≤ 2 • z.sum := by
        rw [two_nsmul]
        gcongr
        exact take_sum_le hz0 _
      have b2 : z.sum + (z.drop (z.length - i)).sum ≤ 2 • z.sum := by
        rw [two_nsmul]
        gcongr
        exact drop_sum_le hz0 _
      -- what is added to cell `i` and to cell `-i`
      have hA : P (x.length + i) (if swap then q1 else q2) (F i) (2 • z.sum) := by
        rw [hpos i (by omega) hi]
        cases swap
        · simp only [Bool.false_eq_true, if_false]
          rw [← hyl]
          exact c.widen b2 (c.mono (by omega) hq2)
        · simp only [if_true]
          exact c.widen b1 (c.mono (by omega) hq1)
      have hB : P (x.length + i) (if swap then q2 else q1) (F (out.length - i)) (2 • z.sum) := by
        rw [hneg i (by omega) hi]
        cases swap
        · simp only [Bool.false_eq_true, if_false]
          exact c.widen b1 (c.mono (by omega) hq1)
        · simp only [if_true]
          rw [← hyl]
          exact c.widen b2 (c.mono (by omega) hq2)
      refine ⟨((o.modify i (· + if swap then q1 else q2)).modify (out.length - i) (· + if swap then q2 else q1), q1, q2), ?_,
        by simpa using g1, ?_, ?_⟩
      · simp only [hi0, if_false, a1, a2, Option.bind_eq_bind, Option.bind_some]
        rw [← hq1', ← hq2', addAt_cell o i (by omega), Option.bind_some, addAt_cell_neg _ i (by omega) (by simp; omega),
          Option.bind_some, List.length_modify, g1]
      · intro k hk
        have hk' : k < o.length := by simpa using hk
        by_cases e1 : k = i
        · subst e1
          refine ⟨fun _ => ?_, fun h => absurd (Or.inl (by omega)) h⟩
          have hc : (cellDelay out.length k).natAbs = k := by
            rw [cellDelay, if_pos hi]
            simp
          have hv := c.add (c.mono (Nat.zero_le _) ((g2 k hk').2 (by omega))) hA
          rw [List.getElem_modify_ne _ _ (by omega)]
          simp only [List.getElem_modify_eq]
          rw [hc]
          exact hv
        · by_cases e2 : k = out.length - i
          · refine ⟨fun _ => ?_, fun h => absurd (Or.inr (by omega)) h⟩
            have hc : (cellDelay out.length k).natAbs = i := by
              rw [cellDelay, if_neg (by omega)]
              omega
            have hv := c.add (c.mono (Nat.zero_le _) ((g2 k hk').2 (by omega))) hB
            simp only [← e2] at hv ⊢
            simp only [List.getElem_modify_eq, List.getElem_modify_ne _ _ (show i ≠ k by omega)]
            rw [hc]
            exact hv
          · rw [List.getElem_modify_ne _ _ (by omega), List.getElem_modify_ne _ _ (by omega)]
            exact ⟨fun h => (g2 k hk').1 (by omega), fun h => (g2 k hk').2 (by omega)⟩
      · intro _
        rw [Nat.add_sub_cancel]
        exact ⟨c.mono (by omega) hq1, c.mono (by omega) hq2⟩

theorem crossSumComplexRegular_calc (hx : ∀ a ∈ x, P 0 a (ex a) (sz a)) (hz : ∀ a ∈ x, 0 ≤ sz a) (out : List M)
    (hodd : out.length % 2 = 1) (hout : (out.length + 1) / 2 ≤ x.length + 1) (e : Nat → V) (r : Nat → S)
    (ho : ∀ k (hk : k < out.length), P 0 out[k] (e k) (r k)) :
    ∃ out', crossSumComplexRegular x out = some out' ∧ out'.length = out.length ∧ ∀ k (hk : k < out'.length),
      P (x.length + (cellDelay out.length k).natAbs + 1) out'[k]
        (e k + pairSumAt (fun a _ => a) (regular (x.map ex)) (regular (List.replicate x.length ())) (cellDelay out.length k))
        (r k + 2 • (x.map sz).sum) := by
  have hl : x.length = (x.map ex).length := by simp
  unfold crossSumComplexRegular
  obtain ⟨st, h1, h2, h3⟩ := signed_calc c x ex sz hx hz out hodd hout false e r ho (fun k =>
      pairSumAt (fun a _ => a) (regular (x.map ex)) (regular (List.replicate x.length ())) (cellDelay out.length k)) (by
        have := snd_sum_regular (x.map ex) 0
        have hc : cellDelay out.length 0 = 0 := by simp [cellDelay]
        rw [← hl] at this
        simpa [hc] using this) (by
        intro i _ hi
        have hc : cellDelay out.length i = i := by rw [cellDelay, if_pos hi]
        have := fst_sum_regular (x.map ex) i
        rw [← hl] at this
        simpa [hc] using this) (by
        intro i _ hi
        have hc : cellDelay out.length (out.length - i) = -(i : Int) := by
          rw [cellDelay, if_neg (by omega)]; omega
        have := snd_sum_regular (x.map ex) i
        rw [← hl] at this
        simpa [hc] using this)
  refine ⟨st.1, ?_, h2, h3⟩
  simp only [Bool.false_eq_true, if_false] at h1
  exact (congrArg (fun o => Option.bind o (fun r => some r.1)) h1).trans rfl

theorem crossSumComplexRegularInverted_calc (hx : ∀ a ∈ x, P 0 a (ex a) (sz a)) (hz : ∀ a ∈ x, 0 ≤ sz a) (out : List M)
    (hodd : out.length % 2 = 1) (hout : (out.length + 1) / 2 ≤ x.length + 1) (e : Nat → V) (r : Nat → S)
    (ho : ∀ k (hk : k < out.length), P 0 out[k] (e k) (r k)) :
    ∃ out', crossSumComplexRegularInverted x out = some out' ∧ out'.length = out.length ∧ ∀ k (hk : k < out'.length),
      P (x.length + (cellDelay out.length k).natAbs + 1) out'[k]
        (e k + pairSumAt (fun a _ => a) (regular (x.map ex)) (regular (List.replicate x.length ())) (-cellDelay out.length k))
        (r k + 2 • (x.map sz).sum) := by
  have hl : x.length = (x.map ex).length := by simp
  unfold crossSumComplexRegularInverted
  obtain ⟨st, h1, h2, h3⟩ := signed_calc c x ex sz hx hz out hodd hout true e r ho (fun k =>
      pairSumAt (fun a _ => a) (regular (x.map ex)) (regular (List.replicate x.length ())) (-cellDelay out.length k)) (by
        have := snd_sum_regular (x.map ex) 0
        have hc : cellDelay out.length 0 = 0 := by simp [cellDelay]
        rw [← hl] at this
        simpa [hc] using this) (by
        intro i _ hi
        have hc : cellDelay out.length i = i := by rw [cellDelay, if_pos hi]
        have := snd_sum_regular (x.map ex) i
        rw [← hl] at this
        simpa [hc] using this) (by
        intro i _ hi
        have hc : cellDelay out.length (out.length - i) = -(i : Int) := by
          rw [cellDelay, if_neg (by omega)]; omega
        have := fst_sum_regular (x.map ex) i
        rw [← hl] at this
        simpa [hc] using this)
  refine ⟨st.1, ?_, h2, h3⟩
  simp only [if_true] at h1
  exact (congrArg (fun o => Option.bind o (fun r => some r.1)) h1).trans rfl

end

/-! ### With time stamps -/

section
variable {M N : Type} [Add M] [AddCommMonoid N] {Q : M → N → Prop} {L : Nat}

theorem crossSum_tracks (f : List M) (t1 t2 : List Int) (g : M → N) (h1 : t1.length = f.length)
    (hs : ∀ a ∈ f, Steps Q a (g a)) :
    Tracks Q L (fun out => crossSum f t1 t2 out) (fun k => pairSum (fun a _ => g a) (t1.zip f) (stamps t2) k) := by
  unfold crossSum
  simp only [pairSum_eq]
  apply Tracks.cross_stream (t1.zip f) (stamps t2) _ _ (by simp [h1]) (by simp [stamps]) _
    (fun a b k => if |b.1 - a.1| = (k : Int) then g a.2 else 0)
  intro i j a b ha hb
  obtain ⟨e1, e2⟩ := zip_get ha
  have hm : a.2 ∈ f := List.mem_of_getElem? e2
  refine (Tracks.addAt_abs (b.1 - a.1) (hs _ hm)).congr_fun fun o _ => ?_
  rw [e1, e2, stamps_get hb]
  simp

theorem crossSumComplex_tracks (f : List M) (t1 t2 : List Int) (g : M → N) (h1 : t1.length = f.length) (hodd : L % 2 = 1)
    (hs : ∀ a ∈ f, Steps Q a (g a)) :
    Tracks Q L (fun out => crossSumComplex f t1 t2 out)
      (fun k => pairSumAt (fun a _ => g a) (t1.zip f) (stamps t2) (cellDelay L k)) := by
  unfold crossSumComplex
  simp only [pairSumAt_eq]
  apply Tracks.cross_stream (t1.zip f) (stamps t2) _ _ (by simp [h1]) (by simp [stamps]) _
    (fun a b k => if b.1 - a.1 = cellDelay L k then g a.2 else 0)
  intro i j a b ha hb
  obtain ⟨e1, e2⟩ := zip_get ha
  have hm : a.2 ∈ f := List.mem_of_getElem? e2
  refine (Tracks.addAt_signed (b.1 - a.1) (hs _ hm) hodd).congr_fun fun o _ => ?_
  rw [e1, e2, stamps_get hb]
  simp

end

/-! ### `cross_sum` -/

section
variable {M N : Type} [Zero M] [Add M] [Sub M] [AddCommMonoid N] {Q : M → N → Prop}

theorem pairSum_neg_fl {α β : Type} (g : α → β → N) (s1 : Stream α) (s2 : Stream β) (k : Nat) :
    pairSum g (s1.map fun a => (-a.1, a.2)) (s2.map fun a => (-a.1, a.2)) k = pairSum g s1 s2 k := by
  simp only [pairSum_eq, List.map_map, Function.comp_def]
  congr 1
  apply List.map_congr_left
  intro a _
  congr 1
  apply List.map_congr_left
  intro b _
  rw [show -b.1 - -a.1 = a.1 - b.1 by ring, abs_sub_comm]

theorem pairSumAt_neg_fl {α β : Type} (g : α → β → N) (s1 : Stream α) (s2 : Stream β) (d : Int) :
    pairSumAt g (s1.map fun a => (-a.1, a.2)) (s2.map fun a => (-a.1, a.2)) d = pairSumAt g s1 s2 (-d) := by
  simp only [pairSumAt_eq, List.map_map, Function.comp_def]
  congr 1
  apply List.map_congr_left
  intro a _
  congr 1
  apply List.map_congr_left
  intro b _
  have : (-b.1 - -a.1 = d) ↔ (b.1 - a.1 = -d) := by omega
  simp only [this]

theorem crossSumApi_tracks (f : List M) (t1 t2 : List Int) (n : Option Nat) (inv : Bool) (aout : Option (List M))
    (hv : ValidSum f.length (some t1) (some t2)) (g : M → N) (hg : ∀ a ∈ f, Steps Q a (g a)) (s : Nat → N)
    (hs : ∀ k, Q (start aout k) (s k)) :
    ∃ out, crossSumApi f (some t1) (some t2) n false inv aout = .ok out
      ∧ out.length = outLen n aout (defaultN f.length (some t1) (some t2))
      ∧ ∀ k (hk : k < out.length), Q out[k] (s k + pairSum (fun a _ => g a) (stream f (some t1)) (otherStream f.length (some t2)) k) := by
  obtain ⟨h1, h0, hb⟩ := hv
  obtain ⟨c, hc⟩ := inspectCross_some (a := t1) (b := t2) f.length
    (by rintro rfl; simp at h1; omega) hb n (aout.map List.length) false
  unfold crossSumApi
  rw [hc]
  simp only [bind, Except.bind]
  rw [defaultOut_real]
  simp only [Bool.false_eq_true, if_false]
  have hL := startOut_length n aout (defaultN f.length (some t1) (some t2))
  cases inv
  · simp only [Bool.false_eq_true, if_false, List.length_map, h1, decide_true, checkDims, if_true]
    have T := crossSum_tracks (Q := Q) (L := outLen n aout (defaultN f.length (some t1) (some t2))) f (t1.map (· - c)) (t2.map (· - c)) g
      (by simp [h1]) hg
    rw [zip_map_sub, stamps_map_sub] at T
    simp only [pairSum_shift] at T
    exact run_tracks T aout hL s fun k _ => hs k
  · simp only [List.length_map, h1, decide_true, checkDims, if_true]
    have T := crossSum_tracks (Q := Q) (L := outLen n aout (defaultN f.length (some t1) (some t2))) f ((t1.map (· - c)).map (- ·))
      ((t2.map (· - c)).map (- ·)) g (by simp [h1]) hg
    rw [zip_neg, stamps_neg, zip_map_sub, stamps_map_sub] at T
    simp only [pairSum_neg_fl, pairSum_shift] at T
    exact run_tracks T aout hL s fun k _ => hs k

theorem crossSumApi_tracks_full (f : List M) (t1 t2 : List Int) (n : Option Nat) (inv : Bool) (aout : Option (List M))
    (hv : ValidSum f.length (some t1) (some t2)) (g : M → N) (hg : ∀ a ∈ f, Steps Q a (g a)) (s : Nat → N)
    (hs : ∀ k, Q (start aout k) (s k)) (hodd : outLenFull n aout (defaultN f.length (some t1) (some t2)) % 2 = 1) :
    ∃ out, crossSumApi f (some t1) (some t2) n true inv aout = .ok out
      ∧ out.length = outLenFull n aout (defaultN f.length (some t1) (some t2))
      ∧ ∀ k (hk : k < out.length), Q out[k] (s k + pairSumAt (fun a _ => g a) (stream f (some t1)) (otherStream f.length (some t2))
          (if inv then -cellDelay out.length k else cellDelay out.length k)) := by
  obtain ⟨h1, h0, hb⟩ := hv
  obtain ⟨c, hc⟩ := inspectCross_some (a := t1) (b := t2) f.length
    (by rintro rfl; simp at h1; omega) hb n (aout.map List.length) true
  have hd := defaultOut_full n aout _ hodd
  unfold crossSumApi
  rw [hc]
  simp only [bind, Except.bind, if_true] at hd ⊢
  rw [hd]
  have hL := startOut_length_full n aout (defaultN f.length (some t1) (some t2))
  cases inv
  · simp only [Bool.false_eq_true, if_false, List.length_map, h1, decide_true, checkDims, if_true]
    have T := crossSumComplex_tracks (Q := Q) (L := outLenFull n aout (defaultN f.length (some t1) (some t2))) f (t1.map (· - c)) (t2.map (· - c)) g
      (by simp [h1]) hodd hg
    rw [zip_map_sub, stamps_map_sub] at T
    simp only [pairSumAt_shift] at T
    obtain ⟨out, g1, g2, g3⟩ := run_tracks T aout hL s fun k _ => hs k
    refine ⟨out, g1, g2, fun k hk => ?_⟩
    rw [g2]
    exact g3 k hk
  · simp only [List.length_map, h1, decide_true, checkDims, if_true]
    have T := crossSumComplex_tracks (Q := Q) (L := outLenFull n aout (defaultN f.length (some t1) (some t2))) f ((t1.map (· - c)).map (- ·))
      ((t2.map (· - c)).map (- ·)) g (by simp [h1]) hodd hg
    rw [zip_neg, stamps_neg, zip_map_sub, stamps_map_sub] at T
    simp only [pairSumAt_neg_fl, pairSumAt_shift] at T
    obtain ⟨out, g1, g2, g3⟩ := run_tracks T aout hL s fun k _ => hs k
    refine ⟨out, g1, g2, fun k hk => ?_⟩
    rw [g2]
    exact g3 k hk

end

section
variable {M V S : Type} [Zero M] [Add M] [Sub M] [AddCommGroup V] [AddCommMonoid S] [PartialOrder S] [IsOrderedAddMonoid S]
variable {P : Nat → M → V → S → Prop} (c : Calc P)
include c

theorem crossSumApi_calc (f : List M) (n : Option Nat) (inv : Bool) (aout : Option (List M)) (ex : M → V) (sz : M → S)
    (hfast : outLen n aout f.length ≤ f.length + 1) (hx : ∀ a ∈ f, P 0 a (ex a) (sz a)) (hz : ∀ a ∈ f, 0 ≤ sz a)
    (e : Nat → V) (r : Nat → S) (hs : ∀ k, P 0 (start aout k) (e k) (r k)) :
    ∃ out, crossSumApi f none none n false inv aout = .ok out ∧ out.length = outLen n aout f.length
      ∧ ∀ k (hk : k < out.length), P (f.length + 2 * k + 2) out[k]
          (e k + pairSum (fun a _ => a) (stream (f.map ex) none) (otherStream f.length none) k) (r k + 4 • (f.map sz).sum) := by
  unfold crossSumApi
  rw [inspectCross_none]
  simp only [bind, Except.bind]
  rw [defaultOut_real]
  simp only [Bool.false_eq_true, if_false]
  have hL := startOut_length n aout f.length
  obtain ⟨out, h1, h2, h3⟩ := crossSumRegular_calc c f ex sz hx hz (startOut aout (outLen n aout f.length))
    (by rw [hL]; exact hfast) e r (fun k hk => by rw [startOut_get]; exact hs k)
  refine ⟨out, ?_, h2.trans hL, h3⟩
  simp only [h1]
  rfl

theorem crossSumApi_calc_full (f : List M) (n : Option Nat) (inv : Bool) (aout : Option (List M)) (ex : M → V) (sz : M → S)
    (hodd : outLenFull n aout f.length % 2 = 1)
    (hfast : (outLenFull n aout f.length + 1) / 2 ≤ f.length + 1) (hx : ∀ a ∈ f, P 0 a (ex a) (sz a)) (hz : ∀ a ∈ f, 0 ≤ sz a)
    (e : Nat → V) (r : Nat → S) (hs : ∀ k, P 0 (start aout k) (e k) (r k)) :
    ∃ out, crossSumApi f none none n true inv aout = .ok out ∧ out.length = outLenFull n aout f.length
      ∧ ∀ k (hk : k < out.length), P (f.length + (cellDelay out.length k).natAbs + 1) out[k]
          (e k + pairSumAt (fun a _ => a) (stream (f.map ex) none) (otherStream f.length none)
            (if inv then -cellDelay out.length k else cellDelay out.length k)) (r k + 2 • (f.map sz).sum) := by
  have hd := defaultOut_full n aout f.length hodd
  unfold crossSumApi
  rw [inspectCross_none]
  simp only [bind, Except.bind, if_true] at hd ⊢
  rw [hd]
  have hL := startOut_length_full n aout f.length
  cases inv
  · obtain ⟨out, h1, h2, h3⟩ := crossSumComplexRegular_calc c f ex sz hx hz (startOut aout (outLenFull n aout f.length))
      (by rw [hL]; exact hodd) (by rw [hL]; exact hfast) e r (fun k hk => by rw [startOut_get]; exact hs k)
    refine ⟨out, ?_, h2.trans hL, fun k hk => ?_⟩
    · simp only [h1, Bool.false_eq_true, if_false]
      rfl
    · simp only [Bool.false_eq_true, if_false]
      rw [h2]
      exact h3 k hk
  · obtain ⟨out, h1, h2, h3⟩ := crossSumComplexRegularInverted_calc c f ex sz hx hz (startOut aout (outLenFull n aout f.length))
      (by rw [hL]; exact hodd) (by rw [hL]; exact hfast) e r (fun k hk => by rw [startOut_get]; exact hs k)
    refine ⟨out, ?_, h2.trans hL, fun k hk => ?_⟩
    · simp only [h1, if_true]
      rfl
    · simp only [if_true]
      rw [h2]
      exact h3 k hk

end

/-! ### Machine numbers -/

section
variable {M : Type} [Zero M] [Add M] [Sub M] {rnd : ℝ → ℝ} {p : M → ℝ} {u B : ℝ}

theorem near_calc (hr : Rounds rnd u) (hp : Part rnd p) : Calc (fun m (a : M) (v s : ℝ) => Near u m (p a) v s) where
  zero := by
    rw [hp.zero]
    have := Near.refl (u := u) 0
    rwa [abs_zero] at this
  add := by
    intro m a v s b w r h1 h2
    show Near u (m + 1) (p (a + b)) (v + w) (s + r)
    rw [hp.add]
    exact Near.round hr (h1.add h2)
  sub := by
    intro m a v s b w r h1 h2
    show Near u (m + 1) (p (a - b)) (v - w) (s + r)
    rw [hp.sub]
    exact Near.round hr (h1.sub h2)
  mono := fun h h' => h'.mono hr.1 h
  widen := fun h h' => h'.widen hr.1 h

/-- Proof device: a number that is exact while its size stays below `B`. -/
def IntPart (p : M → ℝ) (B : ℝ) (a : M) (v s : ℝ) : Prop :=
  0 ≤ s ∧ (s ≤ B → p a = v ∧ |v| ≤ s ∧ ∃ m : ℤ, v = m)

theorem intPart_calc (hk : KeepsIntegers rnd B) (hp : Part rnd p) : Calc (fun (_ : ℕ) (a : M) (v s : ℝ) => IntPart p B a v s) where
  zero := ⟨le_rfl, fun _ => ⟨hp.zero, by simp, 0, by simp⟩⟩
  add := by
    intro m a v s b w r h1 h2
    refine ⟨add_nonneg h1.1 h2.1, fun h => ?_⟩
    have s0 := h1.1
    have r0 := h2.1
    obtain ⟨a1, a2, i, a3⟩ := h1.2 (by linarith)
    obtain ⟨b1, b2, j, b3⟩ := h2.2 (by linarith)
    have hle : |v + w| ≤ s + r := (abs_add_le _ _).trans (add_le_add a2 b2)
    have e : v + w = ((i + j : ℤ) : ℝ) := by rw [a3, b3]; push_cast; ring
    refine ⟨?_, hle, i + j, e⟩
    rw [hp.add, a1, b1, e]
    exact hk _ (by rw [← e]; linarith)
  sub := by
    intro m a v s b w r h1 h2
    refine ⟨add_nonneg h1.1 h2.1, fun h => ?_⟩
    have s0 := h1.1
    have r0 := h2.1
    obtain ⟨a1, a2, i, a3⟩ := h1.2 (by linarith)
    obtain ⟨b1, b2, j, b3⟩ := h2.2 (by linarith)
    have hle : |v - w| ≤ s + r := (abs_sub _ _).trans (add_le_add a2 b2)
    have e : v - w = ((i - j : ℤ) : ℝ) := by rw [a3, b3]; push_cast; ring
    refine ⟨?_, hle, i - j, e⟩
    rw [hp.sub, a1, b1, e]
    exact hk _ (by rw [← e]; linarith)
  mono := fun _ h' => h'
  widen := by
    intro m a v s s' hs h
    exact ⟨h.1.trans hs, fun hB => ⟨(h.2 (hs.trans hB)).1, (h.2 (hs.trans hB)).2.1.trans hs, (h.2 (hs.trans hB)).2.2⟩⟩

end
end Cddm
