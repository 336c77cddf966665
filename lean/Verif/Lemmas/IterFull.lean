import Verif.Lemmas.IterAuto

/-!
# Mode 'full' gives the sums over the whole signal, mode 'chunk' the sum over the chunks
-/

namespace Cddm
open Spec

theorem part_far {α β : Type} {T1 T2 : List Int} {y1 : Nat → α} {y2 : Nat → β} {c Q n : Nat}
    (h : Spaced c (Q * c) n T1 T2) {p p' : Nat} (hp : p < Q) (hp' : p' < Q)
    (hd : p + 2 ≤ p' ∨ p' + 2 ≤ p) :
    ∀ a ∈ part T1 y1 c p, ∀ b ∈ part T2 y2 c p', (n : Int) ≤ |b.1 - a.1| := by
  intro a ha b hb
  obtain ⟨i, e1, -, e3, rfl⟩ := part_mem ha
  obtain ⟨j, f1, -, f3, rfl⟩ := part_mem hb
  have h1 : (p + 1) * c ≤ Q * c := Nat.mul_le_mul_right _ hp
  have h2 : (p' + 1) * c ≤ Q * c := Nat.mul_le_mul_right _ hp'
  exact h i j (by omega) (by omega) (by rw [e1, f1]; exact hd)

/-- Times `0, 1, ...`: frames in non-adjacent chunks are more than a chunk apart. -/
theorem spaced_arange {c N n : Nat} (hc : 0 < c) (hn : n ≤ c + 1) :
    Spaced c N n (arange N) (arange N) := by
  intro i j hi hj h
  rw [arange_getD hi, arange_getD hj, Int.abs_eq_natAbs]
  have h1 := Nat.div_add_mod i c
  have h2 := Nat.div_add_mod j c
  have h3 := Nat.mod_lt i hc
  have h4 := Nat.mod_lt j hc
  rcases h with h | h
  · have : c * (i / c + 2) ≤ c * (j / c) := Nat.mul_le_mul_left _ h
    rw [mul_add] at this
    omega
  · have : c * (j / c + 2) ≤ c * (i / c) := Nat.mul_le_mul_left _ h
    rw [mul_add] at this
    omega

section cross
variable {C : Type} [AddCommMonoid C]

theorem Parts.term_cells {full : Bool} {g : Cx ℝ → Cx ℝ → C} {L : Nat} {P : Parts} {q : Nat} :
    P.term full g L true q =
      (fun k => cellSum full g (P.s1 q) (P.s2 q) L k + if 1 ≤ q then
          cellSum full g (P.s1 q) (P.s2 (q - 1)) L k + cellSum full g (P.s1 (q - 1)) (P.s2 q) L k
          else 0,
       fun k => cellSum full (fun _ _ => 1) (P.s1 q) (P.s2 q) L k + if 1 ≤ q then
          cellSum full (fun _ _ => 1) (P.s1 q) (P.s2 (q - 1)) L k +
            cellSum full (fun _ _ => 1) (P.s1 (q - 1)) (P.s2 q) L k
          else 0,
       fun k => cellSum full (fun a b => a + b) (P.q1 q) (P.q2 q) L k + if 1 ≤ q then
          cellSum full (fun a b => a + b) (P.q1 q) (P.q2 (q - 1)) L k +
            cellSum full (fun a b => a + b) (P.q1 (q - 1)) (P.q2 q) L k
          else 0,
       fun k => cellSum full (fun a _ => a) (P.s1 q) (P.s2 q) L k + if 1 ≤ q then
          cellSum full (fun a _ => a) (P.s1 q) (P.s2 (q - 1)) L k +
            cellSum full (fun a _ => a) (P.s1 (q - 1)) (P.s2 q) L k
          else 0,
       fun k => cellSum full (fun _ b => b) (P.s1 q) (P.s2 q) L k + if 1 ≤ q then
          cellSum full (fun _ b => b) (P.s1 q) (P.s2 (q - 1)) L k +
            cellSum full (fun _ b => b) (P.s1 (q - 1)) (P.s2 q) L k
          else 0) := by
  unfold Parts.term Parts.pair crossFns
  by_cases hq : 1 ≤ q
  · simp only [hq, and_self, if_true]
    rfl
  · simp only [hq, false_and, if_false, add_zero]

/-- Mode 'full': all pairs. -/
theorem full_total (full : Bool) (g : Cx ℝ → Cx ℝ → C) {T1 T2 : List Int} (y1 y2 : Nat → Cx ℝ)
    (z1 z2 : Nat → ℝ) {c Q n L : Nat} (hL : L = if full then 2 * n - 1 else n)
    (h : Spaced c (Q * c) n T1 T2) (nm : Nat) (m : String) :
    rowOf nm m true L L (∑ q ∈ Finset.range Q,
      (Parts.mk (part T1 y1 c) (part T2 y2 c) (part T1 z1 c) (part T2 z2 c)).term full g L true q)
    = rowOf nm m true L L (crossFns full g L L (firsts T1 y1 (Q * c)) (firsts T2 y2 (Q * c))
        (firsts T1 z1 (Q * c)) (firsts T2 z2 (Q * c))) := by
  simp only [Parts.term_cells]
  apply rowOf_congr_lt
  · intro k hk
    rw [Prod.fst_sum, Finset.sum_apply]
    rw [cellSum_chunks full g _ _ hL hk fun p p' h1 h2 h3 => part_far h h1 h2 h3, parts_flatten,
      parts_flatten]
    rfl
  · intro k hk
    rw [Prod.snd_sum, Prod.fst_sum, Finset.sum_apply]
    rw [cellSum_chunks full _ _ _ hL hk fun p p' h1 h2 h3 => part_far h h1 h2 h3, parts_flatten,
      parts_flatten]
    rfl
  · intro _ _ k hk
    rw [Prod.snd_sum, Prod.snd_sum, Prod.fst_sum, Finset.sum_apply]
    rw [cellSum_chunks full _ _ _ hL hk fun p p' h1 h2 h3 => part_far h h1 h2 h3, parts_flatten,
      parts_flatten]
    rfl
  · intro k hk
    rw [Prod.snd_sum, Prod.snd_sum, Prod.snd_sum, Prod.fst_sum, Finset.sum_apply]
    rw [cellSum_chunks full _ _ _ hL hk fun p p' h1 h2 h3 => part_far h h1 h2 h3, parts_flatten,
      parts_flatten]
    rfl
  · intro _ k hk
    rw [Prod.snd_sum, Prod.snd_sum, Prod.snd_sum, Prod.snd_sum, Finset.sum_apply]
    rw [cellSum_chunks full _ _ _ hL hk fun p p' h1 h2 h3 => part_far h h1 h2 h3, parts_flatten,
      parts_flatten]
    rfl

end cross

/-- Mode 'full' of an auto-correlation: all unordered pairs. -/
theorem full_total_auto (g : Cx ℝ → Cx ℝ → ℝ) (hg : ∀ a b, g a b = g b a) {T : List Int}
    (y : Nat → Cx ℝ) (z : Nat → ℝ) {c Q n L : Nat} (h : Spaced c (Q * c) n T T) (nm : Nat)
    (m : String) :
    rowOf nm m false n n (∑ q ∈ Finset.range Q,
      (Parts.mk (part T y c) (part T y c) (part T z c) (part T z c)).autoTerm false (selfSum g) g L
        true q)
    = rowOf nm m false n n (autoFns (selfSum g) (firsts T y (Q * c)) (firsts T z (Q * c))) := by
  have key : ∀ {α M : Type} [AddCommMonoid M] (f : α → α → M) (hf : ∀ a b, f a b = f b a)
      (w : Nat → α) (k : Nat), k < n →
      ∑ q ∈ Finset.range Q, (selfSum f (part T w c q) k + if 1 ≤ q then
        pairSum f (part T w c q) (part T w c (q - 1)) k else 0)
      = selfSum f (firsts T w (Q * c)) k := by
    intro α M _ f hf w k hk
    rw [← parts_flatten, ← selfSum_chunks f (part T w c) hk Q
      fun p p' h1 h2 h3 => part_far h h1 h2 (.inl h3)]
    apply Finset.sum_congr rfl
    intro q _
    congr 1
    split
    · rw [pairSum_swap]
      exact pairSum_congr (fun a b => hf b a) _ _ _
    · rfl
  have hterm : ∀ q, (Parts.mk (part T y c) (part T y c) (part T z c) (part T z c)).autoTerm false
      (selfSum g) g L true q =
      (fun k => selfSum g (part T y c q) k + if 1 ≤ q then
          pairSum g (part T y c q) (part T y c (q - 1)) k else 0,
       fun k => selfSum (fun _ _ => 1) (part T y c q) k + if 1 ≤ q then
          pairSum (fun _ _ => 1) (part T y c q) (part T y c (q - 1)) k else 0,
       fun k => selfSum (fun a b => a + b) (part T z c q) k + if 1 ≤ q then
          pairSum (fun a b => a + b) (part T z c q) (part T z c (q - 1)) k else 0,
       fun k => selfSum (fun a b => (1 / 2 : ℝ) • (a + b)) (part T y c q) k + if 1 ≤ q then
          pairSum (fun a b => (1 / 2 : ℝ) • (a + b)) (part T y c q) (part T y c (q - 1)) k else 0,
       0) := by
    intro q
    unfold Parts.autoTerm Parts.pair crossFns autoFns asAuto
    by_cases hq : 1 ≤ q
    · simp only [hq, and_self, if_true]
      refine Prod.ext rfl (Prod.ext rfl (Prod.ext rfl (Prod.ext ?_ (add_zero _))))
      funext k
      show selfSum (fun a b => (1 / 2 : ℝ) • (a + b)) (part T y c q) k +
        ((1 / 2 : ℝ) • pairSum (fun a _ => a) (part T y c q) (part T y c (q - 1)) k +
        (1 / 2 : ℝ) • pairSum (fun _ b => b) (part T y c q) (part T y c (q - 1)) k) = _
      congr 1
      have e1 : ∀ w : Cx ℝ → Cx ℝ → Cx ℝ,
          (1 / 2 : ℝ) • pairSum w (part T y c q) (part T y c (q - 1)) k
          = pairSum (fun a b => (1 / 2 : ℝ) • w a b) (part T y c q) (part T y c (q - 1)) k :=
        fun w => pairSum_hom (DistribSMul.toAddMonoidHom (Cx ℝ) (1 / 2 : ℝ)) w _ _ k
      simp only [smul_add]
      rw [pairSum_add, ← e1, ← e1]
    · simp only [hq, false_and, if_false, add_zero]
  simp only [hterm]
  apply rowOf_congr_lt
  · intro k hk
    rw [Prod.fst_sum, Finset.sum_apply, key g hg y k hk]
    rfl
  · intro k hk
    rw [Prod.snd_sum, Prod.fst_sum, Finset.sum_apply]
    rw [key (fun _ _ => 1) (fun _ _ => rfl) y k hk]
    rfl
  · intro _ _ k hk
    rw [Prod.snd_sum, Prod.snd_sum, Prod.fst_sum, Finset.sum_apply]
    rw [key (fun a b => a + b) (fun a b => add_comm a b) z k hk]
    rfl
  · intro k hk
    rw [Prod.snd_sum, Prod.snd_sum, Prod.snd_sum, Prod.fst_sum, Finset.sum_apply]
    rw [key (fun a b => (1 / 2 : ℝ) • (a + b)) (fun a b => by rw [add_comm]) y k hk]
    rfl
  · intro h
    simp at h

/-! ### Averaging -/

section mean
variable {V : Type} [AddCommGroup V] [Module ℝ V]

theorem streamBin_mean (r : Nat → ℚ) (X : Nat → V) (N j b : Nat) (hb : (b + 1) * 2 ^ j ≤ N) :
    streamBin 1 r X j b = blockMean (2 ^ j) ((List.range N).map X) b := by
  induction j generalizing b with
  | zero =>
    have hb' : b < N := by simpa using hb
    simp [streamBin, blockMean, List.take_one, List.head?_drop, List.getElem?_range hb']
  | succ j ih =>
    have e : (b + 1) * 2 ^ (j + 1) = (2 * b + 1 + 1) * 2 ^ j := by ring
    have hle : (2 * b + 1) * 2 ^ j ≤ (2 * b + 1 + 1) * 2 ^ j := Nat.mul_le_mul_right _ (by omega)
    rw [streamBin, pow_succ, blockMean_double, ih _ (by omega), ih _ (by omega)]
    unfold pairBin
    rw [if_pos rfl, add_comm]

theorem restSeq_mean (r : Nat → ℚ) (X : Nat → V) (d j i : Nat) :
    restSeq 1 r d (streamBin 1 r X j) i = streamBin 1 r X (j + i) := by
  induction i generalizing d j with
  | zero => rfl
  | succ i ih =>
    rw [restSeq, show memStep 1 (r d) (streamBin 1 r X j) = streamBin 1 r X (j + 1) from ?_, ih]
    · congr 1; omega
    · funext b
      simp only [memStep, memPair, streamBin, pairBin, if_true, add_comm]

theorem row_mean (r : Nat → ℚ) (X : Nat → V) (N j : Nat) :
    (List.range (N / 2 ^ j)).map (streamBin 1 r X j)
      = blockMeans (2 ^ j) ((List.range N).map X) := by
  unfold blockMeans
  rw [List.length_map, List.length_range]
  apply List.map_congr_left
  intro b hb
  have hb := List.mem_range.1 hb
  exact streamBin_mean r X N j b ((Nat.le_div_iff_mul_le (Nat.two_pow_pos j)).1 hb)

end mean

end Cddm
