import Verif.Lemmas.IterChunk

/-!
# Complex auto-correlation of a stream: nothing is added for pairs of chunks
-/

namespace Cddm
open Spec

theorem pairSumAt_behind {M α β : Type} [AddCommMonoid M] (g : α → β → M) {s1 : Stream α}
    {s2 : Stream β} (h : ∀ a ∈ s1, ∀ b ∈ s2, b.1 < a.1) (k : Nat) :
    pairSumAt g s1 s2 (k : Int) = 0 := by
  unfold pairSumAt
  have : (s1 ×ˢ s2).filter (fun p => delay p = (k : Int)) = [] := by
    rw [List.filter_eq_nil_iff]
    intro p hp
    obtain ⟨h1, h2⟩ := List.mem_product.1 hp
    have := h _ h1 _ h2
    intro hd
    have hd := of_decide_eq_true hd
    unfold delay at hd
    omega
  rw [this]
  rfl

theorem cellSum_behind {M α β : Type} [AddCommMonoid M] (g : α → β → M) {s1 : Stream α}
    {s2 : Stream β} (h : ∀ a ∈ s1, ∀ b ∈ s2, b.1 < a.1) {n k : Nat} (hk : k < n) :
    cellSum true g s1 s2 (iterLen true n) k = 0 := by
  unfold cellSum cellDelay iterLen
  rw [if_pos rfl, if_pos rfl, if_pos (by omega)]
  exact pairSumAt_behind g h k

/-- Two sets of cells agree below `n`, apart from the last component. -/
def SameBelow {C : Type} (n : Nat) (d e : RowFns C) : Prop :=
  ∀ k, k < n → d.1 k = e.1 k ∧ d.2.1 k = e.2.1 k ∧ d.2.2.1 k = e.2.2.1 k ∧
    d.2.2.2.1 k = e.2.2.2.1 k

theorem SameBelow.row {C : Type} {n : Nat} {d e : RowFns C} (h : SameBelow n d e) (nm : Nat)
    (m : String) : rowOf nm m false n n d = rowOf nm m false n n e :=
  rowOf_congr_lt (fun k hk => (h k hk).1) (fun k hk => (h k hk).2.1)
    (fun _ _ k hk => (h k hk).2.2.1) (fun k hk => (h k hk).2.2.2) (by simp)

theorem SameBelow.sum {C : Type} [AddCommMonoid C] {n Q : Nat} {d e : Nat → RowFns C}
    (h : ∀ q, q < Q → SameBelow n (d q) (e q)) :
    SameBelow n (∑ q ∈ Finset.range Q, d q) (∑ q ∈ Finset.range Q, e q) := by
  intro k hk
  simp only [Prod.snd_sum, Prod.fst_sum, Finset.sum_apply]
  exact ⟨Finset.sum_congr rfl fun q hq => (h q (Finset.mem_range.1 hq) k hk).1,
    Finset.sum_congr rfl fun q hq => (h q (Finset.mem_range.1 hq) k hk).2.1,
    Finset.sum_congr rfl fun q hq => (h q (Finset.mem_range.1 hq) k hk).2.2.1,
    Finset.sum_congr rfl fun q hq => (h q (Finset.mem_range.1 hq) k hk).2.2.2⟩

/-- Times increasing from each chunk to the next one. -/
theorem part_behind {α β : Type} {T : List Int} {y1 : Nat → α} {y2 : Nat → β} {c N q : Nat}
    (h : ∀ i j : Nat, i / c + 1 = j / c → j < N → T.getD i 0 < T.getD j 0) (hq : 1 ≤ q)
    (hN : (q + 1) * c ≤ N) :
    ∀ a ∈ part T y1 c q, ∀ b ∈ part T y2 c (q - 1), b.1 < a.1 := by
  intro a ha b hb
  obtain ⟨i, -, e2, e3, rfl⟩ := part_mem ha
  obtain ⟨j, -, f2, f3, rfl⟩ := part_mem hb
  rw [Nat.sub_add_cancel hq] at f3
  refine h j i ?_ (by omega)
  rw [Nat.div_eq_of_lt_le f2 (by rwa [Nat.sub_add_cancel hq]), Nat.div_eq_of_lt_le e2 e3]
  omega

theorem autoTerm_same {C : Type} [AddCommMonoid C] {cfg : IterCfg} {T : List Int}
    (r : Nat → ℚ) (squares : Bool) (Y : Nat → Cx ℝ) (j : Nat) (cor : Stream (Cx ℝ) → Nat → C)
    (g : Cx ℝ → Cx ℝ → C) {n n' q : Nat} (hn : n ≤ n') (hN : (q + 1) * cfg.half ≤ cfg.nframes)
    (h : ∀ i j : Nat, i / cfg.half + 1 = j / cfg.half → j < cfg.nframes →
       T.getD i 0 < T.getD j 0) :
    SameBelow n ((levelParts cfg T T r squares Y Y j).autoTerm true cor g (iterLen true n') true q)
      ((levelParts cfg T T r squares Y Y j).autoTerm true cor g (iterLen true n') false q) := by
  intro k hk
  unfold Parts.autoTerm
  simp only [Bool.false_eq_true, and_false, if_false, add_zero, and_true]
  by_cases hq : q ≥ 1
  · have hT : ∀ a b : Nat, a / cfg.half + 1 = b / cfg.half → b < cfg.nframes →
        (levelT cfg.nframes T j).getD a 0 < (levelT cfg.nframes T j).getD b 0 := by
      intro a b hab hb
      unfold levelT
      split
      · exact h a b hab hb
      · have hlt : a < b := by
          by_contra hle
          have := Nat.div_le_div_right (c := cfg.half) (Nat.le_of_not_lt hle)
          omega
        rw [arange_getD (by omega), arange_getD hb]
        omega
    rw [if_pos hq]
    unfold Parts.pair levelParts crossFns asAuto
    simp only [Prod.fst_add, Prod.snd_add, Pi.add_apply]
    rw [cellSum_behind g (part_behind hT hq hN) (hk.trans_le hn),
      cellSum_behind _ (part_behind hT hq hN) (hk.trans_le hn),
      cellSum_behind _ (part_behind hT hq hN) (hk.trans_le hn),
      cellSum_behind _ (part_behind hT hq hN) (hk.trans_le hn),
      cellSum_behind _ (part_behind hT hq hN) (hk.trans_le hn)]
    simp
  · rw [if_neg hq]
    simp

theorem autoLevel_same {C : Type} [AddCommMonoid C] {cfg : IterCfg} {T : List Int}
    (r : Nat → ℚ) (squares : Bool) (Y : Nat → Cx ℝ) (j : Nat) (cor : Stream (Cx ℝ) → Nat → C)
    (g : Cx ℝ → Cx ℝ → C) {n : Nat} (hn : n ≤ cfg.nFast)
    (h : ∀ i j : Nat, i / cfg.half + 1 = j / cfg.half → j < cfg.nframes →
       T.getD i 0 < T.getD j 0) :
    SameBelow n (autoLevel true cor g { cfg with full := true } T r squares Y j)
      (autoLevel true cor g { cfg with full := false } T r squares Y j) := by
  unfold autoLevel
  by_cases hj : j < cfg.nDecades
  · rw [if_pos hj, if_pos hj]
    refine SameBelow.sum fun q hq => ?_
    refine autoTerm_same (cfg := cfg) r squares Y j cor g hn ?_ h
    have h1 : (q + 1) * (cfg.half * 2 ^ j) ≤ cfg.nframes := by
      have h2 : q + 1 ≤ cfg.nframes / (cfg.half * 2 ^ j) := hq
      exact (Nat.mul_le_mul_right _ h2).trans (Nat.div_mul_le_self _ _)
    refine le_trans ?_ h1
    exact Nat.mul_le_mul_left _ (Nat.le_mul_of_pos_right _ (Nat.two_pow_pos j))
  · rw [if_neg hj, if_neg hj]
    intro k _
    simp

theorem auto_modes_same {C : Type} [AddCommMonoid C] {g : String → Cx ℝ → Cx ℝ → C}
    {cor : String → Stream (Cx ℝ) → Nat → C} {ac : AutoFn C} {cc : CrossFn C}
    {data : List (Cx ℝ)} {t : Option (List Int)} {o : MultiOpts} {env : IterEnv} {e : Eff}
    (K : CrossOK true g cc) (KA : AutoOK true cor ac)
    (hcor : ∀ m c s, cor m (shiftStream c s) = cor m s)
    (h : IterCall false true t none env.dataLen o e)
    (hT : ∀ i j : Nat, i / e.chunk + 1 = j / e.chunk → j < e.frames →
      e.T1.getD i 0 < e.T1.getD j 0)
    (hlen : e.frames ≤ data.length) :
    autoIterOf ac cc data t { o with mode := "full" } env
      = autoIterOf ac cc data t { o with mode := "chunk" } env := by
  have hpos := IterCall.pos h
  have hT2 : e.T2 = e.T1 := h.times.second
  have hc := IterCall.withMode h "chunk" (.inr rfl)
  have hf := IterCall.withMode h "full" (.inl rfl)
  obtain ⟨nd, cfg, hcfg, hn1, hn2, heq⟩ := autoIter_closed K KA hcor
    (data := data) (period := o.period) (T := e.T1)
    (junk := fun j k => (env.junk j k).1) (junkSq := fun j k => (env.junkSq j k).1)
    (al := env.aligned) (al' := env.aligned')
    (r := env.rand) (ab := o.autoBackground) (by have := hc.times; rw [hT2] at this; exact this)
    hc.frames hc.levels hc.binning hc.mode hc.norm
    (by have := h.args; rw [hT2] at this; exact this) h.period (h.fft rfl)
    (by intro e; rw [e] at hlen; simp at hlen; omega)
  obtain ⟨nd', cfg', hcfg', hn1', hn2', heq'⟩ := autoIter_closed K KA hcor
    (data := data) (period := o.period) (T := e.T1)
    (junk := fun j k => (env.junk j k).1) (junkSq := fun j k => (env.junkSq j k).1)
    (al := env.aligned) (al' := env.aligned')
    (r := env.rand) (ab := o.autoBackground) (by have := hf.times; rw [hT2] at this; exact this)
    hf.frames hf.levels hf.binning hf.mode hf.norm
    (by have := h.args; rw [hT2] at this; exact this) h.period (h.fft rfl)
    (by intro e; rw [e] at hlen; simp at hlen; omega)
  have hnd : nd = nd' := by
    by_cases hnl : o.nlevel = none
    · rw [hn1 hnl, hn1' hnl]
    · rw [hn2 hnl, hn2' hnl]
  subst hnd
  rw [if_neg (by omega)] at heq heq'
  refine heq'.trans (Eq.trans ?_ heq.symm)
  have hmul : o.levelSize ≤ o.period * o.levelSize := Nat.le_mul_of_pos_left _ h.period
  congr 3
  · apply SameBelow.row
    refine SameBelow.sum fun q hq => ?_
    rw [hcfg, hcfg']
    refine autoTerm_same (cfg := { cfgOf e.chunk nd e.frames e.nlevel o.period o.levelSize
      e.method e.binning true o.autoBackground with norm := e.norm.toNat }) _ _ _ 0 _ _ le_rfl ?_ hT
    have h1 : q + 1 ≤ e.frames / e.chunk := hq
    exact (Nat.mul_le_mul_right _ h1).trans (Nat.div_mul_le_self _ _)
  · apply List.map_congr_left
    intro l _
    apply SameBelow.row
    rw [hcfg, hcfg']
    exact autoLevel_same (cfg := { cfgOf e.chunk nd e.frames e.nlevel o.period o.levelSize
      e.method e.binning true o.autoBackground with norm := e.norm.toNat }) _ _ _ _ _ _ hmul hT

end Cddm
