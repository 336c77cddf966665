import Verif.Lemmas.IterChunk

/-!
# The number of levels given explicitly
-/

namespace Cddm
open Spec

section cfg
variable {C : Type} [AddCommMonoid C]

/-- The last level that the main loop can reach has one chunk: 'full' and 'chunk' agree. -/
theorem crossLevel_last (cplx : Bool) (g : Cx ℝ → Cx ℝ → C) (L : Nat) (cfg : IterCfg)
    (T1 T2 : List Int) (r : Nat → ℚ) (squares : Bool) (Y1 Y2 : Nat → Cx ℝ) {k : Nat}
    (hN : cfg.nframes = cfg.half * 2 ^ k) (hc : 0 < cfg.half) :
    crossLevel cplx g L cfg T1 T2 r squares Y1 Y2 k
      = crossLevel cplx g L { cfg with full := false } T1 T2 r squares Y1 Y2 k := by
  unfold crossLevel
  by_cases h : k < cfg.nDecades
  · rw [if_pos h, if_pos h]
    have e : cfg.nframes / (cfg.half * 2 ^ k) = 1 := by
      rw [hN, Nat.div_self (Nat.mul_pos hc (Nat.two_pow_pos k))]
    simp only [e, Finset.sum_range_one]
    unfold Parts.term
    simp only [ge_iff_le, show ¬ 1 ≤ 0 by omega, false_and, if_false]
    rfl
  · rw [if_neg h, if_neg h]

theorem autoLevel_last (cplx : Bool) (cor : Stream (Cx ℝ) → Nat → C) (g : Cx ℝ → Cx ℝ → C)
    (cfg : IterCfg)
    (T : List Int) (r : Nat → ℚ) (squares : Bool) (Y : Nat → Cx ℝ) {k : Nat}
    (hN : cfg.nframes = cfg.half * 2 ^ k) (hc : 0 < cfg.half) :
    autoLevel cplx cor g cfg T r squares Y k
      = autoLevel cplx cor g { cfg with full := false } T r squares Y k := by
  unfold autoLevel
  by_cases h : k < cfg.nDecades
  · rw [if_pos h, if_pos h]
    have e : cfg.nframes / (cfg.half * 2 ^ k) = 1 := by
      rw [hN, Nat.div_self (Nat.mul_pos hc (Nat.two_pow_pos k))]
    simp only [e, Finset.sum_range_one]
    unfold Parts.autoTerm
    simp only [ge_iff_le, show ¬ 1 ≤ 0 by omega, false_and, if_false]
    rfl
  · rw [if_neg h, if_neg h]

/-- `k` or `k + 1` decades: the same data up to level `k`. -/
theorem crossLevel_decades (cplx : Bool) (g : Cx ℝ → Cx ℝ → C) (cfg : IterCfg) (T1 T2 : List Int)
    (r : Nat → ℚ) (Y1 Y2 : Nat → Cx ℝ) {m : String} {v : Int} {L j k : Nat}
    (hv : SupportedNorm m true v) (hb : cfg.binning = 1) (hN : cfg.nframes = cfg.half * 2 ^ k)
    (hc : 0 < cfg.half) (hj : 1 ≤ j) (hjk : j ≤ k) :
    rowOf v.toNat m true L L (crossLevel cplx g L { cfg with nDecades := k } T1 T2 r
        (needsSquares v.toNat && decide (m ≠ "diff")) Y1 Y2 j)
      = rowOf v.toNat m true L L (crossLevel cplx g L { cfg with nDecades := k + 1 } T1 T2 r
        (needsSquares v.toNat && decide (m ≠ "diff")) Y1 Y2 j) := by
  by_cases h : j < k
  · unfold crossLevel
    have h' : j < k + 1 := by omega
    simp only [h, h', if_true]
    rfl
  · obtain rfl : j = k := by omega
    have hpos : 1 ≤ cfg.nframes / 2 ^ j := by
      rw [hN, Nat.mul_div_cancel _ (Nat.two_pow_pos j)]
      exact hc
    rw [crossLevel_last cplx g L { cfg with nDecades := j } T1 T2 r _ Y1 Y2 hN hc,
      crossLevel_last cplx g L { cfg with nDecades := j + 1 } T1 T2 r _ Y1 Y2 hN hc]
    rw [slow_chunk cplx g (cfg := { cfg with nDecades := j, full := false }) r _ Y1 Y2 hv rfl rfl
      hb hN hc hj (fun _ => le_rfl) (fun _ => le_rfl) hpos,
      slow_chunk cplx g (cfg := { cfg with nDecades := j + 1, full := false }) r _ Y1 Y2 hv rfl rfl
      hb hN hc hj (fun _ => le_rfl) (fun _ => le_rfl) hpos]

theorem autoLevel_decades (cplx : Bool) (cor : Stream (Cx ℝ) → Nat → C)
    (hcor : ∀ c s, cor (shiftStream c s) = cor s) (g : Cx ℝ → Cx ℝ → C) (cfg : IterCfg)
    (T : List Int)
    (r : Nat → ℚ) (Y : Nat → Cx ℝ) {m : String} {v : Int} {n j k : Nat}
    (hv : SupportedNorm m false v) (hb : cfg.binning = 1) (hN : cfg.nframes = cfg.half * 2 ^ k)
    (hc : 0 < cfg.half) (hj : 1 ≤ j) (hjk : j ≤ k) :
    rowOf v.toNat m false n n (autoLevel cplx cor g { cfg with nDecades := k } T r
        (needsSquares v.toNat && decide (m ≠ "diff")) Y j)
      = rowOf v.toNat m false n n (autoLevel cplx cor g { cfg with nDecades := k + 1 } T r
        (needsSquares v.toNat && decide (m ≠ "diff")) Y j) := by
  by_cases h : j < k
  · unfold autoLevel
    have h' : j < k + 1 := by omega
    simp only [h, h', if_true]
    rfl
  · obtain rfl : j = k := by omega
    have hpos : 1 ≤ cfg.nframes / 2 ^ j := by
      rw [hN, Nat.mul_div_cancel _ (Nat.two_pow_pos j)]
      exact hc
    rw [autoLevel_last cplx cor g { cfg with nDecades := j } T r _ Y hN hc,
      autoLevel_last cplx cor g { cfg with nDecades := j + 1 } T r _ Y hN hc]
    rw [slow_chunk_auto cplx cor hcor g (cfg := { cfg with nDecades := j, full := false }) r _ Y hv
      rfl rfl hb hN hc hj (fun _ => le_rfl) (fun _ => le_rfl) hpos,
      slow_chunk_auto cplx cor hcor g (cfg := { cfg with nDecades := j + 1, full := false }) r _ Y
      hv rfl rfl hb hN hc hj (fun _ => le_rfl) (fun _ => le_rfl) hpos]

end cfg

theorem IterCall.withLevels {cross cplx : Bool} {t1 t2 : Option (List Int)} {dl : Option Nat}
    {o : MultiOpts} {e : Eff} (h : IterCall cross cplx t1 t2 dl o e)
    (hn : o.nlevel = none) :
    IterCall cross cplx t1 t2 dl { o with nlevel := some (e.nlevel : Int) } e :=
  ⟨h.pair, h.mode, h.times, h.frames, by
    obtain ⟨nl0, a1, a2, a3, -⟩ := h.levels
    refine ⟨nl0, a1, a2, by simp, ?_⟩
    intro l hl
    have := a3 hn
    rw [← Option.some.inj hl, this]
    simp, h.binning, h.norm, h.args, h.period, h.fft⟩

section cross
variable {C : Type} [AddCommMonoid C] {cplx : Bool} {g : String → Cx ℝ → Cx ℝ → C}
  {cc : CrossFn C} {data : List (Cx ℝ × Cx ℝ)} {t1 t2 : Option (List Int)} {o : MultiOpts}
  {env : IterEnv} {e : Eff}

theorem cross_levels_same (K : CrossOK cplx g cc) (h : IterCall true cplx t1 t2 env.dataLen o e)
    (hn : o.nlevel = none) (hb : e.binning = 1) (hk : e.nlevel ≤ e.k) (hne : data ≠ []) :
    iccorrMultiOf cplx cc data t1 t2 { o with nlevel := some (e.nlevel : Int) } env
      = iccorrMultiOf cplx cc data t1 t2 o env := by
  have he := IterCall.withLevels h hn
  obtain ⟨nd, cfg, hcfg, hn1, hn2, heq⟩ := crossIter_closed K (data := data) (period := o.period)
    (junk := env.junk) (junkSq := env.junkSq) (al := env.aligned) (al' := env.aligned')
    (r := env.rand) (ab := o.autoBackground) h.times h.frames h.levels h.binning h.mode h.norm
    h.args (fun _ => h.period) hne
  obtain ⟨nd', cfg', hcfg', hn1', hn2', heq'⟩ := crossIter_closed K (data := data)
    (period := o.period)
    (junk := env.junk) (junkSq := env.junkSq) (al := env.aligned) (al' := env.aligned')
    (r := env.rand) (ab := o.autoBackground) he.times he.frames he.levels he.binning he.mode he.norm
    he.args (fun _ => h.period) hne
  have hkk : e.nlevel = e.k := by
    obtain ⟨nl0, a1, a2, a3, -⟩ := h.levels
    have := a3 hn
    rw [← this] at a2
    by_contra hlt
    have h1 : e.nlevel + 1 ≤ e.k := by omega
    have h2 := div_pow_anti (n := e.frames) h1
    rw [h.frames.frames, Nat.mul_div_cancel _ (Nat.two_pow_pos _)] at h2
    have := h.frames.lo
    rw [← h.frames.frames] at h2
    omega
  have e1 := hn1 hn
  have e2 : nd' = e.k + 1 := by rw [hn2' (by simp), hkk]
  subst e1 e2
  have hcall : ∀ s, iccorrMultiOf cplx cc data t1 t2 { o with nlevel := s } env
      = crossIterOf cplx cc data t1 t2 { o with nlevel := s } env := by
    intro s
    unfold iccorrMultiOf
    rw [if_neg (pair_check (h.pair rfl))]
  have hcall' : iccorrMultiOf cplx cc data t1 t2 o env = crossIterOf cplx cc data t1 t2 o env := by
    unfold iccorrMultiOf
    rw [if_neg (pair_check (h.pair rfl))]
  rw [hcall, hcall']
  refine (heq'.trans ?_).trans heq.symm
  split
  · rfl
  · congr 3
    · rw [hcfg, hcfg']
      rfl
    · apply List.map_congr_left
      intro j hj
      have hj' := List.mem_range.1 hj
      rw [hcfg, hcfg']
      exact (crossLevel_decades cplx (g e.method) { cfgOf e.chunk e.k e.frames e.nlevel o.period
        o.levelSize e.method e.binning (decide (o.mode = "full")) o.autoBackground with
          norm := e.norm.toNat } e.T1 e.T2 env.rand
        (shown o.autoBackground (frameAt (data.map Prod.fst)) e.chunk)
        (shown o.autoBackground (frameAt (data.map Prod.snd)) e.chunk) h.args.norm hb
        h.frames.frames (h.frames.level.trans_le h.frames.lo) (by omega) (by omega)).symm

/-- An explicit number of levels above the number of doublings: the last levels stay zero. -/
theorem cross_levels_zero (K : CrossOK cplx g cc) (h : IterCall true cplx t1 t2 env.dataLen o e)
    (hn : o.nlevel ≠ none) (hlen : e.frames ≤ data.length) :
    ∃ taken fast slow stats, iccorrMultiOf cplx cc data t1 t2 o env
        = .ok (taken, ⟨fast, slow, stats⟩) ∧ slow.length = e.nlevel ∧
      ∀ j row, e.k ≤ j → slow[j]? = some row →
        row.count = some (List.replicate (iterLen cplx o.levelSize) 0) := by
  have hpos := IterCall.pos h
  obtain ⟨nd, cfg, hcfg, hn1, hn2, heq⟩ := crossIter_closed K (data := data) (period := o.period)
    (junk := env.junk) (junkSq := env.junkSq) (al := env.aligned) (al' := env.aligned')
    (r := env.rand) (ab := o.autoBackground) h.times h.frames h.levels h.binning h.mode h.norm
    h.args (fun _ => h.period) (by intro e; rw [e] at hlen; simp at hlen; omega)
  rw [if_neg (by omega)] at heq
  have hcall' : iccorrMultiOf cplx cc data t1 t2 o env = crossIterOf cplx cc data t1 t2 o env := by
    unfold iccorrMultiOf
    rw [if_neg (pair_check (h.pair rfl))]
  refine ⟨_, _, _, _, hcall'.trans heq, by simp, ?_⟩
  intro j row hj hrow
  rw [List.getElem?_map] at hrow
  have hjl : j < e.nlevel := by
    by_contra hlt
    rw [List.getElem?_eq_none (by simpa using hlt)] at hrow
    simp at hrow
  rw [List.getElem?_range hjl, Option.map_some] at hrow
  rw [← Option.some.inj hrow]
  have hz : crossLevel cplx (g e.method) (iterLen cplx o.levelSize) cfg e.T1 e.T2 env.rand
      (needsSquares e.norm.toNat && decide (e.method ≠ "diff"))
      (shown o.autoBackground (frameAt (data.map Prod.fst)) e.chunk)
      (shown o.autoBackground (frameAt (data.map Prod.snd)) e.chunk) (j + 1) = 0 := by
    unfold crossLevel
    have hnd : cfg.nDecades = e.nlevel + 1 := by rw [hcfg]; exact hn2 hn
    have hN : cfg.nframes = e.frames := by rw [hcfg]; rfl
    have hH : cfg.half = e.chunk := by rw [hcfg]; rfl
    rw [if_pos (by omega), hN, hH, Nat.div_eq_of_lt, Finset.sum_range_zero]
    rw [h.frames.frames]
    exact Nat.mul_lt_mul_of_pos_left (Nat.pow_lt_pow_right (by norm_num) (by omega))
      (h.frames.level.trans_le h.frames.lo)
  unfold rowOf
  simp only [hz]
  rw [replicate_upto]
  rfl

end cross

section auto
variable {C : Type} [AddCommMonoid C] {cplx : Bool}
    {g : String → Cx ℝ → Cx ℝ → C} {cor : String → Stream (Cx ℝ) → Nat → C} {ac : AutoFn C}
    {cc : CrossFn C} {data : List (Cx ℝ)} {t : Option (List Int)} {o : MultiOpts}
  {env : IterEnv} {e : Eff}

theorem auto_levels_same (K : CrossOK cplx g cc) (KA : AutoOK cplx cor ac)
    (hcor : ∀ m c s, cor m (shiftStream c s) = cor m s)
    (h : IterCall false cplx t none env.dataLen o e)
    (hn : o.nlevel = none) (hb : e.binning = 1) (hk : e.nlevel ≤ e.k) (hne : data ≠ []) :
    autoIterOf ac cc data t { o with nlevel := some (e.nlevel : Int) } env
      = autoIterOf ac cc data t o env := by
  have he := IterCall.withLevels h hn
  have hT : e.T2 = e.T1 := h.times.second
  obtain ⟨nd, cfg, hcfg, hn1, hn2, heq⟩ := autoIter_closed K KA hcor
    (data := data) (period := o.period) (T := e.T1)
    (junk := fun j k => (env.junk j k).1) (junkSq := fun j k => (env.junkSq j k).1)
    (al := env.aligned) (al' := env.aligned')
    (r := env.rand) (ab := o.autoBackground) (by have := h.times; rw [hT] at this; exact this)
    h.frames h.levels h.binning h.mode h.norm
    (by have := h.args; rw [hT] at this; exact this) h.period (h.fft rfl) hne
  obtain ⟨nd', cfg', hcfg', hn1', hn2', heq'⟩ := autoIter_closed K KA hcor
    (data := data) (period := o.period) (T := e.T1)
    (junk := fun j k => (env.junk j k).1) (junkSq := fun j k => (env.junkSq j k).1)
    (al := env.aligned) (al' := env.aligned')
    (r := env.rand) (ab := o.autoBackground) (by have := he.times; rw [hT] at this; exact this)
    he.frames he.levels he.binning he.mode he.norm
    (by have := h.args; rw [hT] at this; exact this) h.period (h.fft rfl) hne
  have hkk : e.nlevel = e.k := by
    obtain ⟨nl0, a1, a2, a3, -⟩ := h.levels
    have := a3 hn
    rw [← this] at a2
    by_contra hlt
    have h1 : e.nlevel + 1 ≤ e.k := by omega
    have h2 := div_pow_anti (n := e.frames) h1
    rw [h.frames.frames, Nat.mul_div_cancel _ (Nat.two_pow_pos _)] at h2
    have := h.frames.lo
    rw [← h.frames.frames] at h2
    omega
  have e1 := hn1 hn
  have e2 : nd' = e.k + 1 := by rw [hn2' (by simp), hkk]
  subst e1 e2
  refine (heq'.trans ?_).trans heq.symm
  split
  · rfl
  · congr 3
    · rw [hcfg, hcfg']
      rfl
    · apply List.map_congr_left
      intro j hj
      have hj' := List.mem_range.1 hj
      rw [hcfg, hcfg']
      exact (autoLevel_decades cplx (cor e.method) (hcor e.method) (g e.method)
        { cfgOf e.chunk e.k e.frames e.nlevel o.period
        o.levelSize e.method e.binning (decide (o.mode = "full")) o.autoBackground with
          norm := e.norm.toNat } e.T1 env.rand
        (shown o.autoBackground (frameAt data) e.chunk) h.args.norm hb
        h.frames.frames (h.frames.level.trans_le h.frames.lo) (by omega) (by omega)).symm

end auto

end Cddm
