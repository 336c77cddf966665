import Verif.Lemmas.IterClosed
import Verif.Spec.IterApi

/-!
# The iterative functions in mode 'full'
-/

namespace Cddm
open Spec

theorem abs2_sub_mean (y : List (Cx ℝ)) (a : Cx ℝ) :
    (y.map fun x => (x - a).abs2).sum
      = (y.map Cx.abs2).sum - 2 * (a.re * y.sum.re + a.im * y.sum.im) + y.length * a.abs2 := by
  induction y with
  | nil => simp
  | cons x y ih =>
    rw [List.map_cons, List.map_cons, List.sum_cons, List.sum_cons, List.sum_cons, ih]
    simp only [Cx.abs2, Cx.sub_re, Cx.sub_im, Cx.add_re, Cx.add_im, List.length_cons]
    push_cast
    ring

theorem varianceOf_eq (y : List (Cx ℝ)) (h : y ≠ []) :
    varianceOf y = (y.map Cx.abs2).sum / y.length - (meanOf y).abs2 := by
  have hl : (y.length : ℝ) ≠ 0 := by
    rw [Nat.cast_ne_zero]
    exact (List.length_pos_of_ne_nil h).ne'
  unfold varianceOf
  rw [abs2_sub_mean]
  have e1 : (meanOf y).re = y.sum.re / y.length := by
    unfold meanOf
    simp [div_eq_inv_mul]
  have e2 : (meanOf y).im = y.sum.im / y.length := by
    unfold meanOf
    simp [div_eq_inv_mul]
  simp only [Cx.abs2, e1, e2]
  field_simp
  ring

theorem varianceOf_nonneg (y : List (Cx ℝ)) : 0 ≤ varianceOf y := by
  unfold varianceOf
  refine mul_nonneg (by positivity) (List.sum_nonneg ?_)
  intro x hx
  obtain ⟨a, -, rfl⟩ := List.mem_map.1 hx
  simp only [Cx.abs2]
  nlinarith [sq_nonneg (a - meanOf y).re, sq_nonneg (a - meanOf y).im]

theorem statOf_eq (Y : Nat → Cx ℝ) {N : Nat} (h : 0 < N) :
    statOf Y N = (meanOf ((List.range N).map Y), varianceOf ((List.range N).map Y)) := by
  have hne : (List.range N).map Y ≠ [] := by
    intro e
    have := congrArg List.length e
    simp at this
    omega
  rw [varianceOf_eq _ hne]
  unfold statOf meanOf
  rw [List.length_map, List.length_range, List.map_map]
  rfl

theorem pair_check {t1 t2 : Option (List Int)} (h : t1.isSome = t2.isSome) :
    ¬ ((t1.isNone ∧ t2.isSome) ∨ (t2.isNone ∧ t1.isSome)) := by
  cases t1 <;> cases t2 <;> simp_all

section cross
variable {C : Type} [AddCommMonoid C] {cplx : Bool} {g : String → Cx ℝ → Cx ℝ → C}
  {cc : CrossFn C} {data : List (Cx ℝ × Cx ℝ)} {t1 t2 : Option (List Int)} {o : MultiOpts}
  {env : IterEnv} {e : Eff} {dl : Option Nat} {cross : Bool}

theorem IterCall.pos (h : IterCall cross cplx t1 t2 dl o e) : 0 < e.frames := by
  have h1 := h.frames.level
  have h2 := h.frames.lo
  rw [h.frames.frames]
  exact Nat.mul_pos (by omega) (Nat.two_pow_pos _)

theorem IterCall.chunk_le (h : IterCall cross cplx t1 t2 dl o e) : e.chunk ≤ e.frames := by
  rw [h.frames.frames]
  exact Nat.le_mul_of_pos_right _ (Nat.two_pow_pos _)

theorem IterCall.chunks (h : IterCall cross cplx t1 t2 dl o e) :
    e.frames / e.chunk * e.chunk = e.frames := by
  rw [h.frames.frames]
  exact Nat.div_mul_cancel (Nat.dvd_mul_right _ _)

/-- The signals, as processed. -/
theorem processed_pair (h : IterCall cross cplx t1 t2 dl o e) {α : Type} {x : List α}
    (f : α → Cx ℝ) (hlen : e.frames ≤ x.length) :
    processed o.autoBackground e.chunk e.frames (x.map f)
      = (List.range e.frames).map (shown o.autoBackground (frameAt (x.map f)) e.chunk) :=
  processed_eq _ (by rw [List.length_map]; exact (IterCall.chunk_le h).trans hlen)
    (by rw [List.length_map]; exact hlen)

theorem cross_any (K : CrossOK cplx g cc) (h : IterCall true cplx t1 t2 env.dataLen o e)
    (hlen : e.frames ≤ data.length) {y1 y2 : List (Cx ℝ)}
    (hy1 : y1 = processed o.autoBackground e.chunk e.frames (data.map Prod.fst))
    (hy2 : y2 = processed o.autoBackground e.chunk e.frames (data.map Prod.snd)) :
    ∃ fast slow, iccorrMultiOf cplx cc data t1 t2 o env = .ok (min data.length (e.frames + 1),
      ⟨fast, slow, [some (meanOf y1, varianceOf y1), some (meanOf y2, varianceOf y2)]⟩) ∧
      slow.length = e.nlevel := by
  have hpos := IterCall.pos h
  obtain ⟨nd, cfg, hcfg, hn1, hn2, heq⟩ := crossIter_closed K (data := data) (period := o.period)
    (junk := env.junk) (junkSq := env.junkSq) (al := env.aligned) (al' := env.aligned')
    (r := env.rand) (ab := o.autoBackground) h.times h.frames h.levels h.binning h.mode h.norm
    h.args (fun _ => h.period) (by intro e; rw [e] at hlen; simp at hlen; omega)
  rw [if_neg (by omega), statOf_eq _ hpos, statOf_eq _ hpos, ← processed_pair h _ hlen,
    ← processed_pair h _ hlen, ← hy1, ← hy2] at heq
  have hcall : iccorrMultiOf cplx cc data t1 t2 o env = crossIterOf cplx cc data t1 t2 o env := by
    unfold iccorrMultiOf
    rw [if_neg (pair_check (h.pair rfl))]
  exact ⟨_, _, hcall.trans heq, by simp⟩

theorem cross_short (K : CrossOK cplx g cc) (h : IterCall true cplx t1 t2 env.dataLen o e)
    (hlen : data.length < e.frames) (hne : data ≠ []) :
    iccorrMultiOf cplx cc data t1 t2 o env = .error .valueError := by
  obtain ⟨nd, cfg, hcfg, hn1, hn2, heq⟩ := crossIter_closed K (data := data) (period := o.period)
    (junk := env.junk) (junkSq := env.junkSq) (al := env.aligned) (al' := env.aligned')
    (r := env.rand) (ab := o.autoBackground) h.times h.frames h.levels h.binning h.mode h.norm
    h.args (fun _ => h.period) hne
  rw [if_pos hlen] at heq
  have hcall : iccorrMultiOf cplx cc data t1 t2 o env = crossIterOf cplx cc data t1 t2 o env := by
    unfold iccorrMultiOf
    rw [if_neg (pair_check (h.pair rfl))]
  exact hcall.trans heq

theorem cross_full (K : CrossOK cplx g cc) (h : IterCall true cplx t1 t2 env.dataLen o e)
    (hmode : o.mode = "full")
    (hsp : Spaced e.chunk e.frames (o.period * o.levelSize) e.T1 e.T2)
    (hlen : e.frames ≤ data.length) {y1 y2 : List (Cx ℝ)}
    (hy1 : y1 = processed o.autoBackground e.chunk e.frames (data.map Prod.fst))
    (hy2 : y2 = processed o.autoBackground e.chunk e.frames (data.map Prod.snd)) :
    ∃ slow, iccorrMultiOf cplx cc data t1 t2 o env = .ok (min data.length (e.frames + 1),
      ⟨crossData cplx (g e.method) e.method e.norm (iterLen cplx (o.period * o.levelSize))
          (stream y1 (some (e.T1.take e.frames))) (stream y2 (some (e.T2.take e.frames)))
          (stream (y1.map Cx.abs2) (some (e.T1.take e.frames)))
          (stream (y2.map Cx.abs2) (some (e.T2.take e.frames))),
        slow, [some (meanOf y1, varianceOf y1), some (meanOf y2, varianceOf y2)]⟩) ∧
      slow.length = e.nlevel ∧
      (e.binning = 1 → o.nlevel = none ∨ e.nlevel ≤ e.k →
        slow = (List.range e.nlevel).map fun j =>
          crossData cplx (g e.method) e.method e.norm (iterLen cplx o.levelSize)
            (regular (blockMeans (2 ^ (j + 1)) y1)) (regular (blockMeans (2 ^ (j + 1)) y2))
            (regular (blockMeans (2 ^ (j + 1)) (y1.map Cx.abs2)))
            (regular (blockMeans (2 ^ (j + 1)) (y2.map Cx.abs2)))) := by
  have hpos := IterCall.pos h
  obtain ⟨nd, cfg, hcfg, hn1, hn2, heq⟩ := crossIter_closed K (data := data) (period := o.period)
    (junk := env.junk) (junkSq := env.junkSq) (al := env.aligned) (al' := env.aligned')
    (r := env.rand) (ab := o.autoBackground) h.times h.frames h.levels h.binning h.mode h.norm h.args (fun _ => h.period)
    (by intro e; rw [e] at hlen; simp at hlen; omega)
  rw [if_neg (by omega), statOf_eq _ hpos, statOf_eq _ hpos, ← processed_pair h _ hlen,
    ← processed_pair h _ hlen, ← hy1, ← hy2] at heq
  have hfull : cfg.full = true := by rw [hcfg]; simp [cfgOf, hmode]
  have hN : cfg.nframes = e.frames := by rw [hcfg]; rfl
  have hH : cfg.half = e.chunk := by rw [hcfg]; rfl
  have hff := fast_full cplx (g e.method) (cfg := cfg) (T1 := e.T1) (T2 := e.T2) env.rand
    (needsSquares e.norm.toNat && decide (e.method ≠ "diff"))
    (shown o.autoBackground (frameAt (data.map Prod.fst)) e.chunk)
    (shown o.autoBackground (frameAt (data.map Prod.snd)) e.chunk) (m := e.method) (v := e.norm)
    (n := o.period * o.levelSize) (Q := e.frames / e.chunk) h.args.norm hfull
    (by rw [hN, hH]; exact IterCall.chunks h) (by rw [hN]; exact h.args.times1)
    (by rw [hN]; exact h.args.times2) (by rw [hN, hH]; exact hsp)
  rw [hN, ← processed_pair h _ hlen, ← processed_pair h _ hlen, ← hy1, ← hy2] at hff
  rw [hff] at heq
  have hcall : iccorrMultiOf cplx cc data t1 t2 o env = crossIterOf cplx cc data t1 t2 o env := by
    unfold iccorrMultiOf
    rw [if_neg (pair_check (h.pair rfl))]
  refine ⟨_, hcall.trans heq, ?_, ?_⟩
  · simp
  · intro hb hk
    apply List.map_congr_left
    intro j hj
    have hj' := List.mem_range.1 hj
    have := slow_full cplx (g e.method) (cfg := cfg) (T1 := e.T1) (T2 := e.T2) env.rand _
      (shown o.autoBackground (frameAt (data.map Prod.fst)) e.chunk)
      (shown o.autoBackground (frameAt (data.map Prod.snd)) e.chunk) (m := e.method) (v := e.norm)
      (n := o.levelSize) (j := j + 1) (k := e.k) h.args.norm rfl hfull
      (by rw [hcfg]; exact hb) (by rw [hN, hH]; exact h.frames.frames)
      (by rw [hH]; exact h.frames.level.trans_le h.frames.lo) (by rw [hH]; exact h.frames.lo)
      (by omega)
      (by
        intro hlt
        have hnd : cfg.nDecades = nd := by rw [hcfg]; rfl
        by_cases hnl : o.nlevel = none
        · have := hn1 hnl; omega
        · have := hn2 hnl
          rcases hk with hk | hk
          · exact absurd hk hnl
          · omega)
    rw [hN, ← processed_pair h _ hlen, ← processed_pair h _ hlen, ← hy1, ← hy2] at this
    exact this

end cross

section auto
variable {data : List (Cx ℝ)} {t : Option (List Int)} {o : MultiOpts}
  {env : IterEnv} {e : Eff}

theorem EffTimes.same_none {count dataLen : Option Nat} {T1 T2 : List Int} {cnt : Nat}
    (h : EffTimes t none count dataLen T1 T2 cnt) : T2 = T1 := h.second

theorem auto_any {C : Type} [AddCommMonoid C] {cplx : Bool}
    {g : String → Cx ℝ → Cx ℝ → C} {cor : String → Stream (Cx ℝ) → Nat → C} {ac : AutoFn C}
    {cc : CrossFn C} (K : CrossOK cplx g cc) (KA : AutoOK cplx cor ac)
    (hcor : ∀ m c s, cor m (shiftStream c s) = cor m s)
    (h : IterCall false cplx t none env.dataLen o e)
    (hlen : e.frames ≤ data.length) {y : List (Cx ℝ)}
    (hy : y = processed o.autoBackground e.chunk e.frames data) :
    ∃ fast slow, autoIterOf ac cc data t o env = .ok (min data.length (e.frames + 1),
      ⟨fast, slow, [some (meanOf y, varianceOf y)]⟩) ∧ slow.length = e.nlevel := by
  have hpos := IterCall.pos h
  have hpr := processed_pair h (x := data) id hlen
  rw [List.map_id] at hpr
  have hT : e.T2 = e.T1 := h.times.second
  obtain ⟨nd, cfg, hcfg, hn1, hn2, heq⟩ := autoIter_closed K KA hcor
    (data := data) (period := o.period) (T := e.T1)
    (junk := fun j k => (env.junk j k).1) (junkSq := fun j k => (env.junkSq j k).1)
    (al := env.aligned) (al' := env.aligned')
    (r := env.rand) (ab := o.autoBackground) (by have := h.times; rw [hT] at this; exact this)
    h.frames h.levels h.binning h.mode h.norm
    (by have := h.args; rw [hT] at this; exact this) h.period (h.fft rfl)
    (by intro e; rw [e] at hlen; simp at hlen; omega)
  rw [if_neg (by omega), statOf_eq _ hpos, ← hpr, ← hy] at heq
  exact ⟨_, _, heq, by simp⟩

theorem auto_short {C : Type} [AddCommMonoid C] {cplx : Bool}
    {g : String → Cx ℝ → Cx ℝ → C} {cor : String → Stream (Cx ℝ) → Nat → C} {ac : AutoFn C}
    {cc : CrossFn C} (K : CrossOK cplx g cc) (KA : AutoOK cplx cor ac)
    (hcor : ∀ m c s, cor m (shiftStream c s) = cor m s)
    (h : IterCall false cplx t none env.dataLen o e)
    (hlen : data.length < e.frames) (hne : data ≠ []) :
    autoIterOf ac cc data t o env = .error .valueError := by
  have hT : e.T2 = e.T1 := h.times.second
  obtain ⟨nd, cfg, hcfg, hn1, hn2, heq⟩ := autoIter_closed K KA hcor
    (data := data) (period := o.period) (T := e.T1)
    (junk := fun j k => (env.junk j k).1) (junkSq := fun j k => (env.junkSq j k).1)
    (al := env.aligned) (al' := env.aligned')
    (r := env.rand) (ab := o.autoBackground) (by have := h.times; rw [hT] at this; exact this)
    h.frames h.levels h.binning h.mode h.norm
    (by have := h.args; rw [hT] at this; exact this) h.period (h.fft rfl) hne
  rw [if_pos hlen] at heq
  exact heq

theorem auto_full (h : IterCall false false t none env.dataLen o e)
    (hmode : o.mode = "full")
    (hsp : Spaced e.chunk e.frames (o.period * o.levelSize) e.T1 e.T1)
    (hlen : e.frames ≤ data.length) {y : List (Cx ℝ)}
    (hy : y = processed o.autoBackground e.chunk e.frames data) :
    ∃ slow, iacorrMulti data t o env = .ok (min data.length (e.frames + 1),
      ⟨autoData (productOf e.method) e.method e.norm (o.period * o.levelSize)
          (stream y (some (e.T1.take e.frames)))
          (stream (y.map Cx.abs2) (some (e.T1.take e.frames))),
        slow, [some (meanOf y, varianceOf y)]⟩) ∧
      slow.length = e.nlevel ∧
      (e.binning = 1 → o.nlevel = none ∨ e.nlevel ≤ e.k →
        slow = (List.range e.nlevel).map fun j =>
          autoData (productOf e.method) e.method e.norm o.levelSize
            (regular (blockMeans (2 ^ (j + 1)) y))
            (regular (blockMeans (2 ^ (j + 1)) (y.map Cx.abs2)))) := by
  have hpos := IterCall.pos h
  have hpr := processed_pair h (x := data) id hlen
  rw [List.map_id] at hpr
  have hT : e.T2 = e.T1 := h.times.second
  obtain ⟨nd, cfg, hcfg, hn1, hn2, heq⟩ := autoIter_closed ccorr_CrossOK acorr_AutoOK
    (fun m c s => funext (selfSum_shift _ _ _)) (data := data) (period := o.period) (T := e.T1)
    (junk := fun j k => (env.junk j k).1) (junkSq := fun j k => (env.junkSq j k).1)
    (al := env.aligned) (al' := env.aligned')
    (r := env.rand) (ab := o.autoBackground) (by have := h.times; rw [hT] at this; exact this) h.frames h.levels
    h.binning h.mode h.norm
    (by have := h.args; rw [hT] at this; exact this) h.period (h.fft rfl)
    (by intro e; rw [e] at hlen; simp at hlen; omega)
  rw [if_neg (by omega), statOf_eq _ hpos, ← hpr, ← hy] at heq
  have hfull : cfg.full = true := by rw [hcfg]; simp [cfgOf, hmode]
  have hN : cfg.nframes = e.frames := by rw [hcfg]; rfl
  have hH : cfg.half = e.chunk := by rw [hcfg]; rfl
  have hff := fast_full_auto (cfg := cfg) (T := e.T1) env.rand
    (needsSquares e.norm.toNat && decide (e.method ≠ "diff"))
    (shown o.autoBackground (frameAt data) e.chunk) (m := e.method) (v := e.norm)
    (n := o.period * o.levelSize) (Q := e.frames / e.chunk)
    (L := iterLen false (o.period * o.levelSize)) h.args.norm hfull
    (by rw [hN, hH]; exact IterCall.chunks h) (by rw [hN]; exact h.args.times1)
    (by rw [hN, hH]; exact hsp)
  rw [hN, ← hpr, ← hy] at hff
  rw [hff] at heq
  refine ⟨_, heq, ?_, ?_⟩
  · simp
  · intro hb hk
    apply List.map_congr_left
    intro j hj
    have hj' := List.mem_range.1 hj
    have := slow_full_auto (cfg := cfg) (T := e.T1) env.rand _
      (shown o.autoBackground (frameAt data) e.chunk) (m := e.method) (v := e.norm)
      (n := o.levelSize) (j := j + 1) (k := e.k) h.args.norm rfl hfull
      (by rw [hcfg]; exact hb) (by rw [hN, hH]; exact h.frames.frames)
      (by rw [hH]; exact h.frames.level.trans_le h.frames.lo) (by rw [hH]; exact h.frames.lo)
      (by omega)
      (by
        intro hlt
        have hnd : cfg.nDecades = nd := by rw [hcfg]; rfl
        by_cases hnl : o.nlevel = none
        · have := hn1 hnl; omega
        · have := hn2 hnl
          rcases hk with hk | hk
          · exact absurd hk hnl
          · omega)
    rw [hN, ← hpr, ← hy] at this
    exact this

end auto

end Cddm
