import Verif.Lemmas.IterChunk

/-!
# Buffers and binning of the iterative functions
-/

namespace Cddm
open Spec

section buffers
variable {V : Type} [AddCommGroup V] [Module ℝ V]

/-- A loop whose steps keep an invariant. -/
theorem enumLoop_inv {D S : Type} (nframes : Nat) (step : Nat → D → S → Py S) (data : List D)
    (Inv : Nat → S → Prop) (hlen : data.length ≤ nframes)
    (hstep : ∀ (i : Nat) x s, data[i]? = some x → Inv i s → ∃ s', step i x s = .ok s' ∧ Inv (i + 1) s') :
    ∀ (ds : List D) (i : Nat) (s : S), ds = data.drop i → i ≤ data.length → Inv i s →
      ∃ s', enumLoop nframes step i ds s = .ok (data.length, s') ∧ Inv data.length s'
  | [], i, s, hds, hi, h => by
    have : data.length - i = 0 := by rw [← List.length_drop, ← hds]; rfl
    obtain rfl : i = data.length := by omega
    exact ⟨s, rfl, h⟩
  | d :: ds, i, s, hds, hi, h => by
    have hl : data.length - i = ds.length + 1 := by rw [← List.length_drop, ← hds]; rfl
    have hd : data[i]? = some d := by
      have := congrArg (·[0]?) hds
      simpa using this.symm
    have hds' : ds = data.drop (i + 1) := by
      have := congrArg List.tail hds
      simpa using this
    obtain ⟨s1, e1, h1⟩ := hstep i d s hd h
    obtain ⟨s2, e2, h2⟩ := enumLoop_inv nframes step data Inv hlen hstep ds (i + 1) s1 hds'
      (by omega) h1
    refine ⟨s2, ?_, h2⟩
    unfold enumLoop
    rw [if_neg (by omega), e1]
    exact e2

theorem addLoop_ok (binning : Int) (r : Nat → ℚ) (x : List V) (D c : Nat) (hc0 : 0 < c)
    (hD : 0 < D) (hc : D = 1 ∨ c % 2 = 0) {out : List (List V)} (hs : Shape D c out) :
    ∃ out', enumLoop x.length (fun i a out => addData i a out binning (r i)) 0 x out
        = .ok (x.length, out') ∧ Shape D c out' ∧
      ∀ l, l < D → LevelOK binning r (fun i => x.getD i 0) c x.length out' l := by
  refine enumLoop_inv x.length _ x (fun i out => Shape D c out ∧
    ∀ l, l < D → LevelOK binning r (fun i => x.getD i 0) c i out l) le_rfl ?_ x 0 out rfl
    (Nat.zero_le _) ⟨hs, fun l _ b hb => by simp at hb⟩
  rintro i a out hi ⟨h1, h2⟩
  have := addData_ok binning r (fun i => x.getD i 0) D c i hc0 hD hc out h1 h2
  simpa [List.getD_eq_getElem?_getD, hi] using this

omit [AddCommGroup V] [Module ℝ V] in
theorem map_range_getD (x : List V) (d : V) : (List.range x.length).map (fun k => x.getD k d) = x := by
  apply List.ext_getElem
  · simp
  · intro i h1 h2
    simp [List.getD_eq_getElem?_getD, h2]

/-- The last frame of each block, for 'first' binning. -/
theorem streamBin_zero (r : Nat → ℚ) (X : Nat → V) (j b : Nat) :
    streamBin 0 r X j b = X ((b + 1) * 2 ^ j - 1) := by
  induction j generalizing b with
  | zero => simp [streamBin]
  | succ j ih =>
    rw [streamBin, pairBin, if_neg (by decide), if_neg (by decide), ih]
    congr 2
    rw [pow_succ]
    ring

omit [AddCommGroup V] [Module ℝ V] in
theorem blockFirsts_get (x : List V) (m : Nat) (hm : 0 < m) (b : Nat) :
    (blockFirsts m x)[b]? = x[b * m]? := by
  have key : ∀ b, b < (x.length + m - 1) / m → b * m < x.length := by
    intro b hb
    have h1 : (b + 1) * m ≤ x.length + m - 1 := (Nat.le_div_iff_mul_le hm).mp hb
    rw [Nat.succ_mul] at h1
    omega
  have e : blockFirsts m x = takeIdx x (List.range' 0 ((x.length + m - 1) / m) m) := by
    unfold blockFirsts takeIdx
    have er : List.range' 0 ((x.length + m - 1) / m) m
        = (List.range ((x.length + m - 1) / m)).map (· * m) := by
      apply List.ext_getElem
      · simp
      · intro k h1 h2
        simp [Nat.mul_comm]
    rw [er, List.filterMap_map]
    rfl
  obtain ⟨h1, h2⟩ := takeIdx_range' x 0 ((x.length + m - 1) / m) m (fun i hi => by
    rw [Nat.zero_add, Nat.mul_comm]; exact key i hi)
  by_cases hb : b < (x.length + m - 1) / m
  · rw [e, h2 b hb, Nat.zero_add, Nat.mul_comm]
  · rw [List.getElem?_eq_none (by rw [e, h1]; omega), List.getElem?_eq_none]
    have := (Nat.div_lt_iff_lt_mul hm).mp (Nat.lt_succ_of_le (not_lt.mp hb))
    rw [Nat.succ_mul] at this
    omega

omit [AddCommGroup V] [Module ℝ V] in
theorem blockFirsts_blockFirsts (m n : Nat) (hm : 0 < m) (hn : 0 < n) (x : List V) :
    blockFirsts m (blockFirsts n x) = blockFirsts (n * m) x := by
  apply List.ext_getElem?
  intro b
  rw [blockFirsts_get _ _ hm, blockFirsts_get _ _ hn, blockFirsts_get _ _ (Nat.mul_pos hn hm)]
  congr 1
  ring

theorem row_last (r : Nat → ℚ) (X : Nat → V) (N j : Nat) :
    (List.range (N / 2 ^ j)).map (streamBin 0 r X j)
      = blockFirsts (2 ^ j) (((List.range N).map X).drop (2 ^ j - 1)) := by
  have h2 := Nat.two_pow_pos j
  apply List.ext_getElem?
  intro b
  have e : (b + 1) * 2 ^ j = b * 2 ^ j + 2 ^ j := Nat.succ_mul _ _
  rw [blockFirsts_get _ _ h2, List.getElem?_drop]
  by_cases hb : b < N / 2 ^ j
  · have h3 : (b + 1) * 2 ^ j ≤ N := (Nat.le_div_iff_mul_le h2).1 hb
    rw [List.getElem?_map, List.getElem?_range hb, List.getElem?_map,
      List.getElem?_range (by omega), Option.map_some, Option.map_some, streamBin_zero]
    congr 2
    omega
  · have h3 : ¬ (b + 1) * 2 ^ j ≤ N := fun h => hb ((Nat.le_div_iff_mul_le h2).2 h)
    rw [List.getElem?_eq_none (by simp; omega), List.getElem?_eq_none (by simp; omega)]

theorem restSeq_zero (r : Nat → ℚ) (d i : Nat) (y : Nat → V) (b : Nat) :
    restSeq 0 r d y i b = y (b * 2 ^ i) := by
  induction i generalizing d y with
  | zero => simp [restSeq]
  | succ i ih =>
    rw [restSeq, ih]
    unfold memStep memPair
    rw [if_neg (by decide), if_pos rfl]
    congr 1
    ring

theorem restSeq_first (r : Nat → ℚ) (d i n : Nat) (y : Nat → V) :
    (List.range (restCount 0 n i)).map (restSeq 0 r d y i)
      = blockFirsts (2 ^ i) ((List.range n).map y) := by
  induction i generalizing d n y with
  | zero => rw [pow_zero, blockFirsts_one]; rfl
  | succ i ih =>
    have h2 := Nat.two_pow_pos i
    rw [restCount, restSeq, ih, ← binData_seq, pow_succ, mul_comm]
    unfold binData
    rw [if_neg (by decide), if_pos rfl]
    conv_lhs => rw [← blockFirsts_one ((List.range n).map y)]
    rw [everySecond_blockFirsts _ Nat.one_pos, one_mul, blockFirsts_blockFirsts _ _ h2 (by omega)]

theorem rest_row (r : Nat → ℚ) (X : Nat → V) (N d : Nat) {a i j : Nat} (h : a + i = j) :
    (List.range (restCount 0 (N / 2 ^ a) i)).map (restSeq 0 r d (streamBin 0 r X a) i)
      = blockFirsts (2 ^ j) (((List.range N).map X).drop (2 ^ a - 1)) := by
  rw [restSeq_first, row_last, blockFirsts_blockFirsts _ _ (Nat.two_pow_pos i) (Nat.two_pow_pos a),
    ← pow_add, h]

end buffers

theorem feedLoop_ok (ab : Bool) (binning : Int) (r : Nat → ℚ) (x : List (Cx ℝ)) (D half : Nat)
    (squares : Bool) (hD : 0 < D) (hh : 0 < half) (junk : Nat → Nat → Cx ℝ)
    (junkSq : Nat → Nat → ℝ) :
    ∃ ch, enumLoop x.length (feedChan ab half binning r) 0 x (initChan junk junkSq D half squares)
        = .ok (x.length, ch) ∧
      FeedInv ab binning r (frameAt x) D (2 * half) half squares x.length ch := by
  have h0 := feedInv_init ab binning r (frameAt x) half squares hh junk junkSq D
  rw [if_pos hD, Nat.max_eq_left hD, mul_comm half 2] at h0
  refine enumLoop_inv x.length _ x (FeedInv ab binning r (frameAt x) D (2 * half) half squares)
    le_rfl ?_ x 0 _ rfl (Nat.zero_le _) h0
  intro i a ch hi h
  have hx : frameAt x i = a := by simp [frameAt, List.getD_eq_getElem?_getD, hi]
  have := feedChan_ok (nframes := x.length) ⟨hh, hD, .inl rfl⟩
    (List.getElem?_eq_some_iff.1 hi).1 h
  rwa [hx] at this

theorem levelSq_last (r : Nat → ℚ) (Y : Nat → Cx ℝ) (squares : Bool) (j : Nat) :
    levelSq 0 r Y squares j = streamBin 0 r (fun i => (Y i).abs2) j := by
  funext b
  unfold levelSq
  cases squares
  · simp only [Bool.false_eq_true, if_false, streamBin_zero]
  · rfl

theorem restSq_last (r : Nat → ℚ) (d : Nat) (squares : Bool) (Y : Nat → Cx ℝ) (a i : Nat) :
    restSq 0 r d squares (streamBin 0 r Y a) (streamBin 0 r (fun i => (Y i).abs2) a) i
      = restSeq 0 r d (streamBin 0 r (fun i => (Y i).abs2) a) i := by
  funext b
  unfold restSq
  cases squares
  · simp only [Bool.false_eq_true, if_false, restSeq_zero, streamBin_zero]
  · rfl

section rows
variable {C : Type} [AddCommMonoid C]

theorem slow_first (cplx : Bool) (g : Cx ℝ → Cx ℝ → C) {cfg : IterCfg} {T1 T2 : List Int}
    (r : Nat → ℚ) (squares : Bool) (Y1 Y2 : Nat → Cx ℝ) {m : String} {v : Int} {n j k : Nat}
    (hv : SupportedNorm m true v)
    (hfull : cfg.full = true) (hb : cfg.binning = 0) (hN : cfg.nframes = cfg.half * 2 ^ k)
    (hc : 0 < cfg.half) (hn : n ≤ cfg.half) (hj : 1 ≤ j) (hjk : j < cfg.nDecades → j ≤ k) (o : Nat)
    (ho : o = 2 ^ min j (cfg.nDecades - 1) - 1) :
    rowOf v.toNat m true (iterLen cplx n) (iterLen cplx n)
      (crossLevel cplx g (iterLen cplx n) cfg T1 T2 r squares Y1 Y2 j)
    = crossData cplx g m v (iterLen cplx n)
        (regular (blockFirsts (2 ^ j) (((List.range cfg.nframes).map Y1).drop o)))
        (regular (blockFirsts (2 ^ j) (((List.range cfg.nframes).map Y2).drop o)))
        (regular (blockFirsts (2 ^ j) ((((List.range cfg.nframes).map Y1).map Cx.abs2).drop o)))
        (regular (blockFirsts (2 ^ j) ((((List.range cfg.nframes).map Y2).map Cx.abs2).drop o))) := by
  rw [crossData_eq cplx g hv, List.map_map, List.map_map]
  unfold crossLevel
  by_cases hlt : j < cfg.nDecades
  · have hjk := hjk hlt
    rw [min_eq_left (by omega)] at ho
    rw [if_pos hlt, hfull, ho]
    have hQ : cfg.nframes / (cfg.half * 2 ^ j) * cfg.half = cfg.nframes / 2 ^ j := by
      obtain ⟨i, rfl⟩ := Nat.exists_eq_add_of_le hjk
      rw [hN, pow_add, ← mul_assoc, Nat.mul_div_cancel_left _
        (Nat.mul_pos hc (Nat.two_pow_pos j)), mul_right_comm,
        Nat.mul_div_cancel _ (Nat.two_pow_pos j), mul_comm]
    have hle : cfg.nframes / 2 ^ j ≤ cfg.nframes := Nat.div_le_self _ _
    have := full_total cplx g (T1 := arange cfg.nframes) (T2 := arange cfg.nframes)
      (streamBin 0 r Y1 j) (streamBin 0 r Y2 j) (levelSq 0 r Y1 squares j)
      (levelSq 0 r Y2 squares j) (c := cfg.half) (Q := cfg.nframes / (cfg.half * 2 ^ j)) (n := n)
      (L := iterLen cplx n) rfl (spaced_mono (spaced_arange hc (hn.trans (Nat.le_succ _)))
        (by rw [hQ]; exact hle))
      v.toNat m
    rw [hQ, firsts_arange _ hle, firsts_arange _ hle, firsts_arange _ hle, firsts_arange _ hle,
      levelSq_last, levelSq_last, row_last, row_last, row_last, row_last] at this
    unfold levelParts levelT
    simp only [show ¬ j = 0 by omega, if_false, hb]
    rw [levelSq_last, levelSq_last]
    exact this
  · have e1 : max cfg.nDecades 1 - 1 + (j + 1 - max cfg.nDecades 1) = j := by omega
    have e2 : max cfg.nDecades 1 - 1 = cfg.nDecades - 1 := by omega
    rw [min_eq_right (by omega), ← e2] at ho
    rw [if_neg hlt, hb]
    unfold restTerm
    rw [restSq_last, restSq_last, rest_row _ _ _ _ e1, rest_row _ _ _ _ e1, rest_row _ _ _ _ e1,
      rest_row _ _ _ _ e1, ← ho]
    rfl

theorem slow_first_auto {cfg : IterCfg} {T : List Int}
    (r : Nat → ℚ) (squares : Bool) (Y : Nat → Cx ℝ) {m : String} {v : Int} {n j k : Nat}
    (hv : SupportedNorm m false v)
    (hfull : cfg.full = true) (hb : cfg.binning = 0) (hN : cfg.nframes = cfg.half * 2 ^ k)
    (hc : 0 < cfg.half) (hn : n ≤ cfg.half) (hj : 1 ≤ j) (hjk : j < cfg.nDecades → j ≤ k) (o : Nat)
    (ho : o = 2 ^ min j (cfg.nDecades - 1) - 1) :
    rowOf v.toNat m false n n
      (autoLevel false (selfSum (productOf m)) (productOf m) cfg T r squares Y j)
    = autoData (productOf m) m v n
        (regular (blockFirsts (2 ^ j) (((List.range cfg.nframes).map Y).drop o)))
        (regular (blockFirsts (2 ^ j) ((((List.range cfg.nframes).map Y).map Cx.abs2).drop o))) := by
  rw [autoData_eq (productOf m) hv, List.map_map]
  unfold autoLevel
  by_cases hlt : j < cfg.nDecades
  · have hjk := hjk hlt
    rw [min_eq_left (by omega)] at ho
    rw [if_pos hlt, hfull, ho]
    have hQ : cfg.nframes / (cfg.half * 2 ^ j) * cfg.half = cfg.nframes / 2 ^ j := by
      obtain ⟨i, rfl⟩ := Nat.exists_eq_add_of_le hjk
      rw [hN, pow_add, ← mul_assoc, Nat.mul_div_cancel_left _
        (Nat.mul_pos hc (Nat.two_pow_pos j)), mul_right_comm,
        Nat.mul_div_cancel _ (Nat.two_pow_pos j), mul_comm]
    have hle : cfg.nframes / 2 ^ j ≤ cfg.nframes := Nat.div_le_self _ _
    have := full_total_auto (productOf m) (productOf_comm m) (T := arange cfg.nframes)
      (streamBin 0 r Y j) (levelSq 0 r Y squares j) (c := cfg.half)
      (Q := cfg.nframes / (cfg.half * 2 ^ j)) (n := n) (L := iterLen false cfg.nFast)
      (spaced_mono (spaced_arange hc (hn.trans (Nat.le_succ _))) (by rw [hQ]; exact hle)) v.toNat m
    rw [hQ, firsts_arange _ hle, firsts_arange _ hle, levelSq_last, row_last, row_last] at this
    unfold levelParts levelT
    simp only [show ¬ j = 0 by omega, if_false, hb]
    rw [levelSq_last]
    exact this
  · have e1 : max cfg.nDecades 1 - 1 + (j + 1 - max cfg.nDecades 1) = j := by omega
    have e2 : max cfg.nDecades 1 - 1 = cfg.nDecades - 1 := by omega
    rw [min_eq_right (by omega), ← e2] at ho
    rw [if_neg hlt, hb]
    unfold restAutoTerm
    rw [restSq_last, rest_row _ _ _ _ e1, rest_row _ _ _ _ e1, ← ho]
    rfl

end rows

theorem cross_first {C : Type} [AddCommMonoid C] {cplx : Bool} {g : String → Cx ℝ → Cx ℝ → C}
    {cc : CrossFn C} {data : List (Cx ℝ × Cx ℝ)} {t1 t2 : Option (List Int)} {o : MultiOpts}
    {env : IterEnv} {e : Eff}
    (K : CrossOK cplx g cc) (h : IterCall true cplx t1 t2 env.dataLen o e)
    (hmode : o.mode = "full") (hb : e.binning = 0) (hk : o.nlevel = none ∨ e.nlevel ≤ e.k)
    (hlen : e.frames ≤ data.length) {y1 y2 : List (Cx ℝ)}
    (hy1 : y1 = processed o.autoBackground e.chunk e.frames (data.map Prod.fst))
    (hy2 : y2 = processed o.autoBackground e.chunk e.frames (data.map Prod.snd)) :
    ∃ taken fast slow stats, iccorrMultiOf cplx cc data t1 t2 o env = .ok (taken,
        ⟨fast, slow, stats⟩) ∧
      slow = (List.range e.nlevel).map fun j =>
          crossData cplx (g e.method) e.method e.norm (iterLen cplx o.levelSize)
            (regular (blockFirsts (2 ^ (j + 1)) (y1.drop (2 ^ min (j + 1) (lastLevel o e) - 1))))
            (regular (blockFirsts (2 ^ (j + 1)) (y2.drop (2 ^ min (j + 1) (lastLevel o e) - 1))))
            (regular (blockFirsts (2 ^ (j + 1))
              ((y1.map Cx.abs2).drop (2 ^ min (j + 1) (lastLevel o e) - 1))))
            (regular (blockFirsts (2 ^ (j + 1))
              ((y2.map Cx.abs2).drop (2 ^ min (j + 1) (lastLevel o e) - 1)))) := by
  have hpos := IterCall.pos h
  obtain ⟨nd, cfg, hcfg, hn1, hn2, heq⟩ := crossIter_closed K (data := data) (period := o.period)
    (junk := env.junk) (junkSq := env.junkSq) (al := env.aligned) (al' := env.aligned')
    (r := env.rand) (ab := o.autoBackground) h.times h.frames h.levels h.binning h.mode h.norm h.args (fun _ => h.period)
    (by intro e; rw [e] at hlen; simp at hlen; omega)
  rw [if_neg (by omega)] at heq
  have hfull : cfg.full = true := by rw [hcfg]; simp [cfgOf, hmode]
  have hN : cfg.nframes = e.frames := by rw [hcfg]; rfl
  have hH : cfg.half = e.chunk := by rw [hcfg]; rfl
  have hnd : cfg.nDecades = nd := by rw [hcfg]; rfl
  have hcall : iccorrMultiOf cplx cc data t1 t2 o env = crossIterOf cplx cc data t1 t2 o env := by
    unfold iccorrMultiOf
    rw [if_neg (pair_check (h.pair rfl))]
  refine ⟨_, _, _, _, hcall.trans heq, ?_⟩
  apply List.map_congr_left
  intro j hj
  have hj' := List.mem_range.1 hj
  have hlast : lastLevel o e = cfg.nDecades - 1 := by
    unfold lastLevel
    by_cases hnl : o.nlevel = none
    · rw [if_pos hnl, hnd, hn1 hnl]
    · rw [if_neg hnl, hnd, hn2 hnl]; rfl
  have := slow_first cplx (g e.method) (cfg := cfg) (T1 := e.T1) (T2 := e.T2) env.rand
    (needsSquares e.norm.toNat && decide (e.method ≠ "diff"))
    (shown o.autoBackground (frameAt (data.map Prod.fst)) e.chunk)
    (shown o.autoBackground (frameAt (data.map Prod.snd)) e.chunk) (m := e.method) (v := e.norm)
    (n := o.levelSize) (j := j + 1) (k := e.k) h.args.norm hfull
    (by rw [hcfg]; exact hb) (by rw [hN, hH]; exact h.frames.frames)
    (by rw [hH]; exact h.frames.level.trans_le h.frames.lo) (by rw [hH]; exact h.frames.lo)
    (by omega)
    (by
      intro hlt
      by_cases hnl : o.nlevel = none
      · have := hn1 hnl; omega
      · have := hn2 hnl
        rcases hk with hk | hk
        · exact absurd hk hnl
        · omega) _ rfl
  rw [hN, ← processed_pair h _ hlen, ← processed_pair h _ hlen, ← hy1, ← hy2, ← hlast] at this
  exact this

theorem auto_first {data : List (Cx ℝ)} {t : Option (List Int)} {o : MultiOpts}
    {env : IterEnv} {e : Eff} (h : IterCall false false t none env.dataLen o e)
    (hmode : o.mode = "full") (hb : e.binning = 0) (hk : o.nlevel = none ∨ e.nlevel ≤ e.k)
    (hlen : e.frames ≤ data.length) {y : List (Cx ℝ)}
    (hy : y = processed o.autoBackground e.chunk e.frames data) :
    ∃ taken fast slow stats, iacorrMulti data t o env = .ok (taken, ⟨fast, slow, stats⟩) ∧
      slow = (List.range e.nlevel).map fun j =>
          autoData (productOf e.method) e.method e.norm o.levelSize
            (regular (blockFirsts (2 ^ (j + 1)) (y.drop (2 ^ min (j + 1) (lastLevel o e) - 1))))
            (regular (blockFirsts (2 ^ (j + 1))
              ((y.map Cx.abs2).drop (2 ^ min (j + 1) (lastLevel o e) - 1)))) := by
  have hpos := IterCall.pos h
  have hpr := processed_pair h (x := data) id hlen
  rw [List.map_id] at hpr
  have hT : e.T2 = e.T1 := h.times.second
  obtain ⟨nd, cfg, hcfg, hn1, hn2, heq⟩ := autoIter_closed ccorr_CrossOK acorr_AutoOK
    (fun m c s => funext (selfSum_shift _ _ _)) (data := data) (period := o.period) (T := e.T1)
    (junk := fun j k => (env.junk j k).1) (junkSq := fun j k => (env.junkSq j k).1)
    (al := env.aligned) (al' := env.aligned')
    (r := env.rand) (ab := o.autoBackground) (by have := h.times; rw [hT] at this; exact this) h.frames h.levels
    h.binning h.mode h.norm
    (by have := h.args; rw [hT] at this; exact this) h.period (h.fft rfl)
    (by intro e; rw [e] at hlen; simp at hlen; omega)
  rw [if_neg (by omega)] at heq
  have hfull : cfg.full = true := by rw [hcfg]; simp [cfgOf, hmode]
  have hN : cfg.nframes = e.frames := by rw [hcfg]; rfl
  have hH : cfg.half = e.chunk := by rw [hcfg]; rfl
  have hnd : cfg.nDecades = nd := by rw [hcfg]; rfl
  refine ⟨_, _, _, _, heq, ?_⟩
  apply List.map_congr_left
  intro j hj
  have hj' := List.mem_range.1 hj
  have hlast : lastLevel o e = cfg.nDecades - 1 := by
    unfold lastLevel
    by_cases hnl : o.nlevel = none
    · rw [if_pos hnl, hnd, hn1 hnl]
    · rw [if_neg hnl, hnd, hn2 hnl]; rfl
  have := slow_first_auto (cfg := cfg) (T := e.T1) env.rand
    (needsSquares e.norm.toNat && decide (e.method ≠ "diff"))
    (shown o.autoBackground (frameAt data) e.chunk) (m := e.method) (v := e.norm)
    (n := o.levelSize) (j := j + 1) (k := e.k) h.args.norm hfull
    (by rw [hcfg]; exact hb) (by rw [hN, hH]; exact h.frames.frames)
    (by rw [hH]; exact h.frames.level.trans_le h.frames.lo) (by rw [hH]; exact h.frames.lo)
    (by omega)
    (by
      intro hlt
      by_cases hnl : o.nlevel = none
      · have := hn1 hnl; omega
      · have := hn2 hnl
        rcases hk with hk | hk
        · exact absurd hk hnl
        · omega) _ rfl
  rw [hN, ← hpr, ← hy, ← hlast] at this
  exact this

end Cddm
