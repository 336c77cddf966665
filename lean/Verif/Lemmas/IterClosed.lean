import Verif.Lemmas.IterFull
import Verif.Lemmas.IterArgs

/-!
# Closed forms of `crossIter` and `autoIter`
-/

namespace Cddm
open Spec

theorem spaced_mono {c N N' n : Nat} {T1 T2 : List Int} (h : Spaced c N n T1 T2) (hn : N' ≤ N) :
    Spaced c N' n T1 T2 := fun i j hi hj hd => h i j (hi.trans_le hn) (hj.trans_le hn) hd

theorem firsts_eq {α : Type} (T : List Int) (y : Nat → α) {N : Nat} (h : N ≤ T.length) :
    firsts T y N = stream ((List.range N).map y) (some (T.take N)) := by
  apply List.ext_getElem
  · simp [firsts, stream, h]
  · intro i h1 h2
    have hi : i < N := by simpa [firsts] using h1
    simp [firsts, stream, List.getElem_zip, List.getElem?_eq_getElem (show i < T.length by omega)]

/-- The frames as a sequence. -/
def frameAt (x : List (Cx ℝ)) (i : Nat) : Cx ℝ := x.getD i 0

theorem take_range {x : List (Cx ℝ)} {n : Nat} (h : n ≤ x.length) :
    x.take n = (List.range n).map (frameAt x) := by
  apply List.ext_getElem
  · simp [h]
  · intro i h1 h2
    have hi : i < n := by simpa using h2
    simp [frameAt, List.getElem?_eq_getElem (show i < x.length by omega)]

theorem processed_eq (ab : Bool) {c N : Nat} {x : List (Cx ℝ)} (hc : c ≤ x.length)
    (hN : N ≤ x.length) :
    processed ab c N x = (List.range N).map (shown ab (frameAt x) c) := by
  unfold processed
  cases ab with
  | false =>
    simp only [Bool.false_eq_true, if_false]
    rw [take_range hN]
    rfl
  | true =>
    simp only [if_true]
    rw [← List.map_take, take_range hN, List.map_map]
    apply List.map_congr_left
    intro i _
    simp only [Function.comp, shown, bgOf, if_true]
    rw [take_range hc]
    rfl

theorem sized_ok {levelSize : Nat} {chunkSize : Option Nat} {cnt c k N nl : Nat}
    {nlevel : Option Int} (hf : EffFrames levelSize chunkSize cnt c k N)
    (hl : EffLevels levelSize N nlevel nl) {nd : Nat} (h1 : nlevel = none → nd = k)
    (h2 : nlevel ≠ none → nd = nl + 1) (period : Nat) (m : String) (b : Int) (full ab : Bool)
    (v : Nat) :
    SizedCfg { cfgOf c nd N nl period levelSize m b full ab with norm := v } := by
  obtain ⟨nl0, a1, a2, a3, a4⟩ := hl
  have hlo := hf.lo
  have hpos := hf.level
  have hfr := hf.frames
  have hk0 : N / 2 ^ k = c := by rw [hfr, Nat.mul_div_cancel _ (Nat.two_pow_pos k)]
  have hk : k ≤ nl0 := by
    by_contra hlt
    have := div_pow_anti (n := N) (show nl0 + 1 ≤ k by omega)
    omega
  constructor
  · show 0 < c
    omega
  · exact hpos
  · exact hlo
  · show nd ≤ nl + 1
    cases nlevel with
    | none => have := h1 rfl; have := a3 rfl; omega
    | some l => have := h2 (by simp); omega
  · show nl + 1 - max nd 1 ≠ 0 → levelSize ≤ N / 2 ^ (max nd 1 - 1) / 2 ^ (nl + 1 - max nd 1)
    intro hne
    rw [Nat.div_div_eq_div_mul, ← pow_add, show max nd 1 - 1 + (nl + 1 - max nd 1) = nl by omega]
    cases nlevel with
    | none => rw [a3 rfl]; exact a1
    | some l => have := h2 (by simp); omega

theorem defaultNorm_eff {norm : Option Int} {m : String} {cross : Bool} {v : Int}
    (hv : v = effNorm norm m cross) (h : SupportedNorm m cross v) :
    defaultNorm norm m cross = .ok v.toNat := by
  subst hv
  exact defaultNorm_ok h

theorem supported_nat {m : String} {cross : Bool} {v : Int} (h : SupportedNorm m cross v) :
    ((v.toNat : Nat) : Int) = v := by
  unfold SupportedNorm at h
  split at h
  · rcases h with h | ⟨-, h⟩ <;> rw [h] <;> rfl
  · rcases h with h | h | h | h | h | h <;> rw [h] <;> rfl

section cross
variable {C : Type} [AddCommMonoid C] {cplx : Bool} {g : String → Cx ℝ → Cx ℝ → C}
  {cc : CrossFn C} (K : CrossOK cplx g cc)
  {data : List (Cx ℝ × Cx ℝ)} {dataLen : Option Nat} {t1 t2 : Option (List Int)}
  {period levelSize : Nat} {chunkSize : Option Nat} {binning : Option Int}
  {method : Option String} {count : Option Nat} {ab : Bool} {nlevel : Option Int}
  {norm : Option Int} {mode : String} {junk : Nat → Nat → Cx ℝ × Cx ℝ}
  {junkSq : Nat → Nat → ℝ × ℝ} {al al' : Bool} {r : Nat → ℚ} {T1 T2 : List Int}
  {cnt c k N nl : Nat} {m : String} {b v : Int}
include K

theorem crossIter_closed
    (ht : EffTimes t1 t2 count dataLen T1 T2 cnt) (hf : EffFrames levelSize chunkSize cnt c k N)
    (hl : EffLevels levelSize N nlevel nl) (hb : EffBinning method binning m b)
    (hm : mode = "full" ∨ mode = "chunk") (hv : v = effNorm norm m true)
    (hargs : IterArgs true cplx m v c N (period * levelSize) T1 T2)
    (hp : cplx = true → 1 ≤ period) (hne : data ≠ []) :
    ∃ nd cfg, cfg = { cfgOf c nd N nl period levelSize m b (decide (mode = "full")) ab with
        norm := v.toNat } ∧ (nlevel = none → nd = k) ∧ (nlevel ≠ none → nd = nl + 1) ∧
      crossIter cplx cc data dataLen t1 t2 period levelSize chunkSize binning method count
        ab nlevel norm mode junk junkSq al al' r
      = if data.length < N then .error .valueError else
        .ok (min data.length (N + 1),
          ⟨rowOf v.toNat m true (iterLen cplx (period * levelSize)) (iterLen cplx (period * levelSize))
            (∑ q ∈ Finset.range (N / c),
              (levelParts cfg T1 T2 r (needsSquares v.toNat && decide (m ≠ "diff"))
                (shown ab (frameAt (data.map Prod.fst)) c) (shown ab (frameAt (data.map Prod.snd)) c)
                0).term cplx (g m) (iterLen cplx (period * levelSize)) cfg.full q),
          (List.range nl).map fun l => rowOf v.toNat m true
            (iterLen cplx levelSize) (iterLen cplx levelSize)
            (crossLevel cplx (g m) (iterLen cplx levelSize) cfg T1 T2 r
              (needsSquares v.toNat && decide (m ≠ "diff"))
              (shown ab (frameAt (data.map Prod.fst)) c) (shown ab (frameAt (data.map Prod.snd)) c)
              (l + 1)),
          [some (statOf (shown ab (frameAt (data.map Prod.fst)) c) N),
            some (statOf (shown ab (frameAt (data.map Prod.snd)) c) N)]⟩) := by
  obtain ⟨nd, e, h1, h2⟩ := params_ok (period := period) (t1 := t1) (t2 := t2) ab ht hf hl hb hm
  have hs := sized_ok hf hl h1 h2 period m b (decide (mode = "full")) ab v.toNat
  refine ⟨nd, _, rfl, h1, h2, ?_⟩
  have eX := crossIter_eq cplx cc data dataLen t1 t2 period levelSize chunkSize binning method count
    ab nlevel norm mode junk junkSq al al' r T1 T2 _ v.toNat (frameAt (data.map Prod.fst))
    (frameAt (data.map Prod.snd)) e hne (defaultNorm_eff hv hargs.norm)
    (by
      intro i x hx
      simp [frameAt, List.getD_eq_getElem?_getD, hx])
  have eR := crossRun_ok K
    { cfgOf c nd N nl period levelSize m b (decide (mode = "full")) ab with norm := v.toNat }
    T1 T2 al al' r data.length (shown ab (frameAt (data.map Prod.fst)) c)
    (shown ab (frameAt (data.map Prod.snd)) c) hs
    (by
      show IterArgs true cplx m ((v.toNat : Nat) : Int) c N (period * levelSize) T1 T2
      rw [supported_nat hargs.norm]
      exact hargs)
    (fun hcx => Nat.mul_pos (hp hcx) hf.level) (List.length_pos_of_ne_nil hne) _ rfl
  exact eX.trans eR

end cross

section rows
variable {C : Type} [AddCommMonoid C]

theorem levelSq_zero (b : Int) (r : Nat → ℚ) (Y : Nat → Cx ℝ) (squares : Bool) :
    levelSq b r Y squares 0 = fun i => (Y i).abs2 := by
  funext i
  unfold levelSq streamBin
  cases squares <;> rfl

/-- All frames at level 0. -/
theorem fast_full (cplx : Bool) (g : Cx ℝ → Cx ℝ → C) {cfg : IterCfg} {T1 T2 : List Int}
    (r : Nat → ℚ) (squares : Bool) (Y1 Y2 : Nat → Cx ℝ) {m : String} {v : Int} {n Q : Nat}
    (hv : SupportedNorm m true v)
    (hfull : cfg.full = true) (hN : Q * cfg.half = cfg.nframes) (h1 : cfg.nframes ≤ T1.length)
    (h2 : cfg.nframes ≤ T2.length) (hsp : Spaced cfg.half cfg.nframes n T1 T2) :
    rowOf v.toNat m true (iterLen cplx n) (iterLen cplx n) (∑ q ∈ Finset.range Q,
      (levelParts cfg T1 T2 r squares Y1 Y2 0).term cplx g (iterLen cplx n) cfg.full q)
    = crossData cplx g m v (iterLen cplx n)
        (stream ((List.range cfg.nframes).map Y1) (some (T1.take cfg.nframes)))
        (stream ((List.range cfg.nframes).map Y2) (some (T2.take cfg.nframes)))
        (stream (((List.range cfg.nframes).map Y1).map Cx.abs2) (some (T1.take cfg.nframes)))
        (stream (((List.range cfg.nframes).map Y2).map Cx.abs2) (some (T2.take cfg.nframes))) := by
  rw [hfull]
  have := full_total cplx g (T1 := T1) (T2 := T2) Y1 Y2 (fun i => (Y1 i).abs2)
    (fun i => (Y2 i).abs2) (c := cfg.half) (Q := Q) (n := n) (L := iterLen cplx n) rfl
    (hN ▸ hsp) v.toNat m
  rw [crossData_eq cplx g hv, List.map_map, List.map_map, ← firsts_eq _ _ h1, ← firsts_eq _ _ h2,
    ← firsts_eq _ _ h1, ← firsts_eq _ _ h2, ← hN]
  unfold levelParts
  rw [levelSq_zero, levelSq_zero]
  exact this

theorem levelSq_row (r : Nat → ℚ) (Y : Nat → Cx ℝ) (N j : Nat) :
    (List.range (N / 2 ^ j)).map (levelSq 1 r Y true j)
      = blockMeans (2 ^ j) ((List.range N).map (Cx.abs2 ∘ Y)) := by
  rw [← row_mean r]
  rfl

theorem restSq_row (r : Nat → ℚ) (Y : Nat → Cx ℝ) (N d : Nat) {a i j : Nat} (h : a + i = j) :
    (List.range (N / 2 ^ j)).map (restSq 1 r d true (streamBin 1 r Y a)
        (streamBin 1 r (fun i => (Y i).abs2) a) i)
      = blockMeans (2 ^ j) ((List.range N).map (Cx.abs2 ∘ Y)) := by
  rw [← row_mean r]
  apply List.map_congr_left
  intro b _
  rw [restSq, if_pos rfl, restSeq_mean, h]
  rfl

/-- The block averages at level `j`. -/
theorem slow_full (cplx : Bool) (g : Cx ℝ → Cx ℝ → C) {cfg : IterCfg} {T1 T2 : List Int}
    (r : Nat → ℚ) (squares : Bool) (Y1 Y2 : Nat → Cx ℝ) {m : String} {v : Int} {n j k : Nat}
    (hv : SupportedNorm m true v)
    (hsq : squares = (needsSquares v.toNat && decide (m ≠ "diff")))
    (hfull : cfg.full = true) (hb : cfg.binning = 1) (hN : cfg.nframes = cfg.half * 2 ^ k)
    (hc : 0 < cfg.half) (hn : n ≤ cfg.half) (hj : 1 ≤ j) (hjk : j < cfg.nDecades → j ≤ k) :
    rowOf v.toNat m true (iterLen cplx n) (iterLen cplx n)
      (crossLevel cplx g (iterLen cplx n) cfg T1 T2 r squares Y1 Y2 j)
    = crossData cplx g m v (iterLen cplx n)
        (regular (blockMeans (2 ^ j) ((List.range cfg.nframes).map Y1)))
        (regular (blockMeans (2 ^ j) ((List.range cfg.nframes).map Y2)))
        (regular (blockMeans (2 ^ j) (((List.range cfg.nframes).map Y1).map Cx.abs2)))
        (regular (blockMeans (2 ^ j) (((List.range cfg.nframes).map Y2).map Cx.abs2))) := by
  have hsq' : needsSquares v.toNat = true → m ≠ "diff" → squares = true := by
    intro h1 h2
    rw [hsq]; simp [h1, h2]
  rw [crossData_eq cplx g hv, List.map_map, List.map_map]
  unfold crossLevel
  by_cases hlt : j < cfg.nDecades
  · have hjk := hjk hlt
    rw [if_pos hlt, hfull]
    have hQ : cfg.nframes / (cfg.half * 2 ^ j) * cfg.half = cfg.nframes / 2 ^ j := by
      obtain ⟨i, rfl⟩ := Nat.exists_eq_add_of_le hjk
      rw [hN, pow_add, ← mul_assoc, Nat.mul_div_cancel_left _
        (Nat.mul_pos hc (Nat.two_pow_pos j)), mul_right_comm,
        Nat.mul_div_cancel _ (Nat.two_pow_pos j), mul_comm]
    have hle : cfg.nframes / 2 ^ j ≤ cfg.nframes := Nat.div_le_self _ _
    have := full_total cplx g (T1 := arange cfg.nframes) (T2 := arange cfg.nframes)
      (streamBin 1 r Y1 j) (streamBin 1 r Y2 j) (levelSq 1 r Y1 squares j)
      (levelSq 1 r Y2 squares j) (c := cfg.half) (Q := cfg.nframes / (cfg.half * 2 ^ j)) (n := n)
      (L := iterLen cplx n) rfl (spaced_mono (spaced_arange hc (hn.trans (Nat.le_succ _)))
        (by rw [hQ]; exact hle))
      v.toNat m
    rw [hQ, firsts_arange _ hle, firsts_arange _ hle, firsts_arange _ hle, firsts_arange _ hle,
      row_mean, row_mean] at this
    unfold levelParts levelT
    simp only [show ¬ j = 0 by omega, if_false, hb]
    refine this.trans ?_
    refine rowOf_congr rfl rfl rfl rfl ?_
    · intro h1 h2
      rw [hsq' h1 h2, levelSq_row, levelSq_row]
  · rw [if_neg hlt, hb]
    unfold restTerm
    have e1 : max cfg.nDecades 1 - 1 + (j + 1 - max cfg.nDecades 1) = j := by omega
    rw [restSeq_mean, restSeq_mean, restCount_one, Nat.div_div_eq_div_mul, ← pow_add, e1, row_mean,
      row_mean]
    refine rowOf_congr rfl rfl rfl rfl ?_
    · intro h1 h2
      rw [hsq' h1 h2, restSq_row _ _ _ _ e1, restSq_row _ _ _ _ e1]

end rows

theorem productOf_comm (m : String) (a b : Cx ℝ) : productOf m a b = productOf m b a := by
  unfold productOf
  split
  · exact dist2_comm a b
  · exact reProd_comm a b

theorem fast_full_auto {cfg : IterCfg} {T : List Int} (r : Nat → ℚ) (squares : Bool)
    (Y : Nat → Cx ℝ) {m : String} {v : Int} {n Q L : Nat} (hv : SupportedNorm m false v)
    (hfull : cfg.full = true) (hN : Q * cfg.half = cfg.nframes) (h1 : cfg.nframes ≤ T.length)
    (hsp : Spaced cfg.half cfg.nframes n T T) :
    rowOf v.toNat m false n n (∑ q ∈ Finset.range Q,
      (levelParts cfg T T r squares Y Y 0).autoTerm false (selfSum (productOf m)) (productOf m) L
        cfg.full q)
    = autoData (productOf m) m v n
        (stream ((List.range cfg.nframes).map Y) (some (T.take cfg.nframes)))
        (stream (((List.range cfg.nframes).map Y).map Cx.abs2) (some (T.take cfg.nframes))) := by
  rw [hfull]
  have := full_total_auto (productOf m) (productOf_comm m) (T := T) Y (fun i => (Y i).abs2)
    (c := cfg.half) (Q := Q) (n := n) (L := L) (hN ▸ hsp) v.toNat m
  rw [autoData_eq (productOf m) hv, List.map_map, ← firsts_eq _ _ h1, ← firsts_eq _ _ h1, ← hN]
  unfold levelParts
  rw [levelSq_zero]
  exact this

theorem slow_full_auto {cfg : IterCfg} {T : List Int}
    (r : Nat → ℚ) (squares : Bool) (Y : Nat → Cx ℝ) {m : String} {v : Int} {n j k : Nat}
    (hv : SupportedNorm m false v)
    (hsq : squares = (needsSquares v.toNat && decide (m ≠ "diff")))
    (hfull : cfg.full = true) (hb : cfg.binning = 1) (hN : cfg.nframes = cfg.half * 2 ^ k)
    (hc : 0 < cfg.half) (hn : n ≤ cfg.half) (hj : 1 ≤ j) (hjk : j < cfg.nDecades → j ≤ k) :
    rowOf v.toNat m false n n
      (autoLevel false (selfSum (productOf m)) (productOf m) cfg T r squares Y j)
    = autoData (productOf m) m v n
        (regular (blockMeans (2 ^ j) ((List.range cfg.nframes).map Y)))
        (regular (blockMeans (2 ^ j) (((List.range cfg.nframes).map Y).map Cx.abs2))) := by
  have hsq' : needsSquares v.toNat = true → m ≠ "diff" → squares = true := by
    intro h1 h2
    rw [hsq]; simp [h1, h2]
  rw [autoData_eq (productOf m) hv, List.map_map]
  unfold autoLevel
  by_cases hlt : j < cfg.nDecades
  · have hjk := hjk hlt
    rw [if_pos hlt, hfull]
    have hQ : cfg.nframes / (cfg.half * 2 ^ j) * cfg.half = cfg.nframes / 2 ^ j := by
      obtain ⟨i, rfl⟩ := Nat.exists_eq_add_of_le hjk
      rw [hN, pow_add, ← mul_assoc, Nat.mul_div_cancel_left _
        (Nat.mul_pos hc (Nat.two_pow_pos j)), mul_right_comm,
        Nat.mul_div_cancel _ (Nat.two_pow_pos j), mul_comm]
    have hle : cfg.nframes / 2 ^ j ≤ cfg.nframes := Nat.div_le_self _ _
    have := full_total_auto (productOf m) (productOf_comm m) (T := arange cfg.nframes)
      (streamBin 1 r Y j) (levelSq 1 r Y squares j) (c := cfg.half)
      (Q := cfg.nframes / (cfg.half * 2 ^ j)) (n := n) (L := iterLen false cfg.nFast)
      (spaced_mono (spaced_arange hc (hn.trans (Nat.le_succ _))) (by rw [hQ]; exact hle)) v.toNat m
    rw [hQ, firsts_arange _ hle, firsts_arange _ hle, row_mean] at this
    unfold levelParts levelT
    simp only [show ¬ j = 0 by omega, if_false, hb]
    refine this.trans ?_
    refine rowOf_congr rfl rfl rfl rfl ?_
    intro h1 h2
    rw [hsq' h1 h2, levelSq_row]
  · rw [if_neg hlt, hb]
    unfold restAutoTerm
    have e1 : max cfg.nDecades 1 - 1 + (j + 1 - max cfg.nDecades 1) = j := by omega
    rw [restSeq_mean, restCount_one, Nat.div_div_eq_div_mul, ← pow_add, e1, row_mean]
    refine rowOf_congr rfl rfl rfl rfl ?_
    intro h1 h2
    rw [hsq' h1 h2, restSq_row _ _ _ _ e1]

theorem autoIter_closed {C : Type} [AddCommMonoid C] {cplx : Bool}
    {g : String → Cx ℝ → Cx ℝ → C} {cor : String → Stream (Cx ℝ) → Nat → C} {ac : AutoFn C}
    {cc : CrossFn C} (K : CrossOK cplx g cc) (KA : AutoOK cplx cor ac)
    (hcor : ∀ m c s, cor m (shiftStream c s) = cor m s)
    {data : List (Cx ℝ)} {dataLen : Option Nat} {t : Option (List Int)}
    {period levelSize : Nat} {chunkSize : Option Nat} {binning : Option Int}
    {method : Option String} {count : Option Nat} {ab : Bool} {nlevel : Option Int}
    {norm : Option Int} {mode : String} {junk : Nat → Nat → Cx ℝ}
    {junkSq : Nat → Nat → ℝ} {al al' : Bool} {r : Nat → ℚ} {T : List Int}
    {cnt c k N nl : Nat} {m : String} {b v : Int}
    (ht : EffTimes t none count dataLen T T cnt) (hf : EffFrames levelSize chunkSize cnt c k N)
    (hl : EffLevels levelSize N nlevel nl) (hb : EffBinning method binning m b)
    (hm : mode = "full" ∨ mode = "chunk") (hv : v = effNorm norm m false)
    (hargs : IterArgs false cplx m v c N (period * levelSize) T T)
    (hp : 1 ≤ period) (hfft : m = "fft" → period * levelSize ≤ 2 * c + 1) (hne : data ≠ []) :
    ∃ nd cfg, cfg = { cfgOf c nd N nl period levelSize m b (decide (mode = "full")) ab with
        norm := v.toNat } ∧ (nlevel = none → nd = k) ∧ (nlevel ≠ none → nd = nl + 1) ∧
      autoIter ac cc data dataLen t period levelSize chunkSize binning method count
        ab nlevel norm mode junk junkSq al al' r
      = if data.length < N then .error .valueError else
        .ok (min data.length (N + 1),
          ⟨rowOf v.toNat m false (period * levelSize) (period * levelSize)
            (∑ q ∈ Finset.range (N / c),
              (levelParts cfg T T r (needsSquares v.toNat && decide (m ≠ "diff"))
                (shown ab (frameAt data) c) (shown ab (frameAt data) c)
                0).autoTerm cplx (cor m) (g m) (iterLen cplx (period * levelSize)) cfg.full q),
          (List.range nl).map fun l => rowOf v.toNat m false levelSize levelSize
            (autoLevel cplx (cor m) (g m) cfg T r
              (needsSquares v.toNat && decide (m ≠ "diff")) (shown ab (frameAt data) c) (l + 1)),
          [some (statOf (shown ab (frameAt data) c) N)]⟩) := by
  obtain ⟨nd, e, h1, h2⟩ := params_ok (period := period) (t1 := t) (t2 := none) ab ht hf hl hb hm
  have hs := sized_ok hf hl h1 h2 period m b (decide (mode = "full")) ab v.toNat
  refine ⟨nd, _, rfl, h1, h2, ?_⟩
  have eX := autoIter_eq ac cc data dataLen t period levelSize chunkSize binning method count
    ab nlevel norm mode junk junkSq al al' r T T _ v.toNat (frameAt data) e hne
    (defaultNorm_eff hv hargs.norm)
    (by
      intro i x hx
      simp [frameAt, List.getD_eq_getElem?_getD, hx])
  have eR := autoRun_ok K KA hcor
    { cfgOf c nd N nl period levelSize m b (decide (mode = "full")) ab with norm := v.toNat }
    T al al' r data.length (shown ab (frameAt data) c) hs
    (by
      show IterArgs false cplx m ((v.toNat : Nat) : Int) c N (period * levelSize) T T
      rw [supported_nat hargs.norm]
      exact hargs)
    (Nat.le_mul_of_pos_left _ hp) hfft (List.length_pos_of_ne_nil hne) _ rfl
  exact eX.trans eR

end Cddm
