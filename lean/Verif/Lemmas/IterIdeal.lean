import Verif.Lemmas.IterRun
import Verif.Lemmas.IterSize

/-!
# The iterative algorithms as functions of the signals that are correlated
-/

namespace Cddm
open Spec

theorem enumLoop_unit {D S : Type} (nframes : Nat) (f : Nat → S → Py S) :
    ∀ (ds : List D) (i : Nat) (s : S),
      enumLoop nframes (fun i _ s => f i s) i ds s
        = enumLoop nframes (fun i _ s => f i s) i (List.replicate ds.length ()) s
  | [], _, _ => rfl
  | d :: ds, i, s => by
    rw [List.length_cons, List.replicate_succ]
    unfold enumLoop
    split
    · rfl
    · cases f i s with
      | error e => rfl
      | ok s' =>
        simp only [bind, Except.bind]
        exact enumLoop_unit nframes f ds (i + 1) s'

theorem enumLoop_taken {D S : Type} (nframes : Nat) (step : Nat → D → S → Py S) :
    ∀ (ds : List D) (i : Nat) (s : S) (t : Nat) (s' : S), i ≤ nframes →
      enumLoop nframes step i ds s = .ok (t, s') → t = min (i + ds.length) (nframes + 1)
  | [], i, s, t, s', hi, h => by
    simp only [enumLoop, Except.ok.injEq, Prod.mk.injEq] at h
    simp only [List.length_nil]
    omega
  | d :: ds, i, s, t, s', hi, h => by
    unfold enumLoop at h
    rw [List.length_cons]
    split at h
    · simp only [Except.ok.injEq, Prod.mk.injEq] at h
      omega
    · cases e : step i d s with
      | error e' => rw [e] at h; simp [bind, Except.bind] at h
      | ok s1 =>
        rw [e] at h
        simp only [bind, Except.bind] at h
        have := enumLoop_taken nframes step ds (i + 1) s1 t s' (by omega) h
        omega

/-- What the arguments determine. -/
structure ParamsOK (t1 t2 : Option (List Int)) (dataLen : Option Nat) (period levelSize : Nat)
    (chunkSize : Option Nat) (binning : Option Int) (method : Option String) (count : Option Nat)
    (autoBackground : Bool) (nlevel : Option Int) (mode : String) (T1 T2 : List Int)
    (cfg : IterCfg) (cnt k : Nat) : Prop where
  modes : mode = "full" ∨ mode = "chunk"
  bin : defaultMethodBinning method binning = .ok (cfg.method, cfg.binning)
  times : inspectT1T2Count t1 t2 count dataLen = .ok (T1, T2, cnt)
  chunk : defaultChunkSize chunkSize cnt levelSize = .ok cfg.half
  level : 0 < levelSize
  sizes : SizesOK cnt cfg.half levelSize nlevel cfg.nDecades cfg.nframes cfg.nlevel k
  sized : iterSizes cnt cfg.half levelSize nlevel = .ok (cfg.nDecades, cfg.nframes, cfg.nlevel)
  fast : cfg.nFast = period * levelSize
  slow : cfg.nSlow = levelSize
  full : cfg.full = decide (mode = "full")
  auto : cfg.autoBackground = autoBackground

theorem iterParams_ok {t1 t2 : Option (List Int)} {dataLen : Option Nat} {period levelSize : Nat}
    {chunkSize : Option Nat} {binning : Option Int} {method : Option String} {count : Option Nat}
    {autoBackground : Bool} {nlevel : Option Int} {mode : String} {T1 T2 : List Int}
    {cfg : IterCfg}
    (h : iterParams t1 t2 dataLen period levelSize chunkSize binning method count autoBackground
      nlevel mode = .ok (T1, T2, cfg)) :
    ∃ cnt k, ParamsOK t1 t2 dataLen period levelSize chunkSize binning method count autoBackground
      nlevel mode T1 T2 cfg cnt k := by
  unfold iterParams at h
  split at h
  · simp at h
  · next hm =>
    cases e1 : defaultMethodBinning method binning with
    | error e => rw [e1] at h; simp [bind, Except.bind] at h
    | ok mb =>
      obtain ⟨m', b'⟩ := mb
      rw [e1] at h
      simp only [bind, Except.bind] at h
      cases e2 : inspectT1T2Count t1 t2 count dataLen with
      | error e => rw [e2] at h; simp at h
      | ok tt =>
        obtain ⟨T1', T2', cnt⟩ := tt
        rw [e2] at h
        simp only at h
        cases e3 : defaultChunkSize chunkSize cnt levelSize with
        | error e => rw [e3] at h; simp at h
        | ok half =>
          rw [e3] at h
          simp only at h
          cases e4 : iterSizes cnt half levelSize nlevel with
          | error e => rw [e4] at h; simp at h
          | ok sz =>
            obtain ⟨nd, nf, nl⟩ := sz
            rw [e4] at h
            simp only [Except.ok.injEq, Prod.mk.injEq] at h
            obtain ⟨rfl, rfl, rfl⟩ := h
            obtain ⟨c1, c2⟩ := defaultChunkSize_ok e3
            obtain ⟨c3, k, c4⟩ := iterSizes_ok c1 c2 e4
            refine ⟨cnt, k, ⟨?_, e1, e2, e3, c3, c4, e4, rfl, rfl, rfl, rfl⟩⟩
            by_contra hn
            exact hm ⟨fun h' => hn (.inl h'), fun h' => hn (.inr h')⟩

section
variable {t1 t2 : Option (List Int)} {dataLen : Option Nat} {period levelSize : Nat}
    {chunkSize : Option Nat} {binning : Option Int} {method : Option String} {count : Option Nat}
    {autoBackground : Bool} {nlevel : Option Int} {mode : String} {T1 T2 : List Int}
    {cfg : IterCfg} {cnt k : Nat}

theorem ParamsOK.half_pos (h : ParamsOK t1 t2 dataLen period levelSize chunkSize binning method
    count autoBackground nlevel mode T1 T2 cfg cnt k) :
    0 < cfg.half ∧ levelSize ≤ cfg.half ∧ cfg.half ≤ cfg.nframes := by
  obtain ⟨c1, c2⟩ := defaultChunkSize_ok h.chunk
  have := h.level
  refine ⟨by omega, c1, ?_⟩
  rw [h.sizes.frames]
  exact Nat.le_mul_of_pos_right _ (Nat.two_pow_pos k)

theorem ParamsOK.dims (h : ParamsOK t1 t2 dataLen period levelSize chunkSize binning method
    count autoBackground nlevel mode T1 T2 cfg cnt k) :
    Dims (max cfg.nDecades 1) (if cfg.nDecades > 0 then cfg.half * 2 else cfg.half) cfg.half
      cfg.nframes := by
  refine ⟨h.half_pos.1, by omega, ?_⟩
  by_cases hn : cfg.nDecades > 0
  · rw [if_pos hn]; left; ring
  · rw [if_neg hn]
    right
    refine ⟨by omega, rfl, ?_⟩
    cases nlevel with
    | none =>
      have := (h.sizes.auto rfl).1
      have hk : k = 0 := by omega
      rw [h.sizes.frames, hk]; simp
    | some l =>
      have := (h.sizes.explicit l rfl).1
      omega

/-- If levels remain after the main loop, the last row of the buffers is complete. -/
theorem ParamsOK.lastRow (h : ParamsOK t1 t2 dataLen period levelSize chunkSize binning method
    count autoBackground nlevel mode T1 T2 cfg cnt k)
    (hrest : cfg.nlevel + 1 - max cfg.nDecades 1 ≠ 0) :
    cfg.nDecades = k ∧
    cfg.nframes / 2 ^ (max cfg.nDecades 1 - 1)
      = (if cfg.nDecades > 0 then cfg.half * 2 else cfg.half) := by
  cases nlevel with
  | none =>
    have := (h.sizes.auto rfl).1
    rw [h.sizes.frames, this]
    refine ⟨rfl, ?_⟩
    by_cases hk : k > 0
    · obtain ⟨p, rfl⟩ : ∃ p, k = p + 1 := ⟨k - 1, by omega⟩
      rw [if_pos hk, max_eq_left (by omega), Nat.add_sub_cancel, pow_succ, ← mul_assoc,
        mul_right_comm, Nat.mul_div_cancel _ (Nat.two_pow_pos p)]
    · obtain rfl : k = 0 := by omega
      simp
  | some l =>
    have := (h.sizes.explicit l rfl).1
    omega

theorem ParamsOK.frames_div (h : ParamsOK t1 t2 dataLen period levelSize chunkSize binning method
    count autoBackground nlevel mode T1 T2 cfg cnt k) :
    cfg.nframes / cfg.half * cfg.half = cfg.nframes ∧ cfg.nframes / cfg.half ≠ 0 := by
  have hp := h.half_pos.1
  rw [h.sizes.frames, Nat.mul_div_cancel_left _ hp, mul_comm]
  exact ⟨rfl, (Nat.two_pow_pos k).ne'⟩

/-- The channel after all frames. -/
theorem FeedInv.final {X : Nat → Cx ℝ} {D c half nframes : Nat} {squares ab : Bool} {b : Int}
    {r : Nat → ℚ} {ch : Chan} (hh : half ≤ nframes)
    (hf : nframes / half * half = nframes ∧ nframes / half ≠ 0)
    (h : FeedInv ab b r X D c half squares nframes ch) :
    ch.stat = some (statOf (shown ab X half) nframes) ∧
      BufsOK b r (shown ab X half) D c squares nframes ch := by
  unfold FeedInv at h
  rw [if_neg (by omega)] at h
  refine ⟨?_, h.bufs⟩
  rw [h.stat, if_neg hf.2, hf.1]

/-- At a chunk end the background is known. -/
theorem FeedInv.bufs {X : Nat → Cx ℝ} {D c half m : Nat} {squares ab : Bool} {b : Int}
    {r : Nat → ℚ} {ch : Chan} (hh : half ≤ m)
    (h : FeedInv ab b r X D c half squares m ch) :
    BufsOK b r (shown ab X half) D c squares m ch := by
  unfold FeedInv at h
  rw [if_neg (by omega)] at h
  exact h.bufs

/-- `count` samples of level `j`, squares only if wanted. -/
noncomputable def idealRow (binning : Int) (r : Nat → ℚ) (Y : Nat → Cx ℝ) (j count : Nat) :
    List (Cx ℝ) := (List.range count).map (streamBin binning r Y j)
/-- The squares. -/
noncomputable def idealRowSq (binning : Int) (r : Nat → ℚ) (Y : Nat → Cx ℝ) (squares : Bool)
    (j count : Nat) : Option (List ℝ) :=
  if squares then some ((List.range count).map (streamBin binning r (fun i => (Y i).abs2) j))
  else none

theorem BufsOK.lastRow {Y : Nat → Cx ℝ} {D c m : Nat} {squares : Bool} {b : Int}
    {r : Nat → ℚ} {ch : Chan} (hD : 0 < D) (h : BufsOK b r Y D c squares m ch)
    (hm : m / 2 ^ (D - 1) = c) :
    ch.f.getLastD [] = idealRow b r Y (D - 1) c ∧
      ch.sq.map (·.getLastD []) = idealRowSq b r Y squares (D - 1) c := by
  refine ⟨lastRow_ok hD h.shape (h.levels _ (by omega)) hm, ?_⟩
  have hsq := h.sq
  unfold idealRowSq
  cases squares with
  | false =>
    simp only [Bool.false_eq_true, if_false] at hsq ⊢
    rw [hsq]; rfl
  | true =>
    simp only [if_true] at hsq ⊢
    obtain ⟨sq, e1, e2, e3⟩ := hsq
    rw [e1, Option.map_some, lastRow_ok hD e2 (e3 _ (by omega)) hm]

end

/-- The run of `crossIter` as a function of the signals that are correlated, `len` being the number
of frames delivered. -/
noncomputable def crossRun {C : Type} [Zero C] (complex : Bool) (cc : CrossFn C) (cfg : IterCfg)
    (T1 T2 : List Int) (al al' : Bool) (r : Nat → ℚ) (len : Nat) (Y1 Y2 : Nat → Cx ℝ) :
    Py (Nat × IterOut C) := do
  let correlate : Bool := cfg.method ≠ "diff"
  let squares := needsSquares cfg.norm && correlate
  let lf := iterLen complex cfg.nFast
  let ls := iterLen complex cfg.nSlow
  let op := crossIdeal cc cfg T1 T2 al r squares Y1 Y2
  let (taken, acc) ← enumLoop cfg.nframes (idealStep cfg op) 0 (List.replicate len ())
    ⟨zeroArrays cfg.norm true correlate lf lf,
      List.replicate cfg.nlevel (zeroArrays cfg.norm true correlate ls ls)⟩
  if taken - 1 < cfg.nframes - 1 then .error .valueError
  else do
    let j := max cfg.nDecades 1
    let n := cfg.nframes / 2 ^ (j - 1)
    let slow ← restCross cc cfg al' r (cfg.nlevel + 1 - j) j cfg.nframes
      (idealRow cfg.binning r Y1 (j - 1) n) (idealRow cfg.binning r Y2 (j - 1) n)
      (idealRowSq cfg.binning r Y1 squares (j - 1) n) (idealRowSq cfg.binning r Y2 squares (j - 1) n)
      acc.slow
    .ok (taken, ⟨acc.fast, slow, [some (statOf Y1 cfg.nframes), some (statOf Y2 cfg.nframes)]⟩)

theorem crossIter_eq {C : Type} [Zero C] (complex : Bool) (cc : CrossFn C)
    (data : List (Cx ℝ × Cx ℝ)) (dataLen : Option Nat) (t1 t2 : Option (List Int))
    (period levelSize : Nat) (chunkSize : Option Nat) (binning : Option Int)
    (method : Option String) (count : Option Nat) (autoBackground : Bool) (nlevel : Option Int)
    (norm : Option Int) (mode : String) (junk : Nat → Nat → Cx ℝ × Cx ℝ)
    (junkSq : Nat → Nat → ℝ × ℝ) (al al' : Bool) (r : Nat → ℚ) (T1 T2 : List Int) (cfg : IterCfg)
    (nv : Nat) (X1 X2 : Nat → Cx ℝ)
    (hp : iterParams t1 t2 dataLen period levelSize chunkSize binning method count autoBackground
      nlevel mode = .ok (T1, T2, cfg)) (hne : data ≠ [])
    (hn : defaultNorm norm cfg.method true = .ok nv)
    (hX : ∀ (i : Nat) x, data[i]? = some x → X1 i = x.1 ∧ X2 i = x.2) :
    crossIter complex cc data dataLen t1 t2 period levelSize chunkSize binning method count
      autoBackground nlevel norm mode junk junkSq al al' r
    = crossRun complex cc { cfg with norm := nv } T1 T2 al al' r data.length
        (shown autoBackground X1 cfg.half) (shown autoBackground X2 cfg.half) := by
  obtain ⟨cnt, k, hP⟩ := iterParams_ok hp
  have hd := hP.dims
  obtain ⟨hh, hls, hhn⟩ := hP.half_pos
  unfold crossIter crossRun
  simp only [hp, hn, bind, Except.bind]
  rw [if_neg (by simpa using hne)]
  set squares := (needsSquares nv && decide (cfg.method ≠ "diff")) with hsqd
  set D := max cfg.nDecades 1 with hD
  set c := (if cfg.nDecades > 0 then cfg.half * 2 else cfg.half) with hc
  set Inv : Nat → Chan × Chan → Prop := fun m ch =>
    FeedInv autoBackground cfg.binning r X1 D c cfg.half squares m ch.1 ∧
    FeedInv autoBackground cfg.binning r X2 D c cfg.half squares m ch.2 with hInv
  have sim := enumLoop_sim { cfg with norm := nv }
    (fun i x ch => do
      let c1 ← feedChan autoBackground cfg.half cfg.binning r i x.1 ch.1
      let c2 ← feedChan autoBackground cfg.half cfg.binning r i x.2 ch.2
      .ok (c1, c2))
    (crossOp cc { cfg with norm := nv } T1 T2 al)
    (crossIdeal cc { cfg with norm := nv } T1 T2 al r squares (shown autoBackground X1 cfg.half)
      (shown autoBackground X2 cfg.half)) Inv data hh
    (by
      intro i x b hi hx hb
      obtain ⟨e1, e2⟩ := hX i x hx
      obtain ⟨c1, f1, g1⟩ := feedChan_ok hd hi hb.1
      obtain ⟨c2, f2, g2⟩ := feedChan_ok hd hi hb.2
      rw [e1] at f1
      rw [e2] at f2
      refine ⟨(c1, c2), ?_, g1, g2⟩
      simp only [f1, f2, bind, Except.bind])
    (by
      intro i b hi hb j q row hj hm
      have hle : cfg.half ≤ i + 1 := by
        rw [hm]
        calc cfg.half ≤ cfg.half * 2 ^ j := Nat.le_mul_of_pos_right _ (Nat.two_pow_pos j)
          _ ≤ (q + 1) * (cfg.half * 2 ^ j) := Nat.le_mul_of_pos_left _ (by omega)
      exact crossOp_eq cc { cfg with norm := nv } T1 T2 al hd (hb.1.bufs hle) (hb.2.bufs hle) hj hm
        (by simpa using hi) row)
    data 0 (initChan (fun j k => (junk j k).1) (fun j k => (junkSq j k).1) cfg.nDecades cfg.half
      squares, initChan (fun j k => (junk j k).2) (fun j k => (junkSq j k).2) cfg.nDecades cfg.half
      squares)
    ⟨zeroArrays nv true (decide (cfg.method ≠ "diff")) (iterLen complex cfg.nFast)
        (iterLen complex cfg.nFast),
      List.replicate cfg.nlevel (zeroArrays nv true (decide (cfg.method ≠ "diff"))
        (iterLen complex cfg.nSlow) (iterLen complex cfg.nSlow))⟩
    rfl (Nat.zero_le _)
    ⟨feedInv_init autoBackground cfg.binning r X1 cfg.half squares hh _ _ _,
      feedInv_init autoBackground cfg.binning r X2 cfg.half squares hh _ _ _⟩
  have hunit := enumLoop_unit (S := IterAcc C) cfg.nframes
    (fun i s => idealStep (D := Unit) { cfg with norm := nv }
      (crossIdeal cc { cfg with norm := nv } T1 T2 al r squares (shown autoBackground X1 cfg.half)
      (shown autoBackground X2 cfg.half)) i () s) data 0
      ⟨zeroArrays nv true (decide (cfg.method ≠ "diff")) (iterLen complex cfg.nFast)
        (iterLen complex cfg.nFast),
      List.replicate cfg.nlevel (zeroArrays nv true (decide (cfg.method ≠ "diff"))
        (iterLen complex cfg.nSlow) (iterLen complex cfg.nSlow))⟩
  have hunit' : enumLoop cfg.nframes (idealStep { cfg with norm := nv }
      (crossIdeal cc { cfg with norm := nv } T1 T2 al r squares (shown autoBackground X1 cfg.half)
      (shown autoBackground X2 cfg.half))) 0 data
      ⟨zeroArrays nv true (decide (cfg.method ≠ "diff")) (iterLen complex cfg.nFast)
        (iterLen complex cfg.nFast),
      List.replicate cfg.nlevel (zeroArrays nv true (decide (cfg.method ≠ "diff"))
        (iterLen complex cfg.nSlow) (iterLen complex cfg.nSlow))⟩ =
      enumLoop cfg.nframes (idealStep { cfg with norm := nv }
      (crossIdeal cc { cfg with norm := nv } T1 T2 al r squares (shown autoBackground X1 cfg.half)
      (shown autoBackground X2 cfg.half))) 0 (List.replicate data.length ())
      ⟨zeroArrays nv true (decide (cfg.method ≠ "diff")) (iterLen complex cfg.nFast)
        (iterLen complex cfg.nFast),
      List.replicate cfg.nlevel (zeroArrays nv true (decide (cfg.method ≠ "diff"))
        (iterLen complex cfg.nSlow) (iterLen complex cfg.nSlow))⟩ := hunit
  rw [← hunit']
  generalize hres : enumLoop cfg.nframes (idealStep { cfg with norm := nv }
      (crossIdeal cc { cfg with norm := nv } T1 T2 al r squares (shown autoBackground X1 cfg.half)
      (shown autoBackground X2 cfg.half))) 0 data
      ⟨zeroArrays nv true (decide (cfg.method ≠ "diff")) (iterLen complex cfg.nFast)
        (iterLen complex cfg.nFast),
      List.replicate cfg.nlevel (zeroArrays nv true (decide (cfg.method ≠ "diff"))
        (iterLen complex cfg.nSlow) (iterLen complex cfg.nSlow))⟩ = res
  cases res with
  | error e =>
    have := sim.1 e hres
    simp only [bind, Except.bind] at this
    rw [this]
  | ok ta =>
    obtain ⟨taken, acc⟩ := ta
    obtain ⟨b, e1, e2⟩ := sim.2 taken acc hres
    simp only [bind, Except.bind] at e1
    rw [e1]
    dsimp only
    by_cases hs : taken - 1 < cfg.nframes - 1
    · rw [if_pos hs, if_pos hs]
    · rw [if_neg hs, if_neg hs]
      have ht := enumLoop_taken _ _ data 0 _ taken acc (Nat.zero_le _) hres
      have hlen : 0 < data.length := List.length_pos_of_ne_nil hne
      have hmin : min taken cfg.nframes = cfg.nframes := by omega
      rw [hmin] at e2
      obtain ⟨s1, b1⟩ := e2.1.final hhn hP.frames_div
      obtain ⟨s2, b2⟩ := e2.2.final hhn hP.frames_div
      rw [s1, s2]
      by_cases hrest : cfg.nlevel + 1 - D = 0
      · rw [hrest]
        rfl
      · have hl := (hP.lastRow hrest).2
        obtain ⟨l1, l2⟩ := b1.lastRow hd.rows hl
        obtain ⟨l3, l4⟩ := b2.lastRow hd.rows hl
        rw [l1, l2, l3, l4, hl]

/-- The run of `autoIter` as a function of the signal that is correlated. -/
noncomputable def autoRun {C : Type} [Zero C] [Add C] (ac : AutoFn C) (cc : CrossFn C)
    (cfg : IterCfg) (T : List Int) (al al' : Bool) (r : Nat → ℚ) (len : Nat) (Y : Nat → Cx ℝ) :
    Py (Nat × IterOut C) := do
  let correlate : Bool := cfg.method ≠ "diff"
  let squares := needsSquares cfg.norm && correlate
  let op := autoIdeal ac cc cfg T al r squares Y
  let (taken, acc) ← enumLoop cfg.nframes (idealStep cfg op) 0 (List.replicate len ())
    ⟨zeroArrays cfg.norm false correlate cfg.nFast cfg.nFast,
      List.replicate cfg.nlevel (zeroArrays cfg.norm false correlate cfg.nSlow cfg.nSlow)⟩
  if taken - 1 < cfg.nframes - 1 then .error .valueError
  else do
    let j := max cfg.nDecades 1
    let n := cfg.nframes / 2 ^ (j - 1)
    let slow ← restAuto ac cfg al' r (cfg.nlevel + 1 - j) j cfg.nframes
      (idealRow cfg.binning r Y (j - 1) n) (idealRowSq cfg.binning r Y squares (j - 1) n) acc.slow
    .ok (taken, ⟨acc.fast, slow, [some (statOf Y cfg.nframes)]⟩)

theorem autoIter_eq {C : Type} [Zero C] [Add C] (ac : AutoFn C) (cc : CrossFn C)
    (data : List (Cx ℝ)) (dataLen : Option Nat) (t : Option (List Int))
    (period levelSize : Nat) (chunkSize : Option Nat) (binning : Option Int)
    (method : Option String) (count : Option Nat) (autoBackground : Bool) (nlevel : Option Int)
    (norm : Option Int) (mode : String) (junk : Nat → Nat → Cx ℝ)
    (junkSq : Nat → Nat → ℝ) (al al' : Bool) (r : Nat → ℚ) (T T2 : List Int) (cfg : IterCfg)
    (nv : Nat) (X : Nat → Cx ℝ)
    (hp : iterParams t none dataLen period levelSize chunkSize binning method count autoBackground
      nlevel mode = .ok (T, T2, cfg)) (hne : data ≠ [])
    (hn : defaultNorm norm cfg.method false = .ok nv)
    (hX : ∀ (i : Nat) x, data[i]? = some x → X i = x) :
    autoIter ac cc data dataLen t period levelSize chunkSize binning method count
      autoBackground nlevel norm mode junk junkSq al al' r
    = autoRun ac cc { cfg with norm := nv } T al al' r data.length
        (shown autoBackground X cfg.half) := by
  obtain ⟨cnt, k, hP⟩ := iterParams_ok hp
  have hd := hP.dims
  obtain ⟨hh, hls, hhn⟩ := hP.half_pos
  unfold autoIter autoRun
  simp only [hp, hn, bind, Except.bind]
  rw [if_neg (by simpa using hne)]
  set squares := (needsSquares nv && decide (cfg.method ≠ "diff")) with hsqd
  set D := max cfg.nDecades 1 with hD
  set c := (if cfg.nDecades > 0 then cfg.half * 2 else cfg.half) with hc
  set acc0 : IterAcc C := ⟨zeroArrays nv false (decide (cfg.method ≠ "diff")) cfg.nFast cfg.nFast,
      List.replicate cfg.nlevel (zeroArrays nv false (decide (cfg.method ≠ "diff")) cfg.nSlow
        cfg.nSlow)⟩ with hacc
  have sim := enumLoop_sim { cfg with norm := nv }
    (feedChan autoBackground cfg.half cfg.binning r)
    (autoOp ac cc { cfg with norm := nv } T al)
    (autoIdeal ac cc { cfg with norm := nv } T al r squares (shown autoBackground X cfg.half))
    (FeedInv autoBackground cfg.binning r X D c cfg.half squares) data hh
    (by
      intro i x b hi hx hb
      obtain ⟨c1, f1, g1⟩ := feedChan_ok hd hi hb
      rw [hX i x hx] at f1
      exact ⟨c1, f1, g1⟩)
    (by
      intro i b hi hb j q row hj hm
      have hle : cfg.half ≤ i + 1 := by
        rw [hm]
        calc cfg.half ≤ cfg.half * 2 ^ j := Nat.le_mul_of_pos_right _ (Nat.two_pow_pos j)
          _ ≤ (q + 1) * (cfg.half * 2 ^ j) := Nat.le_mul_of_pos_left _ (by omega)
      exact autoOp_eq ac cc { cfg with norm := nv } T al hd (hb.bufs hle) hj hm
        (by simpa using hi) row)
    data 0 (initChan junk junkSq cfg.nDecades cfg.half squares) acc0
    rfl (Nat.zero_le _)
    (feedInv_init autoBackground cfg.binning r X cfg.half squares hh _ _ _)
  have hunit' : enumLoop cfg.nframes (idealStep { cfg with norm := nv }
      (autoIdeal ac cc { cfg with norm := nv } T al r squares (shown autoBackground X cfg.half)))
      0 data acc0 =
      enumLoop cfg.nframes (idealStep { cfg with norm := nv }
      (autoIdeal ac cc { cfg with norm := nv } T al r squares (shown autoBackground X cfg.half)))
      0 (List.replicate data.length ()) acc0 := enumLoop_unit (S := IterAcc C) cfg.nframes
    (fun i s => idealStep (D := Unit) { cfg with norm := nv }
      (autoIdeal ac cc { cfg with norm := nv } T al r squares (shown autoBackground X cfg.half))
      i () s) data 0 acc0
  rw [← hunit']
  generalize hres : enumLoop cfg.nframes (idealStep { cfg with norm := nv }
      (autoIdeal ac cc { cfg with norm := nv } T al r squares (shown autoBackground X cfg.half)))
      0 data acc0 = res
  cases res with
  | error e =>
    have := sim.1 e hres
    rw [this]
  | ok ta =>
    obtain ⟨taken, acc⟩ := ta
    obtain ⟨b, e1, e2⟩ := sim.2 taken acc hres
    rw [e1]
    dsimp only
    by_cases hs : taken - 1 < cfg.nframes - 1
    · rw [if_pos hs, if_pos hs]
    · rw [if_neg hs, if_neg hs]
      have ht := enumLoop_taken _ _ data 0 _ taken acc (Nat.zero_le _) hres
      have hlen : 0 < data.length := List.length_pos_of_ne_nil hne
      have hmin : min taken cfg.nframes = cfg.nframes := by omega
      rw [hmin] at e2
      obtain ⟨s1, b1⟩ := e2.final hhn hP.frames_div
      rw [s1]
      by_cases hrest : cfg.nlevel + 1 - D = 0
      · rw [hrest]
        rfl
      · have hl := (hP.lastRow hrest).2
        obtain ⟨l1, l2⟩ := b1.lastRow hd.rows hl
        rw [l1, l2, hl]

end Cddm
