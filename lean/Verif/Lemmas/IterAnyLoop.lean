import Verif.Lemmas.IterAnyCalls
import Verif.Lemmas.LogAny

/-! # The loops of the iterative functions, pixel by pixel -/

namespace Cddm
open Spec

/-! ### Auto-correlation: adding the result of `ccorr` -/

theorem takeLast_shape {M : Type} {frame : List Nat} {L : Nat} {x : Tensor M} (h : x.shape = frame ++ [L]) (n : Nat) :
    (takeLast n x).shape = frame ++ [min n L] := by
  unfold takeLast
  rw [pickLast_shape h, h, List.getLastD_concat, sliceBy_one]
  simp

theorem along_takeLast {M : Type} {frame p : List Nat} {L : Nat} {x : Tensor M} (h : x.shape = frame ++ [L]) (n : Nat)
    (hp : InShape p frame) : along (takeLast n x) frame.length p = (along x frame.length p).take n := by
  rw [along_eq_curveAt (takeLast_shape h n) hp, along_eq_curveAt h hp]
  unfold takeLast
  rw [h, List.getLastD_concat, sliceBy_one, curveAt_pickLast _ _ (fun i hi => ?_)]
  · have hl : (curveAt x p).length = L := by rw [curveAt_length, h, List.getLastD_concat]
    obtain ⟨h1, h2⟩ := takeIdx_range' (curveAt x p) 0 (min n L - 0) 1 (fun i hi => by omega)
    apply List.ext_getElem?
    intro j
    rw [List.getElem?_take]
    by_cases hj : j < min n L
    · rw [h2 j (by omega), if_pos (by omega)]
      simp
    · rw [List.getElem?_eq_none (by rw [h1]; omega)]
      split
      · rw [List.getElem?_eq_none (by omega)]
      · rfl
  · rw [h, List.getLastD_concat]
    rw [List.mem_range'] at hi
    obtain ⟨k, hk, rfl⟩ := hi
    omega

/-- The rows have `L` cells. -/
def OutLen {M : Type} (frame : List Nat) (L : Nat) (a : Option (Tensor M)) : Prop := ∀ o, a = some o → o.shape = frame ++ [L]

theorem npAddOpt_pw {M : Type} [Add M] {frame : List Nat} {L : Nat} {a b : Option (Tensor M)} (ha : OutLen frame L a)
    (hb : OutFits frame b) : PW frame (fun p r => outAt frame r p) (OutLen frame L) (npAddOptAny a b) fun p =>
      npAddOpt (outAt frame a p) (outAt frame b p) := by
  rcases a with _ | a
  · exact PW.ok (fun o ho => by cases ho) fun p _ => rfl
  · rcases b with _ | b
    · exact fun p _ => rfl
    · obtain ⟨L', hL'⟩ := hb b rfl
      have hs := ha a rfl
      have l1 := fun p => along_row hs p
      have l2 := fun p => along_row hL' p
      unfold npAddOptAny npAddAny
      simp only [hs, hL', List.append_cancel_left_eq, List.cons.injEq, and_true, List.getLastD_concat]
      by_cases e : L = L'
      · simp only [if_pos e]
        refine PW.ok (fun o ho => by cases ho; exact hs) fun p _ => ?_
        unfold npAddOpt npAdd outAt
        simp only [Option.map_some, l1, l2, if_pos e]
        rw [along_zipWith _ _ _ (by rw [hs, hL', e])]
        rfl
      · simp only [if_neg e]
        by_cases e1 : L' = 1
        · simp only [if_pos e1]
          intro p _
          unfold npAddOpt npAdd outAt
          simp only [Option.map_some, l1, l2, if_neg e, if_pos e1]
          rfl
        · simp only [if_neg e1]
          intro p _
          unfold npAddOpt npAdd outAt
          simp only [Option.map_some, l1, l2, if_neg e, if_neg e1]
          rfl

theorem outFits_takeLast {M : Type} {frame : List Nat} (n : Nat) {a : Option (Tensor M)} (h : OutFits frame a) :
    OutFits frame (a.map (takeLast n)) := by
  rcases a with _ | a
  · intro o ho
    cases ho
  · intro o ho
    cases ho
    obtain ⟨L, hL⟩ := h a rfl
    exact ⟨_, takeLast_shape hL n⟩

theorem outAt_takeLast {M : Type} {frame p : List Nat} (n : Nat) {a : Option (Tensor M)} (h : OutFits frame a) (hp : InShape p frame) :
    outAt frame (a.map (takeLast n)) p = (outAt frame a p).map (·.take n) := by
  rcases a with _ | a
  · rfl
  · obtain ⟨L, hL⟩ := h a rfl
    simp only [outAt, Option.map_some, along_takeLast hL n hp]

theorem outFits_halved {frame : List Nat} (n : Nat) {a : Option (Tensor (Cx ℝ))} (h : OutFits frame a) :
    OutFits frame (a.map fun x => (takeLast n x).map ((1 / 2 : ℝ) • ·)) := by
  rcases a with _ | a
  · intro o ho
    cases ho
  · intro o ho
    cases ho
    obtain ⟨L, hL⟩ := h a rfl
    exact ⟨_, takeLast_shape hL n⟩

theorem outAt_halved {frame p : List Nat} (n : Nat) {a : Option (Tensor (Cx ℝ))} (h : OutFits frame a) (hp : InShape p frame) :
    outAt frame (a.map fun x => (takeLast n x).map ((1 / 2 : ℝ) • ·)) p = (outAt frame a p).map fun x => (x.take n).map ((1 / 2 : ℝ) • ·) := by
  rcases a with _ | a
  · rfl
  · obtain ⟨L, hL⟩ := h a rfl
    simp only [outAt, Option.map_some, along_map, along_takeLast hL n hp]

theorem addCrossToAuto_pw {C : Type} [Add C] {frame : List Nat} {L : Nat} (n : Nat) {row : CorrAoutAny C} {d : CorrTupleAny C}
    (hrow : AoutLen frame L row)
    (hd : OutFits frame (some d.cor) ∧ OutFits frame d.sq ∧ OutFits frame d.ds1 ∧ OutFits frame d.ds2) :
    PW frame (fun p a => aoutAt frame a p) (AoutLen frame L) (addCrossToAutoAny n row d) fun p =>
      addCrossToAuto n (aoutAt frame row p) (tupleAt frame d p) := by
  unfold addCrossToAutoAny addCrossToAuto
  refine PW.bind (PW.congr (npAddOpt_pw hrow.1 (outFits_takeLast n hd.1)) fun p hp => ?_) fun cor _ hcor => ?_
  · rw [outAt_takeLast n hd.1 hp]
    rfl
  refine PW.bind (PW.const _) fun count _ _ => ?_
  refine PW.bind (PW.congr (npAddOpt_pw hrow.2.1 (outFits_takeLast n hd.2.1)) fun p hp => ?_) fun sq _ hsq => ?_
  · rw [outAt_takeLast n hd.2.1 hp]
    rfl
  refine PW.bind (PW.congr (npAddOpt_pw hrow.2.2.1 (outFits_halved n hd.2.2.1)) fun p hp => ?_) fun ds hds' hds => ?_
  · rw [outAt_halved n hd.2.2.1 hp]
    rfl
  refine PW.bind (PW.congr (npAddOpt_pw hds (outFits_halved n hd.2.2.2)) fun p hp => ?_) fun ds1 _ hds1 => ?_
  · rw [outAt_halved n hd.2.2.2 hp]
    rfl
  refine PW.ok ⟨hcor, hsq, hds1, hrow.2.2.2⟩ fun p _ => rfl

theorem autoCalls_pw {C : Type} [Add C] {frame : List Nat} {complex : Bool} {ac : AutoFnAny C} {ac1 : AutoFn C} {cc : CrossFnAny C}
    {cc1 : CrossFn C} (hac : AutoAt0 frame ac ac1) (hcc : CrossAt0 frame complex cc cc1) {p0 : List Nat} (hp0 : InShape p0 frame)
    (cfg : IterCfg) (t : List Int) (j q : Nat) {N L : Nat} {cur : HalfAny} (l1 : HalfLen frame N cur) {prev : Option HalfAny}
    (lp : ∀ x, prev = some x → HalfLen frame N x) {row : CorrAoutAny C} (hrow : AoutLen frame L row)
    (hlen : j ≠ 0 → RowsOK false N cfg.nSlow L) :
    PW frame (fun p a => aoutAt frame a p) (AoutLen frame L) (autoCallsAny ac cc cfg t j q cur prev row) fun p =>
      autoCalls ac1 cc1 cfg t false j q (halfAt p cur) (prev.map (halfAt p)) (aoutAt frame row p) := by
  unfold autoCallsAny autoCalls
  refine PW.bind (autoCall_pw hac hp0 j l1 _ _ _ _ hrow fun e => ?_) fun d _ hd => ?_
  · have hj : j ≠ 0 := by
      rintro rfl
      simp at e
    rw [if_neg hj]
    exact hrow.short (hlen hj).1 (hlen hj).2
  · rcases prev with _ | x
    · refine PW.ok hd fun p hp => ?_
      rw [tupleAt_into]
      rfl
    · have x1 := lp x rfl
      simp only [Option.map_some, ← tupleAt_into]
      have h := fun t1 t2 n norm method => hcc.fits j cur.f x.f N l1.1 x1.1 (some t1) t2 n norm method cur.sq x.sq {} l1.2 x1.2
        ⟨nofun, nofun, nofun, nofun⟩ (by simp)
      simp only [pixelWiseTuple_iff] at h
      exact PW.bind (h _ _ _ _ _) fun d' _ hd' => addCrossToAuto_pw _ hd hd'

theorem autoOp_pw {C : Type} [Add C] {frame : List Nat} {complex : Bool} {ac : AutoFnAny C} {ac1 : AutoFn C} {cc : CrossFnAny C}
    {cc1 : CrossFn C} (hac : AutoAt0 frame ac ac1) (hcc : CrossAt0 frame complex cc cc1) {p0 : List Nat} (hp0 : InShape p0 frame)
    (cfg : IterCfg) (t : List Int) (j q : Nat) {D c L : Nat} {ch : ChanAny} (h1 : ChanSized D c ch)
    (hc : c = cfg.half * 2 ∨ c = cfg.half ∧ q = 0) {row : CorrAoutAny C} (hrow : AoutLen frame L row)
    (hlen : j ≠ 0 → RowsOK false cfg.half cfg.nSlow L) :
    PW frame (fun p a => aoutAt frame a p) (AoutLen frame L) (autoOpAny ac cc cfg frame t ch j q row) fun p =>
      autoOp ac1 cc1 cfg t false (chanAt p ch) j q (aoutAt frame row p) := by
  have e1 : min cfg.half (c - chunkStart cfg.half q) = cfg.half := by
    unfold chunkStart
    rcases hc with rfl | ⟨rfl, rfl⟩
    · rcases Nat.mod_two_eq_zero_or_one q with e | e <;> rw [e] <;> omega
    · simp
  have e2 : q ≥ 1 → min cfg.half (c - chunkStartPrev cfg.half q) = cfg.half := by
    intro hq
    unfold chunkStartPrev
    rcases hc with rfl | ⟨-, rfl⟩
    · have : ((q - 1 : Int) % 2).toNat = 0 ∨ ((q - 1 : Int) % 2).toNat = 1 := by omega
      rcases this with e | e <;> rw [e] <;> omega
    · omega
  unfold autoOpAny autoOp
  refine PW.bind (readHalf_pw h1 j _ _) fun c1 _ l1 => ?_
  rw [e1] at l1
  by_cases hq : q ≥ 1 ∧ cfg.full = true
  · simp only [if_pos hq]
    refine PW.bind (readHalf_pw h1 j _ _) fun b1 _ m1 => ?_
    rw [e2 hq.1] at m1
    exact autoCalls_pw hac hcc hp0 cfg t j q l1 (prev := some b1) (fun x hx => by cases hx; exact m1) hrow hlen
  · simp only [if_neg hq]
    exact autoCalls_pw hac hcc hp0 cfg t j q l1 (prev := none) (fun x hx => by cases hx) hrow hlen

/-! ### The main loop -/

theorem slowLevels_pw {C : Type} {frame : List Nat} {L : Nat} {op : Nat → Nat → CorrAoutAny C → Py (CorrAoutAny C)}
    {op1 : List Nat → Nat → Nat → CorrAout C → Py (CorrAout C)} (half i : Nat)
    (hop : ∀ j row, j ≠ 0 → AoutLen frame L row → PW frame (fun p a => aoutAt frame a p) (AoutLen frame L)
      (op j (i / (half * 2 ^ j)) row) fun p => op1 p j (i / (half * 2 ^ j)) (aoutAt frame row p)) :
    ∀ (k j : Nat) (slow : List (CorrAoutAny C)), j ≠ 0 → (∀ a ∈ slow, AoutLen frame L a) →
      PW frame (fun p l => l.map fun a => aoutAt frame a p) (fun l => ∀ a ∈ l, AoutLen frame L a) (slowLevelsAny op half i k j slow)
        fun p => slowLevels (op1 p) half i k j (slow.map fun a => aoutAt frame a p)
  | 0, j, slow, _, hs => PW.ok hs fun p _ => rfl
  | k + 1, j, slow, hj, hs => by
    unfold slowLevelsAny slowLevels
    by_cases h : i % (half * 2 ^ j) = half * 2 ^ j - 1
    · simp only [if_pos h, List.getElem?_map]
      rcases hr : slow[j - 1]? with _ | row
      · exact fun p _ => rfl
      · simp only [Option.map_some]
        have hrow := hs row (List.mem_of_getElem? hr)
        refine PW.bind (hop j row hj hrow) fun a _ ha => ?_
        simp only [← List.map_set]
        refine slowLevels_pw half i hop k (j + 1) _ (by omega) fun x hx => ?_
        rcases List.mem_or_eq_of_mem_set hx with hx | rfl
        · exact hs x hx
        · exact ha
    · simp only [if_neg h]
      exact PW.ok hs fun p _ => rfl

/-- The arrays of one pixel. -/
def accPix {C : Type} (frame p : List Nat) (s : IterAccAny C) : IterAcc C := ⟨aoutAt frame s.fast p, s.slow.map fun a => aoutAt frame a p⟩

/-- Their rows have `Lf` and `Ls` cells. -/
def AccLen {C : Type} (frame : List Nat) (Lf Ls : Nat) (s : IterAccAny C) : Prop :=
  AoutLen frame Lf s.fast ∧ ∀ a ∈ s.slow, AoutLen frame Ls a

theorem iterStep_pw {C B D B1 D1 : Type} {frame : List Nat} {Lf Ls : Nat} (cfg : IterCfg) {feed : Nat → D → B → Py B}
    {feed1 : Nat → D1 → B1 → Py B1} {op : B → Nat → Nat → CorrAoutAny C → Py (CorrAoutAny C)}
    {op1 : B1 → Nat → Nat → CorrAout C → Py (CorrAout C)} {selB : List Nat → B → B1} {PB : B → Prop} {dsel : List Nat → D → D1}
    (i : Nat) (x : D) (s : B × IterAccAny C)
    (hfeed : PW frame selB PB (feed i x s.1) fun p => feed1 i (dsel p x) (selB p s.1))
    (hfast : ∀ b row, PB b → AoutLen frame Lf row → PW frame (fun p a => aoutAt frame a p) (AoutLen frame Lf)
      (op b 0 (i / cfg.half) row) fun p => op1 (selB p b) 0 (i / cfg.half) (aoutAt frame row p))
    (hslow : ∀ b j row, PB b → j ≠ 0 → AoutLen frame Ls row → PW frame (fun p a => aoutAt frame a p) (AoutLen frame Ls)
      (op b j (i / (cfg.half * 2 ^ j)) row) fun p => op1 (selB p b) j (i / (cfg.half * 2 ^ j)) (aoutAt frame row p))
    (hs : AccLen frame Lf Ls s.2) :
    PW frame (fun p s => (selB p s.1, accPix frame p s.2)) (fun s => PB s.1 ∧ AccLen frame Lf Ls s.2) (iterStepAny cfg feed op i x s)
      fun p => iterStep cfg feed1 op1 i (dsel p x) (selB p s.1, accPix frame p s.2) := by
  unfold iterStepAny iterStep
  refine PW.bind hfeed fun b _ hb => ?_
  by_cases h : i % cfg.half = cfg.half - 1
  · simp only [if_pos h]
    refine PW.bind (hfast b _ hb hs.1) fun fast _ hf => ?_
    refine PW.bind (slowLevels_pw (op := op b) (op1 := fun p => op1 (selB p b)) cfg.half i (fun j row hj hr => hslow b j row hb hj hr)
      (cfg.nDecades - 1) 1 s.2.slow (by omega) hs.2) fun slow _ hsl => ?_
    exact PW.ok ⟨hb, hf, hsl⟩ fun p _ => rfl
  · simp only [if_neg h]
    exact PW.ok ⟨hb, hs⟩ fun p _ => rfl

theorem enumLoop_pw {D S D1 S1 : Type} {frame : List Nat} {nframes : Nat} {step : Nat → D → S → Py S} {step1 : Nat → D1 → S1 → Py S1}
    {sel : List Nat → S → S1} {P : S → Prop} {dsel : List Nat → D → D1} {Q : D → Prop}
    (hstep : ∀ i x s, i < nframes → Q x → P s → PW frame sel P (step i x s) fun p => step1 i (dsel p x) (sel p s)) :
    ∀ (ds : List D) (i : Nat) (s : S), i ≤ nframes → (∀ x ∈ ds, Q x) → P s →
      PW frame (fun p r => (r.1, sel p r.2)) (fun r => P r.2) (enumLoop nframes step i ds s)
        fun p => enumLoop nframes step1 i (ds.map (dsel p)) (sel p s)
  | [], i, s, _, _, hs => PW.ok hs fun p _ => rfl
  | x :: ds, i, s, hi, hq, hs => by
    simp only [List.map_cons]
    unfold enumLoop
    by_cases e : i = nframes
    · simp only [if_pos e]
      exact PW.ok hs fun p _ => rfl
    · simp only [if_neg e]
      refine PW.bind (hstep i x s (by omega) (hq x (by simp)) hs) fun a _ ha => ?_
      exact enumLoop_pw hstep ds (i + 1) a (by omega) (fun y hy => hq y (by simp [hy])) ha

/-! ### The rest -/

theorem binAny0 {V : Type} [AddCommGroup V] [Module ℝ V] {frame : List Nat} {N : Nat} (binning : Int) (r : ℚ) {x : Tensor V}
    (h : x.shape = N :: frame) : (binAny binning r 0 x).shape = binCount binning N :: frame ∧
      ∀ p, InShape p frame → along (binAny binning r 0 x) 0 p = binData binning r (along x 0 p) := by
  have h0 : 0 < x.shape.length := by rw [h]; simp
  refine ⟨by rw [binAny_shape binning r x h0, h]; rfl, fun p hp => binAny_along binning r x h0 p ?_⟩
  rw [h, inShape_length hp]
  simp

theorem map_along_bin {frame : List Nat} {N : Nat} (binning : Int) (r : ℚ) {x : Option (Tensor ℝ)}
    (h : ∀ s, x = some s → s.shape = N :: frame) {p : List Nat} (hp : InShape p frame) :
    (x.map (binAny binning r 0)).map (fun s => along s 0 p) = (x.map fun s => along s 0 p).map (binData binning r) := by
  rcases x with _ | x
  · rfl
  · simp only [Option.map_some, (binAny0 binning r (h x rfl)).2 p hp]

theorem bin_shapes {frame : List Nat} {N : Nat} (binning : Int) (r : ℚ) {x : Option (Tensor ℝ)}
    (h : ∀ s, x = some s → s.shape = N :: frame) : ∀ s, x.map (binAny binning r 0) = some s → s.shape = binCount binning N :: frame := by
  rcases x with _ | x
  · intro s hs
    cases hs
  · intro s hs
    cases hs
    exact (binAny0 binning r (h x rfl)).1

theorem restCross_pw {C : Type} {frame : List Nat} {complex : Bool} {cc : CrossFnAny C} {cc1 : CrossFn C}
    (hcc : CrossAt0 frame complex cc cc1) {p0 : List Nat} (hp0 : InShape p0 frame) (cfg : IterCfg) (r : Nat → ℚ) {L : Nat}
    (hL : ∀ N, cfg.nSlow ≤ N → NotTooLong N complex L) :
    ∀ (k j d N : Nat) (f1 f2 : Tensor (Cx ℝ)) (sq1 sq2 : Option (Tensor ℝ)) (slow : List (CorrAoutAny C)),
      f1.shape = N :: frame → f2.shape = N :: frame → (∀ s, sq1 = some s → s.shape = N :: frame) →
      (∀ s, sq2 = some s → s.shape = N :: frame) → (∀ m, 1 ≤ m → m ≤ k → cfg.nSlow ≤ (binCount cfg.binning)^[m] N) →
      (∀ a ∈ slow, AoutLen frame L a) →
      PW frame (fun p l => l.map fun a => aoutAt frame a p) (fun l => ∀ a ∈ l, AoutLen frame L a)
        (restCrossAny cc cfg r k j d f1 f2 sq1 sq2 slow) fun p =>
        restCross cc1 cfg false r k j d (along f1 0 p) (along f2 0 p) (sq1.map fun s => along s 0 p) (sq2.map fun s => along s 0 p)
          (slow.map fun a => aoutAt frame a p)
  | 0, j, d, N, f1, f2, sq1, sq2, slow, h1, h2, h3, h4, hn, hs => PW.ok hs fun p _ => rfl
  | k + 1, j, d, N, f1, f2, sq1, sq2, slow, h1, h2, h3, h4, hn, hs => by
    have b1 := binAny0 cfg.binning (r d) h1
    have b2 := binAny0 cfg.binning (r d) h2
    have b3 := bin_shapes cfg.binning (r d) h3
    have b4 := bin_shapes cfg.binning (r d) h4
    have hN : cfg.nSlow ≤ binCount cfg.binning N := hn 1 (by omega) (by omega)
    refine PW.congr (one := fun p => match (slow.map fun a => aoutAt frame a p)[j - 1]? with
      | none => .error .indexError
      | some row => do
        let c ← cc1 (along (binAny cfg.binning (r d) 0 f1) 0 p) (along (binAny cfg.binning (r d) 0 f2) 0 p) none none
          (some cfg.nSlow) (some cfg.norm) (some cfg.method) false ((sq1.map (binAny cfg.binning (r d) 0)).map fun s => along s 0 p)
          ((sq2.map (binAny cfg.binning (r d) 0)).map fun s => along s 0 p) row
        restCross cc1 cfg false r k (j + 1) (d + 1) (along (binAny cfg.binning (r d) 0 f1) 0 p)
          (along (binAny cfg.binning (r d) 0 f2) 0 p) ((sq1.map (binAny cfg.binning (r d) 0)).map fun s => along s 0 p)
          ((sq2.map (binAny cfg.binning (r d) 0)).map fun s => along s 0 p)
          ((slow.map fun a => aoutAt frame a p).set (j - 1) (c.into row))) ?_ fun p hp => ?_
    · unfold restCrossAny
      simp only [List.getElem?_map]
      rcases hr : slow[j - 1]? with _ | row
      · exact fun p _ => rfl
      · simp only [Option.map_some]
        have hrow := hs row (List.mem_of_getElem? hr)
        refine PW.bind (crossCall_pw hcc hp0 j (h1 := ⟨_, sq1.map (binAny cfg.binning (r d) 0)⟩)
          (h2 := ⟨_, sq2.map (binAny cfg.binning (r d) 0)⟩) ⟨b1.1, b3⟩ ⟨b2.1, b4⟩ _ _ _ _ _ hrow fun _ => ?_) fun c _ hc => ?_
        · exact hrow.short (hL _ hN) (by omega)
        · simp only [← tupleAt_into, ← List.map_set]
          refine restCross_pw hcc hp0 cfg r hL k (j + 1) (d + 1) _ _ _ _ _ _ b1.1 b2.1 b3 b4 (fun m m1 mk => ?_) fun x hx => ?_
          · rw [← Function.iterate_succ_apply]
            exact hn (m + 1) (by omega) (by omega)
          · rcases List.mem_or_eq_of_mem_set hx with hx | rfl
            · exact hs x hx
            · exact hc
    · rw [b1.2 p hp, b2.2 p hp, map_along_bin _ _ h3 hp, map_along_bin _ _ h4 hp]
      rfl

theorem restAuto_pw {C : Type} {frame : List Nat} {ac : AutoFnAny C} {ac1 : AutoFn C}
    (hac : AutoAt0 frame ac ac1) {p0 : List Nat} (hp0 : InShape p0 frame) (cfg : IterCfg) (r : Nat → ℚ) {L : Nat}
    (hL : ∀ N, cfg.nSlow ≤ N → NotTooLong N false L) :
    ∀ (k j d N : Nat) (f : Tensor (Cx ℝ)) (sq : Option (Tensor ℝ)) (slow : List (CorrAoutAny C)),
      f.shape = N :: frame → (∀ s, sq = some s → s.shape = N :: frame) →
      (∀ m, 1 ≤ m → m ≤ k → cfg.nSlow ≤ (binCount cfg.binning)^[m] N) → (∀ a ∈ slow, AoutLen frame L a) →
      PW frame (fun p l => l.map fun a => aoutAt frame a p) (fun l => ∀ a ∈ l, AoutLen frame L a)
        (restAutoAny ac cfg r k j d f sq slow) fun p =>
        restAuto ac1 cfg false r k j d (along f 0 p) (sq.map fun s => along s 0 p) (slow.map fun a => aoutAt frame a p)
  | 0, j, d, N, f, sq, slow, h1, h3, hn, hs => PW.ok hs fun p _ => rfl
  | k + 1, j, d, N, f, sq, slow, h1, h3, hn, hs => by
    have b1 := binAny0 cfg.binning (r d) h1
    have b3 := bin_shapes cfg.binning (r d) h3
    have hN : cfg.nSlow ≤ binCount cfg.binning N := hn 1 (by omega) (by omega)
    refine PW.congr (one := fun p => match (slow.map fun a => aoutAt frame a p)[j - 1]? with
      | none => .error .indexError
      | some row => do
        let c ← ac1 (along (binAny cfg.binning (r d) 0 f) 0 p) none (some cfg.nSlow) (some cfg.norm) (some cfg.method) false
          ((sq.map (binAny cfg.binning (r d) 0)).map fun s => along s 0 p) row
        restAuto ac1 cfg false r k (j + 1) (d + 1) (along (binAny cfg.binning (r d) 0 f) 0 p)
          ((sq.map (binAny cfg.binning (r d) 0)).map fun s => along s 0 p)
          ((slow.map fun a => aoutAt frame a p).set (j - 1) (c.into row))) ?_ fun p hp => ?_
    · unfold restAutoAny
      simp only [List.getElem?_map]
      rcases hr : slow[j - 1]? with _ | row
      · exact fun p _ => rfl
      · simp only [Option.map_some]
        have hrow := hs row (List.mem_of_getElem? hr)
        refine PW.bind (autoCall_pw hac hp0 j (h1 := ⟨_, sq.map (binAny cfg.binning (r d) 0)⟩) ⟨b1.1, b3⟩ _ _ _ _ hrow fun _ => ?_)
          fun c _ hc => ?_
        · exact hrow.short (hL _ hN) (by omega)
        · simp only [← tupleAt_into, ← List.map_set]
          refine restAuto_pw hac hp0 cfg r hL k (j + 1) (d + 1) _ _ _ _ b1.1 b3 (fun m m1 mk => ?_) fun x hx => ?_
          · rw [← Function.iterate_succ_apply]
            exact hn (m + 1) (by omega) (by omega)
          · rcases List.mem_or_eq_of_mem_set hx with hx | rfl
            · exact hs x hx
            · exact hc
    · rw [b1.2 p hp, map_along_bin _ _ h3 hp]
      rfl

end Cddm
